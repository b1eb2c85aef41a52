import Verif.Proofs.Low8

/-! The model with pointers: the list of forward references. -/
namespace Gaia.Low
open Gaia
open Gaia.Memory (Mem Result Misuse Heap Oracle bind_ok bind_err bind_apply TokenB LexerB SymbolB SymTabB RefB UnresB slotsBlocks getS modifyS
  getS_apply modifyS_apply outOfMemory outOfMemory_apply onHeap_apply lift malloc_granted malloc_refused)

section
variable {o : Oracle} {s s' : Store} {S S' : Memory.State} {fn : Str} {lx lx' : Lexer} {tk : Token} {ins : Instr} {buf : Str}
  {lB : LexerB} {tB : TokenB} {iB : Nat}

/-- What a step on the references does. -/
structure UnStep (s : Store) (S : Memory.State) (s' : Store) (S' : Memory.State) : Prop where
  heap : s'.heap = S'.heap
  mem : UnresAt s'.mem S'.unres
  nodup : (full S'.unres).Nodup
  lt : ∀ p ∈ full S'.unres, p < s'.heap.next
  frame : Frame (full S.unres) s s'
  sub : ∀ p ∈ full S'.unres, p ∈ full S.unres ∨ s.heap.next ≤ p
  rest : S' = { S with heap := S'.heap, unres := S'.unres }
  blk : S'.unres.blk = S.unres.blk

theorem UnStep.trans {S'' : Memory.State} {s'' : Store} (h : UnStep s S s' S') (h' : UnStep s' S' s'' S'') : UnStep s S s'' S'' := by
  refine ⟨h'.heap, h'.mem, h'.nodup, h'.lt, h.frame.trans h'.frame h.sub, ?_, ?_, h'.blk.trans h.blk⟩
  · intro p hp
    rcases h'.sub p hp with h1 | h1
    · exact h.sub p h1
    · exact .inr (Nat.le_trans h.frame.next h1)
  · rw [h'.rest]
    conv => lhs; rw [h.rest]

theorem UnStep.kept (h : UnStep s S s' S') : Kept S S' := by
  have h1 := h.rest
  have h2 := h.blk
  generalize S'.heap = hp, S'.unres = st at h1 h2
  subst h1
  exact ⟨rfl, rfl, rfl, rfl, rfl, rfl, rfl, rfl, rfl, h2⟩

theorem Parts.calmStep (h : Parts s S) (hc : Calm s S s' S') : UnStep s S s' S' := by
  have hp := h.calm hc
  have hu : S'.unres = S.unres := by rw [hc.rest]
  refine ⟨hp.heap, hp.unres, hp.unresNodup, hp.unresLt, hc.frame.mono (by simp), ?_, ?_, by rw [hu]⟩
  · rw [hu]; exact fun p hp => .inl hp
  · rw [hu]; exact hc.rest

theorem Parts.unStep (h : Parts s S) (ht : UnStep s S s' S') : Parts s' S' := by
  have hk := ht.kept
  have hu : S'.symtab = S.symtab := by rw [ht.rest]
  have hfoot : foot S'.lexerB S'.tkB S'.instrB = foot S.lexerB S.tkB S.instrB := by rw [hk.lexerB, hk.tkB, hk.instrB]
  have hsub : ∀ {F : List Nat}, (∀ p ∈ F, p < s.heap.next) → (∀ p ∈ F, p ∉ full S.unres) → ∀ p ∈ F, p ∉ full S'.unres := by
    intro F h1 h2 p hp hp'
    rcases ht.sub p hp' with h3 | h3
    · exact h2 p hp h3
    · have := h1 p hp; omega
  refine ⟨ht.heap, ?_, ?_, ht.mem, by rw [hu]; exact h.tabNodup, ht.nodup, ?_, ?_, ?_, ?_, ?_, ht.lt⟩
  · rw [hk.lexerB, hk.tkB, hk.instrB]
    exact h.scratch.frame ht.frame fun p hp => ⟨h.footLt p hp, h.footUnres p hp⟩
  · rw [hu]
    exact h.tab.congr fun p hp => ht.frame.mem p (h.tabLt p hp) (h.tabUnres p hp)
  · rw [hfoot, hu]; exact h.footTab
  · rw [hfoot]; exact hsub h.footLt h.footUnres
  · rw [hu]; exact hsub h.tabLt h.tabUnres
  · rw [hfoot]; intro p hp; exact Nat.lt_of_lt_of_le (h.footLt p hp) ht.frame.next
  · rw [hu]; intro p hp; exact Nat.lt_of_lt_of_le (h.tabLt p hp) ht.frame.next

theorem Parts.unFin (h : Parts s S) (hn : NameAt s fn) (ht : UnStep s S s' S') : Fin fn s S s' S' :=
  ⟨h.unStep ht, hn.frame ht.frame, ht.frame.buffer, ht.kept⟩

/-! ### resize_unresolved -/

theorem clearCells_run {arr : Nat} : ∀ (n i : Nat) (cells : List (Option Nat)) (s : Store), s.mem arr = some (.ptrs cells) →
    i + n = cells.length →
    ∃ s', clearCells arr n i o s = (.ok (), s') ∧ s'.mem arr = some (.ptrs (cells.take i ++ List.replicate n none)) ∧ Only [arr] s s' := by
  intro n
  induction n with
  | zero => intro i cells s hm hi; exact ⟨s, rfl, by rw [hm, List.take_of_length_le (by omega)]; simp, Only.refl _ _⟩
  | succ n ih =>
    intro i cells s hm hi
    unfold clearCells
    rw [bind_ok (setCell_run hm (by omega))]
    obtain ⟨s', h1, h2, h3⟩ := ih (i + 1) (cells.set i none) (s.put arr (.ptrs (cells.set i none))) (put_same _ _ _) (by simp; omega)
    refine ⟨s', h1, ?_, (Only.put (by simp)).trans h3⟩
    rw [h2, List.take_add_one, List.take_set_of_le (Nat.le_refl i), List.getElem?_set_self (by omega), List.replicate_succ]
    simp

theorem refCells_append (l l' : List (Option (ForwardRef × RefB))) : refCells (l ++ l') = refCells l ++ refCells l' := List.map_append
theorem refCells_none (n : Nat) : refCells (List.replicate n none) = List.replicate n none := by
  unfold refCells; rw [List.map_replicate]; rfl
theorem refCells_length (l : List (Option (ForwardRef × RefB))) : (refCells l).length = l.length := List.length_map ..

theorem refBlocks_grow (l : List (Option (ForwardRef × RefB))) (n : Nat) :
    slotsBlocks RefB.blocks (l ++ List.replicate n none) = slotsBlocks RefB.blocks l := by
  unfold slotsBlocks
  rw [List.flatMap_append]
  have : ∀ n, slotsBlocks RefB.blocks (List.replicate n (none : Option (ForwardRef × RefB))) = [] := by
    intro n
    induction n with
    | zero => rfl
    | succ n ih => rw [List.replicate_succ]; unfold slotsBlocks at ih ⊢; rw [List.flatMap_cons, ih]; rfl
  have := this n
  unfold slotsBlocks at this
  rw [this, List.append_nil]

theorem full_arr {u : UnresB} (h : (full u).Nodup) {a : Nat} (ha : u.arr = some a) :
    u.blk ≠ a ∧ (∀ p ∈ slotsBlocks RefB.blocks u.refs, p ≠ a ∧ p ≠ u.blk) ∧ (slotsBlocks RefB.blocks u.refs).Nodup := by
  unfold full at h
  rw [ha, List.nodup_append] at h
  obtain ⟨h1, h2, h3⟩ := h
  refine ⟨?_, fun p hp => ⟨h3 p hp a (by simp), h3 p hp _ (by simp)⟩, h1⟩
  simp only [Option.toList, List.singleton_append, List.nodup_cons, List.mem_singleton] at h2
  exact fun he => h2.1 he.symm

theorem realloc_granted {h : Heap} {p : Nat} (hp : p ∈ h.live) (ho : o h.asked = true) : Memory.realloc p o h =
    (.ok (some h.next), { h with asked := h.asked + 1, next := h.next + 1, live := h.next :: h.live.erase p }) := by
  unfold Memory.realloc; rw [if_neg (by simpa using hp), if_pos ho]

theorem realloc_refused {h : Heap} {p : Nat} (hp : p ∈ h.live) (ho : o h.asked = false) : Memory.realloc p o h = (.ok none, h.ask) := by
  unfold Memory.realloc; rw [if_neg (by simpa using hp), if_neg (by simp [ho])]; rfl

theorem resizeUnresolved_sim (hheap : s.heap = S.heap) (hu : UnresAt s.mem S.unres) (hnd : (full S.unres).Nodup)
    (hlt : ∀ p ∈ full S.unres, p < s.heap.next) :
    Sim (resizeUnresolved S.unres.blk o s) (Memory.resizeUnresolved o S)
      (fun _ s' _ S' => UnStep s S s' S' ∧ S'.unres.arr.isSome = true) (UnStep s S) := by
  unfold resizeUnresolved Memory.resizeUnresolved
  rw [bind_ok (loadUnres_run hu.head), bind_ok (getS_apply o S)]
  dsimp only
  cases ha : S.unres.arr with
  | none => trivial
  | some old =>
    dsimp only
    by_cases hlive : old ∈ S.heap.live
    swap
    · rw [bind_apply (Memory.onHeap _), onHeap_apply]
      have : Memory.realloc old o S.heap = (.ub .badFree, S.heap) := by unfold Memory.realloc; rw [if_pos hlive]
      rw [this]
      trivial
    have harr := hu.arr old ha
    obtain ⟨hne, hrefs, hnd'⟩ := full_arr hnd ha
    have holdlt : old < s.heap.next := hlt old (by simp [full, ha])
    have hblklt : S.unres.blk < s.heap.next := hlt _ (by simp [full])
    have hsub : ∀ p ∈ slotsBlocks RefB.blocks S.unres.refs, p ∈ full S.unres := fun p hp => List.mem_append_left _ hp
    cases hor : o S.heap.asked with
    | false =>
      have hre : reallocPtrs old (2 * S.unres.refs.length) o s = (.ok none, s.asked) := by
        unfold reallocPtrs
        rw [bind_ok (load_run harr)]
        dsimp only
        have : onHeap (Memory.realloc old) o s = (.ok none, s.asked) := by
          unfold onHeap; rw [hheap, realloc_refused hlive hor]; unfold Store.asked; rw [hheap]
        rw [bind_ok this]
        rfl
      rw [bind_ok hre, bind_ok (x := Memory.onHeap (Memory.realloc old)) (s' := { S with heap := S.heap.ask }) (a := none)
        (by rw [onHeap_apply, realloc_refused hlive hor])]
      dsimp only
      rw [bind_ok (modifyS_apply _ o _), bind_ok (store_run (s := s.asked) (by exact hu.head))]
      refine ⟨_, rfl, ?_⟩
      have hfull : ∀ p ∈ full { S.unres with arr := none }, p ∈ full S.unres := by
        intro p hp
        unfold full at hp ⊢
        simp only [Option.toList, List.nil_append, List.mem_append, List.mem_singleton] at hp ⊢
        rcases hp with hp | hp
        · exact .inl hp
        · exact .inr (.inr hp)
      refine ⟨?_, ⟨?_, ?_, ?_⟩, ?_, ?_, ?_, fun p hp => .inl (hfull p hp), rfl, rfl⟩
      · show s.heap.ask = S.heap.ask
        rw [hheap]
      · exact put_same _ _ _
      · intro a h; cases h
      · intro r hr
        refine (hu.refs r hr).congr fun p hp => ?_
        exact put_other (hrefs p (mem_slotsBlocks.2 ⟨r, hr, hp⟩)).2
      · show (full { S.unres with arr := none }).Nodup
        unfold full at hnd ⊢
        rw [List.nodup_append] at hnd ⊢
        refine ⟨hnd.1, by simp, fun p hp q hq => hnd.2.2 p hp q ?_⟩
        simp only [Option.toList, List.nil_append, List.mem_singleton] at hq
        simp [hq]
      · intro p hp
        exact hlt p (hfull p hp)
      · refine ((frame_asked s).mono (by simp)).trans (Only.put (F := full S.unres) (by simp [full])).frame (fun p hp => .inl hp)
    | true =>
      set h' : Heap := { S.heap with asked := S.heap.asked + 1, next := S.heap.next + 1, live := S.heap.next :: S.heap.live.erase old } with hh'
      set cells : List (Option Nat) := refCells S.unres.refs ++ s.fresh (2 * S.unres.refs.length - (refCells S.unres.refs).length)
        with hcells
      have hcells' : cells.take S.unres.refs.length ++ List.replicate S.unres.refs.length none =
          refCells (S.unres.refs ++ List.replicate S.unres.refs.length none) := by
        rw [refCells_append, refCells_none, hcells, List.take_left' (refCells_length _)]
      have hnew : s.heap.next = S.heap.next := by rw [hheap]
      set s1 : Store := Store.moved { s with heap := h' } old S.heap.next (.ptrs cells) with hs1
      have hre : reallocPtrs old (2 * S.unres.refs.length) o s = (.ok (some S.heap.next), s1) := by
        unfold reallocPtrs
        rw [bind_ok (load_run harr)]
        dsimp only
        have : onHeap (Memory.realloc old) o s = (.ok (some S.heap.next), { s with heap := h' }) := by
          unfold onHeap; rw [hheap, realloc_granted hlive hor]
        rw [bind_ok this]
        rfl
      rw [bind_ok hre, bind_ok (x := Memory.onHeap (Memory.realloc old)) (s' := { S with heap := h' }) (a := some S.heap.next)
        (by rw [onHeap_apply, realloc_granted hlive hor])]
      dsimp only
      by_cases hov : S.unres.refs.length * 2 > INT_MAX
      · rw [if_pos hov]; trivial
      rw [if_neg hov, bind_ok (Memory.lift_ok () o _), bind_ok (Memory.lift_ok () o _)]
      have hmem1 : ∀ p, s1.mem p = if p = S.heap.next then some (.ptrs cells) else if p = old then none else s.mem p := fun p => rfl
      have hblk1 : s1.mem S.unres.blk = some (.unres ⟨S.unres.arr, S.unres.curr, S.unres.refs.length⟩) := by
        rw [hmem1, if_neg (by omega), if_neg hne]; exact hu.head
      rw [bind_ok (store_run hblk1)]
      set s2 := s1.put S.unres.blk (.unres ⟨some S.heap.next, S.unres.curr, S.unres.refs.length * 2⟩) with hs2
      have hm2 : s2.mem S.heap.next = some (.ptrs cells) := by
        rw [hs2, put_other (by omega), hmem1, if_pos rfl]
      have hlen : cells.length = 2 * S.unres.refs.length := by
        rw [hcells, List.length_append, refCells_length]; unfold Store.fresh; simp; omega
      obtain ⟨s3, h1, h2, h3⟩ := clearCells_run (o := o) (arr := S.heap.next) S.unres.refs.length S.unres.refs.length cells s2 hm2
        (by omega)
      refine ⟨(), s3, h1, ?_, rfl⟩
      have hfull : ∀ p ∈ full { S.unres with arr := some S.heap.next, refs := S.unres.refs ++ List.replicate S.unres.refs.length none },
          p ∈ full S.unres ∨ p = s.heap.next := by
        intro p hp
        unfold full at hp ⊢
        simp only [refBlocks_grow, Option.toList, List.singleton_append, List.mem_append, List.mem_cons, List.not_mem_nil, or_false] at hp ⊢
        rcases hp with hp | rfl | hp
        · exact .inl (.inl hp)
        · exact .inr hnew.symm
        · exact .inl (.inr (.inr hp))
      have hkeep : ∀ p, p ≠ s.heap.next → p ≠ old → p ≠ S.unres.blk → s3.mem p = s.mem p := by
        intro p hp1 hp2 hp3
        rw [h3.mem p (by simp; omega), hs2, put_other hp3, hmem1, if_neg (by omega), if_neg hp2]
      have hheap3 : s3.heap = h' := by rw [h3.heap]; rfl
      refine ⟨hheap3, ⟨?_, ?_, ?_⟩, ?_, ?_, ?_, ?_, rfl, rfl⟩
      · show s3.mem S.unres.blk = _
        rw [h3.mem _ (by simp; omega), hs2, put_same]
        simp only [List.length_append, List.length_replicate]
        congr 4
        omega
      · intro a h
        injection h with h
        subst h
        rw [h2, hcells']
      · intro r hr
        rcases List.mem_append.1 hr with hr | hr
        · refine (hu.refs r hr).congr fun p hp => ?_
          have hp' := mem_slotsBlocks.2 ⟨r, hr, hp⟩
          have := hlt p (hsub p hp')
          exact hkeep p (by omega) (hrefs p hp').1 (hrefs p hp').2
        · exact absurd (List.eq_of_mem_replicate hr) (by simp)
      · show (full _).Nodup
        unfold full
        rw [List.nodup_append]
        simp only [refBlocks_grow, Option.toList, List.singleton_append]
        refine ⟨hnd', ?_, ?_⟩
        · simp only [List.nodup_cons, List.mem_singleton, List.not_mem_nil, not_false_eq_true, List.nodup_nil, and_true]
          omega
        · intro p hp q hq
          simp only [List.mem_cons, List.not_mem_nil, or_false] at hq
          have := hlt p (hsub p hp)
          rcases hq with rfl | rfl
          · omega
          · exact (hrefs p hp).2
      · intro p hp
        rw [hheap3]
        show p < S.heap.next + 1
        rcases hfull p hp with h4 | h4
        · have := hlt p h4; omega
        · omega
      · refine ⟨by rw [h3.buffer]; rfl, by rw [h3.name]; rfl, by rw [hheap3]; show _ ≤ S.heap.next + 1; omega, ?_⟩
        intro p hp hp'
        refine hkeep p (by omega) ?_ ?_
        · rintro rfl; exact hp' (by simp [full, ha])
        · rintro rfl; exact hp' (by simp [full])
      · intro p hp
        rcases hfull p hp with h4 | h4
        · exact .inl h4
        · exact .inr (by omega)

/-! ### add_forward_ref -/

theorem slotsBlocks_setSub {α β : Type} (f : β → List Nat) (x : α × β) : ∀ (l : List (Option (α × β))) (k : Nat), 
    (∀ p ∈ slotsBlocks f (l.set k (some x)), p ∈ slotsBlocks f l ∨ p ∈ f x.2) ∧
      ((slotsBlocks f l).Nodup → (f x.2).Nodup → (∀ p ∈ f x.2, p ∉ slotsBlocks f l) → (slotsBlocks f (l.set k (some x))).Nodup) := by
  intro l
  induction l with
  | nil => intro k; simp [slotsBlocks]
  | cons y l ih =>
    intro k
    have hcons : ∀ (z : Option (α × β)) (l : List (Option (α × β))), slotsBlocks f (z :: l) = slotsBlocks f [z] ++ slotsBlocks f l := by
      intro z l; unfold slotsBlocks; rw [List.flatMap_cons, List.flatMap_cons]; simp
    have hone : slotsBlocks f [some x] = f x.2 := by unfold slotsBlocks; simp
    cases k with
    | zero =>
      rw [List.set_cons_zero, hcons, hcons y, hone]
      refine ⟨fun p hp => ?_, fun h1 h2 h3 => ?_⟩
      · rcases List.mem_append.1 hp with hp | hp
        · exact .inr hp
        · exact .inl (List.mem_append_right _ hp)
      · rw [List.nodup_append] at h1 ⊢
        refine ⟨h2, h1.2.1, fun p hp q hq he => h3 p hp ?_⟩
        subst he
        exact List.mem_append_right _ hq
    | succ k =>
      obtain ⟨g1, g2⟩ := ih k
      rw [List.set_cons_succ, hcons, hcons y l]
      refine ⟨fun p hp => ?_, fun h1 h2 h3 => ?_⟩
      · rcases List.mem_append.1 hp with hp | hp
        · exact .inl (List.mem_append_left _ hp)
        · rcases g1 p hp with h | h
          · exact .inl (List.mem_append_right _ h)
          · exact .inr h
      · rw [List.nodup_append] at h1 ⊢
        refine ⟨h1.1, g2 h1.2.1 h2 (fun p hp hp' => h3 p hp (List.mem_append_right _ hp')), fun p hp q hq he => ?_⟩
        subst he
        rcases g1 p hq with h | h
        · exact h1.2.2 p hp p h rfl
        · exact h3 p h (List.mem_append_left _ hp)

/-- The last part of `add_forward_ref`. -/
theorem putRef_sim {s0 : Store} {S0 : Memory.State} (h : UnStep s0 S0 s S) {a : Nat} (ha : S.unres.arr = some a) {r : ForwardRef × RefB}
    (hr : RefAt s.mem r) (hnd : r.2.blocks.Nodup) (hnew : ∀ q ∈ r.2.blocks, s0.heap.next ≤ q ∧ q < s.heap.next ∧ q ∉ full S.unres) :
    Sim ((do
        let x ← loadUnres S.unres.blk
        match x.refs with
        | none => bad .badAccess
        | some arr => do
          setCell arr x.curr (some r.2.blk)
          store S.unres.blk (.unres { x with curr := x.curr + 1 }) : M Unit) o s)
      ((do
        let u := (← getS).unres
        lift (if u.curr < u.refs.length then .ok () else .ub .outOfBounds)
        modifyS fun s => { s with unres := { u with refs := u.refs.set u.curr (some r), curr := u.curr + 1 } } : Mem Memory.State Unit) o S)
      (fun _ s' _ S' => UnStep s0 S0 s' S' ∧ S'.unres.arr.isSome = true) (UnStep s0 S0) := by
  rw [bind_ok (loadUnres_run h.mem.head), bind_ok (getS_apply o S)]
  dsimp only
  by_cases hc : S.unres.curr < S.unres.refs.length
  swap
  · rw [if_neg hc]; trivial
  rw [if_pos hc, bind_ok (Memory.lift_ok () o S)]
  simp only [ha]
  have harr := h.mem.arr a ha
  obtain ⟨hne, hrefs, hnd'⟩ := full_arr h.nodup ha
  rw [bind_ok (setCell_run harr (by rw [refCells_length]; exact hc))]
  set s1 := s.put a (.ptrs ((refCells S.unres.refs).set S.unres.curr (some r.2.blk))) with hs1
  have hm1 : s1.mem S.unres.blk = some (.unres ⟨S.unres.arr, S.unres.curr, S.unres.refs.length⟩) := (put_other hne).trans h.mem.head
  refine ⟨(), _, store_run hm1, ?_, rfl⟩
  obtain ⟨hsub, hnodup⟩ := slotsBlocks_setSub RefB.blocks r S.unres.refs S.unres.curr
  have hin : ∀ p ∈ slotsBlocks RefB.blocks S.unres.refs, p ∈ full S.unres := fun p hp => List.mem_append_left _ hp
  have hfull : ∀ p ∈ full { S.unres with arr := some a, refs := S.unres.refs.set S.unres.curr (some r), curr := S.unres.curr + 1 },
      p ∈ full S.unres ∨ p ∈ r.2.blocks := by
    intro p hp
    unfold full at hp ⊢
    rw [ha]
    rcases List.mem_append.1 hp with hp | hp
    · rcases hsub p hp with h1 | h1
      · exact .inl (List.mem_append_left _ h1)
      · exact .inr h1
    · exact .inl (List.mem_append_right _ hp)
  have hrne : ∀ q ∈ r.2.blocks, q ≠ a ∧ q ≠ S.unres.blk := by
    intro q hq
    have := (hnew q hq).2.2
    exact ⟨by rintro rfl; exact this (by simp [full, ha]), by rintro rfl; exact this (by simp [full])⟩
  have hO : Only [a, S.unres.blk] s (s1.put S.unres.blk (.unres ⟨S.unres.arr, S.unres.curr + 1, S.unres.refs.length⟩)) :=
    (Only.put (s := s) (p := a) (F := [a, S.unres.blk]) (by simp)).trans (Only.put (by simp))
  refine ⟨h.heap, ⟨?_, ?_, ?_⟩, ?_, ?_, ?_, ?_, ?_, h.blk⟩
  · show (Store.put _ _ _).mem S.unres.blk = _
    rw [put_same]
    simp
  · intro b hb
    have hb : some a = some b := hb
    injection hb with hb
    subst hb
    show (Store.put _ _ _).mem a = _
    rw [put_other hne.symm, hs1, put_same]
    unfold refCells
    rw [List.map_set]
    rfl
  · intro y hy
    rcases List.mem_or_eq_of_mem_set hy with hy | hy
    · refine (h.mem.refs y hy).congr fun q hq => ?_
      have := hrefs q (mem_slotsBlocks.2 ⟨y, hy, hq⟩)
      rw [put_other this.2, hs1, put_other this.1]
    · injection hy with hy
      subst hy
      refine hr.congr fun q hq => ?_
      rw [put_other (hrne q hq).2, hs1, put_other (hrne q hq).1]
  · show (full _).Nodup
    have hf := h.nodup
    unfold full at hf ⊢
    rw [ha, List.nodup_append] at hf
    rw [List.nodup_append]
    refine ⟨hnodup hnd' hnd (fun q hq hq' => (hnew q hq).2.2 (hin q hq')), hf.2.1, ?_⟩
    intro p hp q hq
    rcases hsub p hp with h1 | h1
    · exact hf.2.2 p h1 q hq
    · rintro rfl
      exact (hnew p h1).2.2 (by unfold full; rw [ha]; exact List.mem_append_right _ hq)
  · intro p hp
    rcases hfull p hp with h1 | h1
    · exact h.lt p h1
    · exact (hnew p h1).2.1
  · have hold : ∀ q ∈ [a, S.unres.blk], q ∈ full S.unres := by
      intro q hq
      unfold full
      rw [ha]
      exact List.mem_append_right _ hq
    have := h.frame.trans hO.frame (fun q hq => h.sub q (hold q hq))
    rw [ha] at this
    exact this
  · intro p hp
    rcases hfull p hp with h1 | h1
    · exact h.sub p h1
    · exact .inr (hnew p h1).1
  · conv => lhs; rw [h.rest]

theorem addForwardRef_sim {s0 : Store} {S0 : Memory.State} (h0 : Parts s0 S0) (hsome : S0.unres.arr.isSome = true) {p : Nat}
    {r : ForwardRef × RefB} (hr : NewRef s0 S0 s S p r) :
    Sim (addForwardRef S.unres.blk p o s) (Memory.addForwardRef r o S)
      (fun _ s' _ S' => UnStep s0 S0 s' S' ∧ S'.unres.arr.isSome = true) (UnStep s0 S0) := by
  have hst := h0.calmStep hr.calm
  have hu : S.unres = S0.unres := by rw [hr.calm.rest]
  have hnew : ∀ q ∈ r.2.blocks, q ∉ full S.unres := by
    intro q hq hq'
    rw [hu] at hq'
    have := h0.unresLt q hq'
    have := (hr.new q hq).1
    omega
  unfold addForwardRef Memory.addForwardRef
  rw [hr.ptr, bind_ok (loadUnres_run hst.mem.head), bind_ok (getS_apply o S)]
  dsimp only
  by_cases hc : S.unres.curr + 1 = S.unres.refs.length
  · rw [if_pos hc, if_pos hc]
    refine Sim.bind ((resizeUnresolved_sim hst.heap hst.mem hst.nodup hst.lt).mono (fun _ _ _ _ hx => hx) (fun _ _ he => hst.trans he)) ?_
    rintro _ s1 _ S1 ⟨h1, h1'⟩
    obtain ⟨a, ha⟩ := Option.isSome_iff_exists.1 h1'
    have := putRef_sim (o := o) (hst.trans h1) ha (r := r) (hr.ref.congr fun q hq => h1.frame.mem q (hr.new q hq).2 (hnew q hq)) hr.nodup (by
      intro q hq
      have hq' := hr.new q hq
      refine ⟨hq'.1, Nat.lt_of_lt_of_le hq'.2 h1.frame.next, fun hf => ?_⟩
      rcases h1.sub q hf with h2 | h2
      · exact hnew q hq h2
      · omega)
    rw [h1.blk] at this
    exact this
  · rw [if_neg hc, if_neg hc]
    obtain ⟨a, ha⟩ := Option.isSome_iff_exists.1 (hu ▸ hsome)
    exact putRef_sim (o := o) hst ha hr.ref hr.nodup (fun q hq => ⟨(hr.new q hq).1, (hr.new q hq).2, hnew q hq⟩)

end

end Gaia.Low
