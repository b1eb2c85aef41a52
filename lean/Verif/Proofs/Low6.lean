import Verif.Proofs.Low5
import Verif.Proofs.MemorySim

/-! The model with pointers: the symbol table. -/
namespace Gaia.Low
open Gaia
open Gaia.Memory (Mem Result Misuse Heap Oracle bind_ok bind_err bind_apply TokenB LexerB SymbolB SymTabB slotsBlocks getS modifyS
  getS_apply modifyS_apply outOfMemory outOfMemory_apply onHeap_apply lift malloc_granted malloc_refused)

/-- A step of the model without memory, inside a step of the model with memory. -/
theorem SimR.lifted {σ τ α β : Type} {x : Result α × σ} {r : Res β} {o : Oracle} {t : τ} {Q : α → σ → β → Prop} {E : σ → Prop}
    {E' : σ → τ → Prop} (h : SimR x r Q E) (he : ∀ s, E s → E' s t) :
    Sim x (Memory.lift r o t) (fun a s b t' => t' = t ∧ r = .ok b ∧ Q a s b) E' := by
  cases r with
  | ok b => obtain ⟨a, s, hx, h⟩ := h; exact ⟨a, s, hx, rfl, rfl, h⟩
  | err f => obtain ⟨s, hx, h⟩ := h; exact ⟨s, hx, he _ h⟩
  | ub => trivial

/-! ### Allocation and what it leaves alone -/

/-- The memory after a granted request. -/
def Store.grown (s : Store) (x : Obj) : Store := { s with heap := s.heap.more, mem := fun n => if n = s.heap.next then some x else s.mem n }
/-- The memory after a refused request. -/
def Store.asked (s : Store) : Store := { s with heap := s.heap.ask }

theorem alloc_granted {o : Oracle} {s : Store} {x : Obj} (ho : o s.heap.asked = true) :
    alloc x o s = (.ok (some s.heap.next), s.grown x) := by
  unfold alloc
  have : onHeap Memory.malloc o s = (.ok (some s.heap.next), { s with heap := s.heap.more }) := by
    unfold onHeap; rw [malloc_granted ho]
  rw [bind_ok this]
  rfl

theorem alloc_refused {o : Oracle} {s : Store} {x : Obj} (ho : o s.heap.asked = false) : alloc x o s = (.ok none, s.asked) := by
  unfold alloc
  have : onHeap Memory.malloc o s = (.ok none, { s with heap := s.heap.ask }) := by
    unfold onHeap; rw [malloc_refused ho]
  rw [bind_ok this]
  rfl

/-- The step changed nothing but the objects in the blocks `F` and in new blocks. -/
structure Frame (F : List Nat) (s s' : Store) : Prop where
  buffer : s'.buffer = s.buffer
  name : s'.name = s.name
  next : s.heap.next ≤ s'.heap.next
  mem : ∀ p, p < s.heap.next → p ∉ F → s'.mem p = s.mem p

theorem Only.frame {F : List Nat} {s s' : Store} (h : Only F s s') : Frame F s s' :=
  ⟨h.buffer, h.name, by rw [h.heap], fun p _ hp => h.mem p hp⟩

theorem Frame.refl (F : List Nat) (s : Store) : Frame F s s := ⟨rfl, rfl, Nat.le_refl _, fun _ _ _ => rfl⟩

theorem Frame.trans {F G : List Nat} {s s' s'' : Store} (h : Frame F s s') (h' : Frame G s' s'')
    (hG : ∀ p ∈ G, p ∈ F ∨ s.heap.next ≤ p) : Frame F s s'' := by
  refine ⟨h'.buffer.trans h.buffer, h'.name.trans h.name, Nat.le_trans h.next h'.next, ?_⟩
  intro p hp hF
  have : p ∉ G := by
    intro hg
    rcases hG p hg with h1 | h1
    · exact hF h1
    · omega
  rw [h'.mem p (Nat.lt_of_lt_of_le hp h.next) this, h.mem p hp hF]

theorem Frame.mono {F G : List Nat} {s s' : Store} (h : Frame F s s') (hs : ∀ p ∈ F, p ∈ G ∨ s.heap.next ≤ p) : Frame G s s' :=
  (Frame.refl G s).trans h hs

theorem frame_grown (s : Store) (x : Obj) : Frame [] s (s.grown x) :=
  ⟨rfl, rfl, Nat.le_succ _, fun p hp _ => by
    show (if p = s.heap.next then some x else s.mem p) = _
    rw [if_neg (by omega)]⟩

theorem frame_asked (s : Store) : Frame [] s s.asked := ⟨rfl, rfl, Nat.le_refl _, fun _ _ _ => rfl⟩

@[simp] theorem grown_same (s : Store) (x : Obj) : (s.grown x).mem s.heap.next = some x := if_pos rfl
theorem grown_other {s : Store} {x : Obj} {p : Nat} (h : p < s.heap.next) : (s.grown x).mem p = s.mem p := if_neg (by omega)
theorem grown_heap (s : Store) (x : Obj) : (s.grown x).heap = s.heap.more := rfl
@[simp] theorem grown_next (s : Store) (x : Obj) : (s.grown x).heap.next = s.heap.next + 1 := rfl
@[simp] theorem asked_mem (s : Store) : s.asked.mem = s.mem := rfl

/-- Where a text lies: not in `F`, and not in a block that is yet to be allocated. -/
def Loc.Safe (l : Loc) (F : List Nat) (s : Store) : Prop := ∀ n, l.base = .heap n → n < s.heap.next ∧ n ∉ F

theorem TextAt.frame {F : List Nat} {s s' : Store} {l : Loc} {str : Str} (h : TextAt s l str) (hf : Frame F s s') (hl : l.Safe F s) :
    TextAt s' l str := by
  obtain ⟨data, h1, h2⟩ := h
  refine ⟨data, ?_, h2⟩
  cases hb : l.base with
  | buffer => rw [hb] at h1; simp only [dataOf] at h1 ⊢; rw [hf.buffer]; exact h1
  | name => rw [hb] at h1; simp only [dataOf] at h1 ⊢; rw [hf.name]; exact h1
  | heap n =>
    rw [hb] at h1
    obtain ⟨h3, h4⟩ := hl n hb
    simp only [dataOf] at h1 ⊢
    rw [hf.mem n h3 h4]
    exact h1

theorem Loc.Safe.mono {l : Loc} {F G : List Nat} {s s' : Store} (h : l.Safe F s) (hn : s.heap.next ≤ s'.heap.next)
    (hG : ∀ p ∈ G, p ∈ F ∨ s.heap.next ≤ p) : l.Safe G s' := by
  intro n hb
  obtain ⟨h1, h2⟩ := h n hb
  refine ⟨by omega, fun hg => ?_⟩
  rcases hG n hg with h3 | h3
  · exact h2 h3
  · omega

/-! ### The table in memory -/

/-- A symbol in memory. -/
def SymAt (m : Nat → Option Obj) (y : Symbol × SymbolB) : Prop :=
  m y.2.blk = some (.symbol ⟨y.2.label, y.1.value⟩) ∧
    ∃ data, m y.2.label = some (.chars data) ∧ (0 : Byte) ∈ data ∧ cstr data = y.1.label

/-- The cells of the array. -/
def symCells (slots : List (Option (Symbol × SymbolB))) : List (Option Nat) := slots.map (Option.map fun y => y.2.blk)

/-- The array in memory. -/
structure SlotsAt (m : Nat → Option Obj) (arr : Nat) (slots : List (Option (Symbol × SymbolB))) : Prop where
  arr : m arr = some (.ptrs (symCells slots))
  syms : ∀ y, some y ∈ slots → SymAt m y

/-- The table in memory. -/
structure TabAt (m : Nat → Option Obj) (t : SymTabB) : Prop where
  head : m t.blk = some (.table ⟨t.arr, t.slots.length, t.count⟩)
  slots : SlotsAt m t.arr t.slots

theorem mem_slotsBlocks {α β : Type} {f : β → List Nat} {slots : List (Option (α × β))} {p : Nat} :
    p ∈ slotsBlocks f slots ↔ ∃ y, some y ∈ slots ∧ p ∈ f y.2 := by
  unfold slotsBlocks
  rw [List.mem_flatMap]
  constructor
  · rintro ⟨x, hx, hp⟩
    cases x with
    | none => cases hp
    | some y => exact ⟨y, hx, hp⟩
  · rintro ⟨y, hy, hp⟩
    exact ⟨some y, hy, hp⟩

theorem SymAt.congr {m m' : Nat → Option Obj} {y : Symbol × SymbolB} (h : SymAt m y) (hm : ∀ p ∈ y.2.blocks, m' p = m p) : SymAt m' y := by
  obtain ⟨h1, data, h2, h3⟩ := h
  exact ⟨by rw [hm _ (by simp [SymbolB.blocks])]; exact h1, data, by rw [hm _ (by simp [SymbolB.blocks])]; exact h2, h3⟩

theorem SlotsAt.congr {m m' : Nat → Option Obj} {arr : Nat} {slots : List (Option (Symbol × SymbolB))} (h : SlotsAt m arr slots)
    (ha : m' arr = m arr) (hm : ∀ p ∈ slotsBlocks SymbolB.blocks slots, m' p = m p) : SlotsAt m' arr slots :=
  ⟨by rw [ha]; exact h.arr, fun y hy => (h.syms y hy).congr fun p hp => hm p (mem_slotsBlocks.2 ⟨y, hy, hp⟩)⟩

theorem TabAt.congr {m m' : Nat → Option Obj} {t : SymTabB} (h : TabAt m t) (hm : ∀ p ∈ t.blocks, m' p = m p) : TabAt m' t := by
  have h1 : ∀ p ∈ slotsBlocks SymbolB.blocks t.slots, m' p = m p := fun p hp => hm p (by unfold SymTabB.blocks; simp [hp])
  exact ⟨by rw [hm _ (by simp [SymTabB.blocks])]; exact h.head, h.slots.congr (hm _ (by simp [SymTabB.blocks])) h1⟩

section
variable {o : Oracle} {s s' : Store}

theorem SymAt.text {y : Symbol × SymbolB} (h : SymAt s.mem y) : TextAt s ⟨.heap y.2.label, 0⟩ y.1.label := by
  obtain ⟨_, data, h2, h3, h4⟩ := h
  exact ⟨data, by simp [dataOf, h2], by simpa using h3, by simpa using h4⟩

theorem symCells_get {slots : List (Option (Symbol × SymbolB))} {i : Nat} {x : Option (Symbol × SymbolB)} (h : slots[i]? = some x) :
    (symCells slots)[i]? = some (x.map fun y => y.2.blk) := by
  unfold symCells; rw [List.getElem?_map, h]; rfl

theorem bare_get {α β : Type} {slots : List (Option (α × β))} {i : Nat} :
    (Memory.bare slots)[i]? = (slots[i]?).map (Option.map Prod.fst) := by
  unfold Memory.bare; rw [List.getElem?_map]

/-! ### search_symbol -/

theorem probeLabel_sim {arr : Nat} {slots : List (Option (Symbol × SymbolB))} {l : Loc} {label : Str} (h : SlotsAt s.mem arr slots)
    (hl : TextAt s l label) (E : Store → Prop) : ∀ (fuel i : Nat),
    SimR (probeLabel arr slots.length l fuel i o s) (Gaia.probeLabel (Memory.bare slots) label fuel i)
      (fun v s' r => s' = s ∧ v = r.getD Err.symbolNotFound.code) E := by
  intro fuel
  induction fuel with
  | zero => intro i; trivial
  | succ fuel ih =>
    intro i
    unfold probeLabel Gaia.probeLabel
    rw [bare_get]
    cases hi : slots[i]? with
    | none => trivial
    | some x =>
      rw [bind_ok (getCell_run h.arr (symCells_get hi))]
      cases x with
      | none => exact ⟨_, _, rfl, rfl, rfl⟩
      | some y =>
        have hy := h.syms y (List.mem_of_getElem? hi)
        simp only [Option.map_some]
        rw [bind_ok (loadSymbol_run hy.1), bind_ok (readStr_run hl), bind_ok (readStr_run hy.text)]
        by_cases he : label = y.1.label
        · rw [if_pos he, if_pos he]; exact ⟨_, _, rfl, rfl, rfl⟩
        · rw [if_neg he, if_neg he]
          have hlen : (Memory.bare slots).length = slots.length := Memory.length_bare _
          rw [hlen]
          exact ih _

theorem searchSymbol_sim {t : SymTabB} {l : Loc} {label : Str} (h : TabAt s.mem t) (hl : TextAt s l label) (E : Store → Prop) :
    SimR (searchSymbol t.blk l o s) (Gaia.searchSymbol t.bare label) (fun v s' r => s' = s ∧ v = r) E := by
  unfold searchSymbol Gaia.searchSymbol searchOpt
  rw [bind_ok (readStr_run hl), bind_ok (loadTable_run h.head)]
  have hlen : t.bare.size = t.slots.length := Memory.length_bare _
  have := probeLabel_sim (o := o) h.slots hl E t.slots.length (djb2 label % t.slots.length)
  rw [hlen]
  show SimR _ (Gaia.probeLabel (Memory.bare t.slots) label t.slots.length _ >>= _) _ _
  revert this
  cases Gaia.probeLabel (Memory.bare t.slots) label t.slots.length (djb2 label % t.slots.length) with
  | ub => intro _; trivial
  | err f => exact fun h => h
  | ok v =>
    rintro ⟨a, s', h1, rfl, h2⟩
    cases v with
    | none => exact ⟨a, _, h1, rfl, h2⟩
    | some v => exact ⟨a, _, h1, rfl, h2⟩

/-! ### resize_symbols -/

theorem probeFree_sim {arr : Nat} {slots : List (Option (Symbol × SymbolB))} (h : s.mem arr = some (.ptrs (symCells slots)))
    (E : Store → Prop) : ∀ (fuel i : Nat),
    SimR (probeFree arr slots.length fuel i o s) (Gaia.probeFree (Memory.bare slots) fuel i)
      (fun v s' r => s' = s ∧ v = r ∧ slots[r]? = some none) E := by
  intro fuel
  induction fuel with
  | zero => intro i; trivial
  | succ fuel ih =>
    intro i
    unfold probeFree Gaia.probeFree
    rw [bare_get]
    cases hi : slots[i]? with
    | none => trivial
    | some x =>
      rw [bind_ok (getCell_run h (symCells_get hi))]
      cases x with
      | none => exact ⟨_, _, rfl, rfl, rfl, hi⟩
      | some y =>
        have hlen : (Memory.bare slots).length = slots.length := Memory.length_bare _
        simp only [Option.map_some, hlen]
        exact ih _

theorem symCells_set (slots : List (Option (Symbol × SymbolB))) (i : Nat) (y : Symbol × SymbolB) :
    symCells (slots.set i (some y)) = (symCells slots).set i (some y.2.blk) := by
  unfold symCells; rw [List.map_set]; rfl

theorem rehash_sim {t : SymTabB} {new : Nat} (hn : new ∉ t.blocks) (E : Store → Prop) (hE : ∀ s', Only [new] s s' → E s') :
    ∀ (n i : Nat) (s1 : Store) (slots : List (Option (Symbol × SymbolB))), Only [new] s s1 → TabAt s1.mem t →
      s1.mem new = some (.ptrs (symCells slots)) → i + n = t.slots.length →
      SimR (rehash t.blk new slots.length n i o s1) (Memory.rehashAll (t.slots.drop i) slots)
        (fun _ s' r => Only [new] s s' ∧ TabAt s'.mem t ∧ s'.mem new = some (.ptrs (symCells r)) ∧ r.length = slots.length) E := by
  intro n
  induction n with
  | zero =>
    intro i s1 slots ho ht hm hi
    rw [List.drop_of_length_le (by omega)]
    exact ⟨_, _, rfl, ho, ht, hm, rfl⟩
  | succ n ih =>
    intro i s1 slots ho ht hm hi
    have hlt : i < t.slots.length := by omega
    rw [List.drop_eq_getElem_cons hlt]
    unfold rehash
    have hc := symCells_get (List.getElem?_eq_getElem hlt)
    rw [bind_ok (loadTable_run ht.head), bind_ok (getCell_run ht.slots.arr hc)]
    cases hx : t.slots[i] with
    | none => exact ih (i + 1) s1 slots ho ht hm (by omega)
    | some y =>
      have hy := ht.slots.syms y (hx ▸ List.getElem_mem hlt)
      simp only [Option.map_some]
      rw [bind_ok (loadSymbol_run hy.1), bind_ok (readStr_run hy.text)]
      unfold Memory.rehashAll Memory.rehashOne
      have hp := probeFree_sim (o := o) hm E slots.length (djb2 y.1.label % slots.length)
      have hassoc : ((Gaia.probeFree (Memory.bare slots) slots.length (djb2 y.1.label % slots.length) >>= fun h =>
          (pure (slots.set h (some y)) : Res _)) >>= fun new => Memory.rehashAll (t.slots.drop (i + 1)) new) =
          (Gaia.probeFree (Memory.bare slots) slots.length (djb2 y.1.label % slots.length) >>= fun h =>
            Memory.rehashAll (t.slots.drop (i + 1)) (slots.set h (some y))) := by
        cases Gaia.probeFree (Memory.bare slots) slots.length (djb2 y.1.label % slots.length) <;> rfl
      rw [hassoc]
      refine hp.bind ?_
      rintro h s2 h' ⟨rfl, rfl, hnone⟩
      have hlt' : h < slots.length := (List.getElem?_eq_some_iff.1 hnone).1
      rw [bind_ok (setCell_run hm (by unfold symCells; simpa using hlt'))]
      have ho2 : Only [new] s2 (s2.put new (.ptrs ((symCells slots).set h (some y.2.blk)))) := Only.put (by simp)
      have hlen : (slots.set h (some y)).length = slots.length := List.length_set ..
      have := ih (i + 1) _ (slots.set h (some y)) (ho.trans ho2)
        (ht.congr (fun p hp' => put_other (by rintro rfl; exact hn hp')))
        (by rw [symCells_set]; exact put_same _ _ _) (by omega)
      rw [hlen] at this
      exact this

/-! ### The table and the rest of the state -/

/-- The table in memory is that of the other model. -/
structure SymRel (s : Store) (S : Memory.State) : Prop where
  heap : s.heap = S.heap
  tab : TabAt s.mem S.symtab
  nodup : S.symtab.blocks.Nodup
  lt : ∀ p ∈ S.symtab.blocks, p < s.heap.next

/-- What a step on the table does. -/
structure TabStep (s : Store) (S : Memory.State) (s' : Store) (S' : Memory.State) : Prop where
  rel : SymRel s' S'
  frame : Frame S.symtab.blocks s s'
  sub : ∀ p ∈ S'.symtab.blocks, p ∈ S.symtab.blocks ∨ s.heap.next ≤ p
  rest : S' = { S with heap := S'.heap, symtab := S'.symtab }
  blk : S'.symtab.blk = S.symtab.blk

theorem TabStep.trans {S S' S'' : Memory.State} {s s' s'' : Store} (h : TabStep s S s' S') (h' : TabStep s' S' s'' S'') :
    TabStep s S s'' S'' := by
  refine ⟨h'.rel, h.frame.trans h'.frame h.sub, ?_, ?_, h'.blk.trans h.blk⟩
  · intro p hp
    rcases h'.sub p hp with h1 | h1
    · exact h.sub p h1
    · exact .inr (Nat.le_trans h.frame.next h1)
  · rw [h'.rest]
    conv => lhs; rw [h.rest]

theorem TabStep.refl {S : Memory.State} (h : SymRel s S) : TabStep s S s S :=
  ⟨h, Frame.refl _ _, fun _ hp => .inl hp, rfl, rfl⟩

theorem TabStep.asked {S : Memory.State} (h : SymRel s S) : TabStep s S s.asked { S with heap := S.heap.ask } :=
  ⟨⟨by show s.heap.ask = _; rw [h.heap], h.tab, h.nodup, h.lt⟩, (frame_asked s).mono (by simp), fun _ hp => .inl hp, rfl, rfl⟩

theorem TabStep.grown {S : Memory.State} (h : SymRel s S) (x : Obj) : TabStep s S (s.grown x) { S with heap := S.heap.more } :=
  ⟨⟨by show s.heap.more = _; rw [h.heap], h.tab.congr fun p hp => grown_other (h.lt p hp), h.nodup,
      fun p hp => Nat.lt_succ_of_lt (h.lt p hp)⟩, (frame_grown s x).mono (by simp), fun _ hp => .inl hp, rfl, rfl⟩

/-- A change of new blocks that are not the table's. -/
theorem TabStep.outside {S S0 : Memory.State} {s0 : Store} (h0 : TabStep s0 S0 s S) {F : List Nat} (ho : Only F s s')
    (hF : ∀ p ∈ F, s0.heap.next ≤ p ∧ p ∉ S.symtab.blocks) : TabStep s0 S0 s' S := by
  have h := h0.rel
  refine ⟨⟨by rw [ho.heap]; exact h.heap, h.tab.congr fun p hp => ho.mem p (fun hp' => (hF p hp').2 hp), h.nodup,
    by rw [ho.heap]; exact h.lt⟩, h0.frame.trans ho.frame (fun p hp => .inr (hF p hp).1), h0.sub, h0.rest, h0.blk⟩

/-- The memory after `free`. -/
def Store.freed (s : Store) (p : Nat) : Store :=
  { s with heap := { s.heap with live := s.heap.live.erase p }, mem := fun n => if n = p then none else s.mem n }

theorem free_run {p : Nat} (hp : p ∈ s.heap.live) : free p o s = (.ok (), s.freed p) := by
  unfold free
  have : onHeap (Memory.free p) o s = (.ok (), { s with heap := { s.heap with live := s.heap.live.erase p } }) := by
    unfold onHeap; rw [Memory.free_ok hp]
  rw [bind_ok this]
  rfl

theorem freed_other {p q : Nat} (h : q ≠ p) : (s.freed p).mem q = s.mem q := if_neg h

theorem slotsBlocks_none (n : Nat) : slotsBlocks SymbolB.blocks (List.replicate n (none : Option (Symbol × SymbolB))) = [] := by
  induction n with
  | zero => rfl
  | succ n ih => rw [List.replicate_succ]; unfold slotsBlocks at ih ⊢; rw [List.flatMap_cons, ih]; rfl

theorem symCells_none (n : Nat) : symCells (List.replicate n none) = List.replicate n none := by
  unfold symCells; rw [List.map_replicate]; rfl

theorem rehashAll_mem : ∀ (old new : List (Option (Symbol × SymbolB))) {new' : List (Option (Symbol × SymbolB))},
    Memory.rehashAll old new = .ok new' → ∀ y, some y ∈ new' → some y ∈ old ∨ some y ∈ new
  | [], new, new', h, y, hy => by
    injection h with h
    subst h
    exact .inr hy
  | none :: old, new, new', h, y, hy => by
    have := rehashAll_mem old new (new' := new') h y hy
    rcases this with h1 | h1
    · exact .inl (by simp [h1])
    · exact .inr h1
  | some z :: old, new, new', h, y, hy => by
    obtain ⟨n1, h1, h2⟩ := C.bind_eq_ok.1 h
    obtain ⟨k, h3, h4⟩ := C.bind_eq_ok.1 h1
    injection h4 with h4
    subst h4
    rcases rehashAll_mem old _ h2 y hy with h5 | h5
    · exact .inl (by simp [h5])
    · rcases List.mem_or_eq_of_mem_set h5 with h6 | h6
      · exact .inr h6
      · exact .inl (by simp [h6])

theorem resizeSymbols_sim {S : Memory.State} (h : SymRel s S) :
    Sim (resizeSymbols S.symtab.blk o s) (Memory.resizeSymbols o S) (fun _ s' _ S' => TabStep s S s' S') (fun s' S' => TabStep s S s' S') := by
  unfold resizeSymbols Memory.resizeSymbols
  rw [bind_ok (loadTable_run h.tab.head), bind_ok (getS_apply o S)]
  dsimp only
  generalize (if S.symtab.slots.length * 2 > INT_MAX then .ub .signedOverflow else nextPrime (S.symtab.slots.length * 2)) = r
  cases r with
  | ub => trivial
  | err f => exact ⟨s, rfl, TabStep.refl h⟩
  | ok newSize =>
    rw [bind_ok (Memory.lift_ok newSize o S), bind_ok (Memory.lift_ok newSize o s)]
    cases ho : o S.heap.asked with
    | false =>
      rw [bind_ok (alloc_refused (by rw [h.heap]; exact ho)), bind_ok (x := Memory.onHeap Memory.malloc) (s' := { S with heap := S.heap.ask }) (a := none)
        (by rw [onHeap_apply, malloc_refused ho])]
      exact ⟨_, rfl, TabStep.asked h⟩
    | true =>
      rw [bind_ok (alloc_granted (by rw [h.heap]; exact ho)), bind_ok (x := Memory.onHeap Memory.malloc) (s' := { S with heap := S.heap.more })
        (a := some S.heap.next) (by rw [onHeap_apply, malloc_granted ho])]
      dsimp only
      have h1 := TabStep.grown h (.ptrs (List.replicate newSize none))
      have hnew : s.heap.next ∉ S.symtab.blocks := fun hp => Nat.lt_irrefl _ (h.lt _ hp)
      have hlen : (List.replicate newSize (none : Option (Symbol × SymbolB))).length = newSize := List.length_replicate
      have hre := rehash_sim (o := o) (s := s.grown (.ptrs (List.replicate newSize none))) (t := S.symtab) hnew
        (fun s' => TabStep s S s' { S with heap := S.heap.more })
        (fun s' ho' => h1.outside ho' (by simp only [List.mem_singleton]; rintro p rfl; exact ⟨Nat.le_refl _, hnew⟩))
        S.symtab.slots.length 0 _ (List.replicate newSize none) (Only.refl _ _) h1.rel.tab
        (by rw [symCells_none]; exact grown_same _ _) (by omega)
      rw [hlen, List.drop_zero] at hre
      refine Sim.bind (hre.lifted (E' := fun s' S' => TabStep s S s' S') (fun _ h => h)) ?_
      rintro _ s2 slots S2 ⟨rfl, hok, ho2, ht2, hm2, hl2⟩
      rw [bind_ok (loadTable_run ht2.head)]
      dsimp only
      have hheap2 : s2.heap = S.heap.more := by rw [ho2.heap, grown_heap, h.heap]
      by_cases hlive : S.symtab.arr ∈ S.heap.more.live
      swap
      · have : (Memory.onHeap (Memory.free S.symtab.arr) : Mem Memory.State Unit) o { S with heap := S.heap.more } =
            (.ub .badFree, { S with heap := S.heap.more }) := by
          rw [onHeap_apply]; unfold Memory.free; rw [if_neg hlive]
        rw [bind_apply (Memory.onHeap _), this]
        trivial
      have hfree : (Memory.onHeap (Memory.free S.symtab.arr) : Mem Memory.State Unit) o { S with heap := S.heap.more } =
            (.ok (), { S with heap := { S.heap.more with live := S.heap.more.live.erase S.symtab.arr } }) := by
        rw [onHeap_apply, Memory.free_ok hlive]
      rw [bind_ok hfree, bind_ok (free_run (by rw [hheap2]; exact hlive))]
      have hnd := h.nodup
      have hne : S.symtab.blk ≠ S.symtab.arr := by
        unfold SymTabB.blocks at hnd
        rw [List.nodup_append] at hnd
        have := hnd.2.1
        simp only [List.nodup_cons, List.mem_cons, List.not_mem_nil, or_false] at this
        exact fun he => this.1 he.symm
      have hhead : (s2.freed S.symtab.arr).mem S.symtab.blk = _ := (freed_other hne).trans ht2.head
      refine ⟨(), _, store_run hhead, ?_⟩
      have hperm := Memory.rehashAll_blocks _ _ hok
      rw [slotsBlocks_none, List.append_nil] at hperm
      have hsub : ∀ p ∈ (Memory.SymTabB.blocks { S.symtab with arr := S.heap.next, slots := slots }), p ∈ S.symtab.blocks ∨ s.heap.next ≤ p := by
        intro p hp
        unfold SymTabB.blocks at hp ⊢
        rw [List.mem_append] at hp
        rcases hp with hp | hp
        · exact .inl (List.mem_append_left _ (hperm.subset hp))
        · simp only [List.mem_cons, List.not_mem_nil, or_false] at hp
          rcases hp with rfl | rfl
          · exact .inr (by rw [h.heap])
          · exact .inl (by simp)
      have hnext : (s2.freed S.symtab.arr).heap.next = s.heap.next + 1 := by
        show s2.heap.next = _; rw [hheap2, h.heap]; rfl
      have hblkne : S.symtab.blk ≠ s.heap.next := fun he => hnew (he ▸ by simp [SymTabB.blocks])
      have harrne : S.symtab.arr ≠ s.heap.next := fun he => hnew (he ▸ by simp [SymTabB.blocks])
      refine ⟨⟨?_, ⟨?_, ?_, ?_⟩, ?_, ?_⟩, ?_, hsub, rfl, rfl⟩
      · show ({ s2.heap with live := _ } : Heap) = _
        rw [hheap2]
      · rw [put_same]
        show some (Obj.table ⟨s.heap.next, newSize, S.symtab.count⟩) = some (Obj.table ⟨S.heap.next, slots.length, S.symtab.count⟩)
        rw [hl2, h.heap]
      · show (Store.put _ _ _).mem S.heap.next = _
        rw [← h.heap, put_other hblkne.symm, freed_other harrne.symm]
        exact hm2
      · intro y hy
        have hy' : some y ∈ S.symtab.slots := by
          rcases rehashAll_mem _ _ hok y hy with h1 | h1
          · exact h1
          · exact absurd (List.eq_of_mem_replicate h1) (by simp)
        refine (ht2.slots.syms y hy').congr fun p hp => ?_
        have hps : p ∈ slotsBlocks SymbolB.blocks S.symtab.slots := mem_slotsBlocks.2 ⟨y, hy', hp⟩
        unfold SymTabB.blocks at hnd
        rw [List.nodup_append] at hnd
        rw [put_other (hnd.2.2 p hps _ (by simp)), freed_other (hnd.2.2 p hps _ (by simp))]
      · unfold SymTabB.blocks at hnd ⊢
        rw [List.nodup_append] at hnd ⊢
        refine ⟨hperm.nodup_iff.2 hnd.1, ?_, ?_⟩
        · simp only [List.nodup_cons, List.mem_cons, List.not_mem_nil, or_false, not_false_eq_true, List.nodup_nil, and_true]
          rw [← h.heap]
          exact hblkne.symm
        · intro a ha b hb
          have ha' := hperm.subset ha
          simp only [List.mem_cons, List.not_mem_nil, or_false] at hb
          rcases hb with rfl | rfl
          · rintro rfl
            exact hnew (by rw [h.heap]; unfold SymTabB.blocks; simp [ha'])
          · exact hnd.2.2 a ha' _ (by simp)
      · intro p hp
        show p < (s2.freed S.symtab.arr).heap.next
        rw [hnext]
        unfold SymTabB.blocks at hp
        rw [List.mem_append] at hp
        rcases hp with hp | hp
        · have := h.lt p (by unfold SymTabB.blocks; exact List.mem_append_left _ (hperm.subset hp))
          omega
        · simp only [List.mem_cons, List.not_mem_nil, or_false] at hp
          rcases hp with rfl | rfl
          · rw [h.heap]; omega
          · have := h.lt S.symtab.blk (by simp [SymTabB.blocks])
            omega
      · refine ⟨?_, ?_, ?_, ?_⟩
        · show s2.buffer = _; rw [ho2.buffer]; rfl
        · show s2.name = _; rw [ho2.name]; rfl
        · show s.heap.next ≤ (s2.freed S.symtab.arr).heap.next
          omega
        · intro p hp hp'
          have h1 : p ≠ S.symtab.blk := fun he => hp' (he ▸ by simp [SymTabB.blocks])
          have h2 : p ≠ S.symtab.arr := fun he => hp' (he ▸ by simp [SymTabB.blocks])
          rw [put_other h1, freed_other h2, ho2.mem p (by simp; omega), grown_other hp]

/-! ### insert_symbol -/

/-- A symbol has been made. -/
structure NewSym (s : Store) (S : Memory.State) (label : Str) (value : Int) (s' : Store) (S' : Memory.State) (p : Nat) (b : SymbolB) : Prop where
  step : TabStep s S s' S'
  same : S'.symtab = S.symtab
  ptr : p = b.blk
  sym : SymAt s'.mem (⟨label, value⟩, b)
  nodup : b.blocks.Nodup
  new : ∀ q ∈ b.blocks, s.heap.next ≤ q ∧ q < s'.heap.next
  frame : Frame [] s s'

theorem initSymbol_sim {S : Memory.State} (h : SymRel s S) {l : Loc} {label : Str} {value : Int} (hl : TextAt s l label)
    (hs : l.Safe [] s) (E : Store → Memory.State → Prop) :
    Sim (initSymbol l value o s) (Memory.onHeap Memory.initSymbol o S)
      (fun r s' r' S' => (r = none ∧ r' = none ∧ TabStep s S s' S') ∨ ∃ p b, r = some p ∧ r' = some b ∧ NewSym s S label value s' S' p b) E := by
  have hM : (Memory.onHeap Memory.initSymbol : Mem Memory.State _) = (Memory.onHeap Memory.malloc >>= fun
      | some blk => Memory.onHeap Memory.malloc >>= fun
        | some lab => pure (some ⟨blk, lab⟩)
        | none => pure none
      | none => pure none) := by
    unfold Memory.initSymbol
    rw [Memory.onHeap_bind]
    congr 1
    funext x
    cases x with
    | none => rfl
    | some blk =>
      show Memory.onHeap (Memory.malloc >>= _) = _
      rw [Memory.onHeap_bind]
      congr 1
      funext y
      cases y <;> rfl
  rw [hM]
  unfold initSymbol
  cases ho : o S.heap.asked with
  | false =>
    rw [bind_ok (alloc_refused (by rw [h.heap]; exact ho)), bind_ok (x := Memory.onHeap Memory.malloc) (s' := { S with heap := S.heap.ask })
      (a := none) (by rw [onHeap_apply, malloc_refused ho])]
    exact ⟨_, _, rfl, .inl ⟨rfl, rfl, TabStep.asked h⟩⟩
  | true =>
    rw [bind_ok (alloc_granted (by rw [h.heap]; exact ho)), bind_ok (x := Memory.onHeap Memory.malloc) (s' := { S with heap := S.heap.more })
      (a := some S.heap.next) (by rw [onHeap_apply, malloc_granted ho])]
    dsimp only
    have h1 := TabStep.grown h .raw
    have hf1 := frame_grown s .raw
    have hl1 : TextAt (s.grown .raw) l label := hl.frame hf1 hs
    have hs1 : l.Safe [] (s.grown .raw) := hs.mono hf1.next (by simp)
    rw [bind_ok (readStr_run hl1)]
    have hask : (s.grown .raw).heap.asked = S.heap.more.asked := by rw [grown_heap, h.heap]
    cases ho2 : o S.heap.more.asked with
    | false =>
      rw [bind_ok (alloc_refused (by rw [hask]; exact ho2)), bind_ok (x := Memory.onHeap Memory.malloc)
        (s' := { S with heap := S.heap.more.ask }) (a := none) (by rw [onHeap_apply, malloc_refused ho2])]
      exact ⟨_, _, rfl, .inl ⟨rfl, rfl, h1.trans (TabStep.asked h1.rel)⟩⟩
    | true =>
      rw [bind_ok (alloc_granted (by rw [hask]; exact ho2)), bind_ok (x := Memory.onHeap Memory.malloc)
        (s' := { S with heap := S.heap.more.more }) (a := some S.heap.more.next) (by rw [onHeap_apply, malloc_granted ho2])]
      dsimp only
      have h2 := h1.trans (TabStep.grown h1.rel (.chars (List.replicate (label.length + 1) 0)))
      have hf2 := hf1.trans (frame_grown (s.grown .raw) (.chars (List.replicate (label.length + 1) 0))) (by simp)
      have hl2 : TextAt ((s.grown .raw).grown (.chars (List.replicate (label.length + 1) 0))) l label := hl.frame hf2 hs
      rw [bind_ok (readStr_run hl2)]
      rw [bind_ok (writeChars_run (grown_same _ _) (by simp))]
      set s2 := (s.grown .raw).grown (.chars (List.replicate (label.length + 1) 0)) with hs2
      set s3 := s2.put (s.grown .raw).heap.next
        (.chars (label ++ (List.replicate (label.length + 1) (0 : Byte)).drop label.length)) with hs3
      have hne : s.heap.next ≠ (s.grown .raw).heap.next := by simp
      have hraw : s3.mem s.heap.next = some .raw := by
        rw [hs3, put_other hne, hs2, grown_other (by simp), grown_same]
      rw [bind_ok (store_run hraw)]
      refine ⟨_, _, rfl, .inr ⟨_, _, rfl, rfl, ?_⟩⟩
      have hnew : ∀ p, s.heap.next ≤ p → p ∉ S.symtab.blocks := fun p hp hb => by have := h.lt p hb; omega
      have ho : Only [s.heap.next, (s.grown .raw).heap.next] s2
          (s3.put s.heap.next (.symbol ⟨(s.grown .raw).heap.next, value⟩)) :=
        (Only.put (s := s2) (F := [s.heap.next, (s.grown .raw).heap.next]) (by simp)).trans (Only.put (by simp))
      have hF : ∀ p ∈ [s.heap.next, (s.grown .raw).heap.next], s.heap.next ≤ p ∧ p ∉ S.symtab.blocks := by
        intro p hp
        simp only [List.mem_cons, List.not_mem_nil, or_false] at hp
        rcases hp with rfl | rfl
        · exact ⟨Nat.le_refl _, hnew _ (Nat.le_refl _)⟩
        · exact ⟨by simp, hnew _ (by simp)⟩
      have hb : (⟨S.heap.next, S.heap.more.next⟩ : SymbolB) = ⟨s.heap.next, (s.grown .raw).heap.next⟩ := by
        rw [grown_heap, h.heap]
      rw [hb]
      refine ⟨h2.outside ho hF, rfl, rfl, ⟨put_same _ _ _,
        label ++ (List.replicate (label.length + 1) (0 : Byte)).drop label.length, ?_, ?_, ?_⟩, ?_, ?_,
        hf2.trans ho.frame (fun p hp => .inr (hF p hp).1)⟩
      · show (Store.put _ _ _).mem (s.grown .raw).heap.next = _
        rw [put_other hne.symm, hs3, put_same]
      · rw [List.drop_replicate]
        simp
      · rw [List.drop_replicate]
        have : label.length + 1 - label.length = 1 := by omega
        rw [this]
        exact cstr_of hl.nonul
      · simp [SymbolB.blocks]
      · intro q hq
        simp only [SymbolB.blocks, List.mem_cons, List.not_mem_nil, or_false] at hq
        show s.heap.next ≤ q ∧ q < s.heap.next + 1 + 1
        rcases hq with rfl | rfl
        · simp
        · show s.heap.next ≤ s.heap.next ∧ s.heap.next < s.heap.next + 1 + 1
          omega

theorem placeSymbol_sim {S : Memory.State} (h : SymRel s S) {l : Loc} {label : Str} {value : Int} (hl : TextAt s l label)
    (hs : l.Safe S.symtab.blocks s) :
    Sim ((do
        let some p ← initSymbol l value | outOfMemory
        let s ← readStr l
        let t ← loadTable S.symtab.blk
        let h ← probeFree t.symbols t.size t.size (djb2 s % t.size)
        setCell t.symbols h (some p)
        store S.symtab.blk (.table { t with count := t.count + 1 }) : M Unit) o s)
      ((do
        let some b ← Memory.onHeap Memory.initSymbol | outOfMemory
        let t := (← getS).symtab
        let h ← lift (Gaia.probeFree (Memory.bare t.slots) t.slots.length (djb2 label % t.slots.length))
        modifyS fun s => { s with symtab := { t with slots := t.slots.set h (some (⟨label, value⟩, b)), count := t.count + 1 } } :
          Mem Memory.State Unit) o S) (fun _ s' _ S' => TabStep s S s' S')
      (fun s' S' => TabStep s S s' S') := by
  refine Sim.bind (initSymbol_sim (value := value) h hl (hs.mono (Nat.le_refl _) (by simp)) _) ?_
  rintro r s1 r' S2 (⟨rfl, rfl, h2⟩ | ⟨p, b, rfl, rfl, h2⟩)
  · exact ⟨_, rfl, h2⟩
  dsimp only
  have h12 := h2.step
  have hl2 : TextAt s1 l label := hl.frame h12.frame hs
  have hblk : S.symtab.blk = S2.symtab.blk := h12.blk.symm
  rw [hblk, bind_ok (readStr_run hl2), bind_ok (loadTable_run h2.step.rel.tab.head), bind_ok (getS_apply o S2)]
  dsimp only
  have hp := probeFree_sim (o := o) h2.step.rel.tab.slots.arr (fun s' => TabStep s S s' S2) S2.symtab.slots.length
    (djb2 label % S2.symtab.slots.length)
  refine Sim.bind (hp.lifted (fun _ h => h)) ?_
  rintro k s3 k' S3 ⟨rfl, hok, rfl, rfl, hnone⟩
  have hlt : k < S3.symtab.slots.length := (List.getElem?_eq_some_iff.1 hnone).1
  have hrel := h2.step.rel
  rw [bind_ok (setCell_run hrel.tab.slots.arr (by unfold symCells; simpa using hlt))]
  have hnd := hrel.nodup
  have hne : S3.symtab.blk ≠ S3.symtab.arr := by
    unfold SymTabB.blocks at hnd
    rw [List.nodup_append] at hnd
    have := hnd.2.1
    simp only [List.nodup_cons, List.mem_cons, List.not_mem_nil, or_false] at this
    exact fun he => this.1 he.symm
  refine ⟨(), _, store_run ((put_other hne).trans hrel.tab.head), ?_⟩
  have hperm := Memory.slotsBlocks_set SymbolB.blocks ((⟨label, value⟩, b) : Symbol × SymbolB) S3.symtab.slots k hnone
  have hbnew : ∀ q ∈ b.blocks, q ∉ S3.symtab.blocks := by
    intro q hq hq'
    rw [h2.same] at hq'
    have := h.lt q hq'
    have := (h2.new q hq).1
    omega
  have hblkb : b.blk ∈ b.blocks := by simp [SymbolB.blocks]
  have hmem : ∀ q ∈ slotsBlocks SymbolB.blocks S3.symtab.slots, q ≠ S3.symtab.arr ∧ q ≠ S3.symtab.blk := by
    intro q hq
    unfold SymTabB.blocks at hnd
    rw [List.nodup_append] at hnd
    exact ⟨hnd.2.2 q hq _ (by simp), hnd.2.2 q hq _ (by simp)⟩
  have harrmem : S3.symtab.arr ∈ S3.symtab.blocks := by simp [SymTabB.blocks]
  have hblkmem : S3.symtab.blk ∈ S3.symtab.blocks := by simp [SymTabB.blocks]
  have hbne : ∀ q ∈ b.blocks, q ≠ S3.symtab.arr ∧ q ≠ S3.symtab.blk := by
    intro q hq
    refine ⟨?_, ?_⟩
    · rintro rfl; exact hbnew _ hq harrmem
    · rintro rfl; exact hbnew _ hq hblkmem
  have hsubset : ∀ q ∈ slotsBlocks SymbolB.blocks (S3.symtab.slots.set k (some (⟨label, value⟩, b))),
      q ∈ b.blocks ∨ q ∈ slotsBlocks SymbolB.blocks S3.symtab.slots := by
    intro q hq
    exact List.mem_append.1 (hperm.subset hq)
  have hold : ∀ q ∈ slotsBlocks SymbolB.blocks S3.symtab.slots, q ∈ S3.symtab.blocks := by
    intro q hq; unfold SymTabB.blocks; exact List.mem_append_left _ hq
  set t' : SymTabB := { S3.symtab with slots := S3.symtab.slots.set k (some (⟨label, value⟩, b)), count := S3.symtab.count + 1 } with ht'
  have hnd' := hnd
  unfold SymTabB.blocks at hnd'
  rw [List.nodup_append] at hnd'
  refine ⟨⟨hrel.heap, ⟨?_, ?_, ?_⟩, ?_, ?_⟩, ?_, ?_, ?_, h12.blk⟩
  · rw [put_same]
    simp [ht']
  · show (Store.put _ _ _).mem S3.symtab.arr = _
    rw [put_other hne.symm, put_same]
    show _ = some (Obj.ptrs (symCells (S3.symtab.slots.set k (some (⟨label, value⟩, b)))))
    rw [symCells_set, h2.ptr]
  · intro y hy
    rcases List.mem_or_eq_of_mem_set hy with hy | hy
    · refine (hrel.tab.slots.syms y hy).congr fun q hq => ?_
      have := hmem q (mem_slotsBlocks.2 ⟨y, hy, hq⟩)
      rw [put_other this.2, put_other this.1]
    · injection hy with hy
      subst hy
      refine h2.sym.congr fun q hq => ?_
      have := hbne q hq
      rw [put_other this.2, put_other this.1]
  · show (slotsBlocks SymbolB.blocks (S3.symtab.slots.set k (some (⟨label, value⟩, b))) ++ [S3.symtab.arr, S3.symtab.blk]).Nodup
    rw [List.nodup_append]
    refine ⟨hperm.nodup_iff.2 ?_, hnd'.2.1, ?_⟩
    · rw [List.nodup_append]
      exact ⟨h2.nodup, hnd'.1, fun q hq q' hq' he => hbnew q hq (he ▸ hold q' hq')⟩
    · intro q hq q' hq'
      simp only [List.mem_cons, List.not_mem_nil, or_false] at hq'
      rcases hsubset q hq with hq | hq
      · rcases hq' with rfl | rfl
        · exact (hbne q hq).1
        · exact (hbne q hq).2
      · rcases hq' with rfl | rfl
        · exact (hmem q hq).1
        · exact (hmem q hq).2
  · intro q hq
    show q < s3.heap.next
    have hq : q ∈ slotsBlocks SymbolB.blocks (S3.symtab.slots.set k (some (⟨label, value⟩, b))) ++ [S3.symtab.arr, S3.symtab.blk] := hq
    rw [List.mem_append] at hq
    rcases hq with hq | hq
    · rcases hsubset q hq with hq | hq
      · exact (h2.new q hq).2
      · exact hrel.lt q (hold q hq)
    · refine hrel.lt q ?_
      unfold SymTabB.blocks
      exact List.mem_append_right _ hq
  · have ho : Only [S3.symtab.arr, S3.symtab.blk] s3 _ :=
      (Only.put (s := s3) (x := Obj.ptrs ((symCells S3.symtab.slots).set k (some p))) (F := [S3.symtab.arr, S3.symtab.blk])
        (p := S3.symtab.arr) (by simp)).trans (Only.put (p := S3.symtab.blk)
        (x := Obj.table ⟨S3.symtab.arr, S3.symtab.slots.length, S3.symtab.count + 1⟩) (by simp))
    refine h12.frame.trans ho.frame ?_
    intro q hq
    left
    rw [← h2.same]
    unfold SymTabB.blocks
    exact List.mem_append_right _ hq
  · intro q hq
    have hq : q ∈ slotsBlocks SymbolB.blocks (S3.symtab.slots.set k (some (⟨label, value⟩, b))) ++ [S3.symtab.arr, S3.symtab.blk] := hq
    rw [List.mem_append] at hq
    rcases hq with hq | hq
    · rcases hsubset q hq with hq | hq
      · exact .inr (h2.new q hq).1
      · exact .inl (h2.same ▸ hold q hq)
    · left
      rw [← h2.same]
      unfold SymTabB.blocks
      exact List.mem_append_right _ hq
  · conv => lhs; rw [h12.rest]

theorem insertSymbol_sim {S : Memory.State} (h : SymRel s S) {l : Loc} {label : Str} {value : Int} (hl : TextAt s l label)
    (hs : l.Safe S.symtab.blocks s) :
    Sim (insertSymbol S.symtab.blk l value o s) (Memory.insertSymbol label value o S) (fun _ s' _ S' => TabStep s S s' S')
      (fun s' S' => TabStep s S s' S') := by
  unfold insertSymbol Memory.insertSymbol
  rw [bind_ok (loadTable_run h.tab.head), bind_ok (getS_apply o S)]
  dsimp only
  by_cases hov : (S.symtab.count + 1) * 100 > INT_MAX
  · rw [if_pos hov]; trivial
  rw [if_neg hov, bind_ok (Memory.lift_ok () o S), bind_ok (Memory.lift_ok () o s)]
  have hc : (overLoaded S.symtab.bare = true) ↔ ((S.symtab.count + 1) * 100 / S.symtab.slots.length > 50) := by
    unfold overLoaded
    have hlen : S.symtab.bare.size = S.symtab.slots.length := Memory.length_bare _
    rw [decide_eq_true_iff, hlen]
    exact Iff.rfl
  by_cases hg : (S.symtab.count + 1) * 100 / S.symtab.slots.length > 50
  · rw [if_pos hg, if_pos (hc.2 hg)]
    refine Sim.bind (resizeSymbols_sim h) ?_
    rintro _ s1 _ S1 h1
    have := placeSymbol_sim (o := o) (value := value) h1.rel (hl.frame h1.frame hs) (hs.mono h1.frame.next h1.sub)
    rw [h1.blk] at this
    exact this.mono (fun _ _ _ _ h2 => h1.trans h2) (fun _ _ h2 => h1.trans h2)
  · rw [if_neg hg, if_neg (fun hh => hg (hc.1 hh))]
    exact placeSymbol_sim h hl hs

end

end Gaia.Low
