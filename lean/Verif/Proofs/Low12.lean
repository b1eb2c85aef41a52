import Verif.Proofs.Low11

/-! The model with pointers: freeing the structures. -/
namespace Gaia.Low
open Gaia
open Gaia.Memory

section
variable {o : Oracle} {s s' s'' : Store} {h : Heap} {α β γ δ : Type}

/-- The blocks outside of `F` are as they were. -/
def Gone (F : List Nat) (s s' : Store) : Prop := ∀ p, p ∉ F → s'.mem p = s.mem p

theorem Gone.refl (F : List Nat) (s : Store) : Gone F s s := fun _ _ => rfl
theorem Gone.trans {F G : List Nat} (h : Gone F s s') (h' : Gone G s' s'') : Gone (F ++ G) s s'' := by
  intro p hp
  simp only [List.mem_append, not_or] at hp
  rw [h' p hp.2, h p hp.1]
theorem Gone.mono {F G : List Nat} (h : Gone F s s') (hs : ∀ p ∈ F, p ∈ G) : Gone G s s' := fun p hp => h p fun hf => hp (hs p hf)

/-- What freeing does. -/
def Frees (F : List Nat) (s : Store) (s' : Store) (h' : Heap) : Prop := s'.heap = h' ∧ Gone F s s'

theorem free_sim (hh : s.heap = h) (p : Nat) {E : Store → Heap → Prop} :
    Sim (free p o s) (Memory.free p o h) (fun _ s' _ h' => Frees [p] s s' h') E := by
  by_cases hp : p ∈ h.live
  · have : Memory.free p o h = (.ok (), { h with live := h.live.erase p }) := Memory.free_ok hp
    rw [this, free_run (by rw [hh]; exact hp)]
    refine ⟨(), _, rfl, ?_, ?_⟩
    · show { s.heap with live := s.heap.live.erase p } = _
      rw [hh]
    · intro q hq
      exact freed_other (by simpa using hq)
  · have : Memory.free p o h = (.ub .badFree, h) := by unfold Memory.free; rw [if_neg hp]
    rw [this]; trivial

theorem destroyToken_sim (hh : s.heap = h) {b : TokenB} (hb : ∃ t, TokAt s.mem b t) {E : Store → Heap → Prop} :
    Sim (destroyToken b.blk o s) (Memory.destroyToken b o h) (fun _ s' _ h' => Frees b.blocks s s' h') E := by
  obtain ⟨t, d, e, h1, _⟩ := hb
  unfold destroyToken Memory.destroyToken
  rw [bind_ok (loadToken_run h1)]
  refine Sim.bind (free_sim hh _) ?_
  rintro _ s1 _ h1 ⟨g1, g2⟩
  refine (free_sim g1 _).mono ?_ (fun _ _ he => he)
  rintro _ s2 _ h2 ⟨g3, g4⟩
  exact ⟨g3, g2.trans g4⟩

/-- The lexer with the tokens that are left. -/
structure LexLeft (m : Nat → Option Obj) (lB : LexerB) (left : List TokenB) : Prop where
  arr : m lB.arr = some (.ptrs (lB.toks.map fun b => some b.blk))
  head : ∃ x, m lB.blk = some (.lexer x) ∧ x.sequence = lB.arr
  toks : ∀ b ∈ left, ∃ t, TokAt m b t

theorem LexLeft.seqPtr {lB : LexerB} {left : List TokenB} (hl : LexLeft s.mem lB left) {i : Nat} {b : TokenB}
    (hb : lB.toks[i]? = some b) : seqPtr lB.blk i o s = (.ok b.blk, s) := by
  obtain ⟨x, h1, h2⟩ := hl.head
  unfold Low.seqPtr
  rw [bind_ok (loadLexer_run h1), h2, bind_ok (getCell_run hl.arr (c := some b.blk) (by rw [List.getElem?_map, hb]; rfl))]
  rfl

theorem flatMap_apart {b : TokenB} {rest : List TokenB} {l : List Nat} (h : ((b :: rest).flatMap TokenB.blocks ++ l).Nodup) :
    (rest.flatMap TokenB.blocks ++ l).Nodup ∧ ∀ p ∈ b.blocks, p ∉ rest.flatMap TokenB.blocks ++ l := by
  rw [List.flatMap_cons, List.append_assoc, List.nodup_append] at h
  exact ⟨h.2.1, fun p hp hp' => h.2.2 p hp p hp' rfl⟩

theorem destroyTokens_sim {lB : LexerB} {E : Store → Heap → Prop} : ∀ (left : List TokenB) (i : Nat) (s : Store) (h : Heap), s.heap = h →
    lB.toks.drop i = left → LexLeft s.mem lB left → (left.flatMap TokenB.blocks ++ [lB.arr, lB.blk]).Nodup →
    Sim (destroyTokens lB.blk left.length i o s) (Memory.destroyTokens left o h)
      (fun _ s' _ h' => Frees (left.flatMap TokenB.blocks) s s' h') E := by
  intro left
  induction left with
  | nil => intro i s h hh _ _ _; exact ⟨(), s, rfl, hh, Gone.refl _ _⟩
  | cons b rest ih =>
    intro i s h hh hd hl hn
    obtain ⟨hn1, hn2⟩ := flatMap_apart hn
    have hi : lB.toks[i]? = some b := by
      have := congrArg (·[0]?) hd
      simpa using this
    have hd' : lB.toks.drop (i + 1) = rest := by
      rw [← List.drop_drop, hd]; rfl
    rw [List.length_cons]
    unfold destroyTokens Memory.destroyTokens
    rw [bind_ok (hl.seqPtr hi)]
    refine Sim.bind (destroyToken_sim hh (hl.toks b (by simp))) ?_
    rintro _ s1 _ h1 ⟨g1, g2⟩
    have hkeep : ∀ p ∈ rest.flatMap TokenB.blocks ++ [lB.arr, lB.blk], s1.mem p = s.mem p := fun p hp => g2 p fun hp' => hn2 p hp' hp
    obtain ⟨x, hx1, hx2⟩ := hl.head
    have hl1 : LexLeft s1.mem lB rest := by
      refine ⟨by rw [hkeep _ (by simp)]; exact hl.arr, ⟨x, by rw [hkeep _ (by simp)]; exact hx1, hx2⟩, ?_⟩
      intro b' hb'
      obtain ⟨t, ht⟩ := hl.toks b' (by simp [hb'])
      exact ⟨t, ht.congr fun p hp => hkeep p (List.mem_append_left _ (List.mem_flatMap.2 ⟨b', hb', hp⟩))⟩
    refine (ih (i + 1) s1 h1 g1 hd' hl1 hn1).mono ?_ (fun _ _ he => he)
    rintro _ s2 _ h2 ⟨g3, g4⟩
    exact ⟨g3, by rw [List.flatMap_cons]; exact g2.trans g4⟩

/-- The lexer in memory. -/
structure LexAt (m : Nat → Option Obj) (lB : LexerB) : Prop where
  len : lB.toks.length = MAX_TOKENS
  nodup : lB.blocks.Nodup
  left : LexLeft m lB lB.toks

theorem destroyLexer_sim (hh : s.heap = h) {lB : LexerB} (hl : LexAt s.mem lB) {E : Store → Heap → Prop} :
    Sim (destroyLexer lB.blk o s) (Memory.destroyLexer lB o h) (fun _ s' _ h' => Frees lB.blocks s s' h') E := by
  unfold destroyLexer Memory.destroyLexer
  rw [← hl.len]
  have hn : (lB.toks.flatMap TokenB.blocks ++ [lB.arr, lB.blk]).Nodup := hl.nodup
  refine Sim.bind (destroyTokens_sim (o := o) lB.toks 0 s h hh (by simp) hl.left hn) ?_
  rintro _ s1 _ h1 ⟨g1, g2⟩
  rw [List.nodup_append] at hn
  obtain ⟨x, hx1, hx2⟩ := hl.left.head
  have hx : s1.mem lB.blk = some (.lexer x) := by
    rw [g2 _ (fun hp => hn.2.2 _ hp lB.blk (by simp) rfl)]; exact hx1
  rw [bind_ok (loadLexer_run hx), hx2]
  refine Sim.bind (free_sim g1 _) ?_
  rintro _ s2 _ h2 ⟨g3, g4⟩
  refine (free_sim g3 _).mono ?_ (fun _ _ he => he)
  rintro _ s3 _ h3 ⟨g5, g6⟩
  refine ⟨g5, ((g2.trans g4).trans g6).mono ?_⟩
  intro p hp
  simpa [LexerB.blocks, or_assoc] using hp

/-! ### The table -/

theorem slots_cons {α β : Type} (f : β → List Nat) (x : Option (α × β)) (l : List (Option (α × β))) :
    slotsBlocks f (x :: l) = (match x with | none => [] | some y => f y.2) ++ slotsBlocks f l := by
  unfold slotsBlocks; rw [List.flatMap_cons]; cases x <;> rfl

theorem destroySymbols_sim {t : SymTabB} {E : Store → Heap → Prop} : ∀ (left : List (Option (Symbol × SymbolB))) (i : Nat) (s : Store) (h : Heap),
    s.heap = h → t.slots.drop i = left → s.mem t.blk = some (.table ⟨t.arr, t.slots.length, t.count⟩) →
    s.mem t.arr = some (.ptrs (symCells t.slots)) → (∀ y, some y ∈ left → SymAt s.mem y) →
    (slotsBlocks SymbolB.blocks left ++ [t.arr, t.blk]).Nodup →
    Sim (destroySymbols t.blk left.length i o s) (Memory.destroySlots left o h)
      (fun _ s' _ h' => Frees (slotsBlocks SymbolB.blocks left) s s' h') E := by
  intro left
  induction left with
  | nil => intro i s h hh _ _ _ _ _; exact ⟨(), s, rfl, hh, Gone.refl _ _⟩
  | cons c rest ih =>
    intro i s h hh hd hm1 hm2 hs hn
    have hi : t.slots[i]? = some c := by
      have := congrArg (·[0]?) hd
      simpa using this
    have hd' : t.slots.drop (i + 1) = rest := by
      rw [← List.drop_drop, hd]; rfl
    have hcell : (symCells t.slots)[i]? = some (c.map fun y => y.2.blk) := by unfold symCells; rw [List.getElem?_map, hi]; rfl
    rw [List.length_cons]
    unfold destroySymbols
    rw [bind_ok (loadTable_run hm1)]
    dsimp only
    rw [bind_ok (getCell_run hm2 hcell)]
    rw [slots_cons] at hn ⊢
    cases c with
    | none =>
      simp only [Option.map_none, List.nil_append] at hn ⊢
      unfold Memory.destroySlots
      exact ih (i + 1) s h hh hd' hm1 hm2 (fun y hy => hs y (by simp [hy])) hn
    | some y =>
      obtain ⟨sy, b⟩ := y
      simp only [Option.map_some] at hn ⊢
      rw [List.append_assoc, List.nodup_append] at hn
      obtain ⟨_, hn1, hn2⟩ := hn
      obtain ⟨hy1, _⟩ := hs (sy, b) (by simp)
      unfold Memory.destroySlots
      rw [bind_ok (loadSymbol_run hy1)]
      refine Sim.bind (free_sim hh _) ?_
      rintro _ s1 _ h1 ⟨g1, g2⟩
      refine Sim.bind (free_sim g1 _) ?_
      rintro _ s2 _ h2 ⟨g3, g4⟩
      have g5 := g2.trans g4
      have hkeep : ∀ p ∈ slotsBlocks SymbolB.blocks rest ++ [t.arr, t.blk], s2.mem p = s.mem p :=
        fun p hp => g5 p fun hp' => hn2 p (by simpa [SymbolB.blocks] using hp') p hp rfl
      refine (ih (i + 1) s2 h2 g3 hd' (by rw [hkeep _ (by simp)]; exact hm1) (by rw [hkeep _ (by simp)]; exact hm2) ?_ hn1).mono ?_
        (fun _ _ he => he)
      · intro z hz
        have hk : ∀ p ∈ z.2.blocks, s2.mem p = s.mem p := fun p hp => hkeep p (List.mem_append_left _ (mem_slotsBlocks.2 ⟨z, hz, hp⟩))
        obtain ⟨k1, data, k2, k3⟩ := hs z (by simp [hz])
        exact ⟨by rw [hk _ (by simp [SymbolB.blocks])]; exact k1, data, by rw [hk _ (by simp [SymbolB.blocks])]; exact k2, k3⟩
      · rintro _ s3 _ h3 ⟨g6, g7⟩
        refine ⟨g6, (g5.trans g7).mono ?_⟩
        intro p hp
        simpa [SymbolB.blocks] using hp

theorem destroySymbolTable_sim (hh : s.heap = h) {t : SymTabB} (ht : TabAt s.mem t) (hn : t.blocks.Nodup) {E : Store → Heap → Prop} :
    Sim (destroySymbolTable t.blk o s) (Memory.destroySymbolTable t o h) (fun _ s' _ h' => Frees t.blocks s s' h') E := by
  unfold destroySymbolTable Memory.destroySymbolTable
  rw [bind_ok (loadTable_run ht.head)]
  have hn' : (slotsBlocks SymbolB.blocks t.slots ++ [t.arr, t.blk]).Nodup := hn
  refine Sim.bind (destroySymbols_sim (o := o) t.slots 0 s h hh (by simp) ht.head ht.slots.arr ht.slots.syms hn') ?_
  rintro _ s1 _ h1 ⟨g1, g2⟩
  rw [List.nodup_append] at hn'
  have hx : s1.mem t.blk = some (.table ⟨t.arr, t.slots.length, t.count⟩) := by
    rw [g2 _ (fun hp => hn'.2.2 _ hp t.blk (by simp) rfl)]; exact ht.head
  rw [bind_ok (loadTable_run hx)]
  refine Sim.bind (free_sim g1 _) ?_
  rintro _ s2 _ h2 ⟨g3, g4⟩
  refine (free_sim g3 _).mono ?_ (fun _ _ he => he)
  rintro _ s3 _ h3 ⟨g5, g6⟩
  refine ⟨g5, ((g2.trans g4).trans g6).mono ?_⟩
  intro p hp
  simpa [SymTabB.blocks, or_assoc] using hp

/-! ### The references -/

theorem destroyForwardRef_sim (hh : s.heap = h) {r : ForwardRef × RefB} (hr : RefAt s.mem r) {E : Store → Heap → Prop} :
    Sim (destroyForwardRef r.2.blk o s) (Memory.destroyForwardRef r.2 o h) (fun _ s' _ h' => Frees r.2.blocks s s' h') E := by
  unfold destroyForwardRef Memory.destroyForwardRef
  rw [bind_ok (loadRef_run hr.head)]
  refine Sim.bind (free_sim hh _) ?_
  rintro _ s1 _ h1 ⟨g1, g2⟩
  refine Sim.bind (free_sim g1 _) ?_
  rintro _ s2 _ h2 ⟨g3, g4⟩
  refine Sim.bind (free_sim g3 _) ?_
  rintro _ s3 _ h3 ⟨g5, g6⟩
  refine (free_sim g5 _).mono ?_ (fun _ _ he => he)
  rintro _ s4 _ h4 ⟨g7, g8⟩
  refine ⟨g7, (((g2.trans g4).trans g6).trans g8).mono ?_⟩
  intro p hp
  simpa [RefB.blocks, or_assoc] using hp

theorem destroyRefs_sim {u : UnresB} {a : Nat} (ha : u.arr = some a) {E : Store → Heap → Prop} :
    ∀ (left : List (Option (ForwardRef × RefB))) (i : Nat) (s : Store) (h : Heap),
    s.heap = h → u.refs.drop i = left → s.mem u.blk = some (.unres ⟨u.arr, u.curr, u.refs.length⟩) →
    s.mem a = some (.ptrs (refCells u.refs)) → (∀ y, some y ∈ left → RefAt s.mem y) →
    (slotsBlocks RefB.blocks left ++ [a, u.blk]).Nodup →
    Sim (destroyRefs u.blk (left.length + 1) i o s) (Memory.destroyRefs left o h)
      (fun _ s' _ h' => Frees (slotsBlocks RefB.blocks left) s s' h') E := by
  intro left
  induction left with
  | nil => intro i s h hh _ _ _ _ _; trivial
  | cons c rest ih =>
    intro i s h hh hd hm1 hm2 hs hn
    have hi : u.refs[i]? = some c := by
      have := congrArg (·[0]?) hd
      simpa using this
    have hd' : u.refs.drop (i + 1) = rest := by
      rw [← List.drop_drop, hd]; rfl
    have hcell : (refCells u.refs)[i]? = some (c.map fun y => y.2.blk) := by unfold refCells; rw [List.getElem?_map, hi]; rfl
    rw [List.length_cons]
    unfold destroyRefs
    rw [bind_ok (loadUnres_run hm1)]
    simp only [ha]
    rw [bind_ok (getCell_run hm2 hcell)]
    rw [slots_cons] at hn ⊢
    cases c with
    | none =>
      unfold Memory.destroyRefs
      exact ⟨(), s, rfl, hh, Gone.refl _ _⟩
    | some y =>
      obtain ⟨sy, b⟩ := y
      simp only [Option.map_some] at hn ⊢
      rw [List.append_assoc, List.nodup_append] at hn
      obtain ⟨_, hn1, hn2⟩ := hn
      unfold Memory.destroyRefs
      refine Sim.bind (destroyForwardRef_sim hh (hs (sy, b) (by simp))) ?_
      rintro _ s2 _ h2 ⟨g3, g5⟩
      have hkeep : ∀ p ∈ slotsBlocks RefB.blocks rest ++ [a, u.blk], s2.mem p = s.mem p :=
        fun p hp => g5 p fun hp' => hn2 p hp' p hp rfl
      refine (ih (i + 1) s2 h2 g3 hd' (by rw [hkeep _ (by simp)]; exact hm1) (by rw [hkeep _ (by simp)]; exact hm2) ?_ hn1).mono ?_
        (fun _ _ he => he)
      · intro z hz
        exact (hs z (by simp [hz])).congr fun p hp => hkeep p (List.mem_append_left _ (mem_slotsBlocks.2 ⟨z, hz, hp⟩))
      · rintro _ s3 _ h3 ⟨g6, g7⟩
        exact ⟨g6, g5.trans g7⟩

theorem destroyUnresolved_sim (hh : s.heap = h) {u : UnresB} (hu : UnresAt s.mem u) (hn : (full u).Nodup) {E : Store → Heap → Prop} :
    Sim (destroyUnresolved u.blk o s) (Memory.destroyUnresolved u o h) (fun _ s' _ h' => Frees (full u) s s' h') E := by
  unfold destroyUnresolved Memory.destroyUnresolved
  rw [bind_ok (loadUnres_run hu.head)]
  dsimp only
  cases ha : u.arr with
  | none => exact ⟨(), s, rfl, hh, Gone.refl _ _⟩
  | some a =>
    dsimp only
    have hn' : (slotsBlocks RefB.blocks u.refs ++ [a, u.blk]).Nodup := by
      have := hn
      unfold full at this
      rw [ha] at this
      exact this
    refine Sim.bind (destroyRefs_sim (o := o) ha u.refs 0 s h hh (by simp) hu.head (hu.arr a ha) hu.refs hn') ?_
    rintro _ s1 _ h1 ⟨g1, g2⟩
    rw [List.nodup_append] at hn'
    have hx : s1.mem u.blk = some (.unres ⟨u.arr, u.curr, u.refs.length⟩) := by
      rw [g2 _ (fun hp => hn'.2.2 _ hp u.blk (by simp) rfl)]; exact hu.head
    rw [bind_ok (loadUnres_run hx)]
    simp only [ha]
    refine Sim.bind (free_sim g1 _) ?_
    rintro _ s2 _ h2 ⟨g3, g4⟩
    refine (free_sim g3 _).mono ?_ (fun _ _ he => he)
    rintro _ s3 _ h3 ⟨g5, g6⟩
    refine ⟨g5, ((g2.trans g4).trans g6).mono ?_⟩
    intro p hp
    simpa [full, ha, or_assoc] using hp

end
end Gaia.Low
