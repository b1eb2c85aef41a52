import Verif.Proofs.Low13

/-! The model with pointers: making the structures. -/
namespace Gaia.Low
open Gaia
open Gaia.Memory

section
variable {o : Oracle} {s s' s'' : Store} {h : Heap}

/-- The blocks `F` are new, and distinct. -/
structure New (F : List Nat) (s s' : Store) : Prop where
  nodup : F.Nodup
  ge : ∀ p ∈ F, s.heap.next ≤ p
  lt : ∀ p ∈ F, p < s'.heap.next

/-- A structure has been made, or there was no memory for it. -/
structure Made {α : Type} (blk : α → Nat) (bl : α → List Nat) (At : (Nat → Option Obj) → α → Prop) (s : Store)
    (a : Option Nat) (s' : Store) (b : Option α) (h' : Heap) : Prop where
  heap : s'.heap = h'
  frame : Frame [] s s'
  ptr : a = b.map blk
  new : ∀ y, b = some y → New (bl y) s s'
  at' : ∀ y, b = some y → At s'.mem y

theorem alloc_new (hh : s.heap = h) (x : Obj) {E : Store → Heap → Prop} :
    Sim (alloc x o s) (malloc o h) (fun a s' b h' => s'.heap = h' ∧
      ((a = none ∧ b = none ∧ s' = s.asked) ∨ (a = some s.heap.next ∧ b = some s.heap.next ∧ s' = s.grown x))) E := by
  subst hh
  cases ho : o s.heap.asked with
  | false =>
    rw [alloc_refused ho, malloc_refused ho]
    exact ⟨_, _, rfl, rfl, .inl ⟨rfl, rfl, rfl⟩⟩
  | true =>
    rw [alloc_granted ho, malloc_granted ho]
    exact ⟨_, _, rfl, rfl, .inr ⟨rfl, rfl, rfl⟩⟩

theorem frame_put {F : List Nat} {p : Nat} {x : Obj} (hp : p ∈ F) (s : Store) : Frame F s (s.put p x) := (Only.put hp).frame

/-- A struct and an array of its own. -/
theorem pair_sim {α : Type} (hh : s.heap = h) {x : Obj} {y : Nat → Obj} {k : Nat → Nat → α} {blk : α → Nat} {bl : α → List Nat}
    {At : (Nat → Option Obj) → α → Prop} {E : Store → Heap → Prop} (hk : ∀ a b, blk (k a b) = a) (hb : ∀ a b, (bl (k a b)).Perm [b, a])
    (hAt : ∀ a b m, a ≠ b → m a = some (y b) → m b = some x → At m (k a b)) :
    Sim ((do
        let some p ← alloc .raw | pure none
        let some q ← alloc x | pure none
        store p (y q)
        pure (some p) : M (Option Nat)) o s)
      ((do
        let some p ← malloc | pure none
        let some q ← malloc | pure none
        pure (some (k p q)) : Mem Heap (Option α)) o h)
      (fun a s' b h' => Made blk bl At s a s' b h') E := by
  refine Sim.bind (alloc_new hh _) ?_
  rintro _ s1 _ h1 ⟨hh1, ⟨rfl, rfl, rfl⟩ | ⟨rfl, rfl, rfl⟩⟩
  · exact ⟨_, _, rfl, hh1, frame_asked s, rfl, by simp, by simp⟩
  · dsimp only
    refine Sim.bind (alloc_new hh1 _) ?_
    rintro _ s2 _ h2 ⟨hh2, ⟨rfl, rfl, rfl⟩ | ⟨rfl, rfl, rfl⟩⟩
    · exact ⟨_, _, rfl, hh2, (frame_grown s _).trans (frame_asked _) (by simp), rfl, by simp, by simp⟩
    · dsimp only
      have hne : s.heap.next ≠ (s.grown .raw).heap.next := by simp
      rw [bind_ok (store_run (x := .raw) (by rw [grown_other (by simp)]; exact grown_same _ _))]
      refine ⟨_, _, rfl, hh2, ?_, by simp [hk], ?_, ?_⟩
      · exact ((frame_grown s _).trans (frame_grown _ _) (by simp)).trans (frame_put (List.mem_singleton_self _) _)
          (by simp)
      · rintro _ ⟨⟩
        have hp := hb s.heap.next (s.grown .raw).heap.next
        refine ⟨hp.nodup_iff.2 (by simp), ?_, ?_⟩
        · intro p hm; have := hp.mem_iff.1 hm; simp at this; omega
        · intro p hm; have := hp.mem_iff.1 hm; simp at this; simp; omega
      · rintro _ ⟨⟩
        refine hAt _ _ _ hne (put_same _ _ _) ?_
        rw [put_other hne.symm]; exact grown_same _ _

/-- A token as `init_token` makes it. -/
theorem initToken_sim (hh : s.heap = h) {E : Store → Heap → Prop} : Sim (initToken o s) (Memory.initToken o h)
    (fun a s' b h' => Made TokenB.blk TokenB.blocks (fun m b => TokAt m b Gaia.initToken) s a s' b h') E := by
  refine pair_sim (k := fun a b => (⟨a, b⟩ : TokenB)) hh (fun _ _ => rfl) (fun a b => .refl _) ?_
  intro a b m _ h1 h2
  exact ⟨_, none, h1, h2, by simp, by simp [MAX_TOKEN_STR_LEN], by simp [MAX_TOKEN_STR_LEN, cstr]; rfl⟩

theorem initInstruction_sim (hh : s.heap = h) {E : Store → Heap → Prop} : Sim (initInstruction o s) (Memory.initInstruction o h)
    (fun a s' b h' => Made id (fun p => [p]) (fun m p => m p = some (.instr Gaia.initInstruction)) s a s' b h') E := by
  refine (alloc_new hh _).mono ?_ (fun _ _ he => he)
  rintro _ s1 _ h1 ⟨hh1, ⟨rfl, rfl, rfl⟩ | ⟨rfl, rfl, rfl⟩⟩
  · exact ⟨hh1, frame_asked s, rfl, by simp, by simp⟩
  · refine ⟨hh1, frame_grown s _, rfl, ?_, ?_⟩
    · rintro _ ⟨⟩; exact ⟨by simp, by simp, by simp⟩
    · rintro _ ⟨⟩; exact grown_same _ _

/-- A table as `init_symbol_table` makes it. -/
theorem initSymbolTable_sim (hh : s.heap = h) {E : Store → Heap → Prop} : Sim (initSymbolTable o s) (Memory.initSymbolTable o h)
    (fun a s' b h' => Made SymTabB.blk SymTabB.blocks TabAt s a s' b h') E := by
  refine pair_sim (k := fun a b => ({ blk := a, arr := b, slots := List.replicate SYM_BASE_SIZE none, count := 0 } : SymTabB)) hh
    (fun _ _ => rfl) (fun a b => ?_) ?_
  · unfold SymTabB.blocks; rw [slotsBlocks_none]; exact .refl _
  · intro a b m _ h1 h2
    refine ⟨by simpa using h1, by rw [symCells_none]; exact h2, ?_⟩
    intro y hy
    simp at hy

/-- References as `init_unresolved` makes them. -/
theorem initUnresolved_sim (hh : s.heap = h) {E : Store → Heap → Prop} : Sim (initUnresolved o s) (Memory.initUnresolved o h)
    (fun a s' b h' => Made UnresB.blk full (fun m u => UnresAt m u ∧ u.arr.isSome = true) s a s' b h') E := by
  refine pair_sim (k := fun a b => ({ blk := a, arr := some b, refs := List.replicate FWD_BASE_SIZE none, curr := 0 } : UnresB)) hh
    (fun _ _ => rfl) (fun a b => ?_) ?_
  · have : slotsBlocks RefB.blocks (List.replicate FWD_BASE_SIZE (none : Option (ForwardRef × RefB))) = [] :=
      Memory.slotsBlocks_none _ _
    unfold full; rw [this]; exact .refl _
  · intro a b m _ h1 h2
    refine ⟨⟨by simpa using h1, ?_, ?_⟩, rfl⟩
    · rintro _ ⟨⟩; rw [refCells_none]; exact h2
    · intro y hy
      simp at hy

/-- The loop of `init_sequence`. -/
theorem initTokens_sim {arr : Nat} {E : Store → Heap → Prop} : ∀ (n : Nat) (pre post : List (Option Nat)) (s : Store) (h : Heap), s.heap = h →
    arr < s.heap.next → post.length = n → s.mem arr = some (.ptrs (pre ++ post)) →
    Sim (initTokens arr n pre.length o s) (Memory.initTokens n o h) (fun a s' b h' => s'.heap = h' ∧ Frame [arr] s s' ∧ a = b.isSome ∧
      ∀ ts, b = some ts → ts.length = n ∧ s'.mem arr = some (.ptrs (pre ++ ts.map fun t => some t.blk)) ∧
        (∀ t ∈ ts, TokAt s'.mem t Gaia.initToken) ∧ New (ts.flatMap TokenB.blocks) s s') E := by
  intro n
  induction n with
  | zero =>
    intro pre post s h hh ha hp hm
    rw [List.length_eq_zero_iff.1 hp] at hm
    refine ⟨_, s, rfl, hh, (Only.refl _ _).frame, rfl, ?_⟩
    rintro _ ⟨⟩
    exact ⟨rfl, by simpa using hm, by simp, ⟨by simp, by simp, by simp⟩⟩
  | succ n ih =>
    intro pre post s h hh ha hp hm
    unfold initTokens Memory.initTokens
    refine Sim.bind (initToken_sim hh) ?_
    rintro a s1 b h1 ⟨g1, g2, rfl, g4, g5⟩
    have hm1 : s1.mem arr = some (.ptrs (pre ++ post)) := by rw [g2.mem _ ha (by simp)]; exact hm
    rw [bind_ok (setCell_run hm1 (by simp; omega))]
    cases b with
    | none =>
      exact ⟨_, _, rfl, g1, (g2.mono (by simp)).trans (frame_put (List.mem_singleton_self arr) _) (by simp), rfl, by simp⟩
    | some b =>
      have hset : (pre ++ post).set pre.length (some b.blk) = (pre ++ [some b.blk]) ++ post.tail := by
        rw [List.set_append_right _ _ (Nat.le_refl _)]
        cases post with
        | nil => cases hp
        | cons x post => simp
      have hs := g4 b rfl
      have ht := g5 b rfl
      have hsa : ∀ p ∈ b.blocks, p ≠ arr := fun p hp he => by have := hs.ge p hp; omega
      simp only [Option.map_some, Option.isNone_some, Bool.false_eq_true, if_false]
      rw [hset]
      have := ih (pre ++ [some b.blk]) post.tail (s1.put arr (.ptrs ((pre ++ [some b.blk]) ++ post.tail))) h1 g1
        (Nat.lt_of_lt_of_le ha g2.next) (by simp [hp]) (put_same _ _ _)
      rw [List.length_append] at this
      have e : initTokens arr n (pre.length + 1) = (initTokens arr n (pre.length + 1) >>= pure) := by
        funext o s
        rw [bind_apply]
        rcases initTokens arr n (pre.length + 1) o s with ⟨r, s'⟩
        cases r <;> rfl
      rw [e]
      refine Sim.bind this ?_
      rintro a s2 b' h2 ⟨k1, k2, rfl, k4⟩
      have hfr : Frame [arr] s s2 := ((g2.mono (by simp)).trans (frame_put (List.mem_singleton_self arr) _) (by simp)).trans k2 (by simp)
      cases b' with
      | none => exact ⟨_, _, rfl, k1, hfr, rfl, by simp⟩
      | some ts =>
        obtain ⟨q1, q2, q3, q4⟩ := k4 ts rfl
        refine ⟨_, _, rfl, k1, hfr, rfl, ?_⟩
        rintro _ ⟨⟩
        refine ⟨by simp [q1], by simpa using q2, ?_, ?_⟩
        · intro t htm
          rcases List.mem_cons.1 htm with rfl | htm
          · refine ht.congr fun p hp => ?_
            rw [k2.mem p (hs.lt p hp) (by simpa using hsa p hp), put_other (hsa p hp)]
          · exact q3 t htm
        · rw [List.flatMap_cons]
          refine ⟨?_, ?_, ?_⟩
          · rw [List.nodup_append]
            refine ⟨hs.nodup, q4.nodup, ?_⟩
            rintro p hp q hq rfl
            have := hs.lt p hp
            have := q4.ge p hq
            simp at this
            omega
          · intro p hp
            rcases List.mem_append.1 hp with hp | hp
            · exact hs.ge p hp
            · exact Nat.le_trans g2.next (q4.ge p hp)
          · intro p hp
            rcases List.mem_append.1 hp with hp | hp
            · exact Nat.lt_of_lt_of_le (hs.lt p hp) k2.next
            · exact q4.lt p hp

/-- The lexer as `init_lexer` makes it. -/
structure LexNew (m : Nat → Option Obj) (lB : LexerB) : Prop where
  len : lB.toks.length = MAX_TOKENS
  nodup : lB.blocks.Nodup
  arr : m lB.arr = some (.ptrs (lB.toks.map fun b => some b.blk))
  toks : ∀ b ∈ lB.toks, TokAt m b Gaia.initToken
  head : m lB.blk = some (.lexer { sequence := lB.arr, curr := 0, errorTk := none, line := none, lineNum := none, fileName := ⟨.name, 0⟩ })

theorem initLexer_sim (hh : s.heap = h) {E : Store → Heap → Prop} : Sim (initLexer o s) (Memory.initLexer o h)
    (fun a s' b h' => Made LexerB.blk LexerB.blocks LexNew s a s' b h') E := by
  unfold initLexer Memory.initLexer
  refine Sim.bind (alloc_new hh _) ?_
  rintro _ s1 _ h1 ⟨hh1, ⟨rfl, rfl, rfl⟩ | ⟨rfl, rfl, rfl⟩⟩
  · exact ⟨_, _, rfl, hh1, frame_asked s, rfl, by simp, by simp⟩
  · dsimp only
    cases ho : o h1.asked with
    | false =>
      have e1 : initSequence o (s.grown .raw) = (.ok none, (s.grown .raw).asked) := by
        unfold initSequence
        rw [bind_ok (getS_apply _ _), bind_ok (alloc_refused (by rw [hh1]; exact ho))]
        rfl
      rw [bind_ok e1, bind_ok (malloc_refused ho)]
      exact ⟨_, _, rfl, by rw [← hh1]; rfl, (frame_grown s _).trans (frame_asked _) (by simp), rfl, by simp, by simp⟩
    | true =>
      set s1 := s.grown .raw with hs1
      set s2 := s1.grown (.ptrs (s1.fresh MAX_TOKENS)) with hs2
      have hf1 : Frame [] s s1 := frame_grown s _
      have hf2 : Frame [] s1 s2 := frame_grown s1 _
      have n1 : s1.heap.next = s.heap.next + 1 := rfl
      have n2 : s2.heap.next = s1.heap.next + 1 := rfl
      have hh2 : s2.heap = h1.more := by rw [← hh1]; rfl
      have hraw : s2.mem s.heap.next = some .raw := by rw [hs2, grown_other (by omega)]; exact grown_same _ _
      have e1 : initSequence o s1 =
          (initTokens s1.heap.next MAX_TOKENS 0 >>= fun b => if b then pure (some s1.heap.next) else pure none) o s2 := by
        unfold initSequence
        rw [bind_ok (getS_apply _ _), bind_ok (alloc_granted (by rw [hh1]; exact ho))]
      have hs := initTokens_sim (o := o) (arr := s1.heap.next) (E := E) MAX_TOKENS [] (s1.fresh MAX_TOKENS) s2 h1.more hh2 (by omega) (by unfold Store.fresh; simp)
        (by rw [hs2]; exact grown_same _ _)
      rw [bind_ok (malloc_granted ho)]
      dsimp only
      rw [bind_apply (x := initSequence), e1, bind_apply (x := initTokens s1.heap.next MAX_TOKENS 0), bind_apply (x := Memory.initTokens MAX_TOKENS)]
      rw [List.length_nil] at hs
      generalize Memory.initTokens MAX_TOKENS o h1.more = r at hs ⊢
      obtain ⟨r, h3⟩ := r
      cases r with
      | ub => trivial
      | err f =>
        obtain ⟨s3, hx, he⟩ := hs
        rw [hx]
        exact ⟨s3, rfl, he⟩
      | ok b =>
        obtain ⟨a, s3, hx, k1, k2, rfl, k4⟩ := hs
        rw [hx]
        have hf3 : Frame [] s s3 := (hf1.trans hf2 (by simp)).trans k2 (by intro p hp; simp at hp; omega)
        cases b with
        | none => exact ⟨_, s3, rfl, k1, hf3, rfl, by simp, by simp⟩
        | some ts =>
          obtain ⟨q1, q2, q3, q4⟩ := k4 ts rfl
          have hr3 : s3.mem s.heap.next = some .raw := by rw [k2.mem _ (by omega) (by simp; omega)]; exact hraw
          simp only [Option.isSome_some, if_true]
          have e2 : ∀ x, store s.heap.next x o s3 = (.ok (), s3.put s.heap.next x) := fun x => store_run hr3
          refine ⟨some s.heap.next, s3.put s.heap.next (.lexer ⟨s1.heap.next, 0, none, none, none, ⟨.name, 0⟩⟩), ?_, k1, ?_, ?_, ?_, ?_⟩
          · show (store s.heap.next _ >>= fun _ => pure (some s.heap.next)) o s3 = _
            rw [bind_ok (e2 _)]; rfl
          · exact hf3.trans (frame_put (List.mem_singleton_self _) _) (by simp)
          · rfl
          · rintro _ ⟨⟩
            have hg : ∀ p ∈ ts.flatMap TokenB.blocks, s.heap.next + 2 ≤ p := fun p hp => q4.ge p hp
            have := k2.next
            refine ⟨?_, ?_, ?_⟩
            · unfold LexerB.blocks
              rw [List.nodup_append]
              refine ⟨q4.nodup, ?_, ?_⟩
              · rw [← hh1]; simp; omega
              · intro p hp q hq he
                have := hg p hp
                simp only [List.mem_cons, List.not_mem_nil, or_false] at hq
                rw [← hh1] at hq
                omega
            · intro p hp
              unfold LexerB.blocks at hp
              rw [← hh1] at hp
              simp only [List.mem_append, List.mem_cons, List.not_mem_nil, or_false] at hp
              rcases hp with hp | hp | hp
              · have := hg p hp; omega
              · omega
              · omega
            · intro p hp
              unfold LexerB.blocks at hp
              rw [← hh1] at hp
              simp only [List.mem_append, List.mem_cons, List.not_mem_nil, or_false] at hp
              show p < s3.heap.next
              rcases hp with hp | hp | hp
              · exact q4.lt p hp
              · omega
              · omega
          · rintro _ ⟨⟩
            have hg : ∀ p ∈ ts.flatMap TokenB.blocks, s.heap.next + 2 ≤ p := fun p hp => q4.ge p hp
            refine ⟨q1, ?_, ?_, ?_, ?_⟩
            · unfold LexerB.blocks
              rw [List.nodup_append]
              refine ⟨q4.nodup, ?_, ?_⟩
              · rw [← hh1]; simp; omega
              · intro p hp q hq he
                have := hg p hp
                simp only [List.mem_cons, List.not_mem_nil, or_false] at hq
                rw [← hh1] at hq
                omega
            · show (s3.put s.heap.next _).mem h1.next = _
              rw [← hh1, put_other (by omega)]; exact q2
            · intro b hb
              refine (q3 b hb).congr fun p hp => put_other ?_
              have := hg p (List.mem_flatMap.2 ⟨b, hb, hp⟩)
              omega
            · show (s3.put s.heap.next _).mem s.heap.next = _
              rw [put_same, ← hh1]

end
end Gaia.Low
