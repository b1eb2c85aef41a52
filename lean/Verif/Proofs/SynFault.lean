import Verif.Proofs.SynSpec

/-! Where a wrong line goes wrong. -/
namespace Gaia
open Spec

set_option maxHeartbeats 2000000 in
theorem synInstr_prefix {T T' : Nat → TokenType} {i k : Nat} {e : Err} (h : synInstr T i = .error (k, e))
    (hT : ∀ j ≤ k, T' j = T j) : synInstr T' i = .error (k, e) := by
  unfold synInstr synIndirect at h ⊢
  split_ifs at h <;> simp only [Except.error.injEq, Prod.mk.injEq] at h <;> obtain ⟨rfl, rfl⟩ := h <;>
    simp (disch := omega) only [hT] <;>
    repeat (first | rw [if_pos (by assumption)] | rw [if_neg (by assumption)])

/-- An error at token `i` depends on the tokens up to `i` only. -/
theorem syn_prefix {T T' : Nat → TokenType} {i : Nat} {e : Err} (h : syn T = .error (i, e)) (hT : ∀ j ≤ i, T' j = T j) :
    syn T' = .error (i, e) := by
  have h0 : T' 0 = T 0 := hT 0 (Nat.zero_le _)
  unfold syn at h ⊢
  rw [h0]
  split_ifs at h ⊢
  · exact synInstr_prefix h hT
  · unfold synLabel at h ⊢
    split_ifs at h
    rotate_left 2
    · rename_i g1 g2
      have hi : 1 ≤ i := by
        unfold synInstr synIndirect at h
        split_ifs at h <;> simp only [Except.error.injEq, Prod.mk.injEq] at h <;> omega
      rw [hT 1 hi, if_neg g1, if_pos g2]
      exact synInstr_prefix h hT
    all_goals
      simp only [Except.error.injEq, Prod.mk.injEq] at h
      obtain ⟨rfl, rfl⟩ := h
      simp (disch := omega) only [hT]
      repeat (first | rw [if_pos (by assumption)] | rw [if_neg (by assumption)])
  · unfold synDirective at h ⊢
    split_ifs at h <;> simp only [Except.error.injEq, Prod.mk.injEq] at h <;> obtain ⟨rfl, rfl⟩ := h <;>
      simp (disch := omega) only [hT] <;>
      repeat (first | rw [if_pos (by assumption)] | rw [if_neg (by assumption)])
  · unfold synBase at h ⊢
    split_ifs at h <;> simp only [Except.error.injEq, Prod.mk.injEq] at h <;> obtain ⟨rfl, rfl⟩ := h <;>
      simp (disch := omega) only [hT] <;>
      repeat (first | rw [if_pos (by assumption)] | rw [if_neg (by assumption)])
  · exact h

theorem synArg_viable {args : List Lexeme} {T : Nat → TokenType} {i k : Nat} {e : Err}
    (hT : ∀ j, T (i + 1 + j) = typeAt args j) (h : synInstr T i = .error (k, e)) :
    ∃ j, k = i + 1 + j ∧ j ≤ args.length ∧ e = .illegalSequence ∧ ∃ more, (parseArg (args.take j ++ more)).isSome = true := by
  have h0 : T (i + 1) = typeAt args 0 := hT 0
  have h1 : T (i + 1 + 1) = typeAt args 1 := hT 1
  have h2 : T (i + 1 + 1 + 1) = typeAt args 2 := hT 2
  have h3 : T (i + 1 + 1 + 1 + 1) = typeAt args 3 := hT 3
  have h4 : T (i + 1 + 1 + 1 + 1 + 1) = typeAt args 4 := hT 4
  have h5 : T (i + 1 + 1 + 1 + 1 + 1 + 1) = typeAt args 5 := hT 5
  unfold synInstr synIndirect at h
  simp only [h0, h1, h2, h3, h4, h5] at h
  clear h0 h1 h2 h3 h4 h5 hT
  split_ifs at h <;> simp only [Except.error.injEq, Prod.mk.injEq] at h <;> obtain ⟨rfl, rfl⟩ := h
  · rename_i g1 g2 g3 g4 g5 g6
    obtain ⟨x, args, rfl, hx⟩ := typeAt_inv g1 (by decide)
    obtain rfl := lexType_open hx
    obtain ⟨o, args, rfl, ho⟩ := operand_inv g2
    obtain ⟨x, args, rfl, hx⟩ := typeAt_inv g3 (by decide)
    obtain rfl := lexType_comma hx
    obtain ⟨x, args, rfl, hx⟩ := typeAt_inv g4 (by decide)
    obtain rfl := lexType_x hx
    obtain ⟨x, args, rfl, hx⟩ := typeAt_inv g5 (by decide)
    obtain rfl := lexType_close hx
    exact ⟨5, rfl, by simp, rfl, [], by simpa [parseArg] using ho⟩
  · rename_i g1 g2 g3 g4 g5
    obtain ⟨x, args, rfl, hx⟩ := typeAt_inv g1 (by decide)
    obtain rfl := lexType_open hx
    obtain ⟨o, args, rfl, ho⟩ := operand_inv g2
    obtain ⟨x, args, rfl, hx⟩ := typeAt_inv g3 (by decide)
    obtain rfl := lexType_comma hx
    obtain ⟨x, args, rfl, hx⟩ := typeAt_inv g4 (by decide)
    obtain rfl := lexType_x hx
    exact ⟨4, rfl, by simp, rfl, [.rpar], by simpa [parseArg] using ho⟩
  · rename_i g1 g2 g3 g4
    obtain ⟨x, args, rfl, hx⟩ := typeAt_inv g1 (by decide)
    obtain rfl := lexType_open hx
    obtain ⟨o, args, rfl, ho⟩ := operand_inv g2
    obtain ⟨x, args, rfl, hx⟩ := typeAt_inv g3 (by decide)
    obtain rfl := lexType_comma hx
    exact ⟨3, rfl, by simp, rfl, [.regX, .rpar], by simpa [parseArg] using ho⟩
  · rename_i g1 g2 g3 g4 g5 g6 g7
    obtain ⟨x, args, rfl, hx⟩ := typeAt_inv g1 (by decide)
    obtain rfl := lexType_open hx
    obtain ⟨o, args, rfl, ho⟩ := operand_inv g2
    obtain ⟨x, args, rfl, hx⟩ := typeAt_inv g4 (by decide)
    obtain rfl := lexType_close hx
    obtain ⟨x, args, rfl, hx⟩ := typeAt_inv g5 (by decide)
    obtain rfl := lexType_comma hx
    obtain ⟨x, args, rfl, hx⟩ := typeAt_inv g6 (by decide)
    obtain rfl := lexType_y hx
    exact ⟨5, rfl, by simp, rfl, [], by simpa [parseArg] using ho⟩
  · rename_i g1 g2 g3 g4 g5 g6
    obtain ⟨x, args, rfl, hx⟩ := typeAt_inv g1 (by decide)
    obtain rfl := lexType_open hx
    obtain ⟨o, args, rfl, ho⟩ := operand_inv g2
    obtain ⟨x, args, rfl, hx⟩ := typeAt_inv g4 (by decide)
    obtain rfl := lexType_close hx
    obtain ⟨x, args, rfl, hx⟩ := typeAt_inv g5 (by decide)
    obtain rfl := lexType_comma hx
    exact ⟨4, rfl, by simp, rfl, [.regY], by simpa [parseArg] using ho⟩
  · rename_i g1 g2 g3 g4 g5 g6
    obtain ⟨x, args, rfl, hx⟩ := typeAt_inv g1 (by decide)
    obtain rfl := lexType_open hx
    obtain ⟨o, args, rfl, ho⟩ := operand_inv g2
    obtain ⟨x, args, rfl, hx⟩ := typeAt_inv g4 (by decide)
    obtain rfl := lexType_close hx
    exact ⟨3, rfl, by simp, rfl, [], by simpa [parseArg] using ho⟩
  · rename_i g1 g2 g3 g4
    obtain ⟨x, args, rfl, hx⟩ := typeAt_inv g1 (by decide)
    obtain rfl := lexType_open hx
    obtain ⟨o, args, rfl, ho⟩ := operand_inv g2
    exact ⟨2, rfl, by simp, rfl, [.rpar], by simpa [parseArg] using ho⟩
  · rename_i g1 g2
    obtain ⟨x, args, rfl, hx⟩ := typeAt_inv g1 (by decide)
    obtain rfl := lexType_open hx
    exact ⟨1, rfl, by simp, rfl, [.lit 0, .rpar], by simp [parseArg, opd]⟩
  · rename_i g1 g2 g3 g4 g5
    obtain ⟨o, args, rfl, ho⟩ := operand_inv g2
    obtain ⟨x, args, rfl, hx⟩ := typeAt_inv g4 (by decide)
    obtain rfl := lexType_comma hx
    refine ⟨2, rfl, by simp, rfl, [.regX], ?_⟩
    rcases opd_cases ho with ⟨v, rfl⟩ | ⟨l, rfl⟩ <;> rfl
  · rename_i g1 g2 g3 g4
    obtain ⟨o, args, rfl, ho⟩ := operand_inv g2
    refine ⟨1, rfl, by simp, rfl, [], ?_⟩
    rcases opd_cases ho with ⟨v, rfl⟩ | ⟨l, rfl⟩ <;> rfl
  · rename_i g1 g2 g3 g4 g5
    obtain ⟨x, args, rfl, hx⟩ := typeAt_inv g3 (by decide)
    obtain rfl := lexType_hash hx
    obtain ⟨o, args, rfl, ho⟩ := operand_inv g4
    exact ⟨2, rfl, by simp, rfl, [], by simpa [parseArg] using ho⟩
  · rename_i g1 g2 g3 g4
    obtain ⟨x, args, rfl, hx⟩ := typeAt_inv g3 (by decide)
    obtain rfl := lexType_hash hx
    exact ⟨1, rfl, by simp, rfl, [.lit 0], by simp [parseArg, opd]⟩
  · rename_i g1 g2 g3 g4 g5
    obtain ⟨x, args, rfl, hx⟩ := typeAt_inv g4 (by decide)
    obtain rfl := lexType_a hx
    exact ⟨1, rfl, by simp, rfl, [], by simp [parseArg]⟩
  · exact ⟨0, rfl, by simp, rfl, [], by simp [parseArg]⟩

theorem head_star {ls : List Lexeme} (h : typeAt ls 0 ≠ .base) : ls.head? ≠ some .star := by
  cases ls with
  | nil => simp
  | cons x ls =>
    rintro hx
    obtain rfl : x = .star := by simpa using hx
    exact h rfl

theorem syn_viable {ls : List Lexeme} {i : Nat} {e : Err} (h : syn (typeAt ls) = .error (i, e)) :
    i ≤ ls.length ∧ Viable (ls.take i) ∧ e = if ls.head? = some .star then .illegalBase else .illegalSequence := by
  unfold syn at h
  split_ifs at h with q1 q2 q3 q4 q5
  · obtain ⟨x, args, rfl, hx⟩ := typeAt_inv q1 (by decide)
    obtain ⟨m, rfl⟩ := lexType_instr hx
    obtain ⟨j, rfl, hj, rfl, more, hm⟩ := synArg_viable (args := args) (fun j => by rw [Nat.zero_add, Nat.add_comm]; rfl) h
    refine ⟨by simp only [List.length_cons]; omega, ⟨more, ?_⟩, rfl⟩
    rw [Nat.zero_add, Nat.add_comm 1 j, List.take_succ_cons, List.cons_append]
    simpa [parse] using hm
  · obtain ⟨x, args, rfl, hx⟩ := typeAt_inv q2 (by decide)
    obtain ⟨l, rfl⟩ := lexType_label hx
    unfold synLabel at h
    by_cases hi : typeAt (.name l :: args) 1 = .instruction
    · rw [if_neg (by rw [hi]; simp), if_pos hi] at h
      obtain ⟨x, args, rfl, hx⟩ := typeAt_inv hi (by decide)
      obtain ⟨m, rfl⟩ := lexType_instr hx
      obtain ⟨j, rfl, hj, rfl, more, hm⟩ := synArg_viable (args := args) (i := 1) (fun j => by rw [Nat.add_comm]; rfl) h
      refine ⟨by simp only [List.length_cons]; omega, ⟨more, ?_⟩, rfl⟩
      rw [show 1 + 1 + j = j + 1 + 1 by omega, List.take_succ_cons, List.take_succ_cons, List.cons_append, List.cons_append]
      simpa [parse] using hm
    · split_ifs at h with p1 p2 p3 <;> simp only [Except.error.injEq, Prod.mk.injEq] at h <;> obtain ⟨rfl, rfl⟩ := h
      · have hk : ∃ k args', args = k :: args' ∧ (k = .eq ∨ k = .equ) := by
          rcases p1 with p1 | p1
          · obtain ⟨k, args', rfl, hk⟩ := typeAt_inv p1 (by decide)
            exact ⟨k, args', rfl, .inl (lexType_eq hk)⟩
          · obtain ⟨k, args', rfl, hk⟩ := typeAt_inv p1 (by decide)
            exact ⟨k, args', rfl, .inr (lexType_equ hk)⟩
        obtain ⟨k, args, rfl, hk⟩ := hk
        obtain ⟨x, args, rfl, hx⟩ := typeAt_inv p2 (by decide)
        obtain ⟨v, rfl⟩ := lexType_lit hx
        refine ⟨by simp, ⟨[], ?_⟩, rfl⟩
        rcases hk with rfl | rfl <;> rfl
      · have hk : ∃ k args', args = k :: args' ∧ (k = .eq ∨ k = .equ) := by
          rcases p1 with p1 | p1
          · obtain ⟨k, args', rfl, hk⟩ := typeAt_inv p1 (by decide)
            exact ⟨k, args', rfl, .inl (lexType_eq hk)⟩
          · obtain ⟨k, args', rfl, hk⟩ := typeAt_inv p1 (by decide)
            exact ⟨k, args', rfl, .inr (lexType_equ hk)⟩
        obtain ⟨k, args, rfl, hk⟩ := hk
        refine ⟨by simp, ⟨[.lit 0], ?_⟩, rfl⟩
        rcases hk with rfl | rfl <;> rfl
      · exact ⟨by simp, ⟨[], rfl⟩, rfl⟩
  · unfold synDirective at h
    split_ifs at h with p1 p2 p3 p4 p5 p6 p7 p8 p9 <;> simp only [Except.error.injEq, Prod.mk.injEq] at h <;> obtain ⟨rfl, rfl⟩ := h
    · obtain ⟨x, args, rfl, hx⟩ := typeAt_inv p1 (by decide)
      obtain rfl := lexType_define hx
      obtain ⟨x, args, rfl, hx⟩ := typeAt_inv p2 (by decide)
      obtain ⟨l, rfl⟩ := lexType_label hx
      obtain ⟨x, args, rfl, hx⟩ := typeAt_inv p3 (by decide)
      obtain ⟨v, rfl⟩ := lexType_lit hx
      exact ⟨by simp, ⟨[], rfl⟩, rfl⟩
    · obtain ⟨x, args, rfl, hx⟩ := typeAt_inv p1 (by decide)
      obtain rfl := lexType_define hx
      obtain ⟨x, args, rfl, hx⟩ := typeAt_inv p2 (by decide)
      obtain ⟨l, rfl⟩ := lexType_label hx
      exact ⟨by simp, ⟨[.lit 0], rfl⟩, rfl⟩
    · obtain ⟨x, args, rfl, hx⟩ := typeAt_inv p1 (by decide)
      obtain rfl := lexType_define hx
      exact ⟨by simp, ⟨[.name [], .lit 0], rfl⟩, rfl⟩
    · obtain ⟨x, args, rfl, hx⟩ := typeAt_inv (by assumption : typeAt ls 0 = .orgDirective) (by decide)
      obtain rfl := lexType_org hx
      obtain ⟨x, args, rfl, hx⟩ := typeAt_inv (by assumption : typeAt args 0 = .literal) (by decide)
      obtain ⟨v, rfl⟩ := lexType_lit hx
      exact ⟨by simp, ⟨[], rfl⟩, rfl⟩
    · obtain ⟨x, args, rfl, hx⟩ := typeAt_inv (by assumption : typeAt ls 0 = .orgDirective) (by decide)
      obtain rfl := lexType_org hx
      exact ⟨by simp, ⟨[.lit 0], rfl⟩, rfl⟩
    · obtain ⟨x, args, rfl, hx⟩ := typeAt_inv (by assumption : typeAt ls 0 = .endDirective) (by decide)
      obtain rfl := lexType_end hx
      exact ⟨by simp, ⟨[], rfl⟩, rfl⟩
    · refine ⟨by simp, ⟨[], rfl⟩, ?_⟩
      rw [if_neg (head_star (by intro h; rw [h] at q3; exact absurd q3 (by decide)))]
  · obtain ⟨x, args, rfl, hx⟩ := typeAt_inv q4 (by decide)
    obtain rfl := lexType_star hx
    unfold synBase at h
    split_ifs at h with p1 p2 p3 <;> simp only [Except.error.injEq, Prod.mk.injEq] at h <;> obtain ⟨rfl, rfl⟩ := h
    · obtain ⟨x, args, rfl, hx⟩ := typeAt_inv p1 (by decide)
      obtain rfl := lexType_eq hx
      obtain ⟨x, args, rfl, hx⟩ := typeAt_inv p2 (by decide)
      obtain ⟨v, rfl⟩ := lexType_lit hx
      exact ⟨by simp, ⟨[], rfl⟩, rfl⟩
    · obtain ⟨x, args, rfl, hx⟩ := typeAt_inv p1 (by decide)
      obtain rfl := lexType_eq hx
      exact ⟨by simp, ⟨[.lit 0], rfl⟩, rfl⟩
    · exact ⟨by simp, ⟨[.eq, .lit 0], rfl⟩, rfl⟩
  · simp only [Except.error.injEq, Prod.mk.injEq] at h
    obtain ⟨rfl, rfl⟩ := h
    refine ⟨by simp, ⟨[], rfl⟩, ?_⟩
    rw [if_neg (head_star q4)]

theorem typeAt_take (ls more : List Lexeme) {i j : Nat} (hj : j ≤ i) (hi : i < ls.length) :
    typeAt (ls.take (i + 1) ++ more) j = typeAt ls j := by
  unfold typeAt
  rw [List.getElem?_append_left (by rw [List.length_take]; omega), List.getElem?_take_of_lt (by omega)]

/-- Soundness: a syntax error is a fault, and the index is where it is. -/
theorem syn_fault {ls : List Lexeme} {i : Nat} {e : Err} (h : syn (typeAt ls) = .error (i, e)) :
    SynFault ls e i ∧ ¬ LineJunk ls := by
  obtain ⟨h1, h2, h3⟩ := syn_viable h
  have hne : ¬ ((parse ls).isSome = true ∨ LineJunk ls) := by
    rw [← syn_ok_iff, h]; simp
  push Not at hne
  refine ⟨⟨by simpa using hne.1, h1, h2, ?_, h3⟩, hne.2⟩
  rintro hi ⟨more, hm⟩
  have := (syn_ok_iff (ls.take (i + 1) ++ more)).2 (.inl hm)
  rw [syn_prefix h (fun j hj => typeAt_take ls more hj hi)] at this
  cases this

theorem viable_take {ls : List Lexeme} {j k : Nat} (hjk : j ≤ k) (h : Viable (ls.take k)) : Viable (ls.take j) := by
  obtain ⟨more, hm⟩ := h
  refine ⟨(ls.take k).drop j ++ more, ?_⟩
  rw [← List.append_assoc]
  have : ls.take j ++ (ls.take k).drop j = ls.take k := by
    have := List.take_append_drop j (ls.take k)
    rwa [List.take_take, Nat.min_eq_left hjk] at this
  rwa [this]

theorem synFault_unique {ls : List Lexeme} {e e' : Err} {i i' : Nat} (h : SynFault ls e i) (h' : SynFault ls e' i') :
    e = e' ∧ i = i' := by
  refine ⟨h.error.trans h'.error.symm, ?_⟩
  rcases Nat.lt_trichotomy i i' with hlt | heq | hlt
  · exact absurd (viable_take (by omega) h'.before) (h.stops (by have := h'.index; omega))
  · exact heq
  · exact absurd (viable_take (by omega) h.before) (h'.stops (by have := h.index; omega))

/-- Syntax errors, exactly. -/
theorem syn_error_iff (ls : List Lexeme) (e : Err) (i : Nat) :
    syn (typeAt ls) = .error (i, e) ↔ SynFault ls e i ∧ ¬ LineJunk ls := by
  constructor
  · exact syn_fault
  · rintro ⟨h, hj⟩
    cases hs : syn (typeAt ls) with
    | ok u =>
      exfalso
      rcases (syn_ok_iff ls).1 hs with h' | h'
      · rw [h.bad] at h'; cases h'
      · exact hj h'
    | error q =>
      obtain ⟨i', e'⟩ := q
      obtain ⟨rfl, rfl⟩ := synFault_unique h (syn_fault hs).1
      rfl

end Gaia
