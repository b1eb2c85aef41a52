import Verif.Proofs.Syntax
import Verif.Spec.SynFault

/-! Which lines the parser accepts: the grammar, plus anything after an indexed operand. -/
namespace Gaia
open Spec

theorem typeAt_zero (a : Lexeme) (l : List Lexeme) : typeAt (a :: l) 0 = lexType a := rfl
theorem typeAt_succ (a : Lexeme) (l : List Lexeme) (i : Nat) : typeAt (a :: l) (i + 1) = typeAt l i := rfl
theorem typeAt_nil (i : Nat) : typeAt [] i = .null := rfl

theorem typeAt_null {l : List Lexeme} {i : Nat} : typeAt l i = .null ↔ l.length ≤ i := by
  unfold typeAt
  cases h : l[i]? with
  | none => simpa using h
  | some x =>
    have hi : i < l.length := (List.getElem?_eq_some_iff.1 h).1
    cases x <;> simp [lexType] <;> omega

theorem isOperand_lexType (x : Lexeme) : isOperandType (lexType x) = (opd x).isSome := by
  cases x <;> rfl

theorem typeAt_zero_null {l : List Lexeme} : typeAt l 0 = .null ↔ l = [] := by
  rw [typeAt_null]; simp

theorem typeAt_inv {l : List Lexeme} {t : TokenType} (h : typeAt l 0 = t) (ht : t ≠ .null) :
    ∃ x l', l = x :: l' ∧ lexType x = t := by
  cases l with
  | nil => exact absurd h.symm ht
  | cons x l' => exact ⟨x, l', rfl, h⟩

theorem operand_inv {l : List Lexeme} (h : isOperandType (typeAt l 0) = true) :
    ∃ x l', l = x :: l' ∧ (opd x).isSome = true := by
  cases l with
  | nil => simp [typeAt, isOperandType] at h
  | cons x l' => exact ⟨x, l', rfl, by rw [← isOperand_lexType]; exact h⟩

theorem lexType_comma {x : Lexeme} (h : lexType x = .comma) : x = .comma := by cases x <;> simp [lexType] at h; rfl
theorem lexType_x {x : Lexeme} (h : lexType x = .xRegister) : x = .regX := by cases x <;> simp [lexType] at h; rfl
theorem lexType_y {x : Lexeme} (h : lexType x = .yRegister) : x = .regY := by cases x <;> simp [lexType] at h; rfl
theorem lexType_a {x : Lexeme} (h : lexType x = .accumulator) : x = .regA := by cases x <;> simp [lexType] at h; rfl
theorem lexType_open {x : Lexeme} (h : lexType x = .openParenthesis) : x = .lpar := by
  cases x <;> simp [lexType] at h; rfl
theorem lexType_close {x : Lexeme} (h : lexType x = .closeParenthesis) : x = .rpar := by
  cases x <;> simp [lexType] at h; rfl
theorem lexType_hash {x : Lexeme} (h : lexType x = .immediate) : x = .hash := by cases x <;> simp [lexType] at h; rfl
theorem lexType_eq {x : Lexeme} (h : lexType x = .equalSign) : x = .eq := by cases x <;> simp [lexType] at h; rfl
theorem lexType_equ {x : Lexeme} (h : lexType x = .equDirective) : x = .equ := by cases x <;> simp [lexType] at h; rfl
theorem lexType_star {x : Lexeme} (h : lexType x = .base) : x = .star := by cases x <;> simp [lexType] at h; rfl
theorem lexType_org {x : Lexeme} (h : lexType x = .orgDirective) : x = .org := by cases x <;> simp [lexType] at h; rfl
theorem lexType_end {x : Lexeme} (h : lexType x = .endDirective) : x = .stop := by cases x <;> simp [lexType] at h; rfl
theorem lexType_define {x : Lexeme} (h : lexType x = .defineDirective) : x = .define := by
  cases x <;> simp [lexType] at h; rfl
theorem lexType_lit {x : Lexeme} (h : lexType x = .literal) : ∃ v, x = .lit v := by
  cases x <;> simp [lexType] at h; exact ⟨_, rfl⟩
theorem lexType_label {x : Lexeme} (h : lexType x = .label) : ∃ v, x = .name v := by
  cases x <;> simp [lexType] at h; exact ⟨_, rfl⟩
theorem lexType_instr {x : Lexeme} (h : lexType x = .instruction) : ∃ v, x = .mnem v := by
  cases x <;> simp [lexType] at h; exact ⟨_, rfl⟩

theorem opd_cases {x : Lexeme} (h : (opd x).isSome = true) : (∃ v, x = .lit v) ∨ ∃ l, x = .name l := by
  cases x <;> simp [opd] at h
  · exact .inr ⟨_, rfl⟩
  · exact .inl ⟨_, rfl⟩

theorem synArg_ok {args : List Lexeme} {T : Nat → TokenType} {i : Nat} (hT : ∀ j, T (i + 1 + j) = typeAt args j)
    (h : synInstr T i = .ok ()) : (parseArg args).isSome = true ∨ ArgJunk args := by
  have h0 : T (i + 1) = typeAt args 0 := hT 0
  have h1 : T (i + 1 + 1) = typeAt args 1 := hT 1
  have h2 : T (i + 1 + 1 + 1) = typeAt args 2 := hT 2
  have h3 : T (i + 1 + 1 + 1 + 1) = typeAt args 3 := hT 3
  have h4 : T (i + 1 + 1 + 1 + 1 + 1) = typeAt args 4 := hT 4
  have h5 : T (i + 1 + 1 + 1 + 1 + 1 + 1) = typeAt args 5 := hT 5
  unfold synInstr synIndirect at h
  simp only [h0, h1, h2, h3, h4, h5] at h
  clear h0 h1 h2 h3 h4 h5 hT
  split_ifs at h
  · rename_i g1 g2 g3 g4 g5 g6
    obtain ⟨x, args, rfl, hx⟩ := typeAt_inv g1 (by decide)
    obtain rfl := lexType_open hx
    obtain ⟨o, args, rfl, ho⟩ := operand_inv g2
    obtain ⟨x, args, rfl, hx⟩ := typeAt_inv g3 (by decide)
    obtain rfl := lexType_comma hx
    obtain ⟨x, args, rfl, hx⟩ := typeAt_inv g4 (by decide)
    obtain rfl := lexType_x hx
    obtain ⟨x, args, rfl, hx⟩ := typeAt_inv g5 (by decide)
    obtain rfl := lexType_close hx
    obtain rfl := typeAt_zero_null.1 g6
    left; simpa [parseArg] using ho
  · rename_i g1 g2 g3 g4 g5 g6 g7
    obtain ⟨x, args, rfl, hx⟩ := typeAt_inv g1 (by decide)
    obtain rfl := lexType_open hx
    obtain ⟨o, args, rfl, ho⟩ := operand_inv g2
    obtain ⟨x, args, rfl, hx⟩ := typeAt_inv g4 (by decide)
    obtain rfl := lexType_close hx
    obtain ⟨x, args, rfl, hx⟩ := typeAt_inv g5 (by decide)
    obtain rfl := lexType_comma hx
    obtain ⟨x, args, rfl, hx⟩ := typeAt_inv g6 (by decide)
    obtain rfl := lexType_y hx
    obtain rfl := typeAt_zero_null.1 g7
    left; simpa [parseArg] using ho
  · rename_i g1 g2 g3 g4 g5 g6
    obtain ⟨x, args, rfl, hx⟩ := typeAt_inv g1 (by decide)
    obtain rfl := lexType_open hx
    obtain ⟨o, args, rfl, ho⟩ := operand_inv g2
    obtain ⟨x, args, rfl, hx⟩ := typeAt_inv g4 (by decide)
    obtain rfl := lexType_close hx
    obtain rfl := typeAt_zero_null.1 g6
    left; simpa [parseArg] using ho
  · rename_i g1 g2 g3
    obtain ⟨o, args, rfl, ho⟩ := operand_inv g2
    obtain rfl := typeAt_zero_null.1 g3
    left
    rcases opd_cases ho with ⟨v, rfl⟩ | ⟨l, rfl⟩ <;> rfl
  · rename_i g1 g2 g3 g4 g5
    obtain ⟨o, args, rfl, ho⟩ := operand_inv g2
    obtain ⟨x, args, rfl, hx⟩ := typeAt_inv g4 (by decide)
    obtain rfl := lexType_comma hx
    have hr : ∃ r args', args = r :: args' ∧ (r = .regX ∨ r = .regY) := by
      rcases g5 with g5 | g5
      · obtain ⟨x, args, rfl, hx⟩ := typeAt_inv g5 (by decide)
        exact ⟨x, args, rfl, .inl (lexType_x hx)⟩
      · obtain ⟨x, args, rfl, hx⟩ := typeAt_inv g5 (by decide)
        exact ⟨x, args, rfl, .inr (lexType_y hx)⟩
    obtain ⟨r, args, rfl, hr⟩ := hr
    by_cases hm : args = []
    · subst hm
      left
      rcases hr with rfl | rfl <;> rcases opd_cases ho with ⟨v, rfl⟩ | ⟨l, rfl⟩ <;> rfl
    · right
      exact ⟨o, r, args, rfl, ho, hr, hm⟩
  · rename_i g1 g2 g3 g4 g5
    obtain ⟨x, args, rfl, hx⟩ := typeAt_inv g3 (by decide)
    obtain rfl := lexType_hash hx
    obtain ⟨o, args, rfl, ho⟩ := operand_inv g4
    obtain rfl := typeAt_zero_null.1 g5
    left; simpa [parseArg] using ho
  · rename_i g1 g2 g3 g4 g5
    obtain ⟨x, args, rfl, hx⟩ := typeAt_inv g4 (by decide)
    obtain rfl := lexType_a hx
    obtain rfl := typeAt_zero_null.1 g5
    left; rfl
  · rename_i g1 g2 g3 g4 g5
    obtain rfl := typeAt_zero_null.1 g5
    left; rfl

theorem synArg_of_parse {args : List Lexeme} {T : Nat → TokenType} {i : Nat}
    (hT : ∀ j, T (i + 1 + j) = typeAt args j) (h : (parseArg args).isSome = true ∨ ArgJunk args) :
    synInstr T i = .ok () := by
  have h0 : T (i + 1) = typeAt args 0 := hT 0
  have h1 : T (i + 1 + 1) = typeAt args 1 := hT 1
  have h2 : T (i + 1 + 1 + 1) = typeAt args 2 := hT 2
  have h3 : T (i + 1 + 1 + 1 + 1) = typeAt args 3 := hT 3
  have h4 : T (i + 1 + 1 + 1 + 1 + 1) = typeAt args 4 := hT 4
  have h5 : T (i + 1 + 1 + 1 + 1 + 1 + 1) = typeAt args 5 := hT 5
  unfold synInstr synIndirect
  simp only [h0, h1, h2, h3, h4, h5]
  clear h0 h1 h2 h3 h4 h5 hT
  rcases h with h | ⟨o, r, more, rfl, ho, hr, _⟩
  · unfold parseArg at h
    split at h
    · rfl
    · rfl
    · rename_i o
      have ho : (opd o).isSome = true := by simpa using h
      rcases opd_cases ho with ⟨v, rfl⟩ | ⟨l, rfl⟩ <;> rfl
    · rename_i o _
      have ho : (opd o).isSome = true := by simpa using h
      rcases opd_cases ho with ⟨v, rfl⟩ | ⟨l, rfl⟩ <;> rfl
    · rename_i o
      have ho : (opd o).isSome = true := by simpa using h
      rcases opd_cases ho with ⟨v, rfl⟩ | ⟨l, rfl⟩ <;> rfl
    · rename_i o
      have ho : (opd o).isSome = true := by simpa using h
      rcases opd_cases ho with ⟨v, rfl⟩ | ⟨l, rfl⟩ <;> rfl
    · rename_i o
      have ho : (opd o).isSome = true := by simpa using h
      rcases opd_cases ho with ⟨v, rfl⟩ | ⟨l, rfl⟩ <;> rfl
    · rename_i o
      have ho : (opd o).isSome = true := by simpa using h
      rcases opd_cases ho with ⟨v, rfl⟩ | ⟨l, rfl⟩ <;> rfl
    · rename_i o
      have ho : (opd o).isSome = true := by simpa using h
      rcases opd_cases ho with ⟨v, rfl⟩ | ⟨l, rfl⟩ <;> rfl
    · simp at h
  · rcases opd_cases ho with ⟨v, rfl⟩ | ⟨l, rfl⟩ <;> rcases hr with rfl | rfl <;> rfl

/-- Exactly these lines are accepted. -/
theorem syn_ok_iff (ls : List Lexeme) : syn (typeAt ls) = .ok () ↔ ((parse ls).isSome = true ∨ LineJunk ls) := by
  constructor
  · intro h
    unfold syn at h
    split_ifs at h
    · rename_i g
      obtain ⟨x, args, rfl, hx⟩ := typeAt_inv g (by decide)
      obtain ⟨m, rfl⟩ := lexType_instr hx
      rcases synArg_ok (args := args) (fun j => by rw [Nat.zero_add, Nat.add_comm]; rfl) h with h | h
      · left; simpa [parse] using h
      · right; exact ⟨m, args, .inl rfl, h⟩
    · rename_i g
      obtain ⟨x, args, rfl, hx⟩ := typeAt_inv g (by decide)
      obtain ⟨l, rfl⟩ := lexType_label hx
      unfold synLabel at h
      split_ifs at h
      · rename_i g1 g2 g3
        rcases g1 with g1 | g1
        all_goals
          obtain ⟨x, args, rfl, hx⟩ := typeAt_inv (l := args) g1 (by decide)
          obtain ⟨y, args, rfl, hy⟩ := typeAt_inv (l := args) g2 (by decide)
          obtain ⟨v, rfl⟩ := lexType_lit hy
          obtain rfl := typeAt_zero_null.1 (show typeAt args 0 = .null from g3)
          left
        · obtain rfl := lexType_eq hx
          rfl
        · obtain rfl := lexType_equ hx
          rfl
      · rename_i g1 g2
        obtain ⟨x, args, rfl, hx⟩ := typeAt_inv (l := args) g2 (by decide)
        obtain ⟨m, rfl⟩ := lexType_instr hx
        rcases synArg_ok (args := args) (fun j => by rw [Nat.add_comm]; rfl) h with h | h
        · left; simpa [parse] using h
        · right; exact ⟨m, args, .inr ⟨l, rfl⟩, h⟩
      · rename_i g1 g2 g3
        obtain rfl := typeAt_zero_null.1 (show typeAt args 0 = .null from g3)
        left; rfl
    · unfold synDirective at h
      split_ifs at h
      · rename_i g0 g1 g2 g3
        obtain ⟨x, args, rfl, hx⟩ := typeAt_inv g0 (by decide)
        obtain rfl := lexType_define hx
        obtain ⟨x, args, rfl, hx⟩ := typeAt_inv (l := args) g1 (by decide)
        obtain ⟨l, rfl⟩ := lexType_label hx
        obtain ⟨x, args, rfl, hx⟩ := typeAt_inv (l := args) g2 (by decide)
        obtain ⟨v, rfl⟩ := lexType_lit hx
        obtain rfl := typeAt_zero_null.1 (show typeAt args 0 = .null from g3)
        left; rfl
      · rename_i g0 g1 g2
        obtain ⟨x, args, rfl, hx⟩ := typeAt_inv g0 (by decide)
        obtain rfl := lexType_org hx
        obtain ⟨x, args, rfl, hx⟩ := typeAt_inv (l := args) g1 (by decide)
        obtain ⟨v, rfl⟩ := lexType_lit hx
        obtain rfl := typeAt_zero_null.1 (show typeAt args 0 = .null from g2)
        left; rfl
      · rename_i g0 g1
        obtain ⟨x, args, rfl, hx⟩ := typeAt_inv g0 (by decide)
        obtain rfl := lexType_end hx
        obtain rfl := typeAt_zero_null.1 (show typeAt args 0 = .null from g1)
        left; rfl
    · rename_i g0
      unfold synBase at h
      split_ifs at h
      rename_i g1 g2 g3
      obtain ⟨x, args, rfl, hx⟩ := typeAt_inv g0 (by decide)
      obtain rfl := lexType_star hx
      obtain ⟨x, args, rfl, hx⟩ := typeAt_inv (l := args) g1 (by decide)
      obtain rfl := lexType_eq hx
      obtain ⟨x, args, rfl, hx⟩ := typeAt_inv (l := args) g2 (by decide)
      obtain ⟨v, rfl⟩ := lexType_lit hx
      obtain rfl := typeAt_zero_null.1 (show typeAt args 0 = .null from g3)
      left; rfl
    · rename_i g0
      obtain rfl := typeAt_zero_null.1 g0
      left; rfl
  · rintro (h | ⟨m, args, rfl | ⟨l, rfl⟩, hj⟩)
    · unfold parse at h
      split at h
      · rfl
      · rfl
      · rfl
      · rfl
      · rfl
      · rfl
      · rfl
      · rfl
      · rename_i m rest
        have ho : (parseArg rest).isSome = true := by simpa using h
        show synInstr _ 0 = _
        exact synArg_of_parse (args := rest) (fun j => by rw [Nat.zero_add, Nat.add_comm]; rfl) (.inl ho)
      · rename_i l m rest
        have ho : (parseArg rest).isSome = true := by simpa using h
        show synInstr _ 1 = _
        exact synArg_of_parse (args := rest) (fun j => by rw [Nat.add_comm]; rfl) (.inl ho)
      · simp at h
    · show synInstr _ 0 = _
      exact synArg_of_parse (args := args) (fun j => by rw [Nat.zero_add, Nat.add_comm]; rfl) (.inr hj)
    · show synInstr _ 1 = _
      exact synArg_of_parse (args := args) (fun j => by rw [Nat.add_comm]; rfl) (.inr hj)

end Gaia
