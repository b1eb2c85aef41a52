import Verif.Proofs.Modes
import Verif.Spec.Check

/-! What the pure machine sees of a line that the grammar accepts. -/
namespace Gaia
open Spec

/-- The lexeme of an operand. -/
def opdLexeme : Opd → Lexeme
  | .lit v => .lit v
  | .sym l => .name l

/-- The operand lexeme of an argument. -/
def argLexeme : Arg → Option Lexeme
  | .none => none
  | .acc => some .regA
  | .imm o | .plain o | .idxX o | .idxY o | .ind o | .indX o | .indY o =>
    some (opdLexeme o)

theorem argLexeme_some {a : Arg} {o : Opd} (h : a.opd = some o) :
    argLexeme a = some (opdLexeme o) := by
  cases a <;> simp [Arg.opd] at h <;> subst h <;> rfl

theorem opd_some {x : Lexeme} {o : Opd} (h : opd x = some o) :
    x = opdLexeme o := by
  cases x <;> simp [opd] at h <;> subst h <;> rfl

theorem parseArg_facts {r : List Lexeme} {a : Arg} (h : parseArg r = some a) :
    shape r = argShape a ∧ lastMnem r = none ∧ r.find? operandLike = argLexeme a := by
  unfold parseArg at h
  split at h
  all_goals first
    | (simp only [Option.map_eq_some_iff] at h
       obtain ⟨o, ho, rfl⟩ := h
       have := opd_some ho
       subst this
       cases o <;> exact ⟨rfl, rfl, rfl⟩)
    | (simp only [Option.some.injEq] at h; subst h; exact ⟨rfl, rfl, rfl⟩)
    | (simp at h)

theorem parse_instr {ls : List Lexeme} {lab : Option Str} {m : Mnemonic} {a : Arg}
    (h : parse ls = some (.instr lab m a)) :
    (lab = none ∧ ∃ r, ls = .mnem m :: r ∧ parseArg r = some a) ∨
    (∃ l r, lab = some l ∧ ls = .name l :: .mnem m :: r ∧ parseArg r = some a) := by
  unfold parse at h
  split at h
  all_goals first
    | (simp at h; done)
    | (simp only [Option.map_eq_some_iff, Stmt.instr.injEq] at h
       obtain ⟨a', h1, rfl, rfl, rfl⟩ := h
       first
         | exact .inl ⟨rfl, _, rfl, h1⟩
         | exact .inr ⟨_, _, rfl, rfl, h1⟩)

/-- Everything `instrStep` looks at. -/
theorem instr_facts {ls : List (Nat × Lexeme)} {lab : Option Str} {m : Mnemonic} {a : Arg}
    (h : parse (ls.map (·.2)) = some (.instr lab m a)) :
    shape (ls.map (·.2)) = argShape a ∧ lastMnem (ls.map (·.2)) = some m ∧
    (operandOf ls).map (·.2) = argLexeme a ∧ isStop ls = false ∧
    (∀ pc, (declared pc ls).map (fun q => q.2) = lab.map fun l => (l, pc)) ∧ (lab = none → originOf ls = none) := by
  have hop : (operandOf ls).map (·.2) = (ls.tail.map (·.2)).find? operandLike := by
    unfold operandOf
    rw [List.find?_map]
    rfl
  rcases parse_instr h with ⟨rfl, r, hr, ha⟩ | ⟨l, r, rfl, hr, ha⟩
  · obtain ⟨f1, f2, f3⟩ := parseArg_facts ha
    match ls, hr with
    | (p, x) :: ls', hr =>
      simp only [List.map_cons, List.cons.injEq] at hr
      obtain ⟨rfl, rfl⟩ := hr
      refine ⟨?_, ?_, ?_, rfl, fun pc => rfl, fun _ => rfl⟩
      · rw [← f1]; rfl
      · simp [lastMnem, f2]
      · rw [hop]; exact f3
  · obtain ⟨f1, f2, f3⟩ := parseArg_facts ha
    match ls, hr with
    | (p, x) :: (q, y) :: ls', hr =>
      simp only [List.map_cons, List.cons.injEq] at hr
      obtain ⟨rfl, rfl, rfl⟩ := hr
      refine ⟨?_, ?_, ?_, rfl, fun pc => ?_, fun h => by cases h⟩
      · rw [← f1]; rfl
      · simp [lastMnem, f2]
      · rw [hop]
        have : ((q, Lexeme.mnem m) :: ls').map (·.2) = .mnem m :: ls'.map (·.2) := rfl
        rw [List.tail_cons, this, List.find?_cons_of_neg (by simp [operandLike])]
        exact f3
      · cases ls' <;> rfl

theorem parseArg_operands {r : List Lexeme} {a : Arg} (h : parseArg r = some a) :
    (r.filter operandLike).length ≤ 1 := by
  unfold parseArg at h
  split at h
  all_goals first
    | (simp only [Option.map_eq_some_iff] at h
       obtain ⟨o, ho, rfl⟩ := h
       have := opd_some ho
       subst this
       cases o <;> exact Nat.le_refl 1)
    | decide
    | (simp at h)

theorem nameOffsets_filter (ls : List (Nat × Lexeme)) :
    nameOffsets ls = nameOffsets (ls.filter fun q => operandLike q.2) := by
  unfold nameOffsets
  induction ls with
  | nil => rfl
  | cons q ls ih =>
    obtain ⟨p, x⟩ := q
    cases x <;> simp [operandLike, ih]

theorem nameOffsets_operand {ls : List (Nat × Lexeme)} (h : ((ls.map (·.2)).filter operandLike).length ≤ 1)
    {p : Nat} {l : Str} (hf : ls.find? (fun q => operandLike q.2) = some (p, .name l)) : nameOffsets ls = [p] := by
  rw [nameOffsets_filter]
  have h1 : (ls.filter fun q => operandLike q.2).length ≤ 1 := by
    rw [List.filter_map, List.length_map] at h
    exact h
  rw [← List.head?_filter] at hf
  generalize ls.filter (fun q => operandLike q.2) = F at *
  match F, h1, hf with
  | [q], _, hf => simp at hf; subst hf; rfl

/-- A message about the operand points at the operand. -/
theorem operand_pos {ls : List (Nat × Lexeme)} {lab : Option Str} {m : Mnemonic} {a : Arg}
    (h : parse (ls.map (·.2)) = some (.instr lab m a)) {p : Nat} {l : Str} (hq : operandOf ls = some (p, .name l)) :
    (nameOffsets ls).getLast? = some p := by
  unfold operandOf at hq
  rcases parse_instr h with ⟨rfl, r, hr, ha⟩ | ⟨l', r, rfl, hr, ha⟩
  · match ls, hr with
    | (p', x) :: ls', hr =>
      simp only [List.map_cons, List.cons.injEq] at hr
      obtain ⟨rfl, rfl⟩ := hr
      have := nameOffsets_operand (parseArg_operands ha) hq
      show (nameOffsets ls').getLast? = _
      rw [this]; rfl
  · match ls, hr with
    | (p', x) :: (q, y) :: ls', hr =>
      simp only [List.map_cons, List.cons.injEq] at hr
      obtain ⟨rfl, rfl, rfl⟩ := hr
      rw [List.tail_cons, List.find?_cons_of_neg (by simp [operandLike])] at hq
      have := nameOffsets_operand (parseArg_operands ha) hq
      show (p' :: nameOffsets ls').getLast? = _
      rw [this]; rfl

/-- The other statements. -/
def StmtForm (ls : List (Nat × Lexeme)) : Stmt → Prop
    | .empty => ls = []
    | .label l => ∃ p, ls = [(p, .name l)]
    | .const l v => (∃ p q r, ls = [(p, .name l), (q, .eq), (r, .lit v)]) ∨
        (∃ p q r, ls = [(p, .name l), (q, .equ), (r, .lit v)]) ∨ ∃ p q r, ls = [(p, .define), (q, .name l), (r, .lit v)]
    | .org v => (∃ p q, ls = [(p, .org), (q, .lit v)]) ∨ ∃ p q r, ls = [(p, .star), (q, .eq), (r, .lit v)]
    | .stop => ∃ p, ls = [(p, .stop)]
    | .instr .. => True

theorem other_facts {ls : List (Nat × Lexeme)} {s : Stmt} (h : parse (ls.map (·.2)) = some s) : StmtForm ls s := by
  generalize hx : ls.map (·.2) = xs at h
  unfold parse at h
  split at h <;> try simp only [Option.some.injEq, reduceCtorEq] at h
  · subst h
    match ls, hx with | [], _ => rfl
  · subst h
    match ls, hx with | [(p, _)], h => simp at h; subst h; exact ⟨p, rfl⟩
  · subst h
    match ls, hx with
    | [(p, _), (q, _), (r, _)], h => simp at h; obtain ⟨rfl, rfl, rfl⟩ := h; exact .inl ⟨p, q, r, rfl⟩
  · subst h
    match ls, hx with
    | [(p, _), (q, _), (r, _)], h => simp at h; obtain ⟨rfl, rfl, rfl⟩ := h; exact .inr (.inl ⟨p, q, r, rfl⟩)
  · subst h
    match ls, hx with
    | [(p, _), (q, _), (r, _)], h => simp at h; obtain ⟨rfl, rfl, rfl⟩ := h; exact .inr (.inr ⟨p, q, r, rfl⟩)
  · subst h
    match ls, hx with
    | [(p, _), (q, _)], h => simp at h; obtain ⟨rfl, rfl⟩ := h; exact .inl ⟨p, q, rfl⟩
  · subst h
    match ls, hx with
    | [(p, _), (q, _), (r, _)], h => simp at h; obtain ⟨rfl, rfl, rfl⟩ := h; exact .inr ⟨p, q, r, rfl⟩
  · subst h
    match ls, hx with | [(p, _)], h => simp at h; subst h; exact ⟨p, rfl⟩
  all_goals
    simp only [Option.map_eq_some_iff] at h
    obtain ⟨_, _, rfl⟩ := h
    trivial

end Gaia
