import Verif.Spec.Syntax

/-!
Specification of syntax errors: where a sequence of lexemes stops being the beginning of a statement.
-/
namespace Gaia.Spec
open Gaia

/-- The lexemes can be continued to a statement. -/
def Viable (ls : List Lexeme) : Prop := ∃ more, (parse (ls ++ more)).isSome = true

/-- `SynFault ls e i`: the lexemes are no statement. Those before index `i` are the beginning of one, together with the
one at index `i` they are not; if `i` is the number of lexemes, something is missing at the end. The error is "illegal
base" in a line that starts with `*` and "illegal syntax" in all others. -/
structure SynFault (ls : List Lexeme) (e : Err) (i : Nat) : Prop where
  bad : parse ls = none
  index : i ≤ ls.length
  before : Viable (ls.take i)
  stops : i < ls.length → ¬ Viable (ls.take (i + 1))
  error : e = if ls.head? = some .star then .illegalBase else .illegalSequence

/-- An operand, a comma, `X` or `Y`, and something more (`LDA $10,X ADC`): gaia ignores the rest of the line. -/
def ArgJunk (args : List Lexeme) : Prop :=
  ∃ o r more, args = o :: .comma :: r :: more ∧ (opd o).isSome = true ∧ (r = .regX ∨ r = .regY) ∧ more ≠ []

/-- A line with lexemes after an indexed operand. -/
def LineJunk (ls : List Lexeme) : Prop :=
  ∃ m args, (ls = .mnem m :: args ∨ ∃ l, ls = .name l :: .mnem m :: args) ∧ ArgJunk args

end Gaia.Spec
