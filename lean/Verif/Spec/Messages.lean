import Mathlib.Data.List.Forall2
import Verif.Spec.Rename
import Verif.Spec.WriteLog
import Verif.Spec.Pieces
import Verif.Spec.Diagnostic

/-! Specification: when two failing runs complain about the same thing. -/
namespace Gaia.Spec
open Gaia

/-- The text of a line as the messages show it: up to a NUL. -/
def shown (l : List Byte) : Str := l.takeWhile (· != 0)

/-- The offsets point to the lexemes of the same number in the two lines; if the lines cannot be cut into lexemes, nothing is said about
the offsets. No offset corresponds to no offset. -/
def SamePlace (l l' : List Byte) : Option Nat → Option Nat → Prop
  | none, none => True
  | some p, some p' => (∃ (x x' : List (Nat × Lexeme)) (i : Nat) (a a' : Lexeme), Cuts l x ∧ Cuts l' x' ∧ x[i]? = some (p, a) ∧ x'[i]? = some (p', a')) ∨
      ((¬ ∃ x, Cuts l x) ∧ ¬ ∃ x', Cuts l' x')
  | _, _ => False

/-- The texts printed for the two sources are both empty, or both are diagnostics: for lines of the same number, with the same message,
each quoting its own line, with arrows at the same place. -/
def SameComplaint (fn : Str) (src src' : List Byte) (text text' : Str) : Prop :=
  (text = [] ∧ text' = []) ∨ ∃ k l l' e p p', (lines src)[k]? = some l ∧ (lines src')[k]? = some l' ∧ SamePlace l l' p p' ∧
    text = diag (shown l) e p fn (k + 1) ∧ text' = diag (shown l') e p' fn (k + 1)

/-- gaia succeeds on both sources, with the same output file and report; or it fails on both, leaving the same output file and complaining
about the same thing. -/
def SameOutcome (srcName outName : Str) (w w' : World) (src src' : List Byte) : Prop :=
  (∃ bin total symbols, Succeeds w srcName outName bin total symbols ∧ Succeeds w' srcName outName bin total symbols) ∨
  ∃ text text' bin, FailsLeaving w srcName outName text bin ∧ FailsLeaving w' srcName outName text' bin ∧ SameComplaint srcName src src' text text'

/-- The number of a line in a source after another line was inserted behind the first `n`. -/
def afterInsertion (n k : Nat) : Nat := if k ≤ n then k else k + 1

/-- The texts are both empty, or both are the same diagnostic for a piece of the source, but for the number of the line, which counts the
line inserted behind the first `n`. -/
def ShiftedComplaint (fn : Str) (n : Nat) (src : List Byte) (text text' : Str) : Prop :=
  (text = [] ∧ text' = []) ∨ ∃ k piece e p, 1 ≤ k ∧ (pieces src)[k - 1]? = some piece ∧
    text = diag (shown piece) e p fn k ∧ text' = diag (shown piece) e p fn (afterInsertion n k)

/-- The texts are both empty, or both are diagnostics for the same line number, with the same message and the arrow at the same column, quoting
texts that differ only in the case of letters. -/
def RecasedComplaint (fn : Str) (src src' : List Byte) (text text' : Str) : Prop :=
  (text = [] ∧ text' = []) ∨ ∃ k piece piece' e p, (pieces src)[k]? = some piece ∧ (pieces src')[k]? = some piece' ∧
    List.Forall₂ Recased piece piece' ∧
    text = diag (shown piece) e p fn (k + 1) ∧ text' = diag (shown piece') e p fn (k + 1)

end Gaia.Spec
