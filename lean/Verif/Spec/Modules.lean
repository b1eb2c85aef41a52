import Verif.Spec.Append

/-! Specification: two texts that share no names, one behind the other. -/
namespace Gaia.Spec
open Gaia

/-- The label a statement refers to in its operand. -/
def Stmt.reference : Stmt → Option Str
  | .instr _ _ a => match a.opd with
    | some (.sym l) => some l
    | _ => none
  | _ => none

/-- The names a text defines. -/
def definedIn (src : List Byte) : List Str := (stmtsOf src).filterMap Reference.defined

/-- The names a text refers to. -/
def referredIn (src : List Byte) : List Str := (stmtsOf src).filterMap Stmt.reference

/-- No line of the text is `.END`. -/
def WithoutEnd (src : List Byte) : Prop := ∀ st ∈ stmtsOf src, st ≠ .stop

instance (src : List Byte) : Decidable (WithoutEnd src) := by unfold WithoutEnd; infer_instance

/-- `b` neither defines nor uses a name that `a` defines. -/
def Strangers (a b : List Byte) : Prop := ∀ l ∈ definedIn b ++ referredIn b, l ∉ definedIn a

instance (a b : List Byte) : Decidable (Strangers a b) := by unfold Strangers; infer_instance

instance (line : List Byte) (x : Nat) : Decidable (SetsOrigin line x) := by unfold SetsOrigin; infer_instance

/-- The two messages are the same, but for the number of the line: `n` more in the second. (No message at all is also the same.) -/
def SameMessage (fn : Str) (n : Nat) (t t' : Str) : Prop :=
  (t = [] ∧ t' = []) ∨ ∃ text e pos k, t = diag text e pos fn k ∧ t' = diag text e pos fn (k + n)

end Gaia.Spec
