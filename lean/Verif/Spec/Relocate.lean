import Verif.Spec.Reference

/-!
Specification: code that can be put anywhere.

A body of source text is assembled behind a line that sets the origin. `Cell` is a byte of its code as a function of that origin.
-/
namespace Gaia.Spec
open Gaia

/-- A byte of code that does not know yet where it will be: a fixed byte, or the low or the high byte of an address `off` bytes after
the origin. -/
inductive Cell
  | fixed (b : Byte)
  | low (off : Nat)
  | high (off : Nat)
  deriving DecidableEq, Repr

/-- The byte if the origin is `x`. -/
def Cell.at (x : Nat) : Cell → Byte
  | .fixed b => b
  | .low off => UInt8.ofNat ((x + off) % 256)
  | .high off => UInt8.ofNat ((x + off) / 256 % 256)

/-- The statement of a piece of the source, if it is one. -/
def stmtOf (piece : List Byte) : Option Stmt :=
  match Reference.lexemesOf piece with
  | .error _ => none
  | .ok ls => match Reference.statement (ls.map (·.2)) with
    | .error _ => none
    | .ok (st, _) => some st

/-- The statements of a text. -/
def stmtsOf (src : List Byte) : List Stmt := (pieces src).filterMap stmtOf

/-- The statement sets the origin. -/
def Stmt.isOrg : Stmt → Bool
  | .org _ => true
  | _ => false

/-- The label to which a branch leads. -/
def Stmt.branchTarget : Stmt → Option Str
  | .instr _ m a => match a.opd with
    | some (.sym l) => if isBranch m then some l else none
    | _ => none
  | _ => none

/-- The label an instruction that is not a branch uses. -/
def Stmt.usedLabel : Stmt → Option Str
  | .instr _ m a => match a.opd with
    | some (.sym l) => if isBranch m then none else some l
    | _ => none
  | _ => none

/-- The constant a statement defines. -/
def Stmt.constant : Stmt → Option Str
  | .const l _ => some l
  | _ => none

/-- The address a statement names. -/
def Stmt.addressLabel : Stmt → Option Str
  | .label l | .instr (some l) _ _ => some l
  | _ => none

/-- The text does not set the origin, and none of its branches leads to one of its constants. -/
def Relocatable (body : List Byte) : Prop :=
  (∀ st ∈ stmtsOf body, st.isOrg = false) ∧
  (∀ st ∈ stmtsOf body, ∀ l ∈ st.branchTarget, ∀ st' ∈ stmtsOf body, st'.constant ≠ some l)

instance (body : List Byte) : Decidable (Relocatable body) := by unfold Relocatable; infer_instance

/-- Only branches use the names of addresses. -/
def PositionIndependent (body : List Byte) : Prop :=
  ∀ st ∈ stmtsOf body, ∀ l ∈ st.usedLabel, ∀ st' ∈ stmtsOf body, st'.addressLabel ≠ some l

instance (body : List Byte) : Decidable (PositionIndependent body) := by unfold PositionIndependent; infer_instance

/-- The line (with its newline) sets the origin to `x`, and does nothing else. -/
def SetsOrigin (line : List Byte) (x : Nat) : Prop := pieces line = [line] ∧ line.getLast? = some 10 ∧ stmtOf line = some (.org x)

/-- `code`, with `x` zeros before it; no code at all gives an empty file. -/
def placedAt (x : Nat) (code : List Byte) : List Byte := if code = [] then [] else List.replicate x 0 ++ code

end Gaia.Spec
