import Verif.Spec.Parts

/-! Specification: sections of a program that refer to each other. -/
namespace Gaia.Spec
open Gaia

/-- A section of a program: the origin, and the statements behind the line that sets it. -/
structure Block where
  origin : Nat
  body : List Stmt
  deriving DecidableEq

/-- The statements of a section, with the line that sets the origin. -/
def Block.stmts (b : Block) : List Stmt := .org b.origin :: b.body

/-- The label a statement needs to know at once: that of an instruction which is no branch and no jump. -/
def Stmt.needs : Stmt → Option Str
  | .instr _ m a => match a.opd with
    | some (.sym l) => if isBranch m || isJump m then none else some l
    | _ => none
  | _ => none

/-- The section sets no other origin and has no `.END`. Names of other sections are used in branches and jumps only. The first instruction, if it
refers to a label, refers to one that was defined above in the section, or on the same line. -/
structure Block.Linkable (b : Block) : Prop where
  straight : ∀ st ∈ b.body, st.isOrg = false ∧ st ≠ .stop
  own : ∀ st ∈ b.body, ∀ l ∈ st.needs, l ∈ b.body.filterMap Stmt.defines
  plain : ∀ st ∈ (b.body.dropWhile fun st => !st.isInstr).head?, ∀ l ∈ st.reference,
    l ∈ ((b.body.takeWhile fun st => !st.isInstr) ++ [st]).filterMap Stmt.defines

/-- No two instructions of the program overlap. -/
def NoOverlap (p : List Stmt) : Prop := ∀ s, pass1 p .init = some s →
  s.items.Pairwise fun a b => a.addr + a.mode.bytes ≤ b.addr ∨ b.addr + b.mode.bytes ≤ a.addr

end Gaia.Spec
