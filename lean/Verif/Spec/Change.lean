import Verif.Spec.Reference
import Verif.Spec.Relocate

/-! Specification: the value of a constant changed. -/
namespace Gaia.Spec
open Gaia

/-- A byte of an output, as it depends on the value of a constant. -/
inductive Spot where
  /-- a byte that does not depend on it -/
  | fixed (b : Byte)
  /-- the low byte of the value -/
  | low
  /-- the high byte of the value -/
  | high
  /-- the offset of a branch at address `a` to the value -/
  | offset (a : Nat)

/-- The distance from behind a branch at `a` to `v`. -/
def distance (a v : Nat) : Int := (v : Int) - (a + 2)

/-- The byte for the value `v`. -/
def Spot.at (v : Nat) : Spot → Byte
  | .fixed b => b
  | .low => UInt8.ofNat (v % 256)
  | .high => UInt8.ofNat (v / 256 % 256)
  | .offset a => UInt8.ofNat (distance a v % 256).toNat

/-- A branch at `a` reaches `v`. -/
def Reaches (a v : Nat) : Prop := -128 ≤ distance a v ∧ distance a v ≤ 127

instance (a v : Nat) : Decidable (Reaches a v) := inferInstanceAs (Decidable (_ ∧ _))

/-- The line defines the constant `L` with the value `v`, in any of the forms for it. -/
def DefinesConstant (line : List Byte) (L : Str) (v : Nat) : Prop :=
  ∃ t x, line = t ++ [10] ∧ 10 ∉ t ∧ t.length ≤ 126 ∧ Lexes t x ∧ parse (x.map (·.2)) = some (.const L v)

/-- No branch of the text names `L` as its target. -/
def NoBranchTo (L : Str) (src : List Byte) : Prop :=
  ∀ st ∈ stmtsOf src, ∀ lab m a, st = .instr lab m a → a.opd = some (.sym L) → isBranch m = false

end Gaia.Spec
