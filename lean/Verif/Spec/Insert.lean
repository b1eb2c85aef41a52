import Verif.Spec.Linked

/-! Specification: instructions put into a program. -/
namespace Gaia.Spec
open Gaia

/-- A byte of a program into which `k` bytes are to be put: a byte that stays; the low or the high byte of an address behind the place, which moves
on by `k`; the offset of a branch from the code before the place to an address behind it (`ahead`), or from behind it to an address that stays (`back`). -/
inductive Slot
  | fixed (b : Byte)
  | low (addr : Nat)
  | high (addr : Nat)
  | ahead (offset : Int)
  | back (offset : Int)
  deriving DecidableEq, Repr

/-- The byte of an offset. -/
def offsetByte (d : Int) : Byte := UInt8.ofNat (d % 256).toNat

/-- The byte when `k` bytes have been put in. -/
def Slot.at (k : Nat) : Slot → Byte
  | .fixed b => b
  | .low a => UInt8.ofNat ((a + k) % 256)
  | .high a => UInt8.ofNat ((a + k) / 256 % 256)
  | .ahead d => offsetByte (d + k)
  | .back d => offsetByte (d - k)

/-- A branch still reaches its target when `k` bytes have been put in. -/
def Slot.Fits (k : Nat) : Slot → Prop
  | .ahead d => -128 ≤ d + k ∧ d + k ≤ 127
  | .back d => -128 ≤ d - k ∧ d - k ≤ 127
  | _ => True

instance (k : Nat) (c : Slot) : Decidable (c.Fits k) := by
  cases c <;> simp only [Slot.Fits] <;> infer_instance

/-- The statement is an instruction that neither has nor uses a name, or nothing. -/
def Stmt.Nameless : Stmt → Prop
  | .empty => True
  | .instr none _ a => ∀ l, a.opd ≠ some (.sym l)
  | _ => False

/-- A program of an origin, statements `before` the place and statements `after` it. No other line sets the origin; `.END` is not used. Either the
code is not on page zero, or the addresses behind the place are used in branches and jumps only: then no instruction changes its size. -/
structure Insertable (x : Nat) (before after : List Stmt) : Prop where
  straight : ∀ st ∈ before ++ after, st.isOrg = false ∧ st ≠ .stop
  sizes : 256 ≤ x ∨ ∀ st ∈ after, ∀ l ∈ st.needs, ∀ st' ∈ after, st'.addressLabel ≠ some l

/-- No reference crosses the place: nothing before it uses a name defined behind it; behind it branches lead to addresses behind it, and nothing else
uses these. -/
structure NothingCrosses (before after : List Stmt) : Prop where
  before : ∀ st ∈ before, ∀ l ∈ st.reference, l ∉ after.filterMap Stmt.defines
  branches : ∀ st ∈ after, ∀ l ∈ st.branchTarget, l ∈ after.filterMap Stmt.addressLabel
  others : ∀ st ∈ after, ∀ l ∈ st.usedLabel, l ∉ after.filterMap Stmt.addressLabel

end Gaia.Spec
