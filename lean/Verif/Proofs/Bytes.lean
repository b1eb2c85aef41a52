import Verif.Model.Base

/-! Statements about all 256 bytes are decidable. -/
namespace Gaia

theorem forall_byte_iff {p : UInt8 → Prop} : (∀ i, i < 256 → p (UInt8.ofNat i)) ↔ ∀ c, p c := by
  constructor
  · intro h c
    have := h c.toNat c.toNat_lt
    rwa [UInt8.ofNat_toNat] at this
  · intro h i _
    exact h _

instance decForallByte {p : UInt8 → Prop} [DecidablePred p] : Decidable (∀ c, p c) :=
  decidable_of_iff _ forall_byte_iff

end Gaia
