import Verif.Spec.Relocate

/-! Specification: texts whose code is contiguous. -/
namespace Gaia.Spec
open Gaia

/-- No line of the text sets the origin. -/
def OriginFree (src : List Byte) : Prop := ∀ st ∈ stmtsOf src, st.isOrg = false

instance (src : List Byte) : Decidable (OriginFree src) := by unfold OriginFree; infer_instance

/-- No line of the text but perhaps the first sets the origin. -/
def OneOrigin (src : List Byte) : Prop := ∀ st ∈ ((pieces src).drop 1).filterMap stmtOf, st.isOrg = false

instance (src : List Byte) : Decidable (OneOrigin src) := by unfold OneOrigin; infer_instance

/-- The origin the first line sets; 0 if it sets none. -/
def originSet (src : List Byte) : Nat :=
  match (pieces src).head?.bind stmtOf with
  | some (.org v) => v
  | _ => 0

/-- The statements that are assembled: those before `.END`. -/
def upToEnd : List Stmt → List Stmt
  | [] => []
  | st :: rest => if st = .stop then [] else st :: upToEnd rest

end Gaia.Spec
