import Verif.Spec.Crash
import Verif.Model.Process

/-! Specification: processes that do not get in each other's way. -/
namespace Gaia.Spec
open Gaia Proc

/-- No two jobs have the same output, and no job's output is another job's source. (Two jobs may share a source.) -/
def Separate {ι : Type} (jobs : ι → Job) : Prop :=
  ∀ i j, i ≠ j → (jobs i).out ≠ (jobs j).out ∧ (jobs i).out ≠ (jobs j).src

/-- What the job reads in the world `w`: nothing, if it writes to its own source. -/
def input (w : World) (j : Job) : List Byte := if j.src = j.out then [] else (w.files j.src).getD []

/-- The process has come to an end of its own. -/
def Ended : Phase → Prop
  | .done _ _ => True
  | .undefined _ => True
  | _ => False

/-- The number of steps of the schedule that got the process `i` on: after which it does not stand where it stood before. -/
def progress {ι : Type} [DecidableEq ι] (jobs : ι → Job) (i : ι) : Sys ι → List (ι × Act) → Nat
  | _, [] => 0
  | s, e :: l => (if (s.step jobs e).phase i = s.phase i then 0 else 1) + progress jobs i (s.step jobs e) l

end Gaia.Spec
