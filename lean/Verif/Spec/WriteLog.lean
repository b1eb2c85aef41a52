import Verif.Spec.Check
import Verif.Spec.Truncate
import Verif.Spec.Program

/-!
Specification: the writes of a one-pass assembler, in order. Every instruction is written when its line is reached. If its label
is not known yet, zeros are written at the place where the file happens to stand (after the instruction written last),
then the opcode and zeros at the right address. At the end the references are written again, with the final values.
-/
namespace Gaia.Spec
open Gaia

/-- What is written at the instruction's address when its line is reached. -/
def Placed.firstBytes (e : Placed) : List Byte :=
  match e.forward with
  | none => (encodeLow e.known e.item).getD []
  | some _ => UInt8.ofNat ((opcode? e.item.mnemonic e.item.mode).getD 0) :: List.replicate (e.item.mode.bytes - 1) 0

/-- The address after the instruction. -/
def Placed.endAddr (e : Placed) : Nat := e.item.addr + e.item.mode.bytes

/-- The dummy bytes of the instructions: address and number. `pos` is where the file stands. -/
def dummies : (pos : Nat) → List Placed → List (Nat × Nat)
  | _, [] => []
  | pos, e :: es => (if e.forward.isSome then [(pos, e.item.mode.bytes)] else []) ++ dummies e.endAddr es

/-- The writes up to the end of the source. -/
def writeLog : (pos : Nat) → List Placed → List Chunk
  | _, [] => []
  | pos, e :: es =>
    (if e.forward.isSome then [(pos, List.replicate e.item.mode.bytes 0)] else []) ++
      (e.item.addr, e.firstBytes) :: writeLog e.endAddr es

/-- The writes after the end of the source. -/
def patchLog (env : Env) (es : List Placed) : List Chunk :=
  (es.filter (·.forward.isSome)).map fun e => (e.item.addr, (encodeLow env e.item).getD [])

/-- gaia exits with status 1 after printing `text`, and leaves `binary` in the output file; no other file changes. -/
def FailsLeaving (w : World) (srcName outName : Str) (text : Str) (binary : List Byte) : Prop :=
  gaia srcName outName w = .exited ⟨1, text, { w with files := fun n => if n = outName then some binary else w.files n }⟩

/-- The two instructions have no address in common. -/
def Apart (a b : Placed) : Prop := a.endAddr ≤ b.item.addr ∨ b.endAddr ≤ a.item.addr

instance (a b : Placed) : Decidable (Apart a b) := by unfold Apart; infer_instance

end Gaia.Spec
