import Verif.Spec.Disassemble
import Verif.Spec.Program
import Verif.Spec.Truncate

/-! Specification: instructions written anywhere, and the files gaia can make. -/
namespace Gaia.Spec
open Gaia

/-- An instruction and the address it is to be put at. -/
abbrev Placement := Nat × Insn

/-- The lines of source for it, such as `*=$1000` and ` LDA #$12`. -/
def Placement.text (p : Placement) : Str := b! "*=" ++ hexText p.1 ++ b! "\n" ++ p.2.text

/-- The bytes it puts into the file. -/
def Placement.chunk (p : Placement) : Chunk := (p.1, p.2.bytes)

/-- The file is empty, or its first byte is the opcode of an instruction that is not longer than the file. -/
def StartsWithOpcode (file : List Byte) : Prop :=
  file = [] ∨ ∃ m md op, opcode? m md = some op ∧ file.head? = some (UInt8.ofNat op) ∧ md.bytes ≤ file.length

end Gaia.Spec
