import Verif.Spec.Assembler
import Verif.Proofs.IO

/-! Specification: writes byte by byte, and the file left by a run that is interrupted. -/
namespace Gaia.Spec
open Gaia

/-- The bytes of one write, each with its file offset. -/
def Chunk.singles : (pos : Nat) → List Byte → List (Nat × Byte)
  | _, [] => []
  | pos, b :: bs => (pos, b) :: Chunk.singles (pos + 1) bs

/-- The bytes of a sequence of writes, in order, each with its file offset. -/
def singles (W : List Chunk) : List (Nat × Byte) := W.flatMap fun c => Chunk.singles c.1 c.2

/-- The file made by writing single bytes, in order, to an empty file (gaps are zero). -/
def written (bs : List (Nat × Byte)) : List Byte := image (bs.map fun b => (b.1, [b.2]))

/-- `Interrupted srcName src left`: a run on the source `src` may be killed so that `left` is in the output file: some of its requests
(`IO.Op`: seek, write a byte), and all those before them, have reached the disk, but none after them. -/
def Interrupted (srcName : Str) (src : List Byte) (left : List Byte) : Prop :=
  ∃ status text ops n, IO.gaia IO.recorder [] srcName (chunks src) = .exited status text ops ∧
    left = (IO.replay IO.perfect OutFile.empty (ops.take n)).bytes

end Gaia.Spec
