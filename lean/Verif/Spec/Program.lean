import Verif.Spec.Check
import Verif.Spec.Pieces
import Verif.Spec.LexFault
import Verif.Spec.SynFault
import Verif.Spec.Diagnostic
import Verif.Model.Main

/-!
Specification: which sources the whole-program theorems speak about, and what a run looks like from outside.
-/
namespace Gaia.Spec
open Gaia

/-- The label a statement defines. -/
def Stmt.defines : Stmt → Option Str
  | .label l => some l
  | .const l _ => some l
  | .instr (some l) _ _ => some l
  | _ => none

/-- The label in `JMP label,X` or `JMP label,Y`. -/
def Stmt.jumpsIndexed : Stmt → Option Str
  | .instr _ .JMP (.idxX (.sym l)) => some l
  | .instr _ .JMP (.idxY (.sym l)) => some l
  | _ => none

/-- `JMP label,X` or `JMP label,Y`: the one documented line shape gaia mishandles, when the label is not known yet. -/
def IndexedJump (st : Stmt) : Prop := st.jumpsIndexed.isSome = true

/-- The label of every indexed jump is defined before it (or on the same line). -/
def NoForwardIndexedJump (p : List Stmt) : Prop := ∀ before st after l, p = before ++ st :: after →
  st.jumpsIndexed = some l → ∃ d ∈ before ++ [st], d.defines = some l

/-- The source `src`, of fewer than 21474836 lines of at most 126 characters, is the program `p` of the documented
language, without indexed jumps to labels that are not yet defined. -/
structure IsProgram (src : List Byte) (p : List Stmt) : Prop where
  size : Sized src
  short : ∀ l ∈ lines src, l.length ≤ 126
  reads : Reads (lines src) p
  noForwardJump : NoForwardIndexedJump p

/-- The files: the source can be read, the output can be created, and they are not the same file. -/
structure Setup (w : World) (srcName outName : Str) (src : List Byte) : Prop where
  source : w.files srcName = some src
  creatable : w.creatable outName = true
  different : srcName ≠ outName

/-- gaia exits with status 0, reports `total` bytes and `symbols` symbols, and writes `binary` to the output file. -/
def Succeeds (w : World) (srcName outName : Str) (binary : List Byte) (total symbols : Nat) : Prop :=
  gaia srcName outName w = .exited ⟨0,
    b! "Assembly successful.\n" ++ decimal total ++ b! " (0x" ++ hex04 total ++ b! ") bytes assembled.\n" ++
      decimal symbols ++ b! " symbols.\n",
    { w with files := fun n => if n = outName then some binary else w.files n }⟩

/-- gaia exits with status 1 after printing `text`, and changes no file but the output file. -/
def FailsPrinting (w : World) (srcName outName : Str) (text : Str) : Prop :=
  ∃ partialBinary, gaia srcName outName w = .exited ⟨1, text,
    { w with files := fun n => if n = outName then some partialBinary else w.files n }⟩

/-- gaia fails with exactly one diagnostic: error `e`, in line number `k` of the source (counting from 1) with text
`l`, pointing at offset `pos` of that line. -/
def FailsAt (w : World) (srcName outName : Str) (src : List Byte) (k : Nat) (e : Err) (pos : Option Nat) : Prop :=
  ∃ l, 1 ≤ k ∧ (lines src)[k - 1]? = some l ∧
    FailsPrinting w srcName outName (diag (l.takeWhile (· != 0)) e pos srcName k)

/-- `BadLine l e pos`: the line is no statement, because of the error `e`, at offset `pos` (`none` if something is
missing at the end of the line). -/
inductive BadLine (l : List Byte) : Err → Option Nat → Prop
  | lexical (e : Err) (pos : Nat) (h : LexFault l e pos) : BadLine l e (some pos)
  | syntactic (ls : List (Nat × Lexeme)) (e : Err) (i : Nat) (hl : Lexes l ls) (h8 : ls.length ≤ 8)
      (h : SynFault (ls.map (·.2)) e i) (hj : ¬ LineJunk (ls.map (·.2))) : BadLine l e (ls[i]?.map (·.1))

/-- The source has fewer than 21474836 lines, of at most 126 characters, and starts with the lines of the program
`p`, which has no `.END` and no indexed jump to a label not yet defined; then comes the line `l` and then `rest`. -/
structure Continues (src : List Byte) (p : List Stmt) (l : List Byte) (rest : List (List Byte)) : Prop where
  size : Sized src
  short : ∀ l ∈ lines src, l.length ≤ 126
  splits : ∃ pre, lines src = pre ++ l :: rest ∧ Reads pre p
  noStop : .stop ∉ p
  noForwardJump : NoForwardIndexedJump p

end Gaia.Spec
