import Verif.Model.ForwardRef

/-! Model of src/generator.c and of the output `FILE` it writes to. -/
namespace Gaia

/-- A `FILE` opened with `"wb"`: its content and its file position. Writes succeed (for I/O errors, which the C code
ignores, see `Model/IO.lean`). `log` is not part of the program: it records the writes done so far, oldest first, so that one
can speak of a run that is interrupted. (main.c:171) -/
structure OutFile where
  bytes : List Byte
  pos : Nat
  log : List (Nat × Byte) := []
  deriving DecidableEq, Repr

/-- `fopen(name, "wb")`: empty content, position 0 (main.c:171). -/
def OutFile.empty : OutFile := { bytes := [], pos := 0 }

/-- `fseek(f, pos, SEEK_SET)` for a non-negative `pos`: only moves the position (generator.c:39, 166, 179). -/
def OutFile.seek (f : OutFile) (pos : Nat) : OutFile := { f with pos := pos }

/-- `fputc(v, f)`: writes `v` converted to `unsigned char` at the position; a gap between the end of the file and
the position reads as zeros (POSIX `lseek`/`write`). (generator.c:40-57, main.c:237-240) -/
def OutFile.fputc (f : OutFile) (v : Int) : OutFile :=
  let b : Byte := UInt8.ofNat (v % 256).toNat
  let padded := f.bytes ++ List.replicate (f.pos - f.bytes.length) 0
  { bytes := padded.take f.pos ++ b :: padded.drop (f.pos + 1), pos := f.pos + 1,
    log := f.log ++ [(f.pos, b)] }

/-- generator.c:34-59 `generate_code`. Returns the file and the number of bytes written. The update of
`instr->opcode` is not kept: `reset_instruction` clears it before it is read. -/
def generateCode (f : OutFile) (instr : Instr) (operand : Option Token) (currPc : Nat) : OutFile × Nat :=
  let f := (f.seek currPc).fputc (getOpcode instr)
  match operand with
  | none => (f, 1)
  | some op =>
    if op.type = .accumulator then (f, 1)
    else
      let v := toInt32 op.value
      let f := f.fputc (v % 256)
      if instr.addrBitflag &&& ABSOLUTE_FIELD ≠ 0 then (f.fputc (v / 256), 3)
      else (f, 2)

/-- generator.c:69-85 `calc_branch_offset`; `none` is ERROR_TOO_BIG_OFFSET. -/
def calcBranchOffset (currPc destPc : Int) : Res (Option Nat) :=
  let offset := destPc - currPc - 2
  if offset < -2147483648 ∨ offset > 2147483647 then .ub .signedOverflow
  else if destPc ≤ currPc then
    if offset < -128 then .ok none else .ok (some (offset % 256).toNat)
  else
    if offset > 127 then .ok none else .ok (some (offset % 256).toNat)

/-- generator.c:102-132 `resolve_label_ref` -/
def resolveLabelRef (f : OutFile) (lx : Lexer) (instr : Instr) (label : Option Token) (status : OpStatus)
    (symtab : SymTab) (currPc : Nat) : Res (OutFile × Nat) := do
  match label with
  | none => raise lx.line .unknown none lx.fileName lx.lineNum
  | some label =>
    let destPc ← searchSymbol symtab label.str
    if status = .branchOperand then
      match ← calcBranchOffset currPc destPc with
      | none => raise lx.line .tooBigOffset label.bufferLocation lx.fileName lx.lineNum
      | some offset => pure (generateCode f instr (some { label with value := offset }) currPc)
    else if status = .jumpOperand then
      pure (generateCode f instr (some { label with value := toUInt32 destPc }) currPc)
    else raise lx.line .unknown none lx.fileName lx.lineNum

/-- generator.c:148-194 `resolve_forward_ref`. The byte count it returns is only compared with 0 by main.c:275,
so only the file is returned. -/
def resolveForwardRef (f : OutFile) (ref : ForwardRef) (lx : Lexer) (destPc : Int) : Res OutFile := do
  if ref.status = .branchForwardReference then
    match ← calcBranchOffset ref.pc destPc with
    | none => raise (some ref.sourceLine) .tooBigOffset (some ref.operandLocation) lx.fileName ref.lineNum
    | some offset =>
      if ref.instr.addrBitflag ≠ 0 then
        pure (((f.seek ref.pc).fputc (getOpcode ref.instr)).fputc offset)
      else raise lx.line .illegalAddressingMode none lx.fileName lx.lineNum
  else if ref.status = .jumpForwardReference then
    if ref.instr.addrBitflag ≠ 0 then
      pure ((((f.seek ref.pc).fputc (getOpcode ref.instr)).fputc (destPc % 256)).fputc (destPc / 256))
    else raise lx.line .illegalAddressingMode none lx.fileName lx.lineNum
  else raise lx.line .unknown none lx.fileName lx.lineNum

end Gaia
