import Verif.Model.Main

/-!
Model of main.c and generator.c with files that can fail. The other models assume that reading and writing succeed. Here

* the output `FILE` is any device that can be told to seek and to write a byte. gaia ignores what `fseek`, `fputc` and
  `fclose` return, so a device needs no answers: it does what it can;
* reading the source may fail after some bytes. `fgets` then returns NULL, which gaia takes for the end of the file.
-/
namespace Gaia.IO
open Gaia

/-- What an output `FILE` does when it is told to seek or to write a byte (libc and the disk, not part of src/). (used
in generator.c and main.c:237-240) -/
structure Device (D : Type) where
  seek : D → Nat → D
  putc : D → Int → D

/-- The `FILE` of `Model/Generator.lean`, which never fails. (main.c:171) -/
def perfect : Device OutFile := ⟨OutFile.seek, OutFile.fputc⟩

/-- One `fgets` (main.c:188) of at most `n` bytes on a file that delivers `s` and then fails: NULL if it fails before a newline has
been read or the buffer is full. -/
def fgetsErr : (n : Nat) → List Byte → Option (List Byte × List Byte)
  | 0, s => some ([], s)
  | _ + 1, [] => none
  | n + 1, c :: s =>
    if c = 10 then some ([10], s)
    else (fgetsErr n s).map fun r => (c :: r.1, r.2)

/-- The buffers `fgets` delivers until it returns NULL (main.c:188), on a file that delivers `s` and then fails. `fuel`: the length
of `s` always suffices. -/
def buffersErrAux : (fuel : Nat) → List Byte → List (List Byte)
  | 0, _ => []
  | fuel + 1, s =>
    match fgetsErr (MAX_BUFFER_SIZE - 1) s with
    | none => []
    | some r => r.1 :: buffersErrAux fuel r.2

/-- The buffers delivered before the read error (main.c:188). -/
def buffersErr (s : List Byte) : List (List Byte) := buffersErrAux s.length s

/-- generator.c:34-59 `generate_code` -/
def generateCode {D : Type} (dev : Device D) (f : D) (instr : Instr) (operand : Option Token) (currPc : Nat) : D × Nat :=
  let f := dev.putc (dev.seek f currPc) (getOpcode instr)
  match operand with
  | none => (f, 1)
  | some op =>
    if op.type = .accumulator then (f, 1)
    else
      let v := toInt32 op.value
      let f := dev.putc f (v % 256)
      if instr.addrBitflag &&& ABSOLUTE_FIELD ≠ 0 then (dev.putc f (v / 256), 3)
      else (f, 2)

/-- generator.c:102-132 `resolve_label_ref` -/
def resolveLabelRef {D : Type} (dev : Device D) (f : D) (lx : Lexer) (instr : Instr) (label : Option Token) (status : OpStatus)
    (symtab : SymTab) (currPc : Nat) : Res (D × Nat) := do
  match label with
  | none => raise lx.line .unknown none lx.fileName lx.lineNum
  | some label =>
    let destPc ← searchSymbol symtab label.str
    if status = .branchOperand then
      match ← calcBranchOffset currPc destPc with
      | none => raise lx.line .tooBigOffset label.bufferLocation lx.fileName lx.lineNum
      | some offset => pure (generateCode dev f instr (some { label with value := offset }) currPc)
    else if status = .jumpOperand then
      pure (generateCode dev f instr (some { label with value := toUInt32 destPc }) currPc)
    else raise lx.line .unknown none lx.fileName lx.lineNum

/-- generator.c:148-194 `resolve_forward_ref` -/
def resolveForwardRef {D : Type} (dev : Device D) (f : D) (ref : ForwardRef) (lx : Lexer) (destPc : Int) : Res D := do
  if ref.status = .branchForwardReference then
    match ← calcBranchOffset ref.pc destPc with
    | none => raise (some ref.sourceLine) .tooBigOffset (some ref.operandLocation) lx.fileName ref.lineNum
    | some offset =>
      if ref.instr.addrBitflag ≠ 0 then
        pure (dev.putc (dev.putc (dev.seek f ref.pc) (getOpcode ref.instr)) offset)
      else raise lx.line .illegalAddressingMode none lx.fileName lx.lineNum
  else if ref.status = .jumpForwardReference then
    if ref.instr.addrBitflag ≠ 0 then
      pure (dev.putc (dev.putc (dev.putc (dev.seek f ref.pc) (getOpcode ref.instr)) (destPc % 256)) (destPc / 256))
    else raise lx.line .illegalAddressingMode none lx.fileName lx.lineNum
  else raise lx.line .unknown none lx.fileName lx.lineNum

/-- The variables of `main` (main.c:152-187); `out` is the device. -/
structure State (D : Type) where
  pc : Nat
  lineNum : Nat
  total : Nat
  symtab : SymTab
  unres : Unresolved
  out : D
  lexer : Lexer
  tk : Token
  instr : Instr

/-- main.c:154-187 -/
def initState {D : Type} (d : D) (srcName : Str) : State D :=
  { pc := 0, lineNum := 1, total := 0, symtab := initSymbolTable, unres := initUnresolved,
    out := d, lexer := initLexer srcName, tk := initToken, instr := initInstruction }

/-- The results of steps: a failed run keeps the device as it is (main.c:122-141). -/
abbrev Run (D α : Type) := C (Fail × D) α

/-- `if (IS_ERROR(code)) ABORT_ASSEMBLY();` (main.c:92-104) -/
def orAbort {D α : Type} (out : D) : Res α → Run D α
  | .ok a => .ok a
  | .err e => .err (e, out)
  | .ub u => .ub u

/-- `line_num++` (main.c:211, 257) -/
def bumpLine {D α : Type} (st : State D) (k : State D → Run D α) : Run D α :=
  if st.lineNum + 1 > INT_MAX then .ub .signedOverflow else k { st with lineNum := st.lineNum + 1 }

/-- main.c:227-243 -/
def saveForwardRef {D : Type} (dev : Device D) (buffer : Str) (st : State D) (instr : Instr) (operand : Option Token)
    (status : OpStatus) : Run D (State D) := do
  let ref ← orAbort st.out (createForwardRef buffer instr operand status st.pc st.lineNum)
  let unres ← orAbort st.out (addForwardRef st.unres ref)
  let out := dev.putc (dev.putc st.out 0) 0
  let out := if status = .jumpForwardReference then dev.putc out 0 else out
  pure { st with unres := unres, out := out }

/-- main.c:215-259 -/
def instructionStep {D : Type} (dev : Device D) (buffer : Str) (st : State D) : Run D (State D) := do
  let operand ← orAbort st.out (findOperand st.lexer)
  let (status, operand) ← orAbort st.out (parseOperand st.lexer st.instr operand st.symtab)
  let (res, instr) ← orAbort st.out (parseAddrMode st.lexer st.instr operand status)
  let st := { st with instr := instr }
  let st ← match res with
    | .forwardReference => saveForwardRef dev buffer st instr operand status
    | .flag => pure st
  let (out, written) ←
    if status = .branchOperand ∨ status = .jumpOperand then
      orAbort st.out (resolveLabelRef dev st.out st.lexer instr operand status st.symtab st.pc)
    else pure (generateCode dev st.out instr operand st.pc)
  bumpLine { st with out := out } fun st =>
    if st.pc + written > INT_MAX ∨ st.total + written > INT_MAX then .ub .signedOverflow
    else pure { st with pc := st.pc + written, total := st.total + written }

/-- Does the main loop go on? (main.c:206) -/
inductive Next (D : Type)
  | continue (st : State D)
  | stop (st : State D)

/-- main.c:197-208 -/
def declareStep {D : Type} (first : Token) (st : State D) : Run D (State D) :=
  if first.type = .label ∨ first.type = .defineDirective then do
    let symtab ← orAbort st.out (parseLabelDeclaration st.lexer st.symtab st.pc)
    pure { st with symtab := symtab }
  else if first.type = .base ∨ first.type = .orgDirective then
    pure { st with pc := first.value }
  else pure st

/-- main.c:189-259 -/
def lineStep {D : Type} (dev : Device D) (raw : List Byte) (st : State D) : Run D (Next D) := do
  let (lexer, tk, instr) ← orAbort st.out (lexLine raw st.lexer st.tk st.instr st.lineNum)
  let lexer ← orAbort st.out (parseLine lexer)
  let st := { st with lexer := lexer, tk := tk, instr := instr }
  let first ← orAbort st.out (slot lexer 0)
  let st ← declareStep first st
  if first.type = .endDirective then pure (.stop st)
  else if st.instr.mnemonic = none then bumpLine st fun st => pure (.continue st)
  else do
    let st ← instructionStep dev (cstr raw) st
    pure (.continue st)

/-- main.c:188-260: the main loop, on the buffers that `fgets` delivers. -/
def mainLoop {D : Type} (dev : Device D) : List (List Byte) → State D → Run D (State D)
  | [], st => .ok st
  | raw :: rest, st => do
    match ← lineStep dev raw st with
    | .continue st => mainLoop dev rest st
    | .stop st => pure st

/-- main.c:262-277 -/
def resolveAll {D : Type} (dev : Device D) (st : State D) : (n i : Nat) → D → Run D D
  | 0, _, out => .ok out
  | n + 1, i, out =>
    match st.unres.refs[i]? with
    | none => .ub .outOfBounds
    | some none => .ub .nullDeref
    | some (some ref) => do
      let dest ← orAbort out (searchSymbol st.symtab ref.label)
      if dest < 0 then
        orAbort out (raise (some ref.sourceLine) .missingLabelDefinition (some ref.operandLocation)
          st.lexer.fileName ref.lineNum)
      else do
        let out ← orAbort out (resolveForwardRef dev out ref st.lexer dest)
        resolveAll dev st n (i + 1) out

/-- main.c:178-277 -/
def assembleBuffers {D : Type} (dev : Device D) (d : D) (srcName : Str) (buffers : List (List Byte)) : Run D (State D) := do
  let st ← mainLoop dev buffers (initState d srcName)
  let out ← resolveAll dev st st.unres.curr 0 st.out
  pure { st with out := out }

/-- A finished process: exit status, what it printed, and what has become of the output. (main.c:141, 290) -/
inductive Outcome (D : Type)
  | exited (status : Nat) (stdout : Str) (disk : D)
  | undefined (u : UB)

/-- main.c:178-291, after the files have been opened: `d` is the (empty) output, `buffers` are what `fgets` delivers before it
returns NULL. Whether a write failed is asked nowhere. -/
def gaia {D : Type} (dev : Device D) (d : D) (srcName : Str) (buffers : List (List Byte)) : Outcome D :=
  match assembleBuffers dev d srcName buffers with
  | .ok st => .exited 0 (report st.total st.symtab.count) st.out
  | .err (f, out) => .exited 1 f.out out
  | .ub u => .undefined u

end Gaia.IO
