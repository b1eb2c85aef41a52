import Verif.Model.Generator

/-! Model of src/main.c, after the command line has been parsed. -/
namespace Gaia

/-- main.c:106 -/
def MAX_BUFFER_SIZE : Nat := 128

/-- One `fgets(buffer, MAX_BUFFER_SIZE, inf)` (main.c:188): the bytes stored, up to `n` of them and up to and
including the first newline, and the rest of the file. -/
def fgets : (n : Nat) → List Byte → List Byte × List Byte
  | 0, s => ([], s)
  | _ + 1, [] => ([], [])
  | n + 1, c :: s =>
    if c = 10 then ([10], s)
    else let (l, rest) := fgets n s; (c :: l, rest)

/-- The successive buffers `fgets` delivers until it returns NULL (main.c:188). `fuel`: the length of the file
always suffices (`Gaia.chunks_join`). -/
def chunksAux : (fuel : Nat) → List Byte → List (List Byte)
  | 0, _ => []
  | fuel + 1, s =>
    if s = [] then []
    else (fgets (MAX_BUFFER_SIZE - 1) s).1 :: chunksAux fuel (fgets (MAX_BUFFER_SIZE - 1) s).2

/-- All buffers of a source (main.c:188): `chunksAux` with enough fuel. -/
def chunks (src : List Byte) : List (List Byte) := chunksAux src.length src

/-- The local variables of `main` and the structures they point to (main.c:152-187). -/
structure St where
  pc : Nat
  lineNum : Nat
  total : Nat
  symtab : SymTab
  unres : Unresolved
  out : OutFile
  lexer : Lexer
  tk : Token
  instr : Instr
  deriving DecidableEq, Repr

/-- main.c:154-187: initial values (allocations succeed). -/
def initSt (srcName : Str) : St :=
  { pc := 0, lineNum := 1, total := 0, symtab := initSymbolTable, unres := initUnresolved,
    out := OutFile.empty, lexer := initLexer srcName, tk := initToken, instr := initInstruction }

/-- A failed run: the failure and the output file left behind by `abort_gaia` (main.c:122-141). -/
structure Abort where
  fail : Fail
  out : OutFile
  deriving DecidableEq, Repr

/-- The result of a part of `main` that may `ABORT_ASSEMBLY()` (main.c:92-104). -/
abbrev Run (α : Type) := C Abort α

/-- `if (IS_ERROR(code)) ABORT_ASSEMBLY();` (main.c:92-104): the output file is closed as it is. -/
def orAbort {α} (out : OutFile) : Res α → Run α
  | .ok a => .ok a
  | .err e => .err ⟨e, out⟩
  | .ub u => .ub u

/-- `line_num++` with the `int` overflow made explicit (main.c:211, 257). -/
def bumpLine {α} (st : St) (k : St → Run α) : Run α :=
  if st.lineNum + 1 > INT_MAX then .ub .signedOverflow else k { st with lineNum := st.lineNum + 1 }

/-- main.c:227-243: on FORWARD_REFERENCE, save the reference and write the dummy bytes at the *current* file
position (there is no `fseek`). -/
def saveForwardRef (buffer : Str) (st : St) (instr : Instr) (operand : Option Token) (status : OpStatus) :
    Run St := do
  let ref ← orAbort st.out (createForwardRef buffer instr operand status st.pc st.lineNum)
  let unres ← orAbort st.out (addForwardRef st.unres ref)
  let out := (st.out.fputc 0).fputc 0
  let out := if status = .jumpForwardReference then out.fputc 0 else out
  pure { st with unres := unres, out := out }

/-- main.c:215-259: the part of the loop body for a line with an instruction. -/
def instructionStep (buffer : Str) (st : St) : Run St := do
  let operand ← orAbort st.out (findOperand st.lexer)
  let (status, operand) ← orAbort st.out (parseOperand st.lexer st.instr operand st.symtab)
  let (res, instr) ← orAbort st.out (parseAddrMode st.lexer st.instr operand status)
  let st := { st with instr := instr }
  let st ← match res with
    | .forwardReference => saveForwardRef buffer st instr operand status
    | .flag => pure st
  let (out, written) ←
    if status = .branchOperand ∨ status = .jumpOperand then
      orAbort st.out (resolveLabelRef st.out st.lexer instr operand status st.symtab st.pc)
    else pure (generateCode st.out instr operand st.pc)
  bumpLine { st with out := out } fun st =>
    if st.pc + written > INT_MAX ∨ st.total + written > INT_MAX then .ub .signedOverflow
    else pure { st with pc := st.pc + written, total := st.total + written }

/-- Does the main loop go on? (main.c:188-260: the loop goes on, or `break`) -/
inductive Next
  | continue (st : St)
  | stop (st : St)       -- `.END`: main.c:207
  deriving DecidableEq, Repr

/-- main.c:197-208: the declaration or origin of the line whose first token is `first`. -/
def declareStep (first : Token) (st : St) : Run St :=
  if first.type = .label ∨ first.type = .defineDirective then do
    let symtab ← orAbort st.out (parseLabelDeclaration st.lexer st.symtab st.pc)
    pure { st with symtab := symtab }
  else if first.type = .base ∨ first.type = .orgDirective then
    pure { st with pc := first.value }
  else pure st

/-- main.c:189-259: the body of the main loop for one buffer. -/
def lineStep (raw : List Byte) (st : St) : Run Next := do
  let (lexer, tk, instr) ← orAbort st.out (lexLine raw st.lexer st.tk st.instr st.lineNum)
  let lexer ← orAbort st.out (parseLine lexer)
  let st := { st with lexer := lexer, tk := tk, instr := instr }
  let first ← orAbort st.out (slot lexer 0)
  let st ← declareStep first st
  if first.type = .endDirective then pure (.stop st)
  else if st.instr.mnemonic = none then bumpLine st fun st => pure (.continue st)
  else do
    let st ← instructionStep (cstr raw) st
    pure (.continue st)

/-- main.c:188-260: the main loop. -/
def mainLoop : List (List Byte) → St → Run St
  | [], st => .ok st
  | raw :: rest, st => do
    match ← lineStep raw st with
    | .continue st => mainLoop rest st
    | .stop st => pure st

/-- main.c:262-277: patch the forward references, in the order they were saved. `k` counts up from `i` to
`unresolved->curr`. -/
def resolveAll (st : St) : (n i : Nat) → OutFile → Run OutFile
  | 0, _, out => .ok out
  | n + 1, i, out =>
    match st.unres.refs[i]? with
    | none => .ub .outOfBounds
    | some none => .ub .nullDeref
    | some (some ref) => do
      let dest ← orAbort out (searchSymbol st.symtab ref.label)
      if dest < 0 then
        orAbort out (raise (some ref.sourceLine) .missingLabelDefinition (some ref.operandLocation)
          st.lexer.fileName ref.lineNum)
      else do
        let out ← orAbort out (resolveForwardRef out ref st.lexer dest)
        resolveAll st n (i + 1) out

/-- main.c:178-277: assemble the bytes of a source file. -/
def assembleBytes (srcName : Str) (src : List Byte) : Run St := do
  let st ← mainLoop (chunks src) (initSt srcName)
  let out ← resolveAll st st.unres.curr 0 st.out
  pure { st with out := out }

/-- main.c:279-281: the report printed on success. -/
def report (total symbols : Nat) : Str :=
  b! "Assembly successful.\n" ++ decimal total ++ b! " (0x" ++ hex04 total ++ b! ") bytes assembled.\n" ++
    decimal symbols ++ b! " symbols.\n"

/-- The part of the file system gaia sees: the contents of the readable files and the names that `fopen(…, "wb")`
can create or truncate. (main.c:164, 171) -/
structure World where
  files : Str → Option (List Byte)
  creatable : Str → Bool

/-- The file system after the output file has been written (main.c:171, 284). -/
def World.write (w : World) (name : Str) (bytes : List Byte) : World :=
  { w with files := fun n => if n = name then some bytes else w.files n }

/-- A finished process. (main.c:141, 290) -/
structure Exit where
  status : Nat
  stdout : Str
  world : World

/-- What running the program amounts to. (main.c:143-291) -/
inductive Outcome
  | exited (e : Exit)
  | undefined (u : UB)

/-- main.c:143-291 from line 152 on (`argp_parse` done, allocations succeed). The output file is truncated before
the source is read, so a source with the same name reads as empty. -/
def gaia (srcName outName : Str) (w : World) : Outcome :=
  match w.files srcName with
  | none =>
    match printError none .fileOpenFail none srcName 0 with
    | .ok s => .exited ⟨1, s, w⟩
    | .err _ => .undefined .internal
    | .ub u => .undefined u
  | some content =>
    if w.creatable outName = false then
      match printError none .binaryFileCreationFail none srcName 0 with
      | .ok s => .exited ⟨1, s, w⟩
      | .err _ => .undefined .internal
      | .ub u => .undefined u
    else
      let src := if srcName = outName then [] else content
      match assembleBytes srcName src with
      | .ok st => .exited ⟨0, report st.total st.symtab.count, w.write outName st.out.bytes⟩
      | .err a => .exited ⟨1, a.fail.out, w.write outName a.out.bytes⟩
      | .ub u => .undefined u

end Gaia
