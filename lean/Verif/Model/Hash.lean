import Verif.Model.Main

/-!
The same program with another hash function in place of `djb2_hash` (symbol_table.c:78-84): any function from strings to numbers. Such a program is
gaia on a platform where `unsigned long` has 32 bits, or `char` is unsigned, or after somebody has replaced the hash function.

Every definition below is that of the model, with `hash` for `djb2`; those that do not use it, directly or not, are not repeated.
-/
namespace Gaia.Hash
open Gaia

/-! ### symbol_table.c -/

/-- One iteration of the loop at symbol_table.c:109-122: transfer `sym` into the new array. -/
def rehashOne (hash : Str → Nat) (newSlots : List (Option Symbol)) (sym : Symbol) : Res (List (Option Symbol)) := do
  let h ← probeFree newSlots newSlots.length (hash sym.label % newSlots.length)
  pure (newSlots.set h (some sym))

/-- symbol_table.c:109-122: the transfer loop, in slot order. -/
def rehashAll (hash : Str → Nat) : List (Option Symbol) → List (Option Symbol) → Res (List (Option Symbol))
  | [], new => .ok new
  | none :: old, new => rehashAll hash old new
  | some sym :: old, new => do
    let new ← rehashOne hash new sym
    rehashAll hash old new

/-- symbol_table.c:96-127 `resize_symbols` (allocation succeeds). -/
def resizeSymbols (hash : Str → Nat) (t : SymTab) : Res SymTab :=
  if t.size * 2 > INT_MAX then .ub .signedOverflow
  else do
    let newSize ← nextPrime (t.size * 2)
    let slots ← rehashAll hash t.symbols (List.replicate newSize none)
    pure { t with symbols := slots }

/-- symbol_table.c:180-190: place a new symbol in the (already grown) table. -/
def placeSymbol (hash : Str → Nat) (t : SymTab) (label : Str) (value : Int) : Res SymTab := do
  let h ← probeFree t.symbols t.size (hash label % t.size)
  pure { symbols := t.symbols.set h (some ⟨label, value⟩), count := t.count + 1 }

/-- symbol_table.c:165-191 `insert_symbol` (allocations succeed; ). -/
def insertSymbol (hash : Str → Nat) (t : SymTab) (label : Str) (value : Int) : Res SymTab :=
  if (t.count + 1) * 100 > INT_MAX then .ub .signedOverflow
  else do
    let t ← if overLoaded t then resizeSymbols hash t else pure t
    placeSymbol hash t label value

/-- symbol_table.c:201-213 `search_symbol`, with `ERROR_SYMBOL_NOT_FOUND` as `none`. -/
def searchOpt (hash : Str → Nat) (t : SymTab) (label : Str) : Res (Option Int) :=
  probeLabel t.symbols label t.size (hash label % t.size)

/-- symbol_table.c:201-213 `search_symbol` as the C function returns it: an `int`, -2 if not found. -/
def searchSymbol (hash : Str → Nat) (t : SymTab) (label : Str) : Res Int := do
  match ← searchOpt hash t label with
  | some v => pure v
  | none => pure Err.symbolNotFound.code

/-! ### parser.c -/

/-- parser.c:306-363 `parse_label_declaration`. Returns the new symbol table (`insert_symbol` cannot report an
error when allocation succeeds). The assignments to `label->value` are not kept: main.c never reads them. -/
def parseLabelDeclaration (hash : Str → Nat) (lx : Lexer) (symtab : SymTab) (pc : Nat) : Res SymTab := do
  let label ← slot lx 0
  let defineLabel ← slot lx 1
  let found ← searchSymbol hash symtab label.str
  let foundDefine ← searchSymbol hash symtab defineLabel.str
  if defineLabel.type = .null ∨ defineLabel.type = .instruction then
    if found ≠ Err.symbolNotFound.code then
      raise lx.line .labelRedefinition label.bufferLocation lx.fileName lx.lineNum
    else insertSymbol hash symtab label.str (toInt32 pc)
  else if defineLabel.type = .equalSign ∨ defineLabel.type = .equDirective then
    if found ≠ Err.symbolNotFound.code then
      raise lx.line .labelRedefinition label.bufferLocation lx.fileName lx.lineNum
    else
      let lit ← slot lx 2
      insertSymbol hash symtab label.str (toInt32 lit.value)
  else if label.type = .defineDirective then
    if foundDefine ≠ Err.symbolNotFound.code then
      raise lx.line .labelRedefinition defineLabel.bufferLocation lx.fileName lx.lineNum
    else
      let lit ← slot lx 2
      insertSymbol hash symtab defineLabel.str (toInt32 lit.value)
  else raise lx.line .unknown none lx.fileName lx.lineNum

/-- parser.c:377-417 `parse_label_operand`. The operand token is passed and returned by value (in C it is a
pointer into the sequence; only its `value` changes and the sequence is not searched for values afterwards). -/
def parseLabelOperand (hash : Str → Nat) (lx : Lexer) (instr : Instr) (operand : Token) (symtab : SymTab) :
    Res (OpStatus × Token) := do
  let labelValue ← searchSymbol hash symtab operand.str
  if labelValue ≠ Err.symbolNotFound.code then
    let operand := { operand with value := toUInt32 labelValue }
    if instr.isBranch then pure (.branchOperand, operand)
    else if instr.isJump then pure (.jumpOperand, operand)
    else pure (.parserSuccess, operand)
  else if instr.isBranch then pure (.branchForwardReference, operand)
  else if instr.isJump then pure (.jumpForwardReference, operand)
  else raise lx.line .illegalForwardReference operand.bufferLocation lx.fileName lx.lineNum

/-- parser.c:438-456 `parse_operand`; `none` is a NULL operand. -/
def parseOperand (hash : Str → Nat) (lx : Lexer) (instr : Instr) (operand : Option Token) (symtab : SymTab) :
    Res (OpStatus × Option Token) :=
  match operand with
  | none => .ok (.parserSuccess, none)
  | some tk =>
    if tk.type = .label then do
      let (st, tk) ← parseLabelOperand hash lx instr tk symtab
      pure (st, some tk)
    else if tk.type = .literal ∨ tk.type = .accumulator then .ok (.parserSuccess, some tk)
    else raise lx.line .unknown none lx.fileName lx.lineNum

/-! ### generator.c -/

/-- generator.c:102-132 `resolve_label_ref` -/
def resolveLabelRef (hash : Str → Nat) (f : OutFile) (lx : Lexer) (instr : Instr) (label : Option Token) (status : OpStatus)
    (symtab : SymTab) (currPc : Nat) : Res (OutFile × Nat) := do
  match label with
  | none => raise lx.line .unknown none lx.fileName lx.lineNum
  | some label =>
    let destPc ← searchSymbol hash symtab label.str
    if status = .branchOperand then
      match ← calcBranchOffset currPc destPc with
      | none => raise lx.line .tooBigOffset label.bufferLocation lx.fileName lx.lineNum
      | some offset => pure (generateCode f instr (some { label with value := offset }) currPc)
    else if status = .jumpOperand then
      pure (generateCode f instr (some { label with value := toUInt32 destPc }) currPc)
    else raise lx.line .unknown none lx.fileName lx.lineNum

/-! ### main.c -/

/-- main.c:215-259: the part of the loop body for a line with an instruction. -/
def instructionStep (hash : Str → Nat) (buffer : Str) (st : St) : Run St := do
  let operand ← orAbort st.out (findOperand st.lexer)
  let (status, operand) ← orAbort st.out (parseOperand hash st.lexer st.instr operand st.symtab)
  let (res, instr) ← orAbort st.out (parseAddrMode st.lexer st.instr operand status)
  let st := { st with instr := instr }
  let st ← match res with
    | .forwardReference => saveForwardRef buffer st instr operand status
    | .flag => pure st
  let (out, written) ←
    if status = .branchOperand ∨ status = .jumpOperand then
      orAbort st.out (resolveLabelRef hash st.out st.lexer instr operand status st.symtab st.pc)
    else pure (generateCode st.out instr operand st.pc)
  bumpLine { st with out := out } fun st =>
    if st.pc + written > INT_MAX ∨ st.total + written > INT_MAX then .ub .signedOverflow
    else pure { st with pc := st.pc + written, total := st.total + written }

/-- main.c:197-208: the declaration or origin of the line whose first token is `first`. -/
def declareStep (hash : Str → Nat) (first : Token) (st : St) : Run St :=
  if first.type = .label ∨ first.type = .defineDirective then do
    let symtab ← orAbort st.out (parseLabelDeclaration hash st.lexer st.symtab st.pc)
    pure { st with symtab := symtab }
  else if first.type = .base ∨ first.type = .orgDirective then
    pure { st with pc := first.value }
  else pure st

/-- main.c:189-259: the body of the main loop for one buffer. -/
def lineStep (hash : Str → Nat) (raw : List Byte) (st : St) : Run Next := do
  let (lexer, tk, instr) ← orAbort st.out (lexLine raw st.lexer st.tk st.instr st.lineNum)
  let lexer ← orAbort st.out (parseLine lexer)
  let st := { st with lexer := lexer, tk := tk, instr := instr }
  let first ← orAbort st.out (slot lexer 0)
  let st ← declareStep hash first st
  if first.type = .endDirective then pure (.stop st)
  else if st.instr.mnemonic = none then bumpLine st fun st => pure (.continue st)
  else do
    let st ← instructionStep hash (cstr raw) st
    pure (.continue st)

/-- main.c:188-260: the main loop. -/
def mainLoop (hash : Str → Nat) : List (List Byte) → St → Run St
  | [], st => .ok st
  | raw :: rest, st => do
    match ← lineStep hash raw st with
    | .continue st => mainLoop hash rest st
    | .stop st => pure st

/-- main.c:262-277: patch the forward references, in the order they were saved. `k` counts up from `i` to
`unresolved->curr`. -/
def resolveAll (hash : Str → Nat) (st : St) : (n i : Nat) → OutFile → Run OutFile
  | 0, _, out => .ok out
  | n + 1, i, out =>
    match st.unres.refs[i]? with
    | none => .ub .outOfBounds
    | some none => .ub .nullDeref
    | some (some ref) => do
      let dest ← orAbort out (searchSymbol hash st.symtab ref.label)
      if dest < 0 then
        orAbort out (raise (some ref.sourceLine) .missingLabelDefinition (some ref.operandLocation)
          st.lexer.fileName ref.lineNum)
      else do
        let out ← orAbort out (resolveForwardRef out ref st.lexer dest)
        resolveAll hash st n (i + 1) out

/-- main.c:178-277: assemble the bytes of a source file. -/
def assembleBytes (hash : Str → Nat) (srcName : Str) (src : List Byte) : Run St := do
  let st ← mainLoop hash (chunks src) (initSt srcName)
  let out ← resolveAll hash st st.unres.curr 0 st.out
  pure { st with out := out }

/-- main.c:143-291 from line 152 on (`argp_parse` done, allocations succeed). The output file is truncated before
the source is read, so a source with the same name reads as empty. -/
def gaia (hash : Str → Nat) (srcName outName : Str) (w : World) : Outcome :=
  match w.files srcName with
  | none =>
    match printError none .fileOpenFail none srcName 0 with
    | .ok s => .exited ⟨1, s, w⟩
    | .err _ => .undefined .internal
    | .ub u => .undefined u
  | some content =>
    if w.creatable outName = false then
      match printError none .binaryFileCreationFail none srcName 0 with
      | .ok s => .exited ⟨1, s, w⟩
      | .err _ => .undefined .internal
      | .ub u => .undefined u
    else
      let src := if srcName = outName then [] else content
      match assembleBytes hash srcName src with
      | .ok st => .exited ⟨0, report st.total st.symtab.count, w.write outName st.out.bytes⟩
      | .err a => .exited ⟨1, a.fail.out, w.write outName a.out.bytes⟩
      | .ub u => .undefined u

end Gaia.Hash
