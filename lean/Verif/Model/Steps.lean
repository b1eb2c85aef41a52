import Verif.Model.Main

/-!
The same program, with its loop iterations counted.

Every function of src/ that contains a loop, or calls one that does, is given here once more, with the number of loop iterations it
performs beside its result (that the results are those of the model is proved in `Proofs/Steps.lean`). Functions without loops are
used as they are. What is counted:

* one step for every execution of the body of a `for`, `while` or `do` of src/;
* for the one message a failing run prints (`print_error`, error.c:33-130), 19 steps for each byte of a full buffer: the most its
  loops can run (`printErrorSteps` is their number, `Steps.printErrorSteps_le` the bound). This is the only place where an upper
  bound is used instead of the number itself.

Library functions are not loops of src/: `fgets`, `strlen`, `strcmp`, `memcpy`, `printf` work on one line, one token or one message,
and `calloc` and `realloc` on an array which the counted loops fill.
-/
namespace Gaia.Steps
open Gaia

/-- A result together with the number of loop iterations it took. (not a construct of the C code) -/
structure T (ε α : Type) where
  result : C ε α
  steps : Nat

/-- One thing after the other: the iterations add up. (not a construct of the C code) -/
def T.bind {ε α β} (x : T ε α) (f : α → T ε β) : T ε β :=
  match x.result with
  | .ok a => ⟨(f a).result, x.steps + (f a).steps⟩
  | .err e => ⟨.err e, x.steps⟩
  | .ub u => ⟨.ub u, x.steps⟩

/-- `do` notation for `T.bind`. (not a construct of the C code) -/
instance {ε} : Monad (T ε) where
  pure a := ⟨.ok a, 0⟩
  bind := T.bind

/-- Code without loops. (not a construct of the C code) -/
def lift {ε α} (r : C ε α) : T ε α := ⟨r, 0⟩

/-- `n` iterations, then the rest. (not a construct of the C code) -/
def tick {ε α} (n : Nat) (x : T ε α) : T ε α := ⟨x.result, n + x.steps⟩

/-! ### error.c -/

/-- error.c:100-101: the loop over the end of the line (reversed). -/
def trimSteps : Str → Nat
  | [] => 0
  | c :: r => if isTrailing c then 1 + trimSteps r else 0

/-- error.c:113-125: the loop from the start of the line to the error, with the loop over the columns of a tab. -/
def arrowSteps : (n : Nat) → Str → (tabAlign : Nat) → Nat
  | 0, _, _ => 0
  | _ + 1, [], _ => 0
  | n + 1, c :: s, tabAlign =>
    let tabAlign := if tabAlign == 8 then 0 else tabAlign
    if c == 9 then 1 + (8 - tabAlign) + arrowSteps n s 0
    else 1 + arrowSteps n s (tabAlign + 1)

/-- error.c:33-130 `print_error`: the four loops, over the end of the line, the line, the way to the error and the blanks before the
arrow. -/
def printErrorSteps (line : Option Str) (bad : Option Nat) : Nat :=
  match line with
  | none => 0
  | some l =>
    trimSteps l.reverse + (((trimRev l.reverse).map List.length).getD 0) +
      match bad with
      | none => 0
      | some n => arrowSteps n l 0 + (arrowLoop n l 0 0).getD 0

/-! ### lexer.c -/

/-- lexer.c:99-100 (64 iterations, `reset_token`). -/
def resetTokenSteps : Nat := MAX_TOKEN_STR_LEN

/-- lexer.c:111-113 (8 iterations, each with a `reset_token`). -/
def resetLexerSteps : Nat := MAX_TOKENS * (1 + resetTokenSteps)

/-- lexer.c:642-643, 678-679: `while (*curr == ' ' || *curr == '\t')`. -/
def blankSteps : Str → Nat
  | [] => 0
  | c :: s => if isBlank c then 1 + blankSteps s else 0

/-- lexer.c:357-373: the digit loop of `lex_literal`; the iteration that meets a character which is no digit counts. -/
def digitSteps (conv : Byte → Option Nat) : Str → Nat
  | [] => 0
  | c :: s =>
    match conv c with
    | some _ => 1 + digitSteps conv s
    | none => 1

/-- lexer.c:432-440, 499-510: the scanning loops of `lex_directive` and `lex_text`. -/
def scanSteps (stop valid : Byte → Bool) : (fuel : Nat) → Str → Nat
  | 0, _ => 0
  | fuel + 1, s =>
    let c := rd s
    if stop c then 1
    else if !valid c then 1
    else 1 + scanSteps stop valid fuel s.tail

/-- lexer.c:325-392 `lex_literal`. -/
def lexLiteralSteps (s : Str) : Nat :=
  let c := rd s
  if c = 36 then digitSteps hexDigitToInt s.tail
  else if c = 37 then digitSteps binDigitToInt s.tail
  else if isDigit c then digitSteps decDigitToInt s
  else 0

/-- lexer.c:427-463 `lex_directive`: the scan, then the copying loop of `token_strncpy` (lexer.c:202-205). -/
def lexDirectiveSteps (s : Str) : Nat :=
  scanSteps isEndOfToken isAlpha (MAX_TOKEN_STR_LEN - 1) s.tail +
    match scanLoop isEndOfToken isAlpha (MAX_TOKEN_STR_LEN - 1) 1 s.tail with
    | .bad _ => 0
    | .done n => if n = MAX_TOKEN_STR_LEN then 0 else n

/-- lexer.c:495-539 `lex_text`: the scan, then the copying loop of `token_strncpy` (lexer.c:202-205). -/
def lexTextSteps (s : Str) : Nat :=
  scanSteps isTextStop isValidTokenChar MAX_TOKEN_STR_LEN s +
    match scanLoop isTextStop isValidTokenChar MAX_TOKEN_STR_LEN 0 s with
    | .bad _ => 0
    | .done n => if n = MAX_TOKEN_STR_LEN then 0 else n

/-- lexer.c:552-591 `lex`. -/
def lexSteps (s : Str) : Nat :=
  let c := rd s
  match punctType c with
  | some _ => 1
  | none =>
    if isAlpha c then lexTextSteps s
    else if c = 36 ∨ c = 37 ∨ isDigit c then lexLiteralSteps s
    else if c = 46 then lexDirectiveSteps s
    else 0

/-- lexer.c:647-680: the token loop of `lex_line`. -/
def lexLoop (buffer : Str) : (fuel off : Nat) → Str → Lexer → Token → Instr → T Fail (Lexer × Token × Instr)
  | 0, _, _, _, _, _ => lift (.ub .infiniteLoop)
  | fuel + 1, off, s, lx, tk, instr =>
    if endLineLexing (rd s) then pure (lx, tk, instr)
    else
      tick (1 + lexSteps s) <|
      match lex off s tk instr with
      | .ub u => lift (.ub u)
      | .err (e, pos) => lift (raise (some buffer) e (some pos) lx.fileName lx.lineNum)
      | .ok (n, tk, instr) =>
        if n > s.length then lift (.ub .overread)
        else
        match addToken lx tk with
        | .ub u => lift (.ub u)
        | .err (e, _) => lift (.err ⟨e, []⟩)
        | .ok lx =>
          let s := s.drop n
          let off := off + n
          if rd s = 58 then
            if tk.type = .label ∧ lx.curr = 1 then
              let next := skipBlanks (off + 1) s.tail
              tick (blankSteps s.tail) (lexLoop buffer fuel next.1 next.2 lx tk instr)
            else lift (raise (some buffer) .illegalChar (some off) lx.fileName lx.lineNum)
          else
            let next := skipBlanks off s
            tick (blankSteps s) (lexLoop buffer fuel next.1 next.2 lx tk instr)

/-- lexer.c:630-689 `lex_line`, with the loop at lexer.c:684-687 at its end (at most 8 iterations). -/
def lexLine (raw : List Byte) (lx : Lexer) (tk : Token) (instr : Instr) (lineNum : Nat) : T Fail (Lexer × Token × Instr) :=
  let buffer := cstr raw
  let lx := { resetLexer lx with line := some buffer, lineNum := lineNum }
  let instr := resetInstruction instr
  let tk := resetToken tk
  let start := skipBlanks 0 buffer
  tick (resetLexerSteps + resetTokenSteps + blankSteps buffer) do
    let r ← lexLoop buffer (start.2.length + 1) start.1 start.2 lx tk instr
    tick (MAX_TOKENS - r.1.curr) (pure (fillNull r.1, r.2.1, r.2.2))

/-! ### prime.c, symbol_table.c -/

/-- prime.c:24-27. -/
def isPrimeLoopSteps (x : Nat) : (fuel i : Nat) → Nat
  | 0, _ => 0
  | fuel + 1, i =>
    if i ≤ Nat.sqrt x then
      if x % i == 0 then 1 else 1 + isPrimeLoopSteps x fuel (i + 2)
    else 0

/-- prime.c:16-29 `is_prime`. -/
def isPrimeSteps (x : Nat) : Nat :=
  if x < 2 then 0
  else if x < 4 then 0
  else if x % 2 == 0 then 0
  else isPrimeLoopSteps x x 3

/-- prime.c:42-44: the `do` loop. -/
def nextPrimeLoop : (fuel x : Nat) → T Fail Nat
  | 0, _ => lift (.ub .infiniteLoop)
  | fuel + 1, x =>
    if x + 1 > INT_MAX then lift (.ub .signedOverflow)
    else
      tick (1 + isPrimeSteps (x + 1)) <|
      if isPrime (x + 1) then pure (x + 1)
      else nextPrimeLoop fuel (x + 1)

/-- prime.c:38-46 `next_prime`. -/
def nextPrime (x : Nat) : T Fail Nat := nextPrimeLoop (x + 2) x

/-- symbol_table.c:78-84 `djb2_hash`: one iteration per character. -/
def hashSteps (label : Str) : Nat := label.length

/-- symbol_table.c:115-119, 183-187. -/
def probeFree (slots : List (Option Symbol)) : (fuel h : Nat) → T Fail Nat
  | 0, _ => lift (.ub .infiniteLoop)
  | fuel + 1, h =>
    match slots[h]? with
    | none => lift (.ub .outOfBounds)
    | some none => pure h
    | some (some _) => tick 1 (probeFree slots fuel ((h + 1) % slots.length))

/-- One iteration of symbol_table.c:109-122. -/
def rehashOne (newSlots : List (Option Symbol)) (sym : Symbol) : T Fail (List (Option Symbol)) :=
  tick (hashSteps sym.label) do
    let h ← probeFree newSlots newSlots.length (djb2 sym.label % newSlots.length)
    pure (newSlots.set h (some sym))

/-- symbol_table.c:109-122. -/
def rehashAll : List (Option Symbol) → List (Option Symbol) → T Fail (List (Option Symbol))
  | [], new => pure new
  | none :: old, new => tick 1 (rehashAll old new)
  | some sym :: old, new => tick 1 do
    let new ← rehashOne new sym
    rehashAll old new

/-- symbol_table.c:96-127 `resize_symbols`. -/
def resizeSymbols (t : SymTab) : T Fail SymTab :=
  if t.size * 2 > INT_MAX then lift (.ub .signedOverflow)
  else do
    let newSize ← nextPrime (t.size * 2)
    let slots ← rehashAll t.symbols (List.replicate newSize none)
    pure { t with symbols := slots }

/-- symbol_table.c:180-190. -/
def placeSymbol (t : SymTab) (label : Str) (value : Int) : T Fail SymTab :=
  tick (hashSteps label) do
    let h ← probeFree t.symbols t.size (djb2 label % t.size)
    pure { symbols := t.symbols.set h (some ⟨label, value⟩), count := t.count + 1 }

/-- symbol_table.c:165-191 `insert_symbol`. -/
def insertSymbol (t : SymTab) (label : Str) (value : Int) : T Fail SymTab :=
  if (t.count + 1) * 100 > INT_MAX then lift (.ub .signedOverflow)
  else do
    let t ← if overLoaded t then resizeSymbols t else pure t
    placeSymbol t label value

/-- symbol_table.c:205-210. -/
def probeLabel (slots : List (Option Symbol)) (label : Str) : (fuel h : Nat) → T Fail (Option Int)
  | 0, _ => lift (.ub .infiniteLoop)
  | fuel + 1, h =>
    match slots[h]? with
    | none => lift (.ub .outOfBounds)
    | some none => pure none
    | some (some s) =>
      tick 1 <|
      if label = s.label then pure (some s.value)
      else probeLabel slots label fuel ((h + 1) % slots.length)

/-- symbol_table.c:201-213 `search_symbol`. -/
def searchSymbol (t : SymTab) (label : Str) : T Fail Int :=
  tick (hashSteps label) do
    match ← probeLabel t.symbols label t.size (djb2 label % t.size) with
    | some v => pure v
    | none => pure Err.symbolNotFound.code

/-! ### parser.c -/

/-- parser.c:306-363 `parse_label_declaration`. -/
def parseLabelDeclaration (lx : Lexer) (symtab : SymTab) (pc : Nat) : T Fail SymTab := do
  let label ← lift (slot lx 0)
  let defineLabel ← lift (slot lx 1)
  let found ← searchSymbol symtab label.str
  let foundDefine ← searchSymbol symtab defineLabel.str
  if defineLabel.type = .null ∨ defineLabel.type = .instruction then
    if found ≠ Err.symbolNotFound.code then
      lift (raise lx.line .labelRedefinition label.bufferLocation lx.fileName lx.lineNum)
    else insertSymbol symtab label.str (toInt32 pc)
  else if defineLabel.type = .equalSign ∨ defineLabel.type = .equDirective then
    if found ≠ Err.symbolNotFound.code then
      lift (raise lx.line .labelRedefinition label.bufferLocation lx.fileName lx.lineNum)
    else do
      let lit ← lift (slot lx 2)
      insertSymbol symtab label.str (toInt32 lit.value)
  else if label.type = .defineDirective then
    if foundDefine ≠ Err.symbolNotFound.code then
      lift (raise lx.line .labelRedefinition defineLabel.bufferLocation lx.fileName lx.lineNum)
    else do
      let lit ← lift (slot lx 2)
      insertSymbol symtab defineLabel.str (toInt32 lit.value)
  else lift (raise lx.line .unknown none lx.fileName lx.lineNum)

/-- parser.c:377-417 `parse_label_operand`. -/
def parseLabelOperand (lx : Lexer) (instr : Instr) (operand : Token) (symtab : SymTab) : T Fail (OpStatus × Token) := do
  let labelValue ← searchSymbol symtab operand.str
  if labelValue ≠ Err.symbolNotFound.code then
    let operand := { operand with value := toUInt32 labelValue }
    if instr.isBranch then pure (.branchOperand, operand)
    else if instr.isJump then pure (.jumpOperand, operand)
    else pure (.parserSuccess, operand)
  else if instr.isBranch then pure (.branchForwardReference, operand)
  else if instr.isJump then pure (.jumpForwardReference, operand)
  else lift (raise lx.line .illegalForwardReference operand.bufferLocation lx.fileName lx.lineNum)

/-- parser.c:438-456 `parse_operand`. -/
def parseOperand (lx : Lexer) (instr : Instr) (operand : Option Token) (symtab : SymTab) : T Fail (OpStatus × Option Token) :=
  match operand with
  | none => pure (.parserSuccess, none)
  | some tk =>
    if tk.type = .label then do
      let r ← parseLabelOperand lx instr tk symtab
      pure (r.1, some r.2)
    else if tk.type = .literal ∨ tk.type = .accumulator then pure (.parserSuccess, some tk)
    else lift (raise lx.line .unknown none lx.fileName lx.lineNum)

/-- parser.c:474-480: the loop of `find_operand`. -/
def findOperandLoop (lx : Lexer) : (fuel i : Nat) → (curr : Token) → T Fail (Option Token)
  | 0, _, _ => lift (.ub .infiniteLoop)
  | fuel + 1, i, curr =>
    if curr.type = .null then pure none
    else tick 1 do
      let curr ← lift (slot lx i)
      if curr.type = .label ∨ curr.type = .literal ∨ curr.type = .accumulator then pure (some curr)
      else findOperandLoop lx fuel (i + 1) curr

/-- parser.c:466-482 `find_operand`. -/
def findOperand (lx : Lexer) : T Fail (Option Token) := do
  let curr ← lift (slot lx 1)
  findOperandLoop lx 10 1 curr

/-- parser.c:596-665 `parse_addr_mode`: when there is an operand, `apply_masks` runs its loop (parser.c:505-517, 8 iterations). -/
def parseAddrMode (lx : Lexer) (instr : Instr) (operand : Option Token) (status : OpStatus) : T Fail (AddrRes × Instr) :=
  tick (if operand.isSome then MAX_TOKENS else 0) (lift (Gaia.parseAddrMode lx instr operand status))

/-! ### forward_reference.c, generator.c -/

/-- forward_reference.c:107-115: the loop over the blanks at the end of the line. -/
def savedLineSteps (buffer : Str) : Nat :=
  blankSteps (match buffer.reverse with | 10 :: r => r | r => r)

/-- forward_reference.c:98-156 `create_forward_ref`. -/
def createForwardRef (buffer : Str) (instr : Instr) (operand : Option Token) (status : OpStatus) (pc lineNum : Nat) :
    T Fail ForwardRef :=
  tick (savedLineSteps buffer) (lift (Gaia.createForwardRef buffer instr operand status pc lineNum))

/-- forward_reference.c:190-200 `add_forward_ref`: growing runs the loop at forward_reference.c:175-176 over the new half. -/
def addForwardRef (u : Unresolved) (ref : ForwardRef) : T Fail Unresolved :=
  tick (if u.curr + 1 = u.size then u.size else 0) (lift (Gaia.addForwardRef u ref))

/-- generator.c:102-132 `resolve_label_ref`. -/
def resolveLabelRef (f : OutFile) (lx : Lexer) (instr : Instr) (label : Option Token) (status : OpStatus) (symtab : SymTab)
    (currPc : Nat) : T Fail (OutFile × Nat) :=
  match label with
  | none => lift (raise lx.line .unknown none lx.fileName lx.lineNum)
  | some label => do
    let destPc ← searchSymbol symtab label.str
    if status = .branchOperand then do
      match ← lift (calcBranchOffset currPc destPc) with
      | none => lift (raise lx.line .tooBigOffset label.bufferLocation lx.fileName lx.lineNum)
      | some offset => pure (generateCode f instr (some { label with value := offset }) currPc)
    else if status = .jumpOperand then
      pure (generateCode f instr (some { label with value := toUInt32 destPc }) currPc)
    else lift (raise lx.line .unknown none lx.fileName lx.lineNum)

/-! ### main.c -/

/-- The clean-up loops of `abort_gaia` and of the end of `main` (main.c:122-141, 284-289): lexer.c:147-150 (8), symbol_table.c:59-66
(one per slot), forward_reference.c:74-75 (one per saved reference). -/
def cleanSteps (symtab : SymTab) (unres : Unresolved) : Nat := MAX_TOKENS + symtab.size + unres.curr

/-- The loops of `print_error` for a message about a line of at most 127 bytes (error.c:100-128): see the head of this file. -/
def printSteps : Nat := 19 * (MAX_BUFFER_SIZE - 1)

/-- `if (IS_ERROR(code)) ABORT_ASSEMBLY();` (main.c:92-104). -/
def orAbort {α} (symtab : SymTab) (unres : Unresolved) (out : OutFile) (x : T Fail α) : T Abort α :=
  match x.result with
  | .ok a => ⟨.ok a, x.steps⟩
  | .err e => ⟨.err ⟨e, out⟩, x.steps + printSteps + cleanSteps symtab unres⟩
  | .ub u => ⟨.ub u, x.steps⟩

/-- main.c:227-243. -/
def saveForwardRef (buffer : Str) (st : St) (instr : Instr) (operand : Option Token) (status : OpStatus) : T Abort St := do
  let ref ← orAbort st.symtab st.unres st.out (createForwardRef buffer instr operand status st.pc st.lineNum)
  let unres ← orAbort st.symtab st.unres st.out (addForwardRef st.unres ref)
  let out := (st.out.fputc 0).fputc 0
  let out := if status = .jumpForwardReference then out.fputc 0 else out
  pure { st with unres := unres, out := out }

/-- main.c:227-243 when `parse_addr_mode` reports a forward reference. -/
def saveStep (buffer : Str) (st : St) (res : AddrRes) (operand : Option Token) (status : OpStatus) : T Abort St :=
  match res with
  | .forwardReference => saveForwardRef buffer st st.instr operand status
  | .flag => pure st

/-- main.c:245-255: the code of the line. -/
def emitStep (st : St) (operand : Option Token) (status : OpStatus) : T Abort (OutFile × Nat) :=
  if status = .branchOperand ∨ status = .jumpOperand then
    orAbort st.symtab st.unres st.out (resolveLabelRef st.out st.lexer st.instr operand status st.symtab st.pc)
  else pure (generateCode st.out st.instr operand st.pc)

/-- main.c:215-259. -/
def instructionStep (buffer : Str) (st : St) : T Abort St := do
  let operand ← orAbort st.symtab st.unres st.out (findOperand st.lexer)
  let r ← orAbort st.symtab st.unres st.out (parseOperand st.lexer st.instr operand st.symtab)
  let m ← orAbort st.symtab st.unres st.out (parseAddrMode st.lexer st.instr r.2 r.1)
  let st ← saveStep buffer { st with instr := m.2 } m.1 r.2 r.1
  let w ← emitStep st r.2 r.1
  lift (bumpLine { st with out := w.1 } fun st =>
    if st.pc + w.2 > INT_MAX ∨ st.total + w.2 > INT_MAX then .ub .signedOverflow
    else pure { st with pc := st.pc + w.2, total := st.total + w.2 })

/-- main.c:197-208. -/
def declareStep (first : Token) (st : St) : T Abort St :=
  if first.type = .label ∨ first.type = .defineDirective then do
    let symtab ← orAbort st.symtab st.unres st.out (parseLabelDeclaration st.lexer st.symtab st.pc)
    pure { st with symtab := symtab }
  else if first.type = .base ∨ first.type = .orgDirective then
    pure { st with pc := first.value }
  else pure st

/-- main.c:189-259: the body of the main loop. -/
def lineStep (raw : List Byte) (st : St) : T Abort Next := do
  let r ← orAbort st.symtab st.unres st.out (lexLine raw st.lexer st.tk st.instr st.lineNum)
  let lexer ← orAbort st.symtab st.unres st.out (lift (parseLine r.1))
  let st := { st with lexer := lexer, tk := r.2.1, instr := r.2.2 }
  let first ← orAbort st.symtab st.unres st.out (lift (slot lexer 0))
  let st ← declareStep first st
  if first.type = .endDirective then pure (.stop st)
  else if st.instr.mnemonic = none then lift (bumpLine st fun st => pure (.continue st))
  else do
    let st ← instructionStep (cstr raw) st
    pure (.continue st)

/-- main.c:188-260: the main loop. -/
def mainLoop : List (List Byte) → St → T Abort St
  | [], st => pure st
  | raw :: rest, st => tick 1 do
    match ← lineStep raw st with
    | .continue st => mainLoop rest st
    | .stop st => pure st

/-- main.c:262-277. -/
def resolveAll (st : St) : (n i : Nat) → OutFile → T Abort OutFile
  | 0, _, out => pure out
  | n + 1, i, out =>
    match st.unres.refs[i]? with
    | none => lift (.ub .outOfBounds)
    | some none => lift (.ub .nullDeref)
    | some (some ref) => tick 1 do
      let dest ← orAbort st.symtab st.unres out (searchSymbol st.symtab ref.label)
      if dest < 0 then
        orAbort st.symtab st.unres out (lift (raise (some ref.sourceLine) .missingLabelDefinition (some ref.operandLocation)
          st.lexer.fileName ref.lineNum))
      else do
        let out ← orAbort st.symtab st.unres out (lift (resolveForwardRef out ref st.lexer dest))
        resolveAll st n (i + 1) out

/-- main.c:154-290: assembling the bytes of a source, from `init_sequence` (lexer.c:61-65, 8 iterations) to the clean-up. -/
def assembleBytes (srcName : Str) (src : List Byte) : T Abort St :=
  tick MAX_TOKENS do
    let st ← mainLoop (chunks src) (initSt srcName)
    let out ← resolveAll st st.unres.curr 0 st.out
    tick (cleanSteps st.symtab st.unres) (pure { st with out := out })

/-- main.c:143-291 from line 152 on, as `Gaia.gaia`: what the run amounts to, and its loop iterations. -/
def gaia (srcName outName : Str) (w : World) : Outcome × Nat :=
  match w.files srcName with
  | none =>
    match printError none .fileOpenFail none srcName 0 with
    | .ok s => (.exited ⟨1, s, w⟩, MAX_TOKENS + cleanSteps initSymbolTable initUnresolved)
    | .err _ => (.undefined .internal, MAX_TOKENS)
    | .ub u => (.undefined u, MAX_TOKENS)
  | some content =>
    if w.creatable outName = false then
      match printError none .binaryFileCreationFail none srcName 0 with
      | .ok s => (.exited ⟨1, s, w⟩, MAX_TOKENS + cleanSteps initSymbolTable initUnresolved)
      | .err _ => (.undefined .internal, MAX_TOKENS)
      | .ub u => (.undefined u, MAX_TOKENS)
    else
      let src := if srcName = outName then [] else content
      let r := assembleBytes srcName src
      match r.result with
      | .ok st => (.exited ⟨0, report st.total st.symtab.count, w.write outName st.out.bytes⟩, r.steps)
      | .err a => (.exited ⟨1, a.fail.out, w.write outName a.out.bytes⟩, r.steps)
      | .ub u => (.undefined u, r.steps)

end Gaia.Steps
