import Verif.Model.Main

/-!
The same program on a platform where `char` is unsigned (Arm, PowerPC, RISC-V; gcc -funsigned-char).

The signedness of `char` shows in four places of src/: the comparisons with `EOF` (-1) at error.c:100, lexer.c:310 and lexer.c:608, which a `char`
of value 0xFF passes if `char` is signed and never passes if it is not, and the sum in `djb2_hash` (symbol_table.c:82). The first four changed
definitions below (`isTrailing`, `isEndOfToken`, `endLineLexing`, `charToULong`) say so; all others are those of the model, repeated because they
use one of the four.
-/
namespace Gaia.Uns
open Gaia

/-! ### error.c -/

/-- error.c:100: the characters skipped at the end of the source line. `*end == EOF` compares a `char` between 0 and 255 with -1: never true. -/
def isTrailing (c : Byte) : Bool := c == 32 || c == 9 || c == 10

/-- error.c:99-101: `end = line + strlen(line) - 1; while (trailing(*end)) end--;` on the reversed line.
Running below the start of the line is an underrun. -/
def trimRev : Str → Option Str
  | [] => none
  | c :: r => if isTrailing c then trimRev r else some (c :: r)

/-- error.c:33-130 `print_error`. `line` is the source line (`none` is NULL), `bad` the offset of `bad_char` in
`line` (`none` is NULL). Returns the bytes printed. -/
def printError (line : Option Str) (e : Err) (bad : Option Nat) (fileName : Str) (lineNum : Nat) :
    Res Str :=
  let hdr : Str := match line with
    | some _ => fileName ++ b! ":" ++ decimal lineNum ++ b! ": "
    | none => []
  match errorMessage fileName e with
  | none => .ok hdr
  | some msg =>
    match line with
    | none => .ok (hdr ++ msg ++ b! "\n")
    | some l =>
      match trimRev l.reverse with
      | none => .ub .underrun
      | some r =>
        let body := hdr ++ msg ++ r.reverse ++ b! "\n"
        match bad with
        | none => .ok (body ++ b! "\n")
        | some n =>
          match arrowLoop n l 0 0 with
          | none => .ub .overread
          | some k => .ok (body ++ List.replicate k 32 ++ b! "^~~~~~\n\n")

/-- The pattern `print_error(line, code, bad, file, num); return code;` used throughout. (e.g. parser.c:320-325,
generator.c:118-121; error.c:33) -/
def raise {α} (line : Option Str) (e : Err) (bad : Option Nat) (fileName : Str) (lineNum : Nat) : Res α :=
  printError line e bad fileName lineNum >>= fun out => .err ⟨e, out⟩

/-! ### lexer.c -/

/-- lexer.c:298-314 `is_end_of_token`: blank, tab, CR, LF, NUL, `,`, `(`, `)`, `;`. `case EOF` (-1) is never met. -/
def isEndOfToken (c : Byte) : Bool :=
  c == 32 || c == 9 || c == 13 || c == 10 || c == 0 || c == 44 || c == 40 || c == 41 || c == 59

/-- lexer.c:355-373: the `while (*curr)` loop; `total` is an `unsigned long long` (64 bits, wraps). -/
def digitLoop (conv : Byte → Option Nat) (base : Nat) : Str → (total numChars : Nat) → DigitRes
  | [], total, n => .done total n
  | c :: s, total, n =>
    match conv c with
    | some v => digitLoop conv base s ((total * base + v) % 2 ^ 64) (n + 1)
    | none => if isEndOfToken c then .done total n else .bad n

/-- lexer.c:354-391: the rest of `lex_literal` once base and converter are chosen. -/
def lexLiteralBody (conv : Byte → Option Nat) (base : Nat) (off : Nat) (s : Str) (numChars : Nat)
    (tk : Token) : LexM (Nat × Token) :=
  match digitLoop conv base s 0 numChars with
  | .bad n => .err (.illegalChar, off + n)
  | .done total n =>
    if n = 0 then .err (.illegalChar, off + n)
    else if n = 1 ∧ (base = 2 ∨ base = 16) then .err (.illegalChar, off + n)
    else if total > 0xFFFF then .err (.tooBigLiteral, off)
    else .ok (n, { tk with type := .literal, value := total })

/-- lexer.c:325-392 `lex_literal`. `s` is the text at offset `off` of the line. Returns the number of characters
read and the updated running token. -/
def lexLiteral (off : Nat) (s : Str) (tk : Token) : LexM (Nat × Token) :=
  let c := rd s
  if c = 36 then lexLiteralBody hexDigitToInt 16 off s.tail 1 tk
  else if c = 37 then lexLiteralBody binDigitToInt 2 off s.tail 1 tk
  else if isDigit c then lexLiteralBody decDigitToInt 10 off s 0 tk
  else .err (.illegalChar, off)

/-- lexer.c:427-463 `lex_directive` (scan starts at index 1, after the period). -/
def lexDirective (off : Nat) (s : Str) (tk : Token) : LexM (Nat × Token) :=
  match scanLoop isEndOfToken isAlpha (MAX_TOKEN_STR_LEN - 1) 1 s.tail with
  | .bad i => .err (.illegalChar, off + i)
  | .done n =>
    if n = MAX_TOKEN_STR_LEN then .err (.illegalDirective, off)
    else do
      let tk ← tokenStrncpy tk s n
      match directiveType tk.str with
      | some t => pure (n, { tk with type := t })
      | none => .err (.illegalDirective, off)

/-- lexer.c:504: the characters that end a text token (a colon in addition to `is_end_of_token`). -/
def isTextStop (c : Byte) : Bool := isEndOfToken c || c == 58

/-- lexer.c:495-539 `lex_text` -/
def lexText (off : Nat) (s : Str) (tk : Token) (instr : Instr) : LexM (Nat × Token × Instr) :=
  match scanLoop isTextStop isValidTokenChar MAX_TOKEN_STR_LEN 0 s with
  | .bad i => .err (.illegalChar, off + i)
  | .done n =>
    if n = MAX_TOKEN_STR_LEN then .err (.tooLongLabel, off)
    else do
      let tk ← tokenStrncpy tk s n
      if tk.str = b! "X" then pure (n, { tk with type := .xRegister }, instr)
      else if tk.str = b! "Y" then pure (n, { tk with type := .yRegister }, instr)
      else if tk.str = b! "A" then pure (n, { tk with type := .accumulator }, instr)
      else
        match lexInstruction tk instr with
        | some (tk, instr) => pure (n, tk, instr)
        | none => pure (n, { tk with type := .label }, instr)

/-- lexer.c:552-591 `lex` -/
def lex (off : Nat) (s : Str) (tk : Token) (instr : Instr) : LexM (Nat × Token × Instr) :=
  let c := rd s
  let tk := { tk with bufferLocation := some off }
  match punctType c with
  | some t => do
    let tk ← tokenStrncpy { tk with type := t } [c] 1
    pure (1, tk, instr)
  | none =>
    if isAlpha c then lexText off s tk instr
    else if c = 36 ∨ c = 37 ∨ isDigit c then do
      let (n, tk) ← lexLiteral off s tk
      pure (n, tk, instr)
    else if c = 46 then do
      let (n, tk) ← lexDirective off s tk
      pure (n, tk, instr)
    else .err (.illegalChar, off)

/-- lexer.c:601-612 `end_line_lexing`: CR, LF, `;`, NUL. `case EOF` (-1) is never met. -/
def endLineLexing (c : Byte) : Bool := c == 13 || c == 10 || c == 59 || c == 0

/-- lexer.c:647-680: the token loop of `lex_line`. `buffer` is the whole line, `s` the text at offset `off`.
`fuel`: one more than the characters left always suffices (see `Gaia.lexLine_safe`). -/
def lexLoop (buffer : Str) : (fuel off : Nat) → Str → Lexer → Token → Instr → Res (Lexer × Token × Instr)
  | 0, _, _, _, _, _ => .ub .infiniteLoop
  | fuel + 1, off, s, lx, tk, instr =>
    if endLineLexing (rd s) then .ok (lx, tk, instr)
    else
      match lex off s tk instr with
      | .ub u => .ub u
      | .err (e, pos) => raise (some buffer) e (some pos) lx.fileName lx.lineNum
      | .ok (n, tk, instr) =>
        if n > s.length then .ub .overread
        else
        match addToken lx tk with
        | .ub u => .ub u
        | .err (e, _) => .err ⟨e, []⟩          -- lexer.c:657-661: no message is printed
        | .ok lx =>
          let s := s.drop n
          let off := off + n
          if rd s = 58 then
            if tk.type = .label ∧ lx.curr = 1 then
              let (off, s) := skipBlanks (off + 1) s.tail
              lexLoop buffer fuel off s lx tk instr
            else raise (some buffer) .illegalChar (some off) lx.fileName lx.lineNum
          else
            let (off, s) := skipBlanks off s
            lexLoop buffer fuel off s lx tk instr

/-- lexer.c:630-689 `lex_line`. `raw` is the content of the line buffer; the scratch structures of the previous
line come in and their new contents go out. -/
def lexLine (raw : List Byte) (lx : Lexer) (tk : Token) (instr : Instr) (lineNum : Nat) :
    Res (Lexer × Token × Instr) :=
  let buffer := cstr raw
  let lx := { resetLexer lx with line := some buffer, lineNum := lineNum }
  let instr := resetInstruction instr
  let tk := resetToken tk
  let (off, s) := skipBlanks 0 buffer
  do
    let (lx, tk, instr) ← lexLoop buffer (s.length + 1) off s lx tk instr
    pure (fillNull lx, tk, instr)

/-! ### symbol_table.c -/

/-- A `char` converted to `unsigned long`: its value. (symbol_table.c:82) -/
def charToULong (c : Byte) : Nat := c.toNat

/-- symbol_table.c:78-84 `djb2_hash`: 64-bit `unsigned long` arithmetic. -/
def djb2 (label : Str) : Nat :=
  label.foldl (fun h c => (h * 32 + h + charToULong c) % 2 ^ 64) 5381

/-- One iteration of the loop at symbol_table.c:109-122: transfer `sym` into the new array. -/
def rehashOne (newSlots : List (Option Symbol)) (sym : Symbol) : Res (List (Option Symbol)) := do
  let h ← probeFree newSlots newSlots.length (djb2 sym.label % newSlots.length)
  pure (newSlots.set h (some sym))

/-- symbol_table.c:109-122: the transfer loop, in slot order. -/
def rehashAll : List (Option Symbol) → List (Option Symbol) → Res (List (Option Symbol))
  | [], new => .ok new
  | none :: old, new => rehashAll old new
  | some sym :: old, new => do
    let new ← rehashOne new sym
    rehashAll old new

/-- symbol_table.c:96-127 `resize_symbols` (allocation succeeds). -/
def resizeSymbols (t : SymTab) : Res SymTab :=
  if t.size * 2 > INT_MAX then .ub .signedOverflow
  else do
    let newSize ← nextPrime (t.size * 2)
    let slots ← rehashAll t.symbols (List.replicate newSize none)
    pure { t with symbols := slots }

/-- symbol_table.c:180-190: place a new symbol in the (already grown) table. -/
def placeSymbol (t : SymTab) (label : Str) (value : Int) : Res SymTab := do
  let h ← probeFree t.symbols t.size (djb2 label % t.size)
  pure { symbols := t.symbols.set h (some ⟨label, value⟩), count := t.count + 1 }

/-- symbol_table.c:165-191 `insert_symbol` (allocations succeed; ). -/
def insertSymbol (t : SymTab) (label : Str) (value : Int) : Res SymTab :=
  if (t.count + 1) * 100 > INT_MAX then .ub .signedOverflow
  else do
    let t ← if overLoaded t then resizeSymbols t else pure t
    placeSymbol t label value

/-- symbol_table.c:201-213 `search_symbol`, with `ERROR_SYMBOL_NOT_FOUND` as `none`. -/
def searchOpt (t : SymTab) (label : Str) : Res (Option Int) :=
  probeLabel t.symbols label t.size (djb2 label % t.size)

/-- symbol_table.c:201-213 `search_symbol` as the C function returns it: an `int`, -2 if not found. -/
def searchSymbol (t : SymTab) (label : Str) : Res Int := do
  match ← searchOpt t label with
  | some v => pure v
  | none => pure Err.symbolNotFound.code

/-! ### parser.c -/

/-- The common tail of the syntax functions (parser.c:76-80, 139-143, 178-182, 223-227, 255-259, 285-289):
report error `e` at the token in slot `i`. -/
def syntaxError {α} (lx : Lexer) (i : Nat) (e : Err) : Res α := do
  let t ← slot lx i
  raise lx.line e t.bufferLocation lx.fileName lx.lineNum

/-- parser.c:40-81 `parse_indirect_operand_tree` -/
def parseIndirectOperandTree (lx : Lexer) (index : Nat) : Res Unit := do
  let i := index + 1
  let t ← slot lx i
  if t.type = .comma then
    let i := i + 1
    let t ← slot lx i
    if t.type = .xRegister then
      let i := i + 1
      let t ← slot lx i
      if t.type = .closeParenthesis then
        let i := i + 1
        let t ← slot lx i
        if t.type = .null then pure () else syntaxError lx i .illegalSequence
      else syntaxError lx i .illegalSequence
    else syntaxError lx i .illegalSequence
  else if t.type = .closeParenthesis then
    let i := i + 1
    let t ← slot lx i
    if t.type = .comma then
      let i := i + 1
      let t ← slot lx i
      if t.type = .yRegister then
        let i := i + 1
        let t ← slot lx i
        if t.type = .null then pure () else syntaxError lx i .illegalSequence
      else syntaxError lx i .illegalSequence
    else if t.type = .null then pure ()
    else syntaxError lx i .illegalSequence
  else syntaxError lx i .illegalSequence

/-- parser.c:91-144 `parse_instr_tree` -/
def parseInstrTree (lx : Lexer) (index : Nat) : Res Unit := do
  let i := index + 1
  let t ← slot lx i
  if t.type = .openParenthesis then
    let i := i + 1
    let t ← slot lx i
    if isOperandType t.type then parseIndirectOperandTree lx i
    else syntaxError lx i .illegalSequence
  else if isOperandType t.type then
    let i := i + 1
    let t ← slot lx i
    if t.type = .null then pure ()
    else if t.type = .comma then
      let i := i + 1
      let t ← slot lx i
      if t.type = .xRegister ∨ t.type = .yRegister then pure ()   -- nothing is required to follow
      else syntaxError lx i .illegalSequence
    else syntaxError lx i .illegalSequence
  else if t.type = .immediate then
    let i := i + 1
    let t ← slot lx i
    if isOperandType t.type then
      let i := i + 1
      let t ← slot lx i
      if t.type = .null then pure () else syntaxError lx i .illegalSequence
    else syntaxError lx i .illegalSequence
  else if t.type = .accumulator then
    let i := i + 1
    let t ← slot lx i
    if t.type = .null then pure () else syntaxError lx i .illegalSequence
  else if t.type = .null then pure ()
  else syntaxError lx i .illegalSequence

/-- parser.c:154-183 `parse_label_tree` -/
def parseLabelTree (lx : Lexer) (index : Nat) : Res Unit := do
  let i := index + 1
  let t ← slot lx i
  if t.type = .equalSign ∨ t.type = .equDirective then
    let i := i + 1
    let t ← slot lx i
    if t.type = .literal then
      let i := i + 1
      let t ← slot lx i
      if t.type = .null then pure () else syntaxError lx i .illegalSequence
    else syntaxError lx i .illegalSequence
  else if t.type = .instruction then parseInstrTree lx i
  else if t.type = .null then pure ()
  else syntaxError lx i .illegalSequence

/-- parser.c:193-228 `parse_directive_tree`; returns the lexer, whose `.ORG` token receives the new location. -/
def parseDirectiveTree (lx : Lexer) (index : Nat) : Res Lexer := do
  let t ← slot lx index
  if t.type = .defineDirective then
    let i := index + 1
    let t ← slot lx i
    if t.type = .label then
      let i := i + 1
      let t ← slot lx i
      if t.type = .literal then
        let i := i + 1
        let t ← slot lx i
        if t.type = .null then pure lx else syntaxError lx i .illegalSequence
      else syntaxError lx i .illegalSequence
    else syntaxError lx i .illegalSequence
  else if t.type = .orgDirective then
    let i := index + 1
    let lit ← slot lx i
    if lit.type = .literal then
      let i := i + 1
      let t ← slot lx i
      if t.type = .null then pure (setValue lx (i - 2) lit.value) else syntaxError lx i .illegalSequence
    else syntaxError lx i .illegalSequence
  else if t.type = .endDirective then
    let i := index + 1
    let t ← slot lx i
    if t.type = .null then pure lx else syntaxError lx i .illegalSequence
  else syntaxError lx index .illegalSequence

/-- parser.c:238-260 `parse_base_tree`; the `*` token receives the new location. -/
def parseBaseTree (lx : Lexer) (index : Nat) : Res Lexer := do
  let i := index + 1
  let t ← slot lx i
  if t.type = .equalSign then
    let i := i + 1
    let lit ← slot lx i
    if lit.type = .literal then
      let i := i + 1
      let t ← slot lx i
      if t.type = .null then pure (setValue lx (i - 3) lit.value) else syntaxError lx i .illegalBase
    else syntaxError lx i .illegalBase
  else syntaxError lx i .illegalBase

/-- parser.c:269-290 `parse_line` -/
def parseLine (lx : Lexer) : Res Lexer := do
  let t ← slot lx 0
  if t.type = .instruction then
    parseInstrTree lx 0
    pure lx
  else if t.type = .label then
    parseLabelTree lx 0
    pure lx
  else if isDirectiveType t.type then parseDirectiveTree lx 0
  else if t.type = .base then parseBaseTree lx 0
  else if t.type = .null then pure lx
  else syntaxError lx 0 .illegalSequence

/-- parser.c:306-363 `parse_label_declaration`. Returns the new symbol table (`insert_symbol` cannot report an
error when allocation succeeds). The assignments to `label->value` are not kept: main.c never reads them. -/
def parseLabelDeclaration (lx : Lexer) (symtab : SymTab) (pc : Nat) : Res SymTab := do
  let label ← slot lx 0
  let defineLabel ← slot lx 1
  let found ← searchSymbol symtab label.str
  let foundDefine ← searchSymbol symtab defineLabel.str
  if defineLabel.type = .null ∨ defineLabel.type = .instruction then
    if found ≠ Err.symbolNotFound.code then
      raise lx.line .labelRedefinition label.bufferLocation lx.fileName lx.lineNum
    else insertSymbol symtab label.str (toInt32 pc)
  else if defineLabel.type = .equalSign ∨ defineLabel.type = .equDirective then
    if found ≠ Err.symbolNotFound.code then
      raise lx.line .labelRedefinition label.bufferLocation lx.fileName lx.lineNum
    else
      let lit ← slot lx 2
      insertSymbol symtab label.str (toInt32 lit.value)
  else if label.type = .defineDirective then
    if foundDefine ≠ Err.symbolNotFound.code then
      raise lx.line .labelRedefinition defineLabel.bufferLocation lx.fileName lx.lineNum
    else
      let lit ← slot lx 2
      insertSymbol symtab defineLabel.str (toInt32 lit.value)
  else raise lx.line .unknown none lx.fileName lx.lineNum

/-- parser.c:377-417 `parse_label_operand`. The operand token is passed and returned by value (in C it is a
pointer into the sequence; only its `value` changes and the sequence is not searched for values afterwards). -/
def parseLabelOperand (lx : Lexer) (instr : Instr) (operand : Token) (symtab : SymTab) :
    Res (OpStatus × Token) := do
  let labelValue ← searchSymbol symtab operand.str
  if labelValue ≠ Err.symbolNotFound.code then
    let operand := { operand with value := toUInt32 labelValue }
    if instr.isBranch then pure (.branchOperand, operand)
    else if instr.isJump then pure (.jumpOperand, operand)
    else pure (.parserSuccess, operand)
  else if instr.isBranch then pure (.branchForwardReference, operand)
  else if instr.isJump then pure (.jumpForwardReference, operand)
  else raise lx.line .illegalForwardReference operand.bufferLocation lx.fileName lx.lineNum

/-- parser.c:438-456 `parse_operand`; `none` is a NULL operand. -/
def parseOperand (lx : Lexer) (instr : Instr) (operand : Option Token) (symtab : SymTab) :
    Res (OpStatus × Option Token) :=
  match operand with
  | none => .ok (.parserSuccess, none)
  | some tk =>
    if tk.type = .label then do
      let (st, tk) ← parseLabelOperand lx instr tk symtab
      pure (st, some tk)
    else if tk.type = .literal ∨ tk.type = .accumulator then .ok (.parserSuccess, some tk)
    else raise lx.line .unknown none lx.fileName lx.lineNum

/-- parser.c:555-576 `parse_forward_ref_addr_mode` -/
def parseForwardRefAddrMode (lx : Lexer) (instr : Instr) : Res (AddrRes × Instr) :=
  let addrMode := applyMasks lx 0x1FFF
  let instr :=
    if instr.isBranch then { instr with addrBitflag := addrMode &&& ADDR_MODE_RELATIVE }
    else if instr.mnemonic = some .JMP then { instr with addrBitflag := addrMode &&& ABSOLUTE_FIELD }
    else if instr.mnemonic = some .JSR then { instr with addrBitflag := addrMode &&& ADDR_MODE_ABSOLUTE }
    else instr
  if instr.addrBitflag = 0 then raise lx.line .illegalAddressingMode none lx.fileName lx.lineNum
  else .ok (.forwardReference, instr)

/-- parser.c:596-665 `parse_addr_mode` -/
def parseAddrMode (lx : Lexer) (instr : Instr) (operand : Option Token) (status : OpStatus) :
    Res (AddrRes × Instr) :=
  if status = .branchForwardReference ∨ status = .jumpForwardReference then
    parseForwardRefAddrMode lx instr
  else
    match operand with
    | none =>
      let flag :=
        if instr.mnemonic = some .ASL ∨ instr.mnemonic = some .LSR ∨ instr.mnemonic = some .ROL ∨
            instr.mnemonic = some .ROR
        then instr.addrBitfield &&& ADDR_MODE_ACCUMULATOR
        else instr.addrBitfield &&& ADDR_MODE_IMPLIED
      let instr := { instr with addrBitflag := flag }
      if instr.addrBitflag = 0 then raise lx.line .illegalAddressingMode none lx.fileName lx.lineNum
      else .ok (.flag, instr)
    | some op =>
      let addrMode : Flags :=
        if op.type = .accumulator then 0x1FFF &&& ADDR_MODE_ACCUMULATOR
        else if op.value > 0xFF then
          if !instr.isBranch then ABSOLUTE_FIELD else ZERO_PAGE_FIELD
        else
          if !instr.isJump then ZERO_PAGE_FIELD else ABSOLUTE_FIELD
      let addrMode :=
        if instr.isBranch then addrMode &&& ADDR_MODE_RELATIVE else addrMode &&& ~~~ADDR_MODE_RELATIVE
      let addrMode := applyMasks lx addrMode
      let instr := { instr with addrBitflag := addrMode &&& instr.addrBitfield }
      if instr.addrBitflag = 0 then raise lx.line .illegalAddressingMode none lx.fileName lx.lineNum
      else .ok (.flag, instr)

/-! ### generator.c -/

/-- generator.c:102-132 `resolve_label_ref` -/
def resolveLabelRef (f : OutFile) (lx : Lexer) (instr : Instr) (label : Option Token) (status : OpStatus)
    (symtab : SymTab) (currPc : Nat) : Res (OutFile × Nat) := do
  match label with
  | none => raise lx.line .unknown none lx.fileName lx.lineNum
  | some label =>
    let destPc ← searchSymbol symtab label.str
    if status = .branchOperand then
      match ← calcBranchOffset currPc destPc with
      | none => raise lx.line .tooBigOffset label.bufferLocation lx.fileName lx.lineNum
      | some offset => pure (generateCode f instr (some { label with value := offset }) currPc)
    else if status = .jumpOperand then
      pure (generateCode f instr (some { label with value := toUInt32 destPc }) currPc)
    else raise lx.line .unknown none lx.fileName lx.lineNum

/-- generator.c:148-194 `resolve_forward_ref`. The byte count it returns is only compared with 0 by main.c:275,
so only the file is returned. -/
def resolveForwardRef (f : OutFile) (ref : ForwardRef) (lx : Lexer) (destPc : Int) : Res OutFile := do
  if ref.status = .branchForwardReference then
    match ← calcBranchOffset ref.pc destPc with
    | none => raise (some ref.sourceLine) .tooBigOffset (some ref.operandLocation) lx.fileName ref.lineNum
    | some offset =>
      if ref.instr.addrBitflag ≠ 0 then
        pure (((f.seek ref.pc).fputc (getOpcode ref.instr)).fputc offset)
      else raise lx.line .illegalAddressingMode none lx.fileName lx.lineNum
  else if ref.status = .jumpForwardReference then
    if ref.instr.addrBitflag ≠ 0 then
      pure ((((f.seek ref.pc).fputc (getOpcode ref.instr)).fputc (destPc % 256)).fputc (destPc / 256))
    else raise lx.line .illegalAddressingMode none lx.fileName lx.lineNum
  else raise lx.line .unknown none lx.fileName lx.lineNum

/-! ### main.c -/

/-- main.c:215-259: the part of the loop body for a line with an instruction. -/
def instructionStep (buffer : Str) (st : St) : Run St := do
  let operand ← orAbort st.out (findOperand st.lexer)
  let (status, operand) ← orAbort st.out (parseOperand st.lexer st.instr operand st.symtab)
  let (res, instr) ← orAbort st.out (parseAddrMode st.lexer st.instr operand status)
  let st := { st with instr := instr }
  let st ← match res with
    | .forwardReference => saveForwardRef buffer st instr operand status
    | .flag => pure st
  let (out, written) ←
    if status = .branchOperand ∨ status = .jumpOperand then
      orAbort st.out (resolveLabelRef st.out st.lexer instr operand status st.symtab st.pc)
    else pure (generateCode st.out instr operand st.pc)
  bumpLine { st with out := out } fun st =>
    if st.pc + written > INT_MAX ∨ st.total + written > INT_MAX then .ub .signedOverflow
    else pure { st with pc := st.pc + written, total := st.total + written }

/-- main.c:197-208: the declaration or origin of the line whose first token is `first`. -/
def declareStep (first : Token) (st : St) : Run St :=
  if first.type = .label ∨ first.type = .defineDirective then do
    let symtab ← orAbort st.out (parseLabelDeclaration st.lexer st.symtab st.pc)
    pure { st with symtab := symtab }
  else if first.type = .base ∨ first.type = .orgDirective then
    pure { st with pc := first.value }
  else pure st

/-- main.c:189-259: the body of the main loop for one buffer. -/
def lineStep (raw : List Byte) (st : St) : Run Next := do
  let (lexer, tk, instr) ← orAbort st.out (lexLine raw st.lexer st.tk st.instr st.lineNum)
  let lexer ← orAbort st.out (parseLine lexer)
  let st := { st with lexer := lexer, tk := tk, instr := instr }
  let first ← orAbort st.out (slot lexer 0)
  let st ← declareStep first st
  if first.type = .endDirective then pure (.stop st)
  else if st.instr.mnemonic = none then bumpLine st fun st => pure (.continue st)
  else do
    let st ← instructionStep (cstr raw) st
    pure (.continue st)

/-- main.c:188-260: the main loop. -/
def mainLoop : List (List Byte) → St → Run St
  | [], st => .ok st
  | raw :: rest, st => do
    match ← lineStep raw st with
    | .continue st => mainLoop rest st
    | .stop st => pure st

/-- main.c:262-277: patch the forward references, in the order they were saved. `k` counts up from `i` to
`unresolved->curr`. -/
def resolveAll (st : St) : (n i : Nat) → OutFile → Run OutFile
  | 0, _, out => .ok out
  | n + 1, i, out =>
    match st.unres.refs[i]? with
    | none => .ub .outOfBounds
    | some none => .ub .nullDeref
    | some (some ref) => do
      let dest ← orAbort out (searchSymbol st.symtab ref.label)
      if dest < 0 then
        orAbort out (raise (some ref.sourceLine) .missingLabelDefinition (some ref.operandLocation)
          st.lexer.fileName ref.lineNum)
      else do
        let out ← orAbort out (resolveForwardRef out ref st.lexer dest)
        resolveAll st n (i + 1) out

/-- main.c:178-277: assemble the bytes of a source file. -/
def assembleBytes (srcName : Str) (src : List Byte) : Run St := do
  let st ← mainLoop (chunks src) (initSt srcName)
  let out ← resolveAll st st.unres.curr 0 st.out
  pure { st with out := out }

/-- main.c:143-291 from line 152 on (`argp_parse` done, allocations succeed). The output file is truncated before
the source is read, so a source with the same name reads as empty. -/
def gaia (srcName outName : Str) (w : World) : Outcome :=
  match w.files srcName with
  | none =>
    match printError none .fileOpenFail none srcName 0 with
    | .ok s => .exited ⟨1, s, w⟩
    | .err _ => .undefined .internal
    | .ub u => .undefined u
  | some content =>
    if w.creatable outName = false then
      match printError none .binaryFileCreationFail none srcName 0 with
      | .ok s => .exited ⟨1, s, w⟩
      | .err _ => .undefined .internal
      | .ub u => .undefined u
    else
      let src := if srcName = outName then [] else content
      match assembleBytes srcName src with
      | .ok st => .exited ⟨0, report st.total st.symtab.count, w.write outName st.out.bytes⟩
      | .err a => .exited ⟨1, a.fail.out, w.write outName a.out.bytes⟩
      | .ub u => .undefined u

end Gaia.Uns
