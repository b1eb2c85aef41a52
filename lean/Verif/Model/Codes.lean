import Verif.Model.Main

/-!
gaia with the return values of the C functions: plain `int`s.

The main model (`Model/Lexer.lean` … `Model/Main.lean`) keeps successes and errors apart by construction (`C.ok`, `C.err`), and gives
operand statuses, `FORWARD_REFERENCE` and "not found" types of their own. In the C code all of these are `int`s: an error code is a
negative number, a count of characters or bytes, an operand status, a branch offset, the value of a symbol or a set of addressing mode
flags is another number, and each caller decides with its own test (`< 0`, `== ERROR_TOO_MANY_TOKENS`, `!= ERROR_SYMBOL_NOT_FOUND`,
`== FORWARD_REFERENCE`, …) what it got. Messages are printed as the functions run, not returned. This file models the functions in that
way, statement by statement (assignments to `index` and early `return`s are those of the C code). Structures which a function changes
through a pointer are passed in and returned. As in the main model allocations succeed.
-/
namespace Gaia.Codes
open Gaia

/-- What a function does: it may print (the state is the text on stdout), and it may run into undefined behaviour. (error.c:33-130
prints with `printf`; not a construct of the C code of its own) -/
abbrev M := StateT Str (Except UB)

/-- `printf` of a text (error.c:36-128, main.c:279-281). -/
def printf (s : Str) : M Unit := modify (· ++ s)

/-- A function of the main model which returns no code (its results are pointers or `void`, e.g. `seq[i]`, lexer.h:48). -/
def value {ε α} : C ε α → M α
  | .ok a => pure a
  | .err _ => throw .internal
  | .ub u => throw u

/-- main.c:104 `IS_ERROR` -/
def isError (code : Int) : Bool := code < 0

/-- lexer.h:16 -/
def LEXER_SUCCESS : Int := 1
/-- lexer.h:17 -/
def TOKEN_INSERTION_SUCCESS : Int := 2
/-- symbol_table.h:11 -/
def SYMBOL_INSERTION_SUCCESS : Int := 1
/-- forward_reference.h:14 -/
def FORWARD_REFERENCE_INSERTION_SUCCESS : Int := 1
/-- parser.h:69 -/
def PARSER_SUCCESS : Int := 1
/-- parser.h:70 -/
def BRANCH_OPERAND : Int := 2
/-- parser.h:71 -/
def JUMP_OPERAND : Int := 3
/-- parser.h:72 -/
def BRANCH_FORWARD_REFERENCE : Int := 4
/-- parser.h:73 -/
def JUMP_FORWARD_REFERENCE : Int := 5
/-- parser.h:74 -/
def FORWARD_REFERENCE : Int := 0xFFFF

/-! ## error.c -/

/-- error.c:39-91: the `switch (code)`; `none` is the `default: return;`. -/
def errorMessage (fileName : Str) (code : Int) : Option Str :=
  if code = Err.memoryAllocationFail.code then
    some (b! "ERROR: could not allocate enough memory during assembly\n")
  else if code = Err.illegalChar.code then some (b! "ERROR: illegal character\n")
  else if code = Err.tooBigLiteral.code then some (b! "ERROR: value of literal exceeds 2 bytes\n")
  else if code = Err.tooLongLabel.code then some (b! "ERROR: label exceeds 63 characters\n")
  else if code = Err.tooManyTokens.code then some (b! "ERROR: illegal sequence\n")
  else if code = Err.unknown.code then some (b! "ERROR: unknown error while assembling\n")
  else if code = Err.illegalSequence.code then some (b! "ERROR: illegal syntax\n")
  else if code = Err.labelRedefinition.code then some (b! "ERROR: no redefinition of labels\n")
  else if code = Err.illegalForwardReference.code then some (b! "ERROR: illegal forward reference\n")
  else if code = Err.illegalAddressingMode.code then some (b! "ERROR: illegal addressing mode\n")
  else if code = Err.tooBigOffset.code then some (b! "ERROR: branch offset too far away\n")
  else if code = Err.fileOpenFail.code then some (b! "ERROR: " ++ fileName ++ b! " could not be opened\n")
  else if code = Err.binaryFileCreationFail.code then
    some (b! "ERROR: assembled binary file could not be created\n")
  else if code = Err.missingLabelDefinition.code then some (b! "ERROR: label definition was not found\n")
  else if code = Err.illegalDirective.code then some (b! "ERROR: illegal assembler directive\n")
  else if code = Err.illegalBase.code then some (b! "ERROR: illegal base\n")
  else none

/-- error.c:33-130 `print_error` -/
def printError (line : Option Str) (code : Int) (bad : Option Nat) (fileName : Str) (lineNum : Nat) : M Unit := do
  if line.isSome then printf (fileName ++ b! ":" ++ decimal lineNum ++ b! ": ")
  match errorMessage fileName code with
  | none => return ()
  | some msg => printf msg
  match line with
  | none => printf (b! "\n")
  | some l =>
    match trimRev l.reverse with
    | none => throw .underrun
    | some r => printf (r.reverse ++ b! "\n")
    match bad with
    | none => printf (b! "\n")
    | some n =>
      match arrowLoop n l 0 0 with
      | none => throw .overread
      | some k => printf (List.replicate k 32 ++ b! "^~~~~~\n\n")

/-! ## symbol_table.c -/

/-- symbol_table.c:201-213 `search_symbol`: the value, or -2 if the label is not found. -/
def searchSymbol (t : SymTab) (label : Str) : M Int := do
  match ← value (searchOpt t label) with
  | some v => return v
  | none => return Err.symbolNotFound.code

/-- symbol_table.c:165-191 `insert_symbol` (allocations succeed). -/
def insertSymbol (t : SymTab) (label : Str) (v : Int) : M (Int × SymTab) := do
  let t ← value (Gaia.insertSymbol t label v)
  return (SYMBOL_INSERTION_SUCCESS, t)

/-! ## lexer.c -/

/-- The running token with its `error_char` (lexer.h:39-45). -/
structure Running where
  tk : Token
  errorChar : Option Nat
  deriving DecidableEq, Repr

/-- lexer.c:220-241 `add_token` -/
def addToken (lx : Lexer) (tk : Token) : M (Int × Lexer) := do
  if lx.curr = MAX_TOKENS then return (Err.tooManyTokens.code, lx)
  match lx.seq[lx.curr]? with
  | none => throw .outOfBounds
  | some new =>
    if new.type = .null then
      let new ← value (tokenStrcpy { new with type := tk.type } tk.str)
      let new := { new with value := tk.value, bufferLocation := tk.bufferLocation }
      return (TOKEN_INSERTION_SUCCESS, { lx with seq := lx.seq.set lx.curr new, curr := lx.curr + 1 })
    printError lx.line Err.unknown.code none lx.fileName lx.lineNum
    return (Err.unknown.code, lx)

/-- lexer.c:250-259 `hex_digit_to_int` -/
def hexDigitToInt (c : Byte) : Int :=
  if 65 ≤ c.toNat ∧ c.toNat ≤ 70 then c.toNat - 65 + 10
  else if 97 ≤ c.toNat ∧ c.toNat ≤ 102 then c.toNat - 97 + 10
  else if 48 ≤ c.toNat ∧ c.toNat ≤ 57 then c.toNat - 48
  else Err.illegalChar.code

/-- lexer.c:268-275 `bin_digit_to_int` -/
def binDigitToInt (c : Byte) : Int :=
  if c = 48 then 0 else if c = 49 then 1 else Err.illegalChar.code

/-- lexer.c:284-289 `dec_digit_to_int` -/
def decDigitToInt (c : Byte) : Int :=
  if 48 ≤ c.toNat ∧ c.toNat ≤ 57 then c.toNat - 48 else Err.illegalChar.code

/-- lexer.c:355-373: the `while (*curr)` loop. The converted character is added to an `unsigned long long` (modulo 2^64). -/
def digitLoop (conv : Byte → Int) (base : Nat) : Str → (total numChars : Nat) → DigitRes
  | [], total, n => .done total n
  | c :: s, total, n =>
    let charValue := conv c
    if charValue ≠ Err.illegalChar.code then
      digitLoop conv base s ((((total * base : Nat) : Int) + charValue) % 2 ^ 64).toNat (n + 1)
    else if !isEndOfToken c then .bad n
    else .done total n

/-- lexer.c:354-391: the rest of `lex_literal` once base and converter are chosen. -/
def lexLiteralBody (conv : Byte → Int) (base : Nat) (off : Nat) (s : Str) (numChars : Nat) (r : Running) : Int × Running :=
  match digitLoop conv base s 0 numChars with
  | .bad n => (Err.illegalChar.code, { r with errorChar := some (off + n) })
  | .done total n =>
    if n = 0 then (Err.illegalChar.code, { r with errorChar := some (off + n) })
    else if n = 1 ∧ (base = 2 ∨ base = 16) then (Err.illegalChar.code, { r with errorChar := some (off + n) })
    else if total > 0xFFFF then (Err.tooBigLiteral.code, { r with errorChar := some off })
    else (n, { r with tk := { r.tk with type := .literal, value := total } })

/-- lexer.c:325-392 `lex_literal` -/
def lexLiteral (off : Nat) (s : Str) (r : Running) : Int × Running :=
  let c := rd s
  if c = 36 then lexLiteralBody hexDigitToInt 16 off s.tail 1 r
  else if c = 37 then lexLiteralBody binDigitToInt 2 off s.tail 1 r
  else if isDigit c then lexLiteralBody decDigitToInt 10 off s 0 r
  else (Err.illegalChar.code, { r with errorChar := some off })

/-- lexer.c:406-416 `lex_instruction` -/
def lexInstruction (tk : Token) (instr : Instr) : Int × Token × Instr :=
  match strToMnemonic tk.str with
  | some m => (tk.str.length, { tk with type := .instruction },
      { instr with mnemonic := some m, addrBitfield := getAddrBitfield m })
  | none => (Err.instructionNotFound.code, tk, instr)

/-- lexer.c:427-463 `lex_directive` -/
def lexDirective (off : Nat) (s : Str) (r : Running) : M (Int × Running) := do
  match scanLoop isEndOfToken isAlpha (MAX_TOKEN_STR_LEN - 1) 1 s.tail with
  | .bad i => return (Err.illegalChar.code, { r with errorChar := some (off + i) })
  | .done n =>
    if n = MAX_TOKEN_STR_LEN then return (Err.illegalDirective.code, { r with errorChar := some off })
    let tk ← value (tokenStrncpy r.tk s n)
    match directiveType tk.str with
    | some t => return (n, { r with tk := { tk with type := t } })
    | none => return (Err.illegalDirective.code, { tk := tk, errorChar := some off })

/-- lexer.c:495-539 `lex_text` -/
def lexText (off : Nat) (s : Str) (r : Running) (instr : Instr) : M (Int × Running × Instr) := do
  match scanLoop isTextStop isValidTokenChar MAX_TOKEN_STR_LEN 0 s with
  | .bad i => return (Err.illegalChar.code, { r with errorChar := some (off + i) }, instr)
  | .done n =>
    if n = MAX_TOKEN_STR_LEN then return (Err.tooLongLabel.code, { r with errorChar := some off }, instr)
    let tk ← value (tokenStrncpy r.tk s n)
    if tk.str = b! "X" then return (n, { r with tk := { tk with type := .xRegister } }, instr)
    else if tk.str = b! "Y" then return (n, { r with tk := { tk with type := .yRegister } }, instr)
    else if tk.str = b! "A" then return (n, { r with tk := { tk with type := .accumulator } }, instr)
    let (lexInstr, tk, instr) := lexInstruction tk instr
    if lexInstr = Err.instructionNotFound.code then return (n, { r with tk := { tk with type := .label } }, instr)
    return (n, { r with tk := tk }, instr)

/-- lexer.c:552-591 `lex`: the number of characters read, or an error code. -/
def lex (off : Nat) (s : Str) (r : Running) (instr : Instr) : M (Int × Running × Instr) := do
  let c := rd s
  let r := { r with tk := { r.tk with bufferLocation := some off } }
  match punctType c with
  | some t =>
    let tk ← value (tokenStrncpy { r.tk with type := t } [c] 1)
    return (1, { r with tk := tk }, instr)
  | none =>
    if isAlpha c then lexText off s r instr
    else if c = 36 ∨ c = 37 ∨ isDigit c then
      let (n, r) := lexLiteral off s r
      return (n, r, instr)
    else if c = 46 then
      let (n, r) ← lexDirective off s r
      return (n, r, instr)
    else return (Err.illegalChar.code, { r with errorChar := some off }, instr)

/-- lexer.c:647-680: the token loop of `lex_line`. The return code of `add_token` is only compared with ERROR_TOO_MANY_TOKENS
(lexer.c:657). `fuel` as in the main model. -/
def lexLoop (buffer : Str) : (fuel off : Nat) → Str → Lexer → Running → Instr → M (Int × Lexer × Running × Instr)
  | 0, _, _, _, _, _ => throw .infiniteLoop
  | fuel + 1, off, s, lx, r, instr => do
    if endLineLexing (rd s) then return (LEXER_SUCCESS, lx, r, instr)
    let (numChars, r, instr) ← lex off s r instr
    if numChars < 0 then
      printError (some buffer) numChars r.errorChar lx.fileName lx.lineNum
      return (numChars, lx, r, instr)
    let n := numChars.toNat
    if n > s.length then throw .overread
    let (added, lx) ← addToken lx r.tk
    if added = Err.tooManyTokens.code then return (Err.tooManyTokens.code, lx, r, instr)
    let s := s.drop n
    let off := off + n
    if rd s = 58 then
      if r.tk.type = .label ∧ lx.curr = 1 then
        let (off, s) := skipBlanks (off + 1) s.tail
        lexLoop buffer fuel off s lx r instr
      else
        let r := { r with errorChar := some off }
        printError (some buffer) Err.illegalChar.code r.errorChar lx.fileName lx.lineNum
        return (Err.illegalChar.code, lx, r, instr)
    else
      let (off, s) := skipBlanks off s
      lexLoop buffer fuel off s lx r instr

/-- lexer.c:630-689 `lex_line` -/
def lexLine (raw : List Byte) (lx : Lexer) (r : Running) (instr : Instr) (lineNum : Nat) :
    M (Int × Lexer × Running × Instr) := do
  let buffer := cstr raw
  let lx := { resetLexer lx with line := some buffer, lineNum := lineNum }
  let instr := resetInstruction instr
  let r : Running := { tk := resetToken r.tk, errorChar := none }
  let (off, s) := skipBlanks 0 buffer
  let (code, lx, r, instr) ← lexLoop buffer (s.length + 1) off s lx r instr
  if code = LEXER_SUCCESS then return (LEXER_SUCCESS, fillNull lx, r, instr)
  return (code, lx, r, instr)

/-! ## parser.c -/

/-- `seq[index]->type` (parser.c:42-286) -/
def typeAt (lx : Lexer) (i : Nat) : M TokenType := do
  let t ← value (slot lx i)
  return t.type

/-- The last statements of the syntax functions (parser.c:76-80, 139-143, 178-182, 223-227, 255-259, 285-289): print error `e` at the
token in slot `i` and return it. -/
def syntaxError (lx : Lexer) (i : Nat) (e : Int) : M Int := do
  let t ← value (slot lx i)
  printError lx.line e t.bufferLocation lx.fileName lx.lineNum
  return e

/-- parser.c:40-81 `parse_indirect_operand_tree` -/
def parseIndirectOperandTree (lx : Lexer) (index : Nat) : M Int := do
  let mut index := index + 1
  if (← typeAt lx index) = .comma then
    index := index + 1
    if (← typeAt lx index) = .xRegister then
      index := index + 1
      if (← typeAt lx index) = .closeParenthesis then
        index := index + 1
        if (← typeAt lx index) = .null then return PARSER_SUCCESS
  else if (← typeAt lx index) = .closeParenthesis then
    index := index + 1
    if (← typeAt lx index) = .comma then
      index := index + 1
      if (← typeAt lx index) = .yRegister then
        index := index + 1
        if (← typeAt lx index) = .null then return PARSER_SUCCESS
    else if (← typeAt lx index) = .null then return PARSER_SUCCESS
  syntaxError lx index Err.illegalSequence.code

/-- parser.c:91-144 `parse_instr_tree` -/
def parseInstrTree (lx : Lexer) (index : Nat) : M Int := do
  let mut index := index + 1
  if (← typeAt lx index) = .openParenthesis then
    index := index + 1
    if isOperandType (← typeAt lx index) then return ← parseIndirectOperandTree lx index
  else if isOperandType (← typeAt lx index) then
    index := index + 1
    if (← typeAt lx index) = .null then return PARSER_SUCCESS
    else if (← typeAt lx index) = .comma then
      index := index + 1
      let t ← typeAt lx index
      if t = .xRegister ∨ t = .yRegister then return PARSER_SUCCESS
  else if (← typeAt lx index) = .immediate then
    index := index + 1
    if isOperandType (← typeAt lx index) then
      index := index + 1
      if (← typeAt lx index) = .null then return PARSER_SUCCESS
  else if (← typeAt lx index) = .accumulator then
    index := index + 1
    if (← typeAt lx index) = .null then return PARSER_SUCCESS
  else if (← typeAt lx index) = .null then return PARSER_SUCCESS
  syntaxError lx index Err.illegalSequence.code

/-- parser.c:154-183 `parse_label_tree` -/
def parseLabelTree (lx : Lexer) (index : Nat) : M Int := do
  let mut index := index + 1
  let t ← typeAt lx index
  if t = .equalSign ∨ t = .equDirective then
    index := index + 1
    if (← typeAt lx index) = .literal then
      index := index + 1
      if (← typeAt lx index) = .null then return PARSER_SUCCESS
  else if (← typeAt lx index) = .instruction then return ← parseInstrTree lx index
  else if (← typeAt lx index) = .null then return PARSER_SUCCESS
  syntaxError lx index Err.illegalSequence.code

/-- parser.c:193-228 `parse_directive_tree`; the `.ORG` token receives the new location. -/
def parseDirectiveTree (lx : Lexer) (index : Nat) : M (Int × Lexer) := do
  let mut index := index
  if (← typeAt lx index) = .defineDirective then
    index := index + 1
    if (← typeAt lx index) = .label then
      index := index + 1
      if (← typeAt lx index) = .literal then
        index := index + 1
        if (← typeAt lx index) = .null then return (PARSER_SUCCESS, lx)
  else if (← typeAt lx index) = .orgDirective then
    index := index + 1
    if (← typeAt lx index) = .literal then
      index := index + 1
      if (← typeAt lx index) = .null then
        let lit ← value (slot lx (index - 1))
        return (PARSER_SUCCESS, setValue lx (index - 2) lit.value)
  else if (← typeAt lx index) = .endDirective then
    index := index + 1
    if (← typeAt lx index) = .null then return (PARSER_SUCCESS, lx)
  return (← syntaxError lx index Err.illegalSequence.code, lx)

/-- parser.c:238-260 `parse_base_tree`; the `*` token receives the new location. -/
def parseBaseTree (lx : Lexer) (index : Nat) : M (Int × Lexer) := do
  let mut index := index + 1
  if (← typeAt lx index) = .equalSign then
    index := index + 1
    if (← typeAt lx index) = .literal then
      index := index + 1
      if (← typeAt lx index) = .null then
        let lit ← value (slot lx (index - 1))
        return (PARSER_SUCCESS, setValue lx (index - 3) lit.value)
  return (← syntaxError lx index Err.illegalBase.code, lx)

/-- parser.c:269-290 `parse_line` -/
def parseLine (lx : Lexer) : M (Int × Lexer) := do
  if (← typeAt lx 0) = .instruction then return (← parseInstrTree lx 0, lx)
  else if (← typeAt lx 0) = .label then return (← parseLabelTree lx 0, lx)
  else if isDirectiveType (← typeAt lx 0) then return ← parseDirectiveTree lx 0
  else if (← typeAt lx 0) = .base then return ← parseBaseTree lx 0
  else if (← typeAt lx 0) = .null then return (PARSER_SUCCESS, lx)
  return (← syntaxError lx 0 Err.illegalSequence.code, lx)

/-- parser.c:306-363 `parse_label_declaration`; returns the code of `insert_symbol`. -/
def parseLabelDeclaration (lx : Lexer) (symtab : SymTab) (pc : Nat) : M (Int × SymTab) := do
  let label ← value (slot lx 0)
  let defineLabel ← value (slot lx 1)
  let found ← searchSymbol symtab label.str
  let foundDefine ← searchSymbol symtab defineLabel.str
  if defineLabel.type = .null ∨ defineLabel.type = .instruction then
    if found ≠ Err.symbolNotFound.code then
      printError lx.line Err.labelRedefinition.code label.bufferLocation lx.fileName lx.lineNum
      return (Err.labelRedefinition.code, symtab)
    else return ← insertSymbol symtab label.str (toInt32 pc)
  else if defineLabel.type = .equalSign ∨ defineLabel.type = .equDirective then
    if found ≠ Err.symbolNotFound.code then
      printError lx.line Err.labelRedefinition.code label.bufferLocation lx.fileName lx.lineNum
      return (Err.labelRedefinition.code, symtab)
    else
      let lit ← value (slot lx 2)
      return ← insertSymbol symtab label.str (toInt32 lit.value)
  if label.type = .defineDirective then
    if foundDefine ≠ Err.symbolNotFound.code then
      printError lx.line Err.labelRedefinition.code defineLabel.bufferLocation lx.fileName lx.lineNum
      return (Err.labelRedefinition.code, symtab)
    else
      let lit ← value (slot lx 2)
      return ← insertSymbol symtab defineLabel.str (toInt32 lit.value)
  printError lx.line Err.unknown.code none lx.fileName lx.lineNum
  return (Err.unknown.code, symtab)

/-- parser.c:377-417 `parse_label_operand`: an operand status or an error code, and the operand token with its value. -/
def parseLabelOperand (lx : Lexer) (instr : Instr) (operand : Token) (symtab : SymTab) : M (Int × Token) := do
  let labelValue ← searchSymbol symtab operand.str
  if labelValue ≠ Err.symbolNotFound.code then
    let operand := { operand with value := toUInt32 labelValue }
    if instr.isBranch then return (BRANCH_OPERAND, operand)
    else if instr.isJump then return (JUMP_OPERAND, operand)
    else return (PARSER_SUCCESS, operand)
  else
    if instr.isBranch then return (BRANCH_FORWARD_REFERENCE, operand)
    else if instr.isJump then return (JUMP_FORWARD_REFERENCE, operand)
    else
      printError lx.line Err.illegalForwardReference.code operand.bufferLocation lx.fileName lx.lineNum
      return (Err.illegalForwardReference.code, operand)

/-- parser.c:438-456 `parse_operand` -/
def parseOperand (lx : Lexer) (instr : Instr) (operand : Option Token) (symtab : SymTab) :
    M (Int × Option Token) := do
  match operand with
  | none => return (PARSER_SUCCESS, none)
  | some tk =>
    if tk.type = .label then
      let (st, tk) ← parseLabelOperand lx instr tk symtab
      return (st, some tk)
    else if tk.type = .literal ∨ tk.type = .accumulator then return (PARSER_SUCCESS, some tk)
    printError lx.line Err.unknown.code none lx.fileName lx.lineNum
    return (Err.unknown.code, some tk)

/-- parser.c:555-576 `parse_forward_ref_addr_mode`: FORWARD_REFERENCE or an error code. -/
def parseForwardRefAddrMode (lx : Lexer) (instr : Instr) : M (Int × Instr) := do
  let addrMode := applyMasks lx 0x1FFF
  let mut instr := instr
  if instr.isBranch then instr := { instr with addrBitflag := addrMode &&& ADDR_MODE_RELATIVE }
  else if instr.mnemonic = some .JMP then instr := { instr with addrBitflag := addrMode &&& ABSOLUTE_FIELD }
  else if instr.mnemonic = some .JSR then instr := { instr with addrBitflag := addrMode &&& ADDR_MODE_ABSOLUTE }
  if instr.addrBitflag = 0 then
    printError lx.line Err.illegalAddressingMode.code none lx.fileName lx.lineNum
    return (Err.illegalAddressingMode.code, instr)
  return (FORWARD_REFERENCE, instr)

/-- parser.c:596-664 `parse_addr_mode`: the addressing mode flag, FORWARD_REFERENCE, or an error code; all in one `int`. -/
def parseAddrMode (lx : Lexer) (instr : Instr) (operand : Option Token) (operandStatus : Int) : M (Int × Instr) := do
  if operandStatus = BRANCH_FORWARD_REFERENCE ∨ operandStatus = JUMP_FORWARD_REFERENCE then
    return ← parseForwardRefAddrMode lx instr
  match operand with
  | none =>
    let flag :=
      if instr.mnemonic = some .ASL ∨ instr.mnemonic = some .LSR ∨ instr.mnemonic = some .ROL ∨
          instr.mnemonic = some .ROR
      then instr.addrBitfield &&& ADDR_MODE_ACCUMULATOR
      else instr.addrBitfield &&& ADDR_MODE_IMPLIED
    let instr := { instr with addrBitflag := flag }
    if instr.addrBitflag = 0 then
      printError lx.line Err.illegalAddressingMode.code none lx.fileName lx.lineNum
      return (Err.illegalAddressingMode.code, instr)
    return (instr.addrBitflag.toInt, instr)
  | some op =>
    let mut addrMode : Flags := 0x1FFF
    if op.type = .accumulator then addrMode := addrMode &&& ADDR_MODE_ACCUMULATOR
    else if op.value > 0xFF then
      if !instr.isBranch then addrMode := ABSOLUTE_FIELD
      else addrMode := ZERO_PAGE_FIELD
    else
      if !instr.isJump then addrMode := ZERO_PAGE_FIELD
      else addrMode := ABSOLUTE_FIELD
    if instr.isBranch then addrMode := addrMode &&& ADDR_MODE_RELATIVE
    else addrMode := addrMode &&& ~~~ADDR_MODE_RELATIVE
    addrMode := applyMasks lx addrMode
    let instr := { instr with addrBitflag := addrMode &&& instr.addrBitfield }
    if instr.addrBitflag = 0 then
      printError lx.line Err.illegalAddressingMode.code none lx.fileName lx.lineNum
      return (Err.illegalAddressingMode.code, instr)
    return (instr.addrBitflag.toInt, instr)

/-! ## forward_reference.c -/

/-- forward_reference.h:16-25; `operand_status` is an `int`. -/
structure ForwardRef where
  label : Str
  sourceLine : Str
  instr : Instr
  pc : Nat
  lineNum : Nat
  operandStatus : Int
  operandLocation : Nat
  deriving DecidableEq, Repr

/-- forward_reference.h:27-31 -/
structure Unresolved where
  refs : List (Option ForwardRef)
  curr : Nat
  deriving DecidableEq, Repr

/-- forward_reference.c:28-43 `init_unresolved` (allocations succeed) -/
def initUnresolved : Unresolved := { refs := List.replicate FWD_BASE_SIZE none, curr := 0 }

/-- forward_reference.c:98-156 `create_forward_ref` (allocations succeed) -/
def createForwardRef (buffer : Str) (instr : Instr) (operand : Option Token) (operandStatus : Int)
    (pc lineNum : Nat) : M ForwardRef := do
  match savedLine buffer with
  | none => throw .underrun
  | some line =>
    match operand with
    | none => throw .nullDeref
    | some op =>
      match op.bufferLocation with
      | none => throw .nullDeref
      | some loc =>
        return { label := op.str, sourceLine := line, instr := instr, pc := pc, lineNum := lineNum,
                 operandStatus := operandStatus, operandLocation := loc }

/-- forward_reference.c:166-179 `resize_unresolved` (reallocation succeeds) -/
def resizeUnresolved (u : Unresolved) : M Unresolved := do
  if u.refs.length * 2 > INT_MAX then throw .signedOverflow
  return { u with refs := u.refs ++ List.replicate u.refs.length none }

/-- forward_reference.c:190-200 `add_forward_ref` -/
def addForwardRef (u : Unresolved) (ref : ForwardRef) : M (Int × Unresolved) := do
  let mut u := u
  if u.curr + 1 = u.refs.length then u ← resizeUnresolved u
  if u.curr < u.refs.length then
    return (FORWARD_REFERENCE_INSERTION_SUCCESS, { refs := u.refs.set u.curr (some ref), curr := u.curr + 1 })
  throw .outOfBounds

/-! ## generator.c -/

/-- generator.c:34-59 `generate_code` -/
def generateCode (f : OutFile) (instr : Instr) (operand : Option Token) (currPc : Nat) : Int × OutFile :=
  let (f, n) := Gaia.generateCode f instr operand currPc
  (n, f)

/-- generator.c:69-85 `calc_branch_offset`: a byte, or an error code. -/
def calcBranchOffset (currPc destPc : Int) : M Int := do
  let offset := destPc - currPc - 2
  if offset < -2147483648 ∨ offset > 2147483647 then throw .signedOverflow
  if destPc ≤ currPc then
    if offset < -128 then return Err.tooBigOffset.code
  else
    if offset > 127 then return Err.tooBigOffset.code
  return offset % 256

/-- generator.c:102-132 `resolve_label_ref` -/
def resolveLabelRef (f : OutFile) (lx : Lexer) (instr : Instr) (label : Option Token) (operandStatus : Int)
    (symtab : SymTab) (currPc : Nat) : M (Int × OutFile) := do
  match label with
  | none =>
    printError lx.line Err.unknown.code none lx.fileName lx.lineNum
    return (Err.unknown.code, f)
  | some label =>
    let destPc ← searchSymbol symtab label.str
    if operandStatus = BRANCH_OPERAND then
      let offset ← calcBranchOffset currPc destPc
      if offset = Err.tooBigOffset.code then
        printError lx.line Err.tooBigOffset.code label.bufferLocation lx.fileName lx.lineNum
        return (Err.tooBigOffset.code, f)
      return generateCode f instr (some { label with value := toUInt32 offset }) currPc
    else if operandStatus = JUMP_OPERAND then
      return generateCode f instr (some { label with value := toUInt32 destPc }) currPc
    printError lx.line Err.unknown.code none lx.fileName lx.lineNum
    return (Err.unknown.code, f)

/-- generator.c:148-194 `resolve_forward_ref` -/
def resolveForwardRef (f : OutFile) (ref : ForwardRef) (lx : Lexer) (destPc : Int) : M (Int × OutFile) := do
  if ref.operandStatus = BRANCH_FORWARD_REFERENCE then
    let offset ← calcBranchOffset ref.pc destPc
    if offset = Err.tooBigOffset.code then
      printError (some ref.sourceLine) Err.tooBigOffset.code (some ref.operandLocation) lx.fileName ref.lineNum
      return (Err.tooBigOffset.code, f)
    if ref.instr.addrBitflag ≠ 0 then
      return (2, ((f.seek ref.pc).fputc (getOpcode ref.instr)).fputc (offset % 256))
    printError lx.line Err.illegalAddressingMode.code none lx.fileName lx.lineNum
    return (Err.illegalAddressingMode.code, f)
  else if ref.operandStatus = JUMP_FORWARD_REFERENCE then
    if ref.instr.addrBitflag ≠ 0 then
      return (3, (((f.seek ref.pc).fputc (getOpcode ref.instr)).fputc (destPc % 256)).fputc (destPc / 256))
    printError lx.line Err.illegalAddressingMode.code none lx.fileName lx.lineNum
    return (Err.illegalAddressingMode.code, f)
  printError lx.line Err.unknown.code none lx.fileName lx.lineNum
  return (Err.unknown.code, f)

/-! ## main.c -/

/-- The local variables of `main` and the structures they point to (main.c:152-187). `written_bytes` keeps its value from line to
line. -/
structure St where
  pc : Nat
  lineNum : Nat
  total : Nat
  written : Int
  symtab : SymTab
  unres : Unresolved
  out : OutFile
  lexer : Lexer
  running : Running
  instr : Instr
  deriving DecidableEq, Repr

/-- main.c:154-187: initial values (allocations succeed). -/
def initSt (srcName : Str) : St :=
  { pc := 0, lineNum := 1, total := 0, written := 0, symtab := initSymbolTable, unres := initUnresolved,
    out := OutFile.empty, lexer := initLexer srcName, running := ⟨initToken, none⟩, instr := initInstruction }

/-- How the body of the main loop ends: `ABORT_ASSEMBLY()` (main.c:92-96), `break` (main.c:207), or the next iteration. -/
inductive Ctl
  | abort (st : St)
  | stop (st : St)
  | next (st : St)
  deriving DecidableEq, Repr

/-- `line_num++` (main.c:211, 257) -/
def bumpLine (st : St) : M St := do
  if st.lineNum + 1 > INT_MAX then throw .signedOverflow
  return { st with lineNum := st.lineNum + 1 }

/-- main.c:246-259: write the bytes of the line and advance. -/
def finishLine (st : St) (operand : Option Token) (operandStatus : Int) : M Ctl := do
  let mut st := st
  if operandStatus = BRANCH_OPERAND ∨ operandStatus = JUMP_OPERAND then
    let (n, out) ← resolveLabelRef st.out st.lexer st.instr operand operandStatus st.symtab st.pc
    st := { st with written := n, out := out }
  else
    let (n, out) := generateCode st.out st.instr operand st.pc
    st := { st with written := n, out := out }
  if isError st.written then return .abort st
  st ← bumpLine st
  if (st.pc : Int) + st.written > INT_MAX ∨ (st.total : Int) + st.written > INT_MAX then throw .signedOverflow
  return .next { st with pc := ((st.pc : Int) + st.written).toNat, total := ((st.total : Int) + st.written).toNat }

/-- main.c:224-245 (then on to 246): the addressing mode, and saving a forward reference. Whether three dummy bytes are written is
decided by `written_bytes`. -/
def encodeLine (buffer : Str) (st : St) (operand : Option Token) (operandStatus : Int) : M Ctl := do
  let mut st := st
  let (returnCode, instr) ← parseAddrMode st.lexer st.instr operand operandStatus
  st := { st with instr := instr }
  if returnCode = FORWARD_REFERENCE then
    let ref ← createForwardRef buffer instr operand operandStatus st.pc st.lineNum
    let (added, unres) ← addForwardRef st.unres ref
    if isError added then return .abort st
    st := { st with unres := unres, out := (st.out.fputc 0).fputc 0 }
    if st.written = 3 then st := { st with out := st.out.fputc 0 }
  else if isError returnCode then return .abort st
  finishLine st operand operandStatus

/-- main.c:215-222 (then on to 224): the part of the loop body for a line with an instruction. -/
def instructionStep (buffer : Str) (st : St) : M Ctl := do
  let mut st := st
  let operand ← value (findOperand st.lexer)
  let (operandStatus, operand) ← parseOperand st.lexer st.instr operand st.symtab
  if isError operandStatus then return .abort st
  else if operandStatus = BRANCH_FORWARD_REFERENCE then st := { st with written := 2 }
  else if operandStatus = JUMP_FORWARD_REFERENCE then st := { st with written := 3 }
  encodeLine buffer st operand operandStatus

/-- main.c:189-259: the body of the main loop for one buffer. -/
def lineStep (raw : List Byte) (st : St) : M Ctl := do
  let mut st := st
  let (code, lexer, running, instr) ← lexLine raw st.lexer st.running st.instr st.lineNum
  st := { st with lexer := lexer, running := running, instr := instr }
  if isError code then return .abort st
  let (code, lexer) ← parseLine st.lexer
  st := { st with lexer := lexer }
  if isError code then return .abort st
  let first ← value (slot st.lexer 0)
  if first.type = .label ∨ first.type = .defineDirective then
    let (code, symtab) ← parseLabelDeclaration st.lexer st.symtab st.pc
    st := { st with symtab := symtab }
    if isError code then return .abort st
  else if first.type = .base ∨ first.type = .orgDirective then
    st := { st with pc := first.value }
  else if first.type = .endDirective then return .stop st
  if st.instr.mnemonic = none then
    return .next (← bumpLine st)
  instructionStep (cstr raw) st

/-- main.c:188-260: the main loop. -/
def mainLoop : List (List Byte) → St → M Ctl
  | [], st => return .stop st
  | raw :: rest, st => do
    match ← lineStep raw st with
    | .next st => mainLoop rest st
    | .stop st => return .stop st
    | .abort st => return .abort st

/-- main.c:262-277: patch the forward references; `false`: `ABORT_ASSEMBLY()`. -/
def resolveAll (st : St) : (n i : Nat) → OutFile → M (Bool × OutFile)
  | 0, _, out => return (true, out)
  | n + 1, i, out => do
    match st.unres.refs[i]? with
    | none => throw .outOfBounds
    | some none => throw .nullDeref
    | some (some ref) =>
      let destPc ← searchSymbol st.symtab ref.label
      if isError destPc then
        printError (some ref.sourceLine) Err.missingLabelDefinition.code (some ref.operandLocation)
          st.lexer.fileName ref.lineNum
        return (false, out)
      let (written, out) ← resolveForwardRef out ref st.lexer destPc
      if isError written then return (false, out)
      resolveAll st n (i + 1) out

/-- main.c:143-291 from line 152 on (`argp_parse` done, allocations succeed): exit status and the new contents of the output file
(`none`: not opened). -/
def main (srcName outName : Str) (w : World) : M (Nat × Option (List Byte)) := do
  match w.files srcName with
  | none =>
    printError none Err.fileOpenFail.code none srcName 0
    return (1, none)
  | some content =>
    if w.creatable outName = false then
      printError none Err.binaryFileCreationFail.code none srcName 0
      return (1, none)
    let src := if srcName = outName then [] else content
    match ← mainLoop (chunks src) (initSt srcName) with
    | .abort st => return (1, some st.out.bytes)
    | .next st => return (1, some st.out.bytes)     -- does not happen: the loop only ends with the other two
    | .stop st =>
      let (ok, out) ← resolveAll st st.unres.curr 0 st.out
      if !ok then return (1, some out.bytes)
      printf (report st.total st.symtab.count)
      return (0, some out.bytes)

/-- A run of the program: it starts with nothing printed. (main.c:143-291) -/
def gaia (srcName outName : Str) (w : World) : Outcome :=
  match (main srcName outName w).run [] with
  | .ok ((status, none), stdout) => .exited ⟨status, stdout, w⟩
  | .ok ((status, some bytes), stdout) => .exited ⟨status, stdout, w.write outName bytes⟩
  | .error u => .undefined u

end Gaia.Codes
