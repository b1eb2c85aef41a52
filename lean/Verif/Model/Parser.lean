import Verif.Model.Lexer
import Verif.Model.SymTab

/-! Model of src/parser.c -/
namespace Gaia

/-- `lexer->sequence[i]` (8 slots; an index outside is undefined behaviour). (lexer.h:48, parser.c throughout) -/
def slot (lx : Lexer) (i : Nat) : Res Token :=
  match lx.seq[i]? with
  | some t => .ok t
  | none => .ub .outOfBounds

/-- parser.c:29-30 `IS_OPERAND` -/
def isOperandType (t : TokenType) : Bool := t == .label || t == .literal

/-- parser.c:25-27 `IS_DIRECTIVE` -/
def isDirectiveType (t : TokenType) : Bool :=
  t == .defineDirective || t == .orgDirective || t == .endDirective

/-- The common tail of the syntax functions (parser.c:76-80, 139-143, 178-182, 223-227, 255-259, 285-289):
report error `e` at the token in slot `i`. -/
def syntaxError {α} (lx : Lexer) (i : Nat) (e : Err) : Res α := do
  let t ← slot lx i
  raise lx.line e t.bufferLocation lx.fileName lx.lineNum

/-- parser.c:40-81 `parse_indirect_operand_tree` -/
def parseIndirectOperandTree (lx : Lexer) (index : Nat) : Res Unit := do
  let i := index + 1
  let t ← slot lx i
  if t.type = .comma then
    let i := i + 1
    let t ← slot lx i
    if t.type = .xRegister then
      let i := i + 1
      let t ← slot lx i
      if t.type = .closeParenthesis then
        let i := i + 1
        let t ← slot lx i
        if t.type = .null then pure () else syntaxError lx i .illegalSequence
      else syntaxError lx i .illegalSequence
    else syntaxError lx i .illegalSequence
  else if t.type = .closeParenthesis then
    let i := i + 1
    let t ← slot lx i
    if t.type = .comma then
      let i := i + 1
      let t ← slot lx i
      if t.type = .yRegister then
        let i := i + 1
        let t ← slot lx i
        if t.type = .null then pure () else syntaxError lx i .illegalSequence
      else syntaxError lx i .illegalSequence
    else if t.type = .null then pure ()
    else syntaxError lx i .illegalSequence
  else syntaxError lx i .illegalSequence

/-- parser.c:91-144 `parse_instr_tree` -/
def parseInstrTree (lx : Lexer) (index : Nat) : Res Unit := do
  let i := index + 1
  let t ← slot lx i
  if t.type = .openParenthesis then
    let i := i + 1
    let t ← slot lx i
    if isOperandType t.type then parseIndirectOperandTree lx i
    else syntaxError lx i .illegalSequence
  else if isOperandType t.type then
    let i := i + 1
    let t ← slot lx i
    if t.type = .null then pure ()
    else if t.type = .comma then
      let i := i + 1
      let t ← slot lx i
      if t.type = .xRegister ∨ t.type = .yRegister then pure ()   -- nothing is required to follow
      else syntaxError lx i .illegalSequence
    else syntaxError lx i .illegalSequence
  else if t.type = .immediate then
    let i := i + 1
    let t ← slot lx i
    if isOperandType t.type then
      let i := i + 1
      let t ← slot lx i
      if t.type = .null then pure () else syntaxError lx i .illegalSequence
    else syntaxError lx i .illegalSequence
  else if t.type = .accumulator then
    let i := i + 1
    let t ← slot lx i
    if t.type = .null then pure () else syntaxError lx i .illegalSequence
  else if t.type = .null then pure ()
  else syntaxError lx i .illegalSequence

/-- parser.c:154-183 `parse_label_tree` -/
def parseLabelTree (lx : Lexer) (index : Nat) : Res Unit := do
  let i := index + 1
  let t ← slot lx i
  if t.type = .equalSign ∨ t.type = .equDirective then
    let i := i + 1
    let t ← slot lx i
    if t.type = .literal then
      let i := i + 1
      let t ← slot lx i
      if t.type = .null then pure () else syntaxError lx i .illegalSequence
    else syntaxError lx i .illegalSequence
  else if t.type = .instruction then parseInstrTree lx i
  else if t.type = .null then pure ()
  else syntaxError lx i .illegalSequence

/-- `seq[i]->value = v` (parser.c:193-284) -/
def setValue (lx : Lexer) (i : Nat) (v : Nat) : Lexer :=
  { lx with seq := lx.seq.modify i fun t => { t with value := v } }

/-- parser.c:193-228 `parse_directive_tree`; returns the lexer, whose `.ORG` token receives the new location. -/
def parseDirectiveTree (lx : Lexer) (index : Nat) : Res Lexer := do
  let t ← slot lx index
  if t.type = .defineDirective then
    let i := index + 1
    let t ← slot lx i
    if t.type = .label then
      let i := i + 1
      let t ← slot lx i
      if t.type = .literal then
        let i := i + 1
        let t ← slot lx i
        if t.type = .null then pure lx else syntaxError lx i .illegalSequence
      else syntaxError lx i .illegalSequence
    else syntaxError lx i .illegalSequence
  else if t.type = .orgDirective then
    let i := index + 1
    let lit ← slot lx i
    if lit.type = .literal then
      let i := i + 1
      let t ← slot lx i
      if t.type = .null then pure (setValue lx (i - 2) lit.value) else syntaxError lx i .illegalSequence
    else syntaxError lx i .illegalSequence
  else if t.type = .endDirective then
    let i := index + 1
    let t ← slot lx i
    if t.type = .null then pure lx else syntaxError lx i .illegalSequence
  else syntaxError lx index .illegalSequence

/-- parser.c:238-260 `parse_base_tree`; the `*` token receives the new location. -/
def parseBaseTree (lx : Lexer) (index : Nat) : Res Lexer := do
  let i := index + 1
  let t ← slot lx i
  if t.type = .equalSign then
    let i := i + 1
    let lit ← slot lx i
    if lit.type = .literal then
      let i := i + 1
      let t ← slot lx i
      if t.type = .null then pure (setValue lx (i - 3) lit.value) else syntaxError lx i .illegalBase
    else syntaxError lx i .illegalBase
  else syntaxError lx i .illegalBase

/-- parser.c:269-290 `parse_line` -/
def parseLine (lx : Lexer) : Res Lexer := do
  let t ← slot lx 0
  if t.type = .instruction then
    parseInstrTree lx 0
    pure lx
  else if t.type = .label then
    parseLabelTree lx 0
    pure lx
  else if isDirectiveType t.type then parseDirectiveTree lx 0
  else if t.type = .base then parseBaseTree lx 0
  else if t.type = .null then pure lx
  else syntaxError lx 0 .illegalSequence

/-- `unsigned int` → `int` (implementation-defined in C, modular in gcc). (parser.c:326, 341, 355) -/
def toInt32 (v : Nat) : Int :=
  if v % 2 ^ 32 < 2 ^ 31 then ((v % 2 ^ 32 : Nat) : Int) else ((v % 2 ^ 32 : Nat) : Int) - 2 ^ 32

/-- `int` → `unsigned int` (modular). (parser.c:377-417) -/
def toUInt32 (v : Int) : Nat := (v % 2 ^ 32).toNat

/-- parser.c:306-363 `parse_label_declaration`. Returns the new symbol table (`insert_symbol` cannot report an
error when allocation succeeds). The assignments to `label->value` are not kept: main.c never reads them. -/
def parseLabelDeclaration (lx : Lexer) (symtab : SymTab) (pc : Nat) : Res SymTab := do
  let label ← slot lx 0
  let defineLabel ← slot lx 1
  let found ← searchSymbol symtab label.str
  let foundDefine ← searchSymbol symtab defineLabel.str
  if defineLabel.type = .null ∨ defineLabel.type = .instruction then
    if found ≠ Err.symbolNotFound.code then
      raise lx.line .labelRedefinition label.bufferLocation lx.fileName lx.lineNum
    else insertSymbol symtab label.str (toInt32 pc)
  else if defineLabel.type = .equalSign ∨ defineLabel.type = .equDirective then
    if found ≠ Err.symbolNotFound.code then
      raise lx.line .labelRedefinition label.bufferLocation lx.fileName lx.lineNum
    else
      let lit ← slot lx 2
      insertSymbol symtab label.str (toInt32 lit.value)
  else if label.type = .defineDirective then
    if foundDefine ≠ Err.symbolNotFound.code then
      raise lx.line .labelRedefinition defineLabel.bufferLocation lx.fileName lx.lineNum
    else
      let lit ← slot lx 2
      insertSymbol symtab defineLabel.str (toInt32 lit.value)
  else raise lx.line .unknown none lx.fileName lx.lineNum

/-- parser.h:69-73, the operand statuses. -/
inductive OpStatus
  | parserSuccess | branchOperand | jumpOperand | branchForwardReference | jumpForwardReference
  deriving DecidableEq, Repr

/-- `is_branch(instr->mnemonic)`; false for NULL_MNEMONIC (opcode.c:71-86) -/
def Instr.isBranch (i : Instr) : Bool := (i.mnemonic.map Gaia.isBranch).getD false
/-- `is_jump(instr->mnemonic)` (opcode.c:95-105) -/
def Instr.isJump (i : Instr) : Bool := (i.mnemonic.map Gaia.isJump).getD false

/-- parser.c:377-417 `parse_label_operand`. The operand token is passed and returned by value (in C it is a
pointer into the sequence; only its `value` changes and the sequence is not searched for values afterwards). -/
def parseLabelOperand (lx : Lexer) (instr : Instr) (operand : Token) (symtab : SymTab) :
    Res (OpStatus × Token) := do
  let labelValue ← searchSymbol symtab operand.str
  if labelValue ≠ Err.symbolNotFound.code then
    let operand := { operand with value := toUInt32 labelValue }
    if instr.isBranch then pure (.branchOperand, operand)
    else if instr.isJump then pure (.jumpOperand, operand)
    else pure (.parserSuccess, operand)
  else if instr.isBranch then pure (.branchForwardReference, operand)
  else if instr.isJump then pure (.jumpForwardReference, operand)
  else raise lx.line .illegalForwardReference operand.bufferLocation lx.fileName lx.lineNum

/-- parser.c:438-456 `parse_operand`; `none` is a NULL operand. -/
def parseOperand (lx : Lexer) (instr : Instr) (operand : Option Token) (symtab : SymTab) :
    Res (OpStatus × Option Token) :=
  match operand with
  | none => .ok (.parserSuccess, none)
  | some tk =>
    if tk.type = .label then do
      let (st, tk) ← parseLabelOperand lx instr tk symtab
      pure (st, some tk)
    else if tk.type = .literal ∨ tk.type = .accumulator then .ok (.parserSuccess, some tk)
    else raise lx.line .unknown none lx.fileName lx.lineNum

/-- parser.c:474-480: the loop of `find_operand`. `curr` is the token last looked at. -/
def findOperandLoop (lx : Lexer) : (fuel i : Nat) → (curr : Token) → Res (Option Token)
  | 0, _, _ => .ub .infiniteLoop
  | fuel + 1, i, curr =>
    if curr.type = .null then .ok none
    else do
      let curr ← slot lx i
      if curr.type = .label ∨ curr.type = .literal ∨ curr.type = .accumulator then pure (some curr)
      else findOperandLoop lx fuel (i + 1) curr

/-- parser.c:466-482 `find_operand`. Ten iterations cover the eight slots: a ninth slot access is `ub`. -/
def findOperand (lx : Lexer) : Res (Option Token) := do
  let curr ← slot lx 1
  findOperandLoop lx 10 1 curr

/-- parser.c:504-517: does some token of the sequence have type `t`? -/
def hasType (lx : Lexer) (t : TokenType) : Bool := lx.seq.any (·.type == t)

/-- parser.c:496-541 `apply_masks` -/
def applyMasks (lx : Lexer) (currField : Flags) : Flags :=
  let f := currField
  let f := if hasType lx .xRegister then f &&& X_REGISTER_FIELD
    else if hasType lx .yRegister then f &&& Y_REGISTER_FIELD
    else f &&& NOT_REGISTER_FIELD
  let f := if hasType lx .openParenthesis then f &&& INDIRECT_FIELD else f &&& NOT_INDIRECT_FIELD
  let f := if hasType lx .immediate then f &&& ADDR_MODE_IMMEDIATE else f &&& ~~~ADDR_MODE_IMMEDIATE
  let f := if hasType lx .accumulator then f &&& ADDR_MODE_ACCUMULATOR else f &&& ~~~ADDR_MODE_ACCUMULATOR
  f

/-- Result of `parse_addr_mode`: the FORWARD_REFERENCE code or an addressing mode flag (the flag itself is in the
returned instruction). (parser.c:596-664) -/
inductive AddrRes
  | forwardReference | flag
  deriving DecidableEq, Repr

/-- parser.c:555-576 `parse_forward_ref_addr_mode` -/
def parseForwardRefAddrMode (lx : Lexer) (instr : Instr) : Res (AddrRes × Instr) :=
  let addrMode := applyMasks lx 0x1FFF
  let instr :=
    if instr.isBranch then { instr with addrBitflag := addrMode &&& ADDR_MODE_RELATIVE }
    else if instr.mnemonic = some .JMP then { instr with addrBitflag := addrMode &&& ABSOLUTE_FIELD }
    else if instr.mnemonic = some .JSR then { instr with addrBitflag := addrMode &&& ADDR_MODE_ABSOLUTE }
    else instr
  if instr.addrBitflag = 0 then raise lx.line .illegalAddressingMode none lx.fileName lx.lineNum
  else .ok (.forwardReference, instr)

/-- parser.c:596-665 `parse_addr_mode` -/
def parseAddrMode (lx : Lexer) (instr : Instr) (operand : Option Token) (status : OpStatus) :
    Res (AddrRes × Instr) :=
  if status = .branchForwardReference ∨ status = .jumpForwardReference then
    parseForwardRefAddrMode lx instr
  else
    match operand with
    | none =>
      let flag :=
        if instr.mnemonic = some .ASL ∨ instr.mnemonic = some .LSR ∨ instr.mnemonic = some .ROL ∨
            instr.mnemonic = some .ROR
        then instr.addrBitfield &&& ADDR_MODE_ACCUMULATOR
        else instr.addrBitfield &&& ADDR_MODE_IMPLIED
      let instr := { instr with addrBitflag := flag }
      if instr.addrBitflag = 0 then raise lx.line .illegalAddressingMode none lx.fileName lx.lineNum
      else .ok (.flag, instr)
    | some op =>
      let addrMode : Flags :=
        if op.type = .accumulator then 0x1FFF &&& ADDR_MODE_ACCUMULATOR
        else if op.value > 0xFF then
          if !instr.isBranch then ABSOLUTE_FIELD else ZERO_PAGE_FIELD
        else
          if !instr.isJump then ZERO_PAGE_FIELD else ABSOLUTE_FIELD
      let addrMode :=
        if instr.isBranch then addrMode &&& ADDR_MODE_RELATIVE else addrMode &&& ~~~ADDR_MODE_RELATIVE
      let addrMode := applyMasks lx addrMode
      let instr := { instr with addrBitflag := addrMode &&& instr.addrBitfield }
      if instr.addrBitflag = 0 then raise lx.line .illegalAddressingMode none lx.fileName lx.lineNum
      else .ok (.flag, instr)

end Gaia
