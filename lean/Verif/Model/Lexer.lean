import Verif.Model.Error
import Verif.Model.Opcode

/-! Model of src/lexer.c and src/lexer.h -/
namespace Gaia

/-- lexer.h:13 -/
def MAX_TOKENS : Nat := 8
/-- lexer.c:23 -/
def MAX_TOKEN_STR_LEN : Nat := 64

/-- lexer.h:19-37 -/
inductive TokenType
  | label | literal | instruction | immediate | openParenthesis | closeParenthesis | comma
  | equalSign | xRegister | yRegister | base | equDirective | defineDirective | orgDirective
  | endDirective | accumulator | null
  deriving DecidableEq, Repr

/-- lexer.h:39-45. `str` is the C string held in the 64-byte buffer; pointers into the source line are offsets
(`none` is NULL). `error_char` is not stored here: it is returned with the error. -/
structure Token where
  type : TokenType := .null
  str : Str := []
  value : Nat := 0
  bufferLocation : Option Nat := none
  deriving DecidableEq, Repr

/-- lexer.h:47-55 without `error_tk`, which is only ever written. `seq` has 8 slots. -/
structure Lexer where
  seq : List Token
  curr : Nat
  line : Option Str
  lineNum : Nat
  fileName : Str
  deriving DecidableEq, Repr

/-- lexer.c:31-45 `init_token` (allocation succeeds) -/
def initToken : Token := {}

/-- lexer.c:54-67, 76-91 `init_sequence`, `init_lexer` (allocations succeed). `line_num` is left uninitialised
by the C code; it is never read before `lex_line` sets it. -/
def initLexer (fileName : Str) : Lexer :=
  { seq := List.replicate MAX_TOKENS initToken, curr := 0, line := none, lineNum := 0, fileName }

/-- lexer.c:93-101 `reset_token` -/
def resetToken (tk : Token) : Token :=
  { tk with type := .null, value := 0, bufferLocation := none, str := [] }

/-- lexer.c:109-118 `reset_lexer` (the intermediate `line_num = -1` is overwritten at once by `lex_line`
and never read; 0 here). -/
def resetLexer (lx : Lexer) : Lexer :=
  { lx with seq := lx.seq.map resetToken, curr := 0, line := none, lineNum := 0 }

/-- Lexer functions report an error code and the offset of `error_char`. (lexer.c:552-599, `lex`) -/
abbrev LexM (α : Type) := C (Err × Nat) α

/-- lexer.c:170-180 `token_strcpy`: copying an empty string leaves the token's text as it was. -/
def tokenStrcpy (tk : Token) (s : Str) : LexM Token :=
  if s = [] then .ok tk
  else if s.length + 1 > MAX_TOKEN_STR_LEN then .ub .textOverflow
  else .ok { tk with str := s }

/-- lexer.c:200-208 `token_strncpy`: copy `length` characters, upper-cased, and append a NUL at index `length`.
-/
def tokenStrncpy (tk : Token) (buffer : Str) (length : Nat) : LexM Token :=
  if length ≥ MAX_TOKEN_STR_LEN then .ub .textOverflow
  else if length > buffer.length then .ub .overread
  else .ok { tk with str := (buffer.take length).map toUpper }

/-- lexer.c:220-241 `add_token`. The branch for a slot that is not a null token (line 238) prints
ERROR_UNKNOWN and goes on; `reset_lexer` makes it unreachable and it is the outcome `internal` here. -/
def addToken (lx : Lexer) (tk : Token) : LexM Lexer :=
  if lx.curr = MAX_TOKENS then .err (.tooManyTokens, 0)
  else
    match lx.seq[lx.curr]? with
    | none => .ub .outOfBounds
    | some new =>
      if new.type = .null then do
        let new ← tokenStrcpy { new with type := tk.type } tk.str
        let new := { new with value := tk.value, bufferLocation := tk.bufferLocation }
        pure { lx with seq := lx.seq.set lx.curr new, curr := lx.curr + 1 }
      else .ub .internal

/-- lexer.c:250-259 `hex_digit_to_int`; `none` is ERROR_ILLEGAL_CHAR -/
def hexDigitToInt (c : Byte) : Option Nat :=
  if 65 ≤ c.toNat ∧ c.toNat ≤ 70 then some (c.toNat - 65 + 10)
  else if 97 ≤ c.toNat ∧ c.toNat ≤ 102 then some (c.toNat - 97 + 10)
  else if 48 ≤ c.toNat ∧ c.toNat ≤ 57 then some (c.toNat - 48)
  else none

/-- lexer.c:268-275 `bin_digit_to_int` -/
def binDigitToInt (c : Byte) : Option Nat :=
  if c = 48 then some 0 else if c = 49 then some 1 else none

/-- lexer.c:284-289 `dec_digit_to_int` -/
def decDigitToInt (c : Byte) : Option Nat :=
  if 48 ≤ c.toNat ∧ c.toNat ≤ 57 then some (c.toNat - 48) else none

/-- lexer.c:298-314 `is_end_of_token`: blank, tab, CR, LF, NUL, `,`, `(`, `)`, `;`, `EOF` (0xFF). -/
def isEndOfToken (c : Byte) : Bool :=
  c == 32 || c == 9 || c == 13 || c == 10 || c == 0 || c == 44 || c == 40 || c == 41 || c == 59 || c == 255

/-- Outcome of the digit loop of `lex_literal`: stopped at an illegal character, or finished with a total. Both
carry `num_chars`. (lexer.c:355-373) -/
inductive DigitRes
  | bad (numChars : Nat)
  | done (total numChars : Nat)
  deriving DecidableEq, Repr

/-- lexer.c:355-373: the `while (*curr)` loop; `total` is an `unsigned long long` (64 bits, wraps). -/
def digitLoop (conv : Byte → Option Nat) (base : Nat) : Str → (total numChars : Nat) → DigitRes
  | [], total, n => .done total n
  | c :: s, total, n =>
    match conv c with
    | some v => digitLoop conv base s ((total * base + v) % 2 ^ 64) (n + 1)
    | none => if isEndOfToken c then .done total n else .bad n

/-- lexer.c:354-391: the rest of `lex_literal` once base and converter are chosen. -/
def lexLiteralBody (conv : Byte → Option Nat) (base : Nat) (off : Nat) (s : Str) (numChars : Nat)
    (tk : Token) : LexM (Nat × Token) :=
  match digitLoop conv base s 0 numChars with
  | .bad n => .err (.illegalChar, off + n)
  | .done total n =>
    if n = 0 then .err (.illegalChar, off + n)
    else if n = 1 ∧ (base = 2 ∨ base = 16) then .err (.illegalChar, off + n)
    else if total > 0xFFFF then .err (.tooBigLiteral, off)
    else .ok (n, { tk with type := .literal, value := total })

/-- lexer.c:325-392 `lex_literal`. `s` is the text at offset `off` of the line. Returns the number of characters
read and the updated running token. -/
def lexLiteral (off : Nat) (s : Str) (tk : Token) : LexM (Nat × Token) :=
  let c := rd s
  if c = 36 then lexLiteralBody hexDigitToInt 16 off s.tail 1 tk
  else if c = 37 then lexLiteralBody binDigitToInt 2 off s.tail 1 tk
  else if isDigit c then lexLiteralBody decDigitToInt 10 off s 0 tk
  else .err (.illegalChar, off)

/-- lexer.c:406-416 `lex_instruction`: `none` is ERROR_INSTRUCTION_NOT_FOUND (nothing modified). -/
def lexInstruction (tk : Token) (instr : Instr) : Option (Token × Instr) :=
  match strToMnemonic tk.str with
  | some m => some ({ tk with type := .instruction },
      { instr with mnemonic := some m, addrBitfield := getAddrBitfield m })
  | none => none

/-- Outcome of the scanning `for` loops of `lex_directive` and `lex_text`. (lexer.c:432-440, 499-510) -/
inductive ScanRes
  | bad (i : Nat)      -- illegal character at index i
  | done (i : Nat)     -- loop left with num_chars = i (by `break` or because i reached 64)
  deriving DecidableEq, Repr

/-- lexer.c:432-440 and 499-510: `for (; i < 64; i++) { c = buffer[i]; if (stop(c)) break; if (!valid(c)) error }`.
`fuel = 64 - i`; `s` is the text from index `i` on. -/
def scanLoop (stop valid : Byte → Bool) : (fuel i : Nat) → Str → ScanRes
  | 0, i, _ => .done i
  | fuel + 1, i, s =>
    let c := rd s
    if stop c then .done i
    else if !valid c then .bad i
    else scanLoop stop valid fuel (i + 1) s.tail

/-- lexer.c:450-461: the type of a directive. -/
def directiveType (s : Str) : Option TokenType :=
  if s = b! ".DEFINE" then some .defineDirective
  else if s = b! ".EQU" then some .equDirective
  else if s = b! ".ORG" then some .orgDirective
  else if s = b! ".END" then some .endDirective
  else none

/-- lexer.c:427-463 `lex_directive` (scan starts at index 1, after the period). -/
def lexDirective (off : Nat) (s : Str) (tk : Token) : LexM (Nat × Token) :=
  match scanLoop isEndOfToken isAlpha (MAX_TOKEN_STR_LEN - 1) 1 s.tail with
  | .bad i => .err (.illegalChar, off + i)
  | .done n =>
    if n = MAX_TOKEN_STR_LEN then .err (.illegalDirective, off)
    else do
      let tk ← tokenStrncpy tk s n
      match directiveType tk.str with
      | some t => pure (n, { tk with type := t })
      | none => .err (.illegalDirective, off)

/-- lexer.c:473-478 `is_valid_token_char` -/
def isValidTokenChar (c : Byte) : Bool := isAlnum c || c == 95

/-- lexer.c:504: the characters that end a text token (a colon in addition to `is_end_of_token`). -/
def isTextStop (c : Byte) : Bool := isEndOfToken c || c == 58

/-- lexer.c:495-539 `lex_text` -/
def lexText (off : Nat) (s : Str) (tk : Token) (instr : Instr) : LexM (Nat × Token × Instr) :=
  match scanLoop isTextStop isValidTokenChar MAX_TOKEN_STR_LEN 0 s with
  | .bad i => .err (.illegalChar, off + i)
  | .done n =>
    if n = MAX_TOKEN_STR_LEN then .err (.tooLongLabel, off)
    else do
      let tk ← tokenStrncpy tk s n
      if tk.str = b! "X" then pure (n, { tk with type := .xRegister }, instr)
      else if tk.str = b! "Y" then pure (n, { tk with type := .yRegister }, instr)
      else if tk.str = b! "A" then pure (n, { tk with type := .accumulator }, instr)
      else
        match lexInstruction tk instr with
        | some (tk, instr) => pure (n, tk, instr)
        | none => pure (n, { tk with type := .label }, instr)

/-- lexer.c:556-581: single-character tokens. -/
def punctType (c : Byte) : Option TokenType :=
  if c = 35 then some .immediate
  else if c = 40 then some .openParenthesis
  else if c = 41 then some .closeParenthesis
  else if c = 44 then some .comma
  else if c = 61 then some .equalSign
  else if c = 42 then some .base
  else none

/-- lexer.c:552-591 `lex` -/
def lex (off : Nat) (s : Str) (tk : Token) (instr : Instr) : LexM (Nat × Token × Instr) :=
  let c := rd s
  let tk := { tk with bufferLocation := some off }
  match punctType c with
  | some t => do
    let tk ← tokenStrncpy { tk with type := t } [c] 1
    pure (1, tk, instr)
  | none =>
    if isAlpha c then lexText off s tk instr
    else if c = 36 ∨ c = 37 ∨ isDigit c then do
      let (n, tk) ← lexLiteral off s tk
      pure (n, tk, instr)
    else if c = 46 then do
      let (n, tk) ← lexDirective off s tk
      pure (n, tk, instr)
    else .err (.illegalChar, off)

/-- lexer.c:601-612 `end_line_lexing`: CR, LF, `;`, NUL, `EOF` (0xFF). -/
def endLineLexing (c : Byte) : Bool := c == 13 || c == 10 || c == 59 || c == 0 || c == 255

/-- lexer.c:642, 678: `while (*curr == ' ' || *curr == '\t') curr++;` — returns the new offset and text. -/
def skipBlanks : (off : Nat) → Str → Nat × Str
  | off, [] => (off, [])
  | off, c :: s => if isBlank c then skipBlanks (off + 1) s else (off, c :: s)

/-- lexer.c:647-680: the token loop of `lex_line`. `buffer` is the whole line, `s` the text at offset `off`.
`fuel`: one more than the characters left always suffices (see `Gaia.lexLine_safe`). -/
def lexLoop (buffer : Str) : (fuel off : Nat) → Str → Lexer → Token → Instr → Res (Lexer × Token × Instr)
  | 0, _, _, _, _, _ => .ub .infiniteLoop
  | fuel + 1, off, s, lx, tk, instr =>
    if endLineLexing (rd s) then .ok (lx, tk, instr)
    else
      match lex off s tk instr with
      | .ub u => .ub u
      | .err (e, pos) => raise (some buffer) e (some pos) lx.fileName lx.lineNum
      | .ok (n, tk, instr) =>
        if n > s.length then .ub .overread
        else
        match addToken lx tk with
        | .ub u => .ub u
        | .err (e, _) => .err ⟨e, []⟩          -- lexer.c:657-661: no message is printed
        | .ok lx =>
          let s := s.drop n
          let off := off + n
          if rd s = 58 then
            if tk.type = .label ∧ lx.curr = 1 then
              let (off, s) := skipBlanks (off + 1) s.tail
              lexLoop buffer fuel off s lx tk instr
            else raise (some buffer) .illegalChar (some off) lx.fileName lx.lineNum
          else
            let (off, s) := skipBlanks off s
            lexLoop buffer fuel off s lx tk instr

/-- lexer.c:683-687: fill the rest of the sequence with null tokens. -/
def fillNull (lx : Lexer) : Lexer :=
  { lx with seq := lx.seq.take lx.curr ++ (lx.seq.drop lx.curr).map fun t => { t with type := .null } }

/-- lexer.c:630-689 `lex_line`. `raw` is the content of the line buffer; the scratch structures of the previous
line come in and their new contents go out. -/
def lexLine (raw : List Byte) (lx : Lexer) (tk : Token) (instr : Instr) (lineNum : Nat) :
    Res (Lexer × Token × Instr) :=
  let buffer := cstr raw
  let lx := { resetLexer lx with line := some buffer, lineNum := lineNum }
  let instr := resetInstruction instr
  let tk := resetToken tk
  let (off, s) := skipBlanks 0 buffer
  do
    let (lx, tk, instr) ← lexLoop buffer (s.length + 1) off s lx tk instr
    pure (fillNull lx, tk, instr)

end Gaia
