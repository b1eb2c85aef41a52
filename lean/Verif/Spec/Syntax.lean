import Verif.Spec.OpTable

/-!
Specification of gaia's source language: how a line is cut into lexemes (`Lexes`), and which sequences of lexemes are
statements (`parse`). Written from the README, parser.h's grammar comment and the 6502 conventions; it does not use
the scanner or the parser of the model, only the ASCII character classes of `Model/Base.lean`.
-/
namespace Gaia.Spec
open Gaia

/-- The meaning of a token. Names are upper-cased. -/
inductive Lexeme
  | name (s : Str) | mnem (m : Mnemonic) | regX | regY | regA | lit (v : Nat)
  | define | equ | org | stop
  | hash | lpar | rpar | comma | eq | star
  deriving DecidableEq, Repr

/-- The written name of a mnemonic. -/
def mnemonicName : Mnemonic → Str
  | .ADC => b! "ADC"
  | .AND => b! "AND"
  | .ASL => b! "ASL"
  | .BCC => b! "BCC"
  | .BCS => b! "BCS"
  | .BEQ => b! "BEQ"
  | .BIT => b! "BIT"
  | .BMI => b! "BMI"
  | .BNE => b! "BNE"
  | .BPL => b! "BPL"
  | .BRK => b! "BRK"
  | .BVC => b! "BVC"
  | .BVS => b! "BVS"
  | .CLC => b! "CLC"
  | .CLD => b! "CLD"
  | .CLI => b! "CLI"
  | .CLV => b! "CLV"
  | .CMP => b! "CMP"
  | .CPX => b! "CPX"
  | .CPY => b! "CPY"
  | .DEC => b! "DEC"
  | .DEX => b! "DEX"
  | .DEY => b! "DEY"
  | .EOR => b! "EOR"
  | .INC => b! "INC"
  | .INX => b! "INX"
  | .INY => b! "INY"
  | .JMP => b! "JMP"
  | .JSR => b! "JSR"
  | .LDA => b! "LDA"
  | .LDX => b! "LDX"
  | .LDY => b! "LDY"
  | .LSR => b! "LSR"
  | .NOP => b! "NOP"
  | .ORA => b! "ORA"
  | .PHA => b! "PHA"
  | .PHP => b! "PHP"
  | .PLA => b! "PLA"
  | .PLP => b! "PLP"
  | .ROL => b! "ROL"
  | .ROR => b! "ROR"
  | .RTI => b! "RTI"
  | .RTS => b! "RTS"
  | .SBC => b! "SBC"
  | .SEC => b! "SEC"
  | .SED => b! "SED"
  | .SEI => b! "SEI"
  | .STA => b! "STA"
  | .STX => b! "STX"
  | .STY => b! "STY"
  | .TAX => b! "TAX"
  | .TAY => b! "TAY"
  | .TSX => b! "TSX"
  | .TXA => b! "TXA"
  | .TXS => b! "TXS"
  | .TYA => b! "TYA"

/-- What a word (already upper-cased) is. -/
def wordLexeme (w : Str) : Lexeme :=
  if w = b! "X" then .regX
  else if w = b! "Y" then .regY
  else if w = b! "A" then .regA
  else match Mnemonic.all.find? (fun m => mnemonicName m = w) with
    | some m => .mnem m
    | none => .name w

/-- What a directive (already upper-cased, with its period) is. -/
def directiveLexeme (w : Str) : Option Lexeme :=
  if w = b! ".DEFINE" then some .define
  else if w = b! ".EQU" then some .equ
  else if w = b! ".ORG" then some .org
  else if w = b! ".END" then some .stop
  else none

/-- Punctuation: `#` `(` `)` `,` `=` `*`. -/
def punctLexeme (c : Byte) : Option Lexeme :=
  if c = 35 then some .hash
  else if c = 40 then some .lpar
  else if c = 41 then some .rpar
  else if c = 44 then some .comma
  else if c = 61 then some .eq
  else if c = 42 then some .star
  else none

/-- A lexeme written as punctuation (it may be followed by anything). -/
def Lexeme.isPunct : Lexeme → Bool
  | .hash | .lpar | .rpar | .comma | .eq | .star => true
  | _ => false

/-- A character that may continue a word: letter, digit or underscore. -/
def wordChar (c : Byte) : Bool := isAlnum c || c == 95

/-- The value of a digit: `0`-`9`, `A`-`F`, `a`-`f`. -/
def digitValue (c : Byte) : Option Nat :=
  if isDigit c then some (c.toNat - 48)
  else if 65 ≤ c.toNat ∧ c.toNat ≤ 70 then some (c.toNat - 55)
  else if 97 ≤ c.toNat ∧ c.toNat ≤ 102 then some (c.toNat - 87)
  else none

/-- `c` is a digit of base `b`. -/
def IsDigitOf (b : Nat) (c : Byte) : Prop := ∃ v, digitValue c = some v ∧ v < b

/-- The number denoted by a digit string in base `b`. -/
def positional (b : Nat) (ds : Str) : Nat := ds.foldl (fun n c => n * b + (digitValue c).getD 0) 0

/-- `Spell t x`: the text `t` is a spelling of the lexeme `x`. -/
inductive Spell : Str → Lexeme → Prop
  | word (c : Byte) (t : Str) (hc : isAlpha c = true) (ht : ∀ x ∈ t, wordChar x = true)
      (hlen : (c :: t).length ≤ 63) : Spell (c :: t) (wordLexeme ((c :: t).map toUpper))
  | hex (ds : Str) (hne : ds ≠ []) (hd : ∀ x ∈ ds, IsDigitOf 16 x) (hv : positional 16 ds ≤ 0xFFFF) :
      Spell (36 :: ds) (.lit (positional 16 ds))
  | bin (ds : Str) (hne : ds ≠ []) (hd : ∀ x ∈ ds, IsDigitOf 2 x) (hv : positional 2 ds ≤ 0xFFFF) :
      Spell (37 :: ds) (.lit (positional 2 ds))
  | dec (ds : Str) (hne : ds ≠ []) (hd : ∀ x ∈ ds, IsDigitOf 10 x) (hv : positional 10 ds ≤ 0xFFFF) :
      Spell ds (.lit (positional 10 ds))
  | directive (t : Str) (x : Lexeme) (hx : directiveLexeme (t.map toUpper) = some x) : Spell t x
  | punct (c : Byte) (x : Lexeme) (hx : punctLexeme c = some x) : Spell [c] x

/-- The part of a line that has a meaning: everything before the first CR, LF, `;`, NUL or byte 0xFF. -/
def code (line : List Byte) : Str :=
  line.takeWhile fun c => !(c == 13 || c == 10 || c == 59 || c == 0 || c == 255)

/-- What may follow a word, literal or directive: nothing, a blank, a tab, a comma or a parenthesis. -/
def Delimited (rest : Str) : Prop := rest = [] ∨ ∃ c r, rest = c :: r ∧ (c = 32 ∨ c = 9 ∨ c = 44 ∨ c = 40 ∨ c = 41)

/-- All blanks. -/
def Blanks (s : Str) : Prop := ∀ c ∈ s, c = 32 ∨ c = 9

/-- Does not start with a blank. -/
def NoLeadingBlank (s : Str) : Prop := ∀ c r, s = c :: r → c ≠ 32 ∧ c ≠ 9

/-- `Tokens first off s ls`: the text `s`, which starts at offset `off` of the line, consists of the lexemes `ls` (each
with the offset of its text), separated by optional blanks. The first lexeme of a line, if it is a name, may be
followed directly by a colon. -/
inductive Tokens : Bool → Nat → Str → List (Nat × Lexeme) → Prop
  | done (first : Bool) (off : Nat) : Tokens first off [] []
  | cons (first : Bool) (off : Nat) (t bl s : Str) (x : Lexeme) (ls : List (Nat × Lexeme))
      (ht : Spell t x) (hd : x.isPunct = true ∨ Delimited (bl ++ s)) (hb : Blanks bl) (hs : NoLeadingBlank s)
      (hrest : Tokens false (off + t.length + bl.length) s ls) :
      Tokens first off (t ++ bl ++ s) ((off, x) :: ls)
  | colon (off : Nat) (t bl s : Str) (l : Str) (ls : List (Nat × Lexeme))
      (ht : Spell t (.name l)) (hb : Blanks bl) (hs : NoLeadingBlank s)
      (hrest : Tokens false (off + t.length + 1 + bl.length) s ls) :
      Tokens true off (t ++ 58 :: bl ++ s) ((off, .name l) :: ls)

/-- `Lexes line ls`: the line consists of the lexemes `ls`, after leading blanks. -/
def Lexes (line : List Byte) (ls : List (Nat × Lexeme)) : Prop :=
  ∃ bl s, code line = bl ++ s ∧ Blanks bl ∧ NoLeadingBlank s ∧ Tokens true bl.length s ls

/-- No literal of the line denotes 2^64 or more: no digits after `$`, `%` or (decimal) at the start of a word. -/
def HugeFree (line : List Byte) : Prop :=
  ∀ p ds r, code line = p ++ ds ++ r →
    (p.getLast? = some 36 → (∀ x ∈ ds, IsDigitOf 16 x) → positional 16 ds < 2 ^ 64) ∧
    (p.getLast? = some 37 → (∀ x ∈ ds, IsDigitOf 2 x) → positional 2 ds < 2 ^ 64) ∧
    ((∀ c, p.getLast? = some c → wordChar c = false ∧ c ≠ 36 ∧ c ≠ 37) → (∀ x ∈ ds, IsDigitOf 10 x) →
      positional 10 ds < 2 ^ 64)

/-- An operand: a literal or a label. -/
inductive Opd
  | lit (v : Nat) | sym (l : Str)
  deriving DecidableEq, Repr

/-- The written form of an instruction's argument. -/
inductive Arg
  | none | acc | imm (o : Opd) | plain (o : Opd) | idxX (o : Opd) | idxY (o : Opd)
  | ind (o : Opd) | indX (o : Opd) | indY (o : Opd)
  deriving DecidableEq, Repr

/-- A statement. -/
inductive Stmt
  | empty
  | label (l : Str)
  | const (l : Str) (v : Nat)
  | org (v : Nat)
  | stop
  | instr (l : Option Str) (m : Mnemonic) (a : Arg)
  deriving DecidableEq, Repr

/-- An operand lexeme. -/
def opd : Lexeme → Option Opd
  | .lit v => some (.lit v)
  | .name l => some (.sym l)
  | _ => none

/-- The argument forms: nothing, `A`, `#o`, `o`, `o,X`, `o,Y`, `(o)`, `(o,X)`, `(o),Y`. -/
def parseArg : List Lexeme → Option Arg
  | [] => some .none
  | [.regA] => some .acc
  | [.hash, o] => (opd o).map .imm
  | [o] => (opd o).map .plain
  | [o, .comma, .regX] => (opd o).map .idxX
  | [o, .comma, .regY] => (opd o).map .idxY
  | [.lpar, o, .rpar] => (opd o).map .ind
  | [.lpar, o, .comma, .regX, .rpar] => (opd o).map .indX
  | [.lpar, o, .rpar, .comma, .regY] => (opd o).map .indY
  | _ => Option.none

/-- The grammar of parser.h:7-60 (plus the accumulator operand). -/
def parse : List Lexeme → Option Stmt
  | [] => some .empty
  | [.name l] => some (.label l)
  | [.name l, .eq, .lit v] => some (.const l v)
  | [.name l, .equ, .lit v] => some (.const l v)
  | [.define, .name l, .lit v] => some (.const l v)
  | [.org, .lit v] => some (.org v)
  | [.star, .eq, .lit v] => some (.org v)
  | [.stop] => some .stop
  | .mnem m :: rest => (parseArg rest).map (.instr none m)
  | .name l :: .mnem m :: rest => (parseArg rest).map (.instr (some l) m)
  | _ => none

end Gaia.Spec
