import Verif.Spec.Syntax

/-!
Specification of lexical errors: what is wrong with a text that is not a sequence of lexemes, and where.
-/
namespace Gaia.Spec
open Gaia

/-- How a literal of a base starts: `$`, `%` or nothing. -/
inductive LitStart : Str → Nat → Prop
  | hex : LitStart [36] 16
  | bin : LitStart [37] 2
  | dec : LitStart [] 10

/-- A word: a letter followed by letters, digits and underscores. -/
def IsWord (t : Str) : Prop := ∃ c r, t = c :: r ∧ isAlpha c = true ∧ ∀ x ∈ r, wordChar x = true

/-- `BadToken s e k`: the text `s` does not start with a lexeme; the error is `e`, and the offending character is at
offset `k` of `s`. -/
inductive BadToken : Str → Err → Nat → Prop
  /-- `$12G`: the digits are followed by something that is neither a digit nor a delimiter. -/
  | literalChar (pre ds : Str) (b : Nat) (c : Byte) (r : Str) (hp : LitStart pre b) (hne : pre ++ ds ≠ [])
      (hd : ∀ x ∈ ds, IsDigitOf b x) (hc : ¬ IsDigitOf b c) (hr : ¬ Delimited (c :: r)) :
      BadToken (pre ++ ds ++ c :: r) .illegalChar (pre.length + ds.length)
  /-- `$` or `%` without digits. -/
  | literalEmpty (pre : Str) (b : Nat) (r : Str) (hp : LitStart pre b) (hne : pre ≠ []) (hr : Delimited r) :
      BadToken (pre ++ r) .illegalChar 1
  /-- `$10000`: more than 16 bits. -/
  | literalBig (pre ds : Str) (b : Nat) (r : Str) (hp : LitStart pre b) (hne : ds ≠ [])
      (hd : ∀ x ∈ ds, IsDigitOf b x) (hr : Delimited r) (hv : positional b ds > 0xFFFF) :
      BadToken (pre ++ ds ++ r) .tooBigLiteral 0
  /-- A word of 64 or more characters. -/
  | wordLong (t r : Str) (ht : IsWord t) (hlen : 64 ≤ t.length) : BadToken (t ++ r) .tooLongLabel 0
  /-- `AB?`: a word followed by something that is neither a word character, a colon nor a delimiter. -/
  | wordChar (t : Str) (c : Byte) (r : Str) (ht : IsWord t) (hlen : t.length ≤ 63) (hc : wordChar c = false)
      (hcol : c ≠ 58) (hr : ¬ Delimited (c :: r)) : BadToken (t ++ c :: r) .illegalChar t.length
  /-- A period and 63 or more letters. -/
  | directiveLong (t r : Str) (ht : ∀ x ∈ t, isAlpha x = true) (hlen : 63 ≤ t.length) :
      BadToken (46 :: t ++ r) .illegalDirective 0
  /-- A period and letters that make no directive. -/
  | directiveUnknown (t r : Str) (ht : ∀ x ∈ t, isAlpha x = true) (hlen : t.length < 63) (hr : Delimited r)
      (hx : directiveLexeme ((46 :: t).map toUpper) = none) : BadToken (46 :: t ++ r) .illegalDirective 0
  /-- `.OR1`: the letters are followed by something that is neither a letter nor a delimiter. -/
  | directiveChar (t : Str) (c : Byte) (r : Str) (ht : ∀ x ∈ t, isAlpha x = true) (hlen : t.length < 63)
      (hc : isAlpha c = false) (hr : ¬ Delimited (c :: r)) :
      BadToken (46 :: t ++ c :: r) .illegalChar (1 + t.length)
  /-- No lexeme starts with this character. -/
  | other (c : Byte) (r : Str) (h1 : isAlpha c = false) (h2 : isDigit c = false) (h3 : punctLexeme c = none)
      (h4 : c ≠ 36 ∧ c ≠ 37 ∧ c ≠ 46) : BadToken (c :: r) .illegalChar 0

/-- `Begins first off s ls off' s'`: the text `s` at offset `off` begins with the lexemes `ls`; the text `s'` at offset
`off'` remains. As in `Tokens`, a name that is first may be followed by a colon. -/
inductive Begins : Bool → Nat → Str → List (Nat × Lexeme) → Nat → Str → Prop
  | done (first : Bool) (off : Nat) (s : Str) : Begins first off s [] off s
  | cons (first : Bool) (off : Nat) (t bl s : Str) (x : Lexeme) (ls : List (Nat × Lexeme)) (off' : Nat) (s' : Str)
      (ht : Spell t x) (hd : x.isPunct = true ∨ Delimited (bl ++ s)) (hb : Blanks bl) (hs : NoLeadingBlank s)
      (hrest : Begins false (off + t.length + bl.length) s ls off' s') :
      Begins first off (t ++ bl ++ s) ((off, x) :: ls) off' s'
  | colon (off : Nat) (t bl s : Str) (l : Str) (ls : List (Nat × Lexeme)) (off' : Nat) (s' : Str)
      (ht : Spell t (.name l)) (hb : Blanks bl) (hs : NoLeadingBlank s)
      (hrest : Begins false (off + t.length + 1 + bl.length) s ls off' s') :
      Begins true off (t ++ 58 :: bl ++ s) ((off, .name l) :: ls) off' s'

/-- `LineBegins line ls off s`: after leading blanks, the line begins with the lexemes `ls`, and the text `s` at offset
`off` remains. -/
def LineBegins (line : List Byte) (ls : List (Nat × Lexeme)) (off : Nat) (s : Str) : Prop :=
  ∃ bl u, code line = bl ++ u ∧ Blanks bl ∧ NoLeadingBlank u ∧ Begins true bl.length u ls off s

/-- `LexFault line e pos`: the line is lexically wrong: error `e` at offset `pos`. -/
inductive LexFault (line : List Byte) : Err → Nat → Prop
  /-- After at most eight lexemes comes a text that is no lexeme. -/
  | token (ls : List (Nat × Lexeme)) (off : Nat) (s : Str) (e : Err) (k : Nat) (hb : LineBegins line ls off s)
      (h8 : ls.length ≤ 8) (ht : BadToken s e k) : LexFault line e (off + k)
  /-- A colon after a word that is not a label at the start of the line. -/
  | colon (ls : List (Nat × Lexeme)) (off : Nat) (t r : Str) (hb : LineBegins line ls off (t ++ 58 :: r))
      (h8 : ls.length ≤ 7) (ht : IsWord t) (hlen : t.length ≤ 63)
      (hn : ¬ (ls = [] ∧ ∃ l, wordLexeme (t.map toUpper) = .name l)) : LexFault line .illegalChar (off + t.length)

/-- The line has a ninth lexeme. -/
def TooMany (line : List Byte) : Prop :=
  ∃ ls off t x r, LineBegins line ls off (t ++ r) ∧ ls.length = 8 ∧ Spell t x ∧
    (x.isPunct = true ∨ Delimited r ∨ IsWord t ∧ ∃ r', r = 58 :: r')

end Gaia.Spec
