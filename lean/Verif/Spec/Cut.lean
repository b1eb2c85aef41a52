import Verif.Spec.LexFault

/-!
Specification: how gaia cuts a line into tokens, without any bound on the literals. This is `Spec/Syntax.lean`'s `Lexes`
with one more way to write a literal: digits that denote 2^64 or more, if the low 64 bits fit into 16 bits.
-/
namespace Gaia.Spec
open Gaia

/-- `CutSpell t x`: the text `t` is a spelling of `x`, or a literal whose value wraps around to `x`. -/
inductive CutSpell : Str → Lexeme → Prop
  | spelled (t : Str) (x : Lexeme) (h : Spell t x) : CutSpell t x
  | wrapped (pre ds : Str) (b : Nat) (hp : LitStart pre b) (hne : ds ≠ []) (hd : ∀ x ∈ ds, IsDigitOf b x)
      (hbig : 2 ^ 64 ≤ positional b ds) (hv : positional b ds % 2 ^ 64 ≤ 0xFFFF) :
      CutSpell (pre ++ ds) (.lit (positional b ds % 2 ^ 64))

/-- `CutTokens first off s ls`: the text `s`, which starts at offset `off` of the line, is cut into the lexemes `ls`, each
with the offset of its text; see `Tokens`. -/
inductive CutTokens : Bool → Nat → Str → List (Nat × Lexeme) → Prop
  | done (first : Bool) (off : Nat) : CutTokens first off [] []
  | cons (first : Bool) (off : Nat) (t bl s : Str) (x : Lexeme) (ls : List (Nat × Lexeme))
      (ht : CutSpell t x) (hd : x.isPunct = true ∨ Delimited (bl ++ s)) (hb : Blanks bl) (hs : NoLeadingBlank s)
      (hrest : CutTokens false (off + t.length + bl.length) s ls) :
      CutTokens first off (t ++ bl ++ s) ((off, x) :: ls)
  | colon (off : Nat) (t bl s : Str) (l : Str) (ls : List (Nat × Lexeme))
      (ht : CutSpell t (.name l)) (hb : Blanks bl) (hs : NoLeadingBlank s)
      (hrest : CutTokens false (off + t.length + 1 + bl.length) s ls) :
      CutTokens true off (t ++ 58 :: bl ++ s) ((off, .name l) :: ls)

/-- The line is cut into the lexemes `ls`, after leading blanks. -/
def Cuts (line : List Byte) (ls : List (Nat × Lexeme)) : Prop :=
  ∃ bl s, code line = bl ++ s ∧ Blanks bl ∧ NoLeadingBlank s ∧ CutTokens true bl.length s ls

end Gaia.Spec
