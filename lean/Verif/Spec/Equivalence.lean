import Verif.Spec.Program

/-! Specification: when two runs of gaia have the same result. -/
namespace Gaia.Spec
open Gaia

/-- gaia has the same result in both worlds: the same exit status and the same output file; and if it succeeds, it
prints the same report. (If it fails, the text of the message may differ: it quotes the source.) -/
def SameResult (srcName outName : Str) (w w' : World) : Prop :=
  ∃ status text text' binary,
    gaia srcName outName w = .exited ⟨status, text, { w with files := fun n => if n = outName then some binary else w.files n }⟩ ∧
    gaia srcName outName w' = .exited ⟨status, text', { w' with files := fun n => if n = outName then some binary else w'.files n }⟩ ∧
    (status = 0 ∨ status = 1) ∧ (status = 0 → text = text')

/-- gaia does exactly the same in both worlds: same exit status, same text printed, same output file. -/
def SameRun (srcName outName : Str) (w w' : World) : Prop :=
  ∃ status text binary,
    gaia srcName outName w = .exited ⟨status, text, { w with files := fun n => if n = outName then some binary else w.files n }⟩ ∧
    gaia srcName outName w' = .exited ⟨status, text, { w' with files := fun n => if n = outName then some binary else w'.files n }⟩ ∧
    (status = 0 ∨ status = 1)

/-- The text consists of complete lines: it is empty or ends with a newline. -/
def WholeLines (s : List Byte) : Prop := s = [] ∨ ∃ q, s = q ++ [10]

/-- The lines are the same, or they are made of the same lexemes, perhaps spelled differently. -/
def SameLexemes (l l' : List Byte) : Prop :=
  l = l' ∨ ∃ x x', Lexes l x ∧ Lexes l' x' ∧ x.map (·.2) = x'.map (·.2)

/-- The same character, or the same letter in the other case. -/
def Recased (c c' : Byte) : Prop :=
  c' = c ∨ (97 ≤ c.toNat ∧ c.toNat ≤ 122 ∧ c' = c - 32) ∨ (65 ≤ c.toNat ∧ c.toNat ≤ 90 ∧ c' = c + 32)

/-- `Alike same s s'`: the texts agree character by character up to `same`, except that a run of blanks and tabs in one is a
run of blanks and tabs in the other, and that there may be any blanks at the end. -/
inductive Alike (same : Byte → Byte → Prop) : Str → Str → Prop
  | trail (b b' : Str) (hb : Blanks b) (hb' : Blanks b') : Alike same b b'
  | char (c c' : Byte) (s s' : Str) (hc : same c c') (h1 : c ≠ 32 ∧ c ≠ 9) (h2 : c' ≠ 32 ∧ c' ≠ 9)
      (h : Alike same s s') : Alike same (c :: s) (c' :: s')
  | blanks (b b' s s' : Str) (hb : Blanks b) (hb' : Blanks b') (hne : b ≠ []) (hne' : b' ≠ [])
      (h : Alike same s s') : Alike same (b ++ s) (b' ++ s')

/-- The lines have the same meaningful text up to `same`, blanks and comments. -/
def LineAlike (same : Byte → Byte → Prop) (l l' : List Byte) : Prop :=
  ∃ b b' s s', code l = b ++ s ∧ code l' = b' ++ s' ∧ Blanks b ∧ Blanks b' ∧ Alike same s s'

end Gaia.Spec
