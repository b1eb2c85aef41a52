import Verif.Props.Example

/-! C39: a label on its own line or before an instruction; the colon. -/
namespace Gaia
open Spec

/-- **C39.** In any source (errors elsewhere included), a line `x` that is just the label `L` followed by a line `y`
with an instruction can be replaced by one line `z` with the label and the instruction: same exit status, same output
file, on success the same report. The lexemes after the mnemonic are arbitrary (at most 6, so that `z` fits the token
buffer). In `x` and `z` the label may be followed by a colon. -/
theorem C39_label_line {w w' : World} {srcName outName : Str} {pre x y z rest : List Byte} (hpre : WholeLines pre)
    (hx : ∀ c ∈ x, c ≠ 10) (hy : ∀ c ∈ y, c ≠ 10) (hz : ∀ c ∈ z, c ≠ 10) (hxl : x.length ≤ 126) (hyl : y.length ≤ 126)
    (hzl : z.length ≤ 126) {i j k k' : Nat} {L : Str} {m : Mnemonic} {xs ys : List (Nat × Lexeme)}
    (lx : Lexes x [(i, .name L)]) (ly : Lexes y ((j, .mnem m) :: xs)) (lz : Lexes z ((k, .name L) :: (k', .mnem m) :: ys))
    (hxy : xs.map (·.2) = ys.map (·.2)) (h8 : xs.length ≤ 6)
    (hw : Setup w srcName outName (pre ++ (x ++ 10 :: (y ++ 10 :: rest)))) (hw' : Setup w' srcName outName (pre ++ (z ++ 10 :: rest)))
    (hs : Sized (pre ++ (x ++ 10 :: (y ++ 10 :: rest)))) (hs' : Sized (pre ++ (z ++ 10 :: rest))) :
    SameResult srcName outName w w' :=
  run_label hpre hx hy hz hxl hyl hzl lx ly lz hxy h8 hw hw' hs hs'

/-- Text without terminators. -/
theorem lexes_cons_word {t bl s : Str} {l : Str} {ls : List (Nat × Lexeme)} {line line' : List Byte} {ind : Str}
    (ht : Spell t (.name l)) (hi : Blanks ind) (hb : Blanks bl) (hs : NoLeadingBlank s)
    (hd : Delimited (bl ++ s)) (hne : NoLeadingBlank (t ++ bl ++ s)) (hne' : NoLeadingBlank (t ++ 58 :: bl ++ s))
    (hc : code line = ind ++ (t ++ bl ++ s)) (hc' : code line' = ind ++ (t ++ 58 :: bl ++ s))
    (hrest : Tokens false (ind.length + t.length + bl.length) s ls)
    (hrest' : Tokens false (ind.length + t.length + 1 + bl.length) s (ls.map fun q => (q.1 + 1, q.2))) :
    SameLexemes line line' := by
  refine .inr ⟨(ind.length, .name l) :: ls, (ind.length, .name l) :: ls.map fun q => (q.1 + 1, q.2), ?_, ?_, ?_⟩
  · exact ⟨ind, t ++ bl ++ s, hc, hi, hne, .cons true _ t bl s _ _ ht (.inr hd) hb hs hrest⟩
  · exact ⟨ind, t ++ 58 :: bl ++ s, hc', hi, hne', .colon _ t bl s l _ ht hb hs hrest'⟩
  · simp

/-- Offsets move with the text. -/
theorem Tokens_shift {first : Bool} {off : Nat} {s : Str} {ls : List (Nat × Lexeme)} (h : Tokens first off s ls) (d : Nat) :
    Tokens first (off + d) s (ls.map fun q => (q.1 + d, q.2)) := by
  induction h with
  | done first off => exact .done first _
  | cons first off t bl s x ls ht hd hb hs _ ih =>
    rw [show off + t.length + bl.length + d = off + d + t.length + bl.length by omega] at ih
    exact .cons first _ t bl s x _ ht hd hb hs ih
  | colon off t bl s l ls ht hb hs _ ih =>
    rw [show off + t.length + 1 + bl.length + d = off + d + t.length + 1 + bl.length by omega] at ih
    exact .colon _ t bl s l _ ht hb hs ih

theorem spell_name_word {t l : Str} (h : Spell t (.name l)) : IsWord t := by
  generalize hx : Lexeme.name l = x at h
  cases h with
  | word c t hc ht hlen => exact ⟨c, t, rfl, hc, ht⟩
  | hex => cases hx
  | bin => cases hx
  | dec => cases hx
  | directive t x hx' =>
    subst hx
    unfold directiveLexeme at hx'
    split_ifs at hx' <;> cases hx'
  | punct c x hx' =>
    subst hx
    unfold punctLexeme at hx'
    split_ifs at hx' <;> cases hx'

/-- **C39**, the colon: `label text` and `label: text` are the same lexemes, for a label at the start of a line. Together
with `C05_layout` this means the colon changes nothing in any source. -/
theorem C39_colon {t bl s ind : Str} {l : Str} {ls : List (Nat × Lexeme)} {line line' : List Byte}
    (ht : Spell t (.name l)) (hi : Blanks ind) (hb : Blanks bl) (hs : NoLeadingBlank s) (hd : Delimited (bl ++ s))
    (hc : code line = ind ++ (t ++ bl ++ s)) (hc' : code line' = ind ++ (t ++ 58 :: bl ++ s))
    (hrest : Tokens false (ind.length + t.length + bl.length) s ls) : SameLexemes line line' := by
  have hw := spell_name_word ht
  obtain ⟨c, r, rfl, hca, _⟩ := hw
  have hnb : ∀ c : Byte, isAlpha c = true → c ≠ 32 ∧ c ≠ 9 := by decide +kernel
  refine lexes_cons_word ht hi hb hs hd ?_ ?_ hc hc' hrest ?_
  · rintro d q hq
    simp only [List.cons_append, List.cons.injEq] at hq
    exact hq.1 ▸ hnb c hca
  · rintro d q hq
    simp only [List.cons_append, List.cons.injEq] at hq
    exact hq.1 ▸ hnb c hca
  · have := Tokens_shift hrest 1
    rwa [show ind.length + (c :: r).length + bl.length + 1 = ind.length + (c :: r).length + 1 + bl.length by omega] at this

/-- Non-vacuity: `L:` on its own line before `JMP L`. -/
example : SameResult (b! "p.asm") (b! "p.bin") (demo (b! "NOP\nL:\n JMP L\nRTS\n")) (demo (b! "NOP\nL JMP L\nRTS\n")) :=
  C39_label_line (pre := b! "NOP\n") (x := b! "L:") (y := b! " JMP L") (z := b! "L JMP L") (rest := b! "RTS\n")
    (.inr ⟨b! "NOP", rfl⟩) (by decide +kernel) (by decide +kernel) (by decide +kernel) (by decide) (by decide) (by decide)
    (i := 0) (j := 1) (k := 0) (k' := 2) (L := b! "L") (m := .JMP) (xs := [(5, .name (b! "L"))]) (ys := [(6, .name (b! "L"))])
    (lexes_eval (by decide +kernel) (by decide +kernel)) (lexes_eval (by decide +kernel) (by decide +kernel))
    (lexes_eval (by decide +kernel) (by decide +kernel)) rfl (by decide) (demo_setup _) (demo_setup _) (by decide) (by decide)

example : demoRun (b! "NOP\nL:\n JMP L\nRTS\n") =
    some (0, b! "Assembly successful.\n5 (0x0005) bytes assembled.\n1 symbols.\n", some [0xEA, 0x4C, 1, 0, 0x60]) := by decide +kernel

end Gaia
