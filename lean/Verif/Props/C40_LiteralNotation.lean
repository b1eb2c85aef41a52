import Verif.Props.C05_Layout

/-! C40: the notation of literals does not matter. -/
set_option maxRecDepth 10000
namespace Gaia
open Spec

/-- `IsLiteral t v`: the text `t` (`$` and hexadecimal digits, `%` and binary digits, or decimal digits) denotes the
number `v`, which fits 16 bits. -/
def IsLiteral (t : Str) (v : Nat) : Prop :=
  ∃ pre ds b, LitStart pre b ∧ t = pre ++ ds ∧ ds ≠ [] ∧ (∀ x ∈ ds, IsDigitOf b x) ∧ positional b ds = v ∧ v ≤ 0xFFFF

/-- The lines are equal, or they differ in one literal, written in two notations. What follows the literal need not be
correct. -/
def Relit (l l' : List Byte) : Prop :=
  l = l' ∨ ∃ ls off t t' r v, LineBegins l ls off (t ++ r) ∧ LineBegins l' ls off (t' ++ r) ∧ ls.length ≤ 8 ∧
    IsLiteral t v ∧ IsLiteral t' v ∧ Delimited r

theorem IsLiteral.spell {t : Str} {v : Nat} (h : IsLiteral t v) : Spell t (.lit v) := by
  obtain ⟨pre, ds, b, hp, rfl, hne, hd, rfl, hv⟩ := h
  cases hp with
  | hex => exact .hex ds hne hd hv
  | bin => exact .bin ds hne hd hv
  | dec => exact .dec ds hne hd hv

theorem kinds_prepend (ls : List (Nat × Lexeme)) {x y : Except LexFail (List (Nat × Lexeme))} (h : kinds x = kinds y) :
    kinds (prepend ls x) = kinds (prepend ls y) := by
  cases x with
  | ok a =>
    cases y with
    | ok b => simp only [kinds, Except.ok.injEq, prepend, List.map_append] at h ⊢; rw [h]
    | error g => cases g <;> cases h
  | error f =>
    cases y with
    | ok b => cases f <;> cases h
    | error g => exact h

theorem alike_upEq_refl (s : Str) : Alike UpEq s s := (alike_refl s).mono fun c c' h => by rw [h]; rfl

theorem scan_literal {t r : Str} {v : Nat} (ht : IsLiteral t v) (hr : Delimited r) (hn : NoTerm (t ++ r)) (fuel off cnt : Nat) :
    scan (fuel + 1) off (t ++ r) cnt = if cnt = 8 then .error .tooMany
      else match scan fuel (skipBlanks (off + t.length) r).1 (skipBlanks (off + t.length) r).2 (cnt + 1) with
        | .ok ls => .ok ((off, .lit v) :: ls)
        | .error f => .error f := by
  have hs := ht.spell
  have hnr : NoTerm r := hn.append_right
  have hl := spell_lexOne hs r (.inr (.inl ((delimited_iff hnr).1 hr)))
  have hne : t ++ r ≠ [] := by
    obtain ⟨pre, ds, b, _, rfl, hne, _⟩ := ht
    intro h
    simp only [List.append_eq_nil_iff] at h
    exact hne h.1.2
  have hcol : rd r ≠ 58 := by
    rcases hr with rfl | ⟨c, q, rfl, hc⟩
    · decide
    · show c ≠ 58
      rcases hc with rfl | rfl | rfl | rfl | rfl <;> decide
  rw [scan, hl, if_neg (by rw [noTerm_head hn hne]; simp)]
  have hdrop : (t ++ r).drop t.length = r := List.drop_left
  simp only [hdrop, if_neg hcol]
  rfl

theorem kinds_relit {l l' : List Byte} (h : Relit l l') : kinds (lexemes l) = kinds (lexemes l') := by
  rcases h with rfl | ⟨ls, off, t, t', r, v, h1, h2, h8, ht, ht', hr⟩
  · rfl
  · obtain ⟨f, f1, f2, f3⟩ := lexemes_begins h1 h8
    obtain ⟨g, g1, g2, g3⟩ := lexemes_begins h2 h8
    rw [f3, g3]
    refine kinds_prepend ls ?_
    obtain ⟨f, rfl⟩ : ∃ n, f = n + 1 := ⟨f - 1, by omega⟩
    obtain ⟨g, rfl⟩ : ∃ n, g = n + 1 := ⟨g - 1, by omega⟩
    rw [scan_literal ht hr f2, scan_literal ht' hr g2]
    split_ifs
    · rfl
    · have hne : ∀ {t : Str} {v}, IsLiteral t v → t.length ≠ 0 := by
        rintro t v ⟨pre, ds, b, _, rfl, hne, _⟩ h
        rw [List.length_append] at h
        exact hne (List.length_eq_zero_iff.1 (by omega))
      have hf : r.length < f := by have := hne ht; simp only [List.length_append] at f1; omega
      have hg : r.length < g := by have := hne ht'; simp only [List.length_append] at g1; omega
      have s1 := skipBlanks_length (off + t.length) r
      have s2 := skipBlanks_length (off + t'.length) r
      exact kinds_cons (scan_alike _ _ _ _ _ _ _ (skip_alike (alike_upEq_refl r) _ _) (skip_noLead _ _) (skip_noLead _ _)
        (by omega) (by omega))

/-- **C40.** Two sources whose lines (of at most 126 characters) correspond one by one, each pair being equal or
differing in the notation of one literal (base, leading zeros), have the same exit status and output file, and on
success the same report. Lines that are errors are included. -/
theorem C40_literal_notation {w w' : World} {srcName outName : Str} {src src' : List Byte}
    (hw : Setup w srcName outName src) (hw' : Setup w' srcName outName src') (hs : Sized src)
    (hs' : Sized src') (hl : ∀ l ∈ lines src, l.length ≤ 126) (hl' : ∀ l ∈ lines src', l.length ≤ 126)
    (h : List.Forall₂ Relit (lines src) (lines src')) : SameResult srcName outName w w' :=
  run_lines hw hw' hs hs' hl hl' h fun _ _ => kinds_relit

/-- Non-vacuity: `$0FF`, `%11111111` and `255`. -/
example : SameResult (b! "p.asm") (b! "p.bin") (demo (b! " LDA #$0FF ; x\n STA 255\n")) (demo (b! " LDA #%11111111 ; x\n STA $ff\n")) := by
  refine C40_literal_notation (demo_setup _) (demo_setup _) (by decide) (by decide) (by decide +kernel) (by decide +kernel) ?_
  have d16 : ∀ c : Byte, digitValue c = some 15 → IsDigitOf 16 c := fun c h => ⟨15, h, by omega⟩
  have d2 : ∀ c : Byte, digitValue c = some 1 → IsDigitOf 2 c := fun c h => ⟨1, h, by omega⟩
  have d10 : ∀ v (c : Byte), digitValue c = some v → v < 10 → IsDigitOf 10 c := fun v c h hv => ⟨v, h, hv⟩
  have i1 : IsLiteral (b! "$0FF") 255 := ⟨[36], b! "0FF", 16, .hex, rfl, by simp, by
    intro x hx
    have : ∀ x ∈ b! "0FF", (digitValue x).any (· < 16) = true := by decide
    have := this x hx
    cases hv : digitValue x with
    | none => rw [hv] at this; cases this
    | some v => rw [hv] at this; exact ⟨v, hv, by simpa using this⟩, by decide, by decide⟩
  have i2 : IsLiteral (b! "%11111111") 255 := ⟨[37], b! "11111111", 2, .bin, rfl, by simp, by
    intro x hx
    have : ∀ x ∈ b! "11111111", (digitValue x).any (· < 2) = true := by decide
    have := this x hx
    cases hv : digitValue x with
    | none => rw [hv] at this; cases this
    | some v => rw [hv] at this; exact ⟨v, hv, by simpa using this⟩, by decide, by decide⟩
  have i3 : IsLiteral (b! "255") 255 := ⟨[], b! "255", 10, .dec, rfl, by simp, by
    intro x hx
    have : ∀ x ∈ b! "255", (digitValue x).any (· < 10) = true := by decide
    have := this x hx
    cases hv : digitValue x with
    | none => rw [hv] at this; cases this
    | some v => rw [hv] at this; exact ⟨v, hv, by simpa using this⟩, by decide, by decide⟩
  have i4 : IsLiteral (b! "$ff") 255 := ⟨[36], b! "ff", 16, .hex, rfl, by simp, by
    intro x hx
    have : ∀ x ∈ b! "ff", (digitValue x).any (· < 16) = true := by decide
    have := this x hx
    cases hv : digitValue x with
    | none => rw [hv] at this; cases this
    | some v => rw [hv] at this; exact ⟨v, hv, by simpa using this⟩, by decide, by decide⟩
  have spell : ∀ (m : Mnemonic) (t : Str), t = mnemonicName m → Spell t (.mnem m) := by
    intro m t h
    subst h
    have : ∀ m ∈ Mnemonic.all, ∃ c r, mnemonicName m = c :: r ∧ isAlpha c = true ∧ (∀ x ∈ r, wordChar x = true) ∧
        (c :: r).length ≤ 63 ∧ wordLexeme ((c :: r).map toUpper) = .mnem m := by
      intro m _
      cases m <;> exact ⟨_, _, rfl, by decide, by decide, by decide, by decide⟩
    obtain ⟨c, r, h1, h2, h3, h4, h5⟩ := this m m.mem_all
    rw [h1, ← h5]
    exact .word c r h2 h3 h4
  have e1 : lines (b! " LDA #$0FF ; x\n STA 255\n") = [b! " LDA #$0FF ; x", b! " STA 255"] := by decide +kernel
  have e2 : lines (b! " LDA #%11111111 ; x\n STA $ff\n") = [b! " LDA #%11111111 ; x", b! " STA $ff"] := by decide +kernel
  rw [e1, e2]
  refine .cons (.inr ⟨[(1, .mnem .LDA), (5, .hash)], 6, b! "$0FF", b! "%11111111", b! " ", 255, ?_, ?_, by decide, i1, i2,
    .inr ⟨32, [], rfl, .inl rfl⟩⟩) (.cons (.inr ⟨[(1, .mnem .STA)], 5, b! "255", b! "$ff", [], 255, ?_, ?_, by decide, i3, i4,
    .inl rfl⟩) .nil)
  all_goals
    refine ⟨b! " ", _, rfl, by simp [Blanks], by intro c r h; cases h; decide, ?_⟩
    first
    | refine .cons true 1 (b! "LDA") (b! " ") _ (.mnem .LDA) _ _ _ (spell .LDA _ rfl) (.inr (.inr ⟨32, _, rfl, .inl rfl⟩))
        (by simp [Blanks]) (by intro c r h; cases h; decide)
        (.cons false 5 (b! "#") [] _ .hash [] _ _ (.punct 35 .hash rfl) (.inl rfl) (by simp [Blanks])
          (by intro c r h; cases h; decide) (.done false 6 _))
    | exact .cons true 1 (b! "STA") (b! " ") _ (.mnem .STA) _ _ _ (spell .STA _ rfl) (.inr (.inr ⟨32, _, rfl, .inl rfl⟩))
        (by simp [Blanks]) (by intro c r h; cases h; decide) (.done false 5 _)

example : demoRun (b! " LDA #%11111111 ; x\n STA $ff\n") =
    some (0, b! "Assembly successful.\n4 (0x0004) bytes assembled.\n0 symbols.\n", some [0xA9, 0xFF, 0x85, 0xFF]) := by decide +kernel

end Gaia
