import Verif.Props.C57_Reference
import Verif.Props.C03_Names
import Verif.Props.C53_Size
import Verif.Proofs.Numbers

/-!
C35 and C57 without the limit on the number of lines: up to 2^28 lines, gaia does what the reference assembler does if it never
has to define a 21474837th symbol, and has undefined behaviour (an `int` overflows) if it has to.
-/
set_option maxRecDepth 10000
namespace Gaia
open Spec

/-- **C57, exactly.** For every source of up to 2^28 lines: gaia behaves like the reference assembler if no new symbol is defined
when there are 21474836 already. -/
theorem C57_within_limit {w : World} {srcName outName : Str} {src : List Byte} (hw : Setup w srcName outName src)
    (hs : (pieces src).length ≤ 2 ^ 28) (hn : ¬ Reference.overflows (pieces src) .init) :
    gaia srcName outName w = .exited ⟨(Reference.run srcName src).status, (Reference.run srcName src).text,
      { w with files := fun n => if n = outName then some (Reference.run srcName src).file else w.files n }⟩ := by
  rw [pieces_eq] at hs hn
  exact reference_eq' hw hs fun h => hn ((overflows_iff srcName _ _ _ RelR_init).1 h)

/-- **C35, the limit.** For every source of up to 2^28 lines: if a new symbol is defined when there are 21474836 already, then
gaia's behaviour is undefined: the `int` in `(count + 1) * 100` (symbol_table.c:171) overflows. -/
theorem C35_limit {w : World} {srcName outName : Str} {src : List Byte} (hw : Setup w srcName outName src)
    (hs : (pieces src).length ≤ 2 ^ 28) (h : Reference.overflows (pieces src) .init) :
    gaia srcName outName w = .undefined .signedOverflow := by
  rw [pieces_eq] at hs h
  have := assemble_overflow srcName src hs ((overflows_iff srcName _ _ _ RelR_init).2 h)
  rw [gaia_eq hw, this]

/-- **C35, exactly**: the behaviour is defined if and only if that does not happen. -/
theorem C35_defined_iff {w : World} {srcName outName : Str} {src : List Byte} (hw : Setup w srcName outName src)
    (hs : (pieces src).length ≤ 2 ^ 28) :
    (∃ r, gaia srcName outName w = .exited r) ↔ ¬ Reference.overflows (pieces src) .init := by
  constructor
  · rintro ⟨r, h⟩ h'
    rw [C35_limit hw hs h'] at h
    cases h
  · exact fun h => ⟨_, C57_within_limit hw hs h⟩

/-- A source of at most 21474836 lines does not reach the limit. -/
theorem C35_small {src : List Byte} (h : (pieces src).length ≤ maxSymbols) : ¬ Reference.overflows (pieces src) .init := by
  rw [pieces_eq] at h ⊢
  rw [← overflows_iff [] _ _ _ RelR_init]
  exact not_overflows _ _ 0 Bound_init (by omega)

/-! ### Both happen -/

/-- `LABELn` -/
def labelName (n : Nat) : Str := b! "LABEL" ++ decimal n

/-- A source that defines `LABELi`, …, one a line, `n` of them. -/
def labelLines : Nat → Nat → List Byte
  | 0, _ => []
  | n + 1, i => labelName i ++ 10 :: labelLines n (i + 1)

theorem labelName_chars {n : Nat} : ∀ c ∈ labelName n, wordChar c = true := by
  intro c hc
  unfold labelName at hc
  rcases List.mem_append.1 hc with h | h
  · have : ∀ c ∈ b! "LABEL", wordChar c = true := by decide
    exact this c h
  · obtain ⟨k, hk, hd⟩ := decimal_digits n c h
    unfold digitValue at hd
    split_ifs at hd with h1 h2 h3
    · simp [wordChar, isAlnum, h1]
    · simp at hd; omega
    · simp at hd; omega

theorem labelName_word (n : Nat) : IsWord (labelName n) :=
  ⟨76, b! "ABEL" ++ decimal n, rfl, by decide, fun c hc => labelName_chars c (List.mem_cons_of_mem _ hc)⟩

theorem labelName_inj {m n : Nat} (h : labelName m = labelName n) : m = n :=
  decimal_inj (List.append_cancel_left h)

theorem labelName_upper (n : Nat) : (labelName n).map toUpper = labelName n := by
  unfold labelName
  rw [List.map_append]
  congr 1
  refine (List.map_congr_left fun c hc => ?_).trans (List.map_id _)
  obtain ⟨k, hk, hd⟩ := decimal_digits n c hc
  unfold digitValue at hd
  unfold toUpper
  split_ifs at hd with h1 h2 h3
  · unfold isLower
    simp only [isDigit, Bool.and_eq_true, decide_eq_true_eq] at h1
    rw [if_neg]
    · rfl
    · simp; omega
  · simp at hd; omega
  · simp at hd; omega

theorem labelName_length {n : Nat} (h : n < 10 ^ 50) : (labelName n).length ≤ 55 := by
  unfold labelName decimal
  have := (Nat.length_toDigits_le_iff (b := 10) (n := n) (k := 50) (by decide) (by decide)).2 h
  simp; omega

theorem labelName_lexeme (n : Nat) : wordLexeme ((labelName n).map toUpper) = .name (labelName n) := by
  rw [labelName_upper]
  have hl : 3 < (labelName n).length := by unfold labelName; simp
  unfold wordLexeme
  rw [if_neg, if_neg, if_neg]
  · have : Mnemonic.all.find? (fun m => decide (mnemonicName m = labelName n)) = none := by
      rw [List.find?_eq_none]
      intro m _ h
      have h1 := mnemonicName_length m
      rw [of_decide_eq_true h] at h1
      omega
    rw [this]
  all_goals
    intro h
    rw [h] at hl
    simp at hl

theorem labelName_lexes {n : Nat} (h : n < 10 ^ 50) : Reference.lexemesOf (labelName n ++ [10]) = .ok [(0, .name (labelName n))] := by
  have hw := labelName_word n
  have hlen := labelName_length h
  have hx : Lexes (labelName n ++ [10]) [(0, .name (labelName n))] := by
    refine ⟨[], labelName n, ?_, by decide, ?_, ?_⟩
    · rw [List.nil_append, code_newline, code_noTerm hw.noTerm]
    · simpa using hw.noLeadingBlank []
    · have := Tokens.cons true 0 (labelName n) [] [] _ [] (labelName_lexeme n ▸ hw.spell (by omega)) (.inr (.inl rfl)) (by decide)
        (by decide) (.done _ _)
      simpa using this
  have h1 := lexemes_complete hx
  rw [ref_lexemes] at h1
  cases h2 : Reference.lexemesOf (labelName n ++ [10]) with
  | error w => rw [h2] at h1; cases h1
  | ok ls => rw [h2] at h1; simpa [Except.mapError] using h1

theorem labelLines_pieces (n i : Nat) (h : i < 10 ^ 50) :
    pieces (labelLines (n + 1) i) = (labelName i ++ [10]) :: pieces (labelLines n (i + 1)) := by
  rw [pieces_eq, pieces_eq]
  refine chunks_cut (fun c hc => ?_) (by have := labelName_length h; omega)
  rintro rfl
  exact absurd (labelName_chars _ hc) (by decide)

theorem labelLines_count : ∀ (n i : Nat), i + n ≤ 10 ^ 50 → (pieces (labelLines n i)).length = n
  | 0, i, _ => rfl
  | n + 1, i, h => by
    rw [labelLines_pieces n i (by omega), List.length_cons, labelLines_count n (i + 1) (by omega)]

theorem labelLines_overflow : ∀ (n i : Nat) (s : Reference.State), i + n ≤ 10 ^ 50 → s.env.length ≤ maxSymbols →
    maxSymbols < s.env.length + n → (∀ k, i ≤ k → s.env.lookup (labelName k) = none) →
    Reference.overflows (pieces (labelLines n i)) s
  | 0, i, s, _, h1, h2, _ => by omega
  | n + 1, i, s, h, h1, h2, h3 => by
    rw [labelLines_pieces n i (by omega)]
    refine ⟨_, .label (labelName i), false, labelName_lexes (by omega), rfl, ?_⟩
    by_cases hf : maxSymbols ≤ s.env.length
    · exact .inl ⟨hf, _, rfl, h3 i (Nat.le_refl _)⟩
    · refine .inr ⟨by simp, { s with env := (labelName i, s.pc) :: s.env }, ?_, ?_⟩
      · show Reference.defineLabel _ _ _ _ = _
        unfold Reference.defineLabel
        rw [h3 i (Nat.le_refl _)]
        rfl
      · refine labelLines_overflow n (i + 1) _ (by omega) ?_ ?_ fun k hk => ?_
        · simp only [List.length_cons]; omega
        · simp only [List.length_cons]; omega
        · have hne : (labelName k == labelName i) = false := by
            rw [beq_eq_false_iff_ne]
            intro e
            have := labelName_inj e
            omega
          simp only [List.lookup_cons, hne]
          exact h3 k (by omega)

/-- **C35, the limit is real**: a program of the documented language, nothing but 21474837 different labels, for which gaia's
behaviour is undefined. -/
theorem C35_limit_reached {w : World} {srcName outName : Str} (hw : Setup w srcName outName (labelLines 21474837 0)) :
    gaia srcName outName w = .undefined .signedOverflow := by
  have hM : maxSymbols = 21474836 := rfl
  have hb : (0 : Nat) + 21474837 ≤ 10 ^ 50 := by norm_num
  refine C35_limit hw (by rw [labelLines_count _ _ hb]; norm_num) (labelLines_overflow _ _ _ hb ?_ ?_ fun _ _ => rfl)
  · simp [Reference.State.init]
  · simp only [Reference.State.init, List.length_nil]; omega

/-- One label less, and the behaviour is defined. -/
theorem C35_limit_tight {w : World} {srcName outName : Str} (hw : Setup w srcName outName (labelLines 21474836 0)) :
    ∃ r, gaia srcName outName w = .exited r := by
  have hM : maxSymbols = 21474836 := rfl
  have hb : (0 : Nat) + 21474836 ≤ 10 ^ 50 := by norm_num
  have hc := labelLines_count _ _ hb
  refine (C35_defined_iff hw (by rw [hc]; norm_num)).2 (C35_small (by rw [hc]; omega))

/-- Non-vacuity: there are such runs. -/
example : gaia (b! "p.asm") (b! "p.bin") (demo (labelLines 21474837 0)) = .undefined .signedOverflow :=
  C35_limit_reached (demo_setup _)
example : ∃ r, gaia (b! "p.asm") (b! "p.bin") (demo (labelLines 21474836 0)) = .exited r := C35_limit_tight (demo_setup _)

end Gaia
