import Verif.Proofs.LexForms

/-! The scanner meets the specification `Spec.Lexes`. -/
namespace Gaia
open Spec

theorem byte_eot_delim : ∀ c : Byte, isTerm c = false → isEndOfToken c = true →
    c = 32 ∨ c = 9 ∨ c = 44 ∨ c = 40 ∨ c = 41 := by decide +kernel
theorem byte_stop_word : ∀ c : Byte, isTextStop c = true → wordChar c = false := by decide +kernel
theorem byte_eot_digit : ∀ c : Byte, isEndOfToken c = true → digitValue c = none := by decide +kernel
theorem byte_eot_alpha : ∀ c : Byte, isEndOfToken c = true → isAlpha c = false := by decide +kernel
theorem byte_digit : ∀ c : Byte, isDig 10 c = true → punctLexeme c = none ∧ isAlpha c = false ∧ c ≠ 36 ∧ c ≠ 37 ∧
    isDigit c = true := by decide +kernel

/-- A text without line terminators. -/
def NoTerm (s : Str) : Prop := ∀ c ∈ s, isTerm c = false

theorem noTerm_code (s : List Byte) : NoTerm (code s) := by
  intro c hc
  have h := takeWhile_all _ _ c hc
  simpa [isTerm] using h

theorem NoTerm.drop {s : Str} (h : NoTerm s) (n : Nat) : NoTerm (s.drop n) :=
  fun c hc => h c (List.mem_of_mem_drop hc)

theorem NoTerm.append_right {s t : Str} (h : NoTerm (s ++ t)) : NoTerm t :=
  fun c hc => h c (by simp [hc])

theorem delimited_iff {s : Str} (h : NoTerm s) : Delimited s ↔ isEndOfToken (rd s) = true := by
  unfold Delimited
  cases s with
  | nil => simp [rd, isEndOfToken_zero]
  | cons c r =>
    have hc : isTerm c = false := h c (by simp)
    simp only [List.cons.injEq, rd, List.headD_cons]
    constructor
    · rintro (h0 | ⟨d, r', ⟨rfl, rfl⟩, hd⟩)
      · simp at h0
      · unfold isEndOfToken
        rcases hd with rfl | rfl | rfl | rfl | rfl <;> decide
    · intro he
      refine .inr ⟨c, r, ⟨rfl, rfl⟩, ?_⟩
      exact byte_eot_delim c hc he

theorem textStop_iff (c : Byte) : isTextStop c = true ↔ (isEndOfToken c = true ∨ c = 58) := by
  simp [isTextStop]

/-! ### Completeness: a spelled lexeme is read back -/

theorem takeWhile_append_all {α} (p : α → Bool) (t r : List α) (ht : ∀ c ∈ t, p c = true)
    (hr : ∀ c r', r = c :: r' → p c = false) : (t ++ r).takeWhile p = t ∧ (t ++ r).dropWhile p = r := by
  induction t with
  | nil =>
    cases r with
    | nil => simp
    | cons c r' => simp [hr c r' rfl]
  | cons a t ih =>
    have ha := ht a (by simp)
    obtain ⟨h1, h2⟩ := ih (fun c hc => ht c (by simp [hc]))
    simp [ha, h1, h2]

/-- What may follow the text of a lexeme. -/
def Follows (x : Lexeme) (rest : Str) : Prop :=
  x.isPunct = true ∨ isEndOfToken (rd rest) = true ∨ (isName x = true ∧ rd rest = 58)

theorem wordLexeme_not_punct (w : Str) : (wordLexeme w).isPunct = false := by
  unfold wordLexeme
  split_ifs <;> try rfl
  split <;> rfl

theorem alpha_not_punct {c : Byte} (h : isAlpha c = true) : punctLexeme c = none := by
  revert h; revert c; decide +kernel

theorem lexOne_lit {b : Nat} (conv : Byte → Option Nat) (hconv : ConvOK conv b) (ds rest : Str) (k : Nat)
    (hk : k = 1 ∨ (b ≠ 2 ∧ b ≠ 16))
    (hne : ds ≠ []) (hd : ∀ x ∈ ds, IsDigitOf b x) (hv : positional b ds ≤ 0xFFFF)
    (hend : isEndOfToken (rd rest) = true) :
    litBody conv b (ds ++ rest) k = .ok (k + ds.length, .lit (positional b ds)) := by
  have hr : ∀ c r', rest = c :: r' → isDig b c = false := by
    rintro c r' rfl
    have hc : isEndOfToken c = true := hend
    unfold isDig
    rw [byte_eot_digit c hc]
  obtain ⟨h1, h2⟩ := takeWhile_append_all (isDig b) ds rest (fun c hc => (isDig_iff b c).2 (hd c hc)) hr
  rw [litBody_eq hconv]
  unfold digits afterDigits
  rw [h1, h2, if_pos hend]
  have hlen : ds.length ≠ 0 := by simpa using hne
  have hmod : positional b ds % 2 ^ 64 = positional b ds := Nat.mod_eq_of_lt (by omega)
  rw [hmod, if_neg (by omega), if_neg (by omega), if_neg (by omega)]

theorem directive_shape {t : Str} {x : Lexeme} (h : directiveLexeme (t.map toUpper) = some x) :
    ∃ r, t = 46 :: r ∧ (∀ c ∈ r, isAlpha c = true) ∧ r.length < 63 := by
  have hup : ∀ c : Byte, isUpper (toUpper c) = true → isAlpha c = true := by decide +kernel
  have hdot : ∀ c : Byte, toUpper c = 46 → c = 46 := by decide +kernel
  have main : ∀ w : Str, (∀ c ∈ w, isUpper c = true) → w.length < 63 → t.map toUpper = 46 :: w →
      ∃ r, t = 46 :: r ∧ (∀ c ∈ r, isAlpha c = true) ∧ r.length < 63 := by
    intro w hw hl ht
    cases t with
    | nil => simp at ht
    | cons c r =>
      simp only [List.map_cons, List.cons.injEq] at ht
      refine ⟨r, by rw [hdot c ht.1], ?_, ?_⟩
      · intro d hd
        apply hup
        apply hw
        rw [← ht.2]
        exact List.mem_map_of_mem hd
      · rw [← List.length_map (f := toUpper), ht.2]
        exact hl
  unfold directiveLexeme at h
  split_ifs at h with h1 h2 h3 h4
  · exact main (b! "DEFINE") (by decide +kernel) (by decide +kernel) h1
  · exact main (b! "EQU") (by decide +kernel) (by decide +kernel) h2
  · exact main (b! "ORG") (by decide +kernel) (by decide +kernel) h3
  · exact main (b! "END") (by decide +kernel) (by decide +kernel) h4

theorem directive_not_punct {w : Str} {x : Lexeme} (h : directiveLexeme w = some x) :
    x.isPunct = false ∧ isName x = false := by
  unfold directiveLexeme at h
  split_ifs at h <;> simp only [Option.some.injEq] at h <;> subst h <;> exact ⟨rfl, rfl⟩

theorem spell_lexOne {t : Str} {x : Lexeme} (h : Spell t x) (rest : Str) (hf : Follows x rest) :
    lexOne (t ++ rest) = .ok (t.length, x) := by
  cases h with
  | word c t hc ht hlen =>
    have hrd : rd (c :: t ++ rest) = c := rfl
    have hstop : isTextStop (rd rest) = true := by
      rw [textStop_iff]
      rcases hf with h | h | h
      · rw [wordLexeme_not_punct] at h; simp at h
      · exact .inl h
      · exact .inr h.2
    have hr : ∀ d r', rest = d :: r' → wordChar d = false := by
      rintro d r' rfl
      have hd : isTextStop d = true := hstop
      exact byte_stop_word d hd
    have hw : ∀ d ∈ c :: t, wordChar d = true := by
      intro d hd
      rcases List.mem_cons.1 hd with rfl | hd
      · simp [wordChar, isAlnum, hc]
      · exact ht d hd
    obtain ⟨h1, h2⟩ := takeWhile_append_all wordChar (c :: t) rest hw hr
    unfold lexOne
    rw [hrd, alpha_not_punct hc]
    simp only [hc, if_true]
    rw [wordBody_eq]
    unfold word afterWord
    rw [h1, h2, if_neg (by omega), if_pos hstop]
  | hex ds hne hd hv =>
    have hend : isEndOfToken (rd rest) = true := by
      rcases hf with h | h | h
      · simp [Lexeme.isPunct] at h
      · exact h
      · simp [isName] at h
    unfold lexOne
    have hrd : rd (36 :: ds ++ rest) = 36 := rfl
    have hp : punctLexeme 36 = none := by decide
    rw [hrd, hp]
    simp only [List.cons_append, List.tail_cons, if_true]
    rw [if_neg (by decide), lexOne_lit _ convOK_hex ds rest 1 (.inl rfl) hne hd hv hend]
    simp [Nat.add_comm]
  | bin ds hne hd hv =>
    have hend : isEndOfToken (rd rest) = true := by
      rcases hf with h | h | h
      · simp [Lexeme.isPunct] at h
      · exact h
      · simp [isName] at h
    unfold lexOne
    have hrd : rd (37 :: ds ++ rest) = 37 := rfl
    have hp : punctLexeme 37 = none := by decide
    rw [hrd, hp]
    simp only [List.cons_append, List.tail_cons, if_true]
    rw [if_neg (by decide), if_neg (by decide),
      lexOne_lit _ convOK_bin ds rest 1 (.inl rfl) hne hd hv hend]
    simp [Nat.add_comm]
  | dec _ hne hd hv =>
    have hend : isEndOfToken (rd rest) = true := by
      rcases hf with h | h | h
      · simp [Lexeme.isPunct] at h
      · exact h
      · simp [isName] at h
    obtain ⟨c, ds, rfl⟩ := List.exists_cons_of_ne_nil hne
    have hrd : rd (c :: ds ++ rest) = c := rfl
    have hcd := (isDig_iff 10 c).2 (hd c (by simp))
    obtain ⟨p1, p2, p3, p4, p5⟩ := byte_digit c hcd
    unfold lexOne
    rw [hrd, p1]
    simp only [p2, p3, p4, p5, if_true, if_false]
    rw [if_neg (by simp), lexOne_lit _ convOK_dec (c :: ds) rest 0 (.inr (by decide)) hne hd hv hend]
    simp
  | directive _ _ hx =>
    have hend : isEndOfToken (rd rest) = true := by
      obtain ⟨n1, n2⟩ := directive_not_punct hx
      rcases hf with h | h | h
      · rw [n1] at h; simp at h
      · exact h
      · rw [n2] at h; simp at h
    obtain ⟨r, rfl, hal, hlen⟩ := directive_shape hx
    have hr : ∀ d r', rest = d :: r' → isAlpha d = false := by
      rintro d r' rfl
      have hd : isEndOfToken d = true := hend
      exact byte_eot_alpha d hd
    obtain ⟨h1, h2⟩ := takeWhile_append_all isAlpha r rest hal hr
    unfold lexOne
    have hrd : rd (46 :: r ++ rest) = 46 := rfl
    have hp : punctLexeme 46 = none := by decide
    rw [hrd, hp]
    simp only
    rw [if_neg (by decide), if_neg (by decide), if_neg (by decide), if_neg (by decide), if_pos trivial, List.cons_append, dirBody_eq]
    rw [h1, h2, if_neg (by omega), if_pos hend]
    have htake : List.take (1 + r.length) (46 :: (r ++ rest)) = 46 :: r := by
      rw [Nat.add_comm, List.take_succ_cons, List.take_left]
    rw [htake, hx]
    simp [Nat.add_comm]
  | punct c _ hx =>
    unfold lexOne
    have hrd : rd ([c] ++ rest) = c := rfl
    rw [hrd, hx]
    rfl

/-! ### Soundness: what is read is a spelling -/

/-- The literal at the start of `s`, if any, is below 2^64. -/
def HeadSmall (s : Str) : Prop :=
  (rd s = 36 → positional 16 (digits 16 s.tail) < 2 ^ 64) ∧ (rd s = 37 → positional 2 (digits 2 s.tail) < 2 ^ 64) ∧
  (isDigit (rd s) = true → positional 10 (digits 10 s) < 2 ^ 64)

theorem litBody_ok {conv : Byte → Option Nat} {b : Nat} (hc : ConvOK conv b) {s : Str} {k n : Nat} {x : Lexeme}
    (h : litBody conv b s k = .ok (n, x)) :
    isEndOfToken (rd (afterDigits b s)) = true ∧ n = k + (digits b s).length ∧ n ≠ 0 ∧ ¬ (n = 1 ∧ (b = 2 ∨ b = 16)) ∧
    x = .lit (positional b (digits b s) % 2 ^ 64) ∧ positional b (digits b s) % 2 ^ 64 ≤ 0xFFFF := by
  rw [litBody_eq hc] at h
  split_ifs at h with h1 h2 h3 h4
  simp only [Except.ok.injEq, Prod.mk.injEq] at h
  obtain ⟨rfl, rfl⟩ := h
  exact ⟨h1, rfl, h2, h3, rfl, by omega⟩

theorem digits_all (b : Nat) (s : Str) : ∀ x ∈ digits b s, IsDigitOf b x := by
  intro c hc
  exact (isDig_iff b c).1 (takeWhile_all _ _ c hc)

theorem lexOne_spell {s : Str} {n : Nat} {x : Lexeme} (hs : s ≠ []) (hh : HeadSmall s) (h : lexOne s = .ok (n, x)) :
    Spell (s.take n) x ∧ (x.isPunct = true ∨ isEndOfToken (rd (s.drop n)) = true ∨
      (rd (s.drop n) = 58 ∧ ∃ w, x = wordLexeme w)) := by
  obtain ⟨c, s', rfl⟩ := List.exists_cons_of_ne_nil hs
  have hrd : rd (c :: s') = c := rfl
  unfold HeadSmall at hh
  rw [hrd] at hh
  obtain ⟨hh1, hh2, hh3⟩ := hh
  unfold lexOne at h
  rw [hrd] at h
  cases hp : punctLexeme c with
  | some y =>
    rw [hp] at h
    simp only [Except.ok.injEq, Prod.mk.injEq] at h
    obtain ⟨rfl, rfl⟩ := h
    exact ⟨Spell.punct c _ hp, .inl ((punct_rel c).2 _ hp).2.2⟩
  | none =>
    rw [hp] at h
    simp only at h
    split_ifs at h with h1 h2 h3 h4 h5
    · rw [wordBody_eq] at h
      split_ifs at h with w1 w2
      simp only [Except.ok.injEq, Prod.mk.injEq] at h
      obtain ⟨rfl, rfl⟩ := h
      have ht : (c :: s').take (word (c :: s')).length = word (c :: s') := take_takeWhile _ _
      have hd : (c :: s').drop (word (c :: s')).length = afterWord (c :: s') := drop_takeWhile _ _
      rw [ht, hd]
      have hwc : wordChar c = true := by simp [wordChar, isAlnum, h1]
      have hw : word (c :: s') = c :: word s' := by
        unfold word
        rw [List.takeWhile_cons, if_pos hwc]
      refine ⟨?_, ?_⟩
      · rw [hw]
        rw [hw] at w1
        exact Spell.word c _ h1 (takeWhile_all _ _) (by omega)
      · right
        rcases (textStop_iff _).1 w2 with h | h
        · exact .inl h
        · exact .inr ⟨h, _, rfl⟩
    · obtain ⟨e1, e2, e3, e4, e5, e6⟩ := litBody_ok convOK_hex h
      simp only [List.tail_cons] at *
      have hlt := hh1 h2
      rw [Nat.mod_eq_of_lt hlt] at e5 e6
      have hd : (c :: s').drop n = afterDigits 16 s' := by
        rw [e2, Nat.add_comm, List.drop_succ_cons]; exact drop_takeWhile _ _
      have ht : (c :: s').take n = 36 :: digits 16 s' := by
        rw [e2, Nat.add_comm, List.take_succ_cons, h2]
        congr 1
        exact take_takeWhile _ _
      rw [hd, ht, e5]
      refine ⟨Spell.hex _ ?_ (digits_all _ _) e6, .inr (.inl e1)⟩
      intro h0
      rw [h0] at e2
      exact e4 ⟨by simpa using e2, .inr (by simp)⟩
    · obtain ⟨e1, e2, e3, e4, e5, e6⟩ := litBody_ok convOK_bin h
      simp only [List.tail_cons] at *
      have hlt := hh2 h3
      rw [Nat.mod_eq_of_lt hlt] at e5 e6
      have hd : (c :: s').drop n = afterDigits 2 s' := by
        rw [e2, Nat.add_comm, List.drop_succ_cons]; exact drop_takeWhile _ _
      have ht : (c :: s').take n = 37 :: digits 2 s' := by
        rw [e2, Nat.add_comm, List.take_succ_cons, h3]
        congr 1
        exact take_takeWhile _ _
      rw [hd, ht, e5]
      refine ⟨Spell.bin _ ?_ (digits_all _ _) e6, .inr (.inl e1)⟩
      intro h0
      rw [h0] at e2
      exact e4 ⟨by simpa using e2, .inl (by simp)⟩
    · obtain ⟨e1, e2, e3, e4, e5, e6⟩ := litBody_ok convOK_dec h
      have hlt := hh3 h4
      rw [Nat.mod_eq_of_lt hlt] at e5 e6
      rw [Nat.zero_add] at e2
      have hd : (c :: s').drop n = afterDigits 10 (c :: s') := by
        rw [e2]; exact drop_takeWhile _ _
      have ht : (c :: s').take n = digits 10 (c :: s') := by
        rw [e2]
        exact take_takeWhile _ _
      rw [hd, ht, e5]
      refine ⟨Spell.dec _ ?_ (digits_all _ _) e6, .inr (.inl e1)⟩
      intro h0
      rw [h0] at e2
      exact e3 (by simpa using e2)
    · rw [dirBody_eq] at h
      by_cases w1 : 63 ≤ (s'.takeWhile isAlpha).length
      · rw [if_pos w1] at h; simp at h
      rw [if_neg w1] at h
      by_cases w2 : isEndOfToken (rd (s'.dropWhile isAlpha)) = true
      swap
      · rw [if_neg w2] at h; simp at h
      rw [if_pos w2] at h
      split at h
      · rename_i y hy
        simp only [Except.ok.injEq, Prod.mk.injEq] at h
        obtain ⟨rfl, rfl⟩ := h
        have hd : (c :: s').drop (1 + (s'.takeWhile isAlpha).length) = s'.dropWhile isAlpha := by
          rw [Nat.add_comm, List.drop_succ_cons]; exact drop_takeWhile _ _
        rw [hd]
        exact ⟨Spell.directive _ _ hy, .inr (.inl w2)⟩
      · simp at h

/-! ### Lines -/

theorem isBlank_iff (c : Byte) : isBlank c = true ↔ (c = 32 ∨ c = 9) := by
  simp [isBlank]

theorem skipBlanks_of {bl s : Str} (hb : Blanks bl) (hs : NoLeadingBlank s) :
    ∀ off, skipBlanks off (bl ++ s) = (off + bl.length, s) := by
  induction bl with
  | nil =>
    intro off
    cases s with
    | nil => rfl
    | cons c r =>
      have hc := hs c r rfl
      have : isBlank c = false := by
        rw [Bool.eq_false_iff, ne_eq, isBlank_iff]
        rintro (h | h)
        · exact hc.1 h
        · exact hc.2 h
      simp [skipBlanks, this]
  | cons c bl ih =>
    intro off
    have hc : isBlank c = true := (isBlank_iff c).2 (hb c (by simp))
    rw [List.cons_append]
    unfold skipBlanks
    rw [if_pos hc, ih (fun d hd => hb d (by simp [hd]))]
    simp only [List.length_cons, Prod.mk.injEq, and_true]
    omega

theorem spell_head {t : Str} {x : Lexeme} (h : Spell t x) : ∃ c r, t = c :: r ∧ c ≠ 58 := by
  cases h with
  | word c t hc _ _ => exact ⟨c, t, rfl, by rintro rfl; revert hc; decide⟩
  | hex ds => exact ⟨36, ds, rfl, by decide⟩
  | bin ds => exact ⟨37, ds, rfl, by decide⟩
  | dec _ hne hd =>
    obtain ⟨c, ds, rfl⟩ := List.exists_cons_of_ne_nil hne
    refine ⟨c, ds, rfl, ?_⟩
    rintro rfl
    have := (isDig_iff 10 58).2 (hd 58 (by simp))
    revert this
    decide
  | directive _ _ hx =>
    obtain ⟨r, rfl, _, _⟩ := directive_shape hx
    exact ⟨46, r, rfl, by decide⟩
  | punct c _ hx => exact ⟨c, [], rfl, by rintro rfl; revert hx; simp [punctLexeme]⟩

theorem tokens_head {first : Bool} {off : Nat} {s : Str} {ls : List (Nat × Lexeme)}
    (h : Tokens first off s ls) : rd s ≠ 58 := by
  cases h with
  | done => simp [rd]
  | cons _ _ t bl s x ls ht =>
    obtain ⟨c, r, rfl, hc⟩ := spell_head ht
    exact hc
  | colon _ t bl s l ls ht =>
    obtain ⟨c, r, rfl, hc⟩ := spell_head ht
    exact hc

/-- Completeness: text cut into lexemes is scanned as those lexemes, or refused for having more than 8. -/
theorem scan_complete {first : Bool} {off : Nat} {s : Str} {ls : List (Nat × Lexeme)} (h : Tokens first off s ls) :
    ∀ (fuel cnt : Nat), NoTerm s → s.length < fuel → (first = true ↔ cnt = 0) → cnt ≤ 8 →
      scan fuel off s cnt = if cnt + ls.length ≤ 8 then .ok ls else .error .tooMany := by
  induction h with
  | done first off =>
    intro fuel cnt _ hf _ h8
    cases fuel with
    | zero => omega
    | succ fuel => simp [scan, rd, isTerm_zero, h8]
  | cons first off t bl s x ls ht hd hb hs hrest ih =>
    intro fuel cnt hn hf hfirst h8
    cases fuel with
    | zero => omega
    | succ fuel =>
      obtain ⟨c, r, htc, hc⟩ := spell_head ht
      have hterm : isTerm (rd (t ++ bl ++ s)) = false := by
        subst htc
        exact hn c (by simp)
      have hn' : NoTerm (bl ++ s) := by
        rw [List.append_assoc] at hn
        exact hn.append_right
      have hfol : Follows x (bl ++ s) := by
        rcases hd with h | h
        · exact .inl h
        · exact .inr (.inl ((delimited_iff hn').1 h))
      have hl := spell_lexOne ht (bl ++ s) hfol
      unfold scan
      rw [if_neg (by rw [hterm]; simp), List.append_assoc, hl]
      have hdrop : (t ++ (bl ++ s)).drop t.length = bl ++ s := List.drop_left
      have hcolon : rd (bl ++ s) ≠ 58 := by
        cases bl with
        | nil => exact tokens_head hrest
        | cons b bl' =>
          have := hb b (by simp)
          intro h58
          have hbb : b = 58 := h58
          rw [hbb] at this
          revert this; decide
      simp only [hdrop, if_neg hcolon, skipBlanks_of hb hs]
      by_cases hc8 : cnt = 8
      · rw [if_pos hc8, if_neg (by simp only [List.length_cons]; omega)]
      · rw [if_neg hc8]
        have hlen : t.length ≠ 0 := by rw [htc]; simp
        rw [ih fuel (cnt + 1) hn'.append_right (by simp only [List.length_append] at hf; omega)
          (by simp) (by omega)]
        simp only [List.length_cons]
        by_cases h9 : cnt + 1 + ls.length ≤ 8
        · rw [if_pos h9, if_pos (by omega)]
        · rw [if_neg h9, if_neg (by omega)]
  | colon off t bl s l ls ht hb hs hrest ih =>
    intro fuel cnt hn hf hfirst h8
    cases fuel with
    | zero => omega
    | succ fuel =>
      obtain ⟨c, r, htc, hc⟩ := spell_head ht
      have hcnt : cnt = 0 := hfirst.1 rfl
      have hterm : isTerm (rd (t ++ 58 :: bl ++ s)) = false := by
        subst htc
        exact hn c (by simp)
      have hn' : NoTerm (bl ++ s) := by
        rw [List.append_assoc] at hn
        have := hn.append_right
        exact fun d hd => this d (by simp only [List.cons_append, List.mem_cons]; exact .inr hd)
      have hl := spell_lexOne ht (58 :: bl ++ s) (.inr (.inr ⟨rfl, rfl⟩))
      unfold scan
      rw [if_neg (by rw [hterm]; simp), List.append_assoc, hl]
      have hdrop : (t ++ (58 :: bl ++ s)).drop t.length = 58 :: (bl ++ s) := List.drop_left
      have hrd : rd (58 :: (bl ++ s)) = 58 := rfl
      have hlen : t.length ≠ 0 := by rw [htc]; simp
      simp only [hdrop, hrd, if_true, List.tail_cons, skipBlanks_of hb hs, hcnt, isName, and_self]
      rw [ih fuel (0 + 1) hn'.append_right (by simp only [List.length_append, List.length_cons] at hf; omega)
          (by simp) (by omega)]
      simp only [List.length_cons]
      by_cases h9 : 0 + 1 + ls.length ≤ 8
      · rw [if_neg (by omega), if_pos h9, if_pos (by omega)]
      · rw [if_neg (by omega), if_neg h9, if_neg (by omega)]

/-! ### Soundness for lines -/

/-- The next text cannot be the tail of a digit run: the character before is no word character, `$` or `%`, or the
text does not start with a digit. -/
def Fresh (p s : Str) : Prop :=
  (∀ c, p.getLast? = some c → wordChar c = false ∧ c ≠ 36 ∧ c ≠ 37) ∨ isDigit (rd s) = false

theorem headSmall_of {line p s : Str} (hh : HugeFree line) (hp : code line = p ++ s) (hf : Fresh p s) :
    HeadSmall s := by
  have split : ∀ b (q u : Str), code line = q ++ u → code line = q ++ digits b u ++ afterDigits b u := by
    intro b q u h
    rw [h, List.append_assoc]
    unfold digits afterDigits
    rw [List.takeWhile_append_dropWhile]
  have tailsplit : ∀ c : Byte, c ≠ 0 → rd s = c → code line = (p ++ [c]) ++ s.tail := by
    intro c hc h
    cases s with
    | nil => exact absurd h.symm hc
    | cons d r =>
      have : d = c := h
      rw [hp, this]
      simp
  refine ⟨fun h => ?_, fun h => ?_, fun h => ?_⟩
  · exact (hh _ _ _ (split 16 _ _ (tailsplit 36 (by decide) h))).1 (by simp) (digits_all _ _)
  · exact (hh _ _ _ (split 2 _ _ (tailsplit 37 (by decide) h))).2.1 (by simp) (digits_all _ _)
  · rcases hf with hf | hf
    · exact (hh _ _ _ (split 10 _ _ hp)).2.2 hf (digits_all _ _)
    · rw [h] at hf; simp at hf

theorem byte_punct : ∀ c : Byte, (punctLexeme c).isSome = true → wordChar c = false ∧ c ≠ 36 ∧ c ≠ 37 := by
  decide +kernel
theorem byte_blank : ∀ c : Byte, isBlank c = true → wordChar c = false ∧ c ≠ 36 ∧ c ≠ 37 := by
  decide +kernel
theorem byte_eot_notdigit : ∀ c : Byte, isEndOfToken c = true → isDigit c = false := by decide +kernel

theorem spell_punct_last {t : Str} {x : Lexeme} (h : Spell t x) (hx : x.isPunct = true) :
    ∃ c, t = [c] ∧ (punctLexeme c).isSome = true := by
  cases h with
  | word c t _ _ _ => rw [wordLexeme_not_punct] at hx; simp at hx
  | hex => simp [Lexeme.isPunct] at hx
  | bin => simp [Lexeme.isPunct] at hx
  | dec => simp [Lexeme.isPunct] at hx
  | directive _ _ h => rw [(directive_not_punct h).1] at hx; simp at hx
  | punct c _ h => exact ⟨c, rfl, by rw [h]; rfl⟩

/-- Soundness: the lexemes found are a cut of the text. -/
theorem scan_sound {line : List Byte} (hh : HugeFree line) :
    ∀ (fuel off : Nat) (p s : Str) (cnt : Nat) (ls : List (Nat × Lexeme)), code line = p ++ s → Fresh p s →
      s.length < fuel → scan fuel off s cnt = .ok ls → Tokens (decide (cnt = 0)) off s ls := by
  intro fuel
  induction fuel with
  | zero => intro off p s cnt ls _ _ h; omega
  | succ fuel ih =>
    intro off p s cnt ls hp hf hlen h
    have hnt : NoTerm s := by
      have := noTerm_code line
      rw [hp] at this
      exact this.append_right
    unfold scan at h
    by_cases h1 : isTerm (rd s) = true
    · rw [if_pos h1] at h
      have : s = [] := by
        cases s with
        | nil => rfl
        | cons c r =>
          have := hnt c (by simp)
          rw [show rd (c :: r) = c from rfl, this] at h1
          simp at h1
      subst this
      simp only [Except.ok.injEq] at h
      subst h
      exact Tokens.done _ _
    · rw [if_neg h1] at h
      have hne : s ≠ [] := by
        rintro rfl
        exact h1 isTerm_zero
      cases hk : lexOne s with
      | error q => rw [hk] at h; simp at h
      | ok q =>
        obtain ⟨n, x⟩ := q
        rw [hk] at h
        simp only at h
        obtain ⟨hsp, hfol⟩ := lexOne_spell hne (headSmall_of hh hp hf) hk
        obtain ⟨hn1, hn2⟩ := lexOne_len hne hk
        have htake : (s.take n).length = n := by rw [List.length_take]; omega
        have hsplit : s = s.take n ++ s.drop n := (List.take_append_drop n s).symm
        by_cases h8 : cnt = 8
        · rw [if_pos h8] at h; simp at h
        rw [if_neg h8] at h
        by_cases hc : rd (s.drop n) = 58
        · rw [if_pos hc] at h
          by_cases hname : isName x = true ∧ cnt = 0
          · rw [if_pos hname] at h
            obtain ⟨bl, b1, b2, b3, b4⟩ := skipBlanks_spec (off + n + 1) (s.drop n).tail
            have hcons : s.drop n = 58 :: (s.drop n).tail := by
              cases hd : s.drop n with
              | nil => rw [hd] at hc; simp [rd] at hc
              | cons d r =>
                rw [hd] at hc
                have : d = 58 := hc
                rw [this]; rfl
            generalize hs' : (skipBlanks (off + n + 1) (s.drop n).tail).2 = s' at *
            generalize ho' : (skipBlanks (off + n + 1) (s.drop n).tail).1 = o' at *
            cases hrec : scan fuel o' s' (cnt + 1) with
            | error f => rw [hrec] at h; simp at h
            | ok ls' =>
              rw [hrec] at h
              simp only [Except.ok.injEq] at h
              have hs2 : s = s.take n ++ 58 :: bl ++ s' := by
                conv_lhs => rw [hsplit, hcons, b1]
                simp
              have hB : Blanks bl := fun d hd => (isBlank_iff d).1 (b3 d hd)
              have hN : NoLeadingBlank s' := by
                intro d r hd
                have := b4 d r hd
                rw [Bool.eq_false_iff, ne_eq, isBlank_iff] at this
                exact ⟨fun h => this (.inl h), fun h => this (.inr h)⟩
              have hlen' : s'.length < fuel := by
                have := congrArg List.length hs2
                simp only [List.length_append, List.length_cons] at this
                omega
              have hfresh : Fresh (p ++ (s.take n ++ 58 :: bl)) s' := by
                left
                intro d hd
                rw [List.append_cons, ← List.append_assoc, ← List.append_assoc] at hd
                rcases List.eq_nil_or_concat bl with rfl | ⟨bl', e, rfl⟩
                · simp only [List.append_nil, List.getLast?_append, List.getLast?_singleton, Option.some_or,
                    Option.some.injEq] at hd
                  subst hd; decide
                · simp only [List.concat_eq_append, ← List.append_assoc, List.getLast?_append,
                    List.getLast?_singleton, Option.some_or, Option.some.injEq] at hd
                  subst hd
                  exact byte_blank e (b3 e (by simp))
              have := ih o' (p ++ (s.take n ++ 58 :: bl)) s' (cnt + 1) ls'
                (by rw [hp, List.append_assoc]; congr 1) hfresh hlen' hrec
              cases x with
              | name l =>
                rw [← h, hs2]
                rw [show decide (cnt = 0) = true by simp [hname.2]]
                refine Tokens.colon off _ bl s' l ls' hsp hB hN ?_
                rw [htake, ← b2]
                simpa using this
              | _ => simp [isName] at hname
          · rw [if_neg hname] at h; simp at h
        · rw [if_neg hc] at h
          obtain ⟨bl, b1, b2, b3, b4⟩ := skipBlanks_spec (off + n) (s.drop n)
          generalize hs' : (skipBlanks (off + n) (s.drop n)).2 = s' at *
          generalize ho' : (skipBlanks (off + n) (s.drop n)).1 = o' at *
          cases hrec : scan fuel o' s' (cnt + 1) with
          | error f => rw [hrec] at h; simp at h
          | ok ls' =>
            rw [hrec] at h
            simp only [Except.ok.injEq] at h
            have hs2 : s = s.take n ++ bl ++ s' := by
              conv_lhs => rw [hsplit, b1]
              simp
            have hB : Blanks bl := fun d hd => (isBlank_iff d).1 (b3 d hd)
            have hN : NoLeadingBlank s' := by
              intro d r hd
              have := b4 d r hd
              rw [Bool.eq_false_iff, ne_eq, isBlank_iff] at this
              exact ⟨fun h => this (.inl h), fun h => this (.inr h)⟩
            have hlen' : s'.length < fuel := by
              have := congrArg List.length hs2
              simp only [List.length_append] at this
              omega
            have hnd : NoTerm (s.drop n) := hnt.drop n
            have hD : x.isPunct = true ∨ isEndOfToken (rd (s.drop n)) = true := by
              rcases hfol with h | h | h
              · exact .inl h
              · exact .inr h
              · exact absurd h.1 hc
            have hfresh : Fresh (p ++ (s.take n ++ bl)) s' := by
              rcases List.eq_nil_or_concat bl with rfl | ⟨bl', e, rfl⟩
              · rcases hD with h | h
                · left
                  obtain ⟨c, hc1, hc2⟩ := spell_punct_last hsp h
                  intro d hd
                  rw [hc1, List.append_nil, List.getLast?_append, List.getLast?_singleton, Option.some_or,
                    Option.some.injEq] at hd
                  subst hd
                  exact byte_punct _ hc2
                · right
                  have : s.drop n = s' := by simpa using b1
                  rw [← this]
                  exact byte_eot_notdigit _ h
              · left
                intro d hd
                simp only [List.concat_eq_append, ← List.append_assoc, List.getLast?_append,
                    List.getLast?_singleton, Option.some_or, Option.some.injEq] at hd
                subst hd
                exact byte_blank e (b3 e (by simp))
            have := ih o' (p ++ (s.take n ++ bl)) s' (cnt + 1) ls'
              (by rw [hp, List.append_assoc]; congr 1) hfresh hlen' hrec
            rw [← h, hs2]
            refine Tokens.cons _ off _ bl s' x ls' hsp ?_ hB hN ?_
            · rw [← b1, delimited_iff hnd]; exact hD
            · rw [htake, ← b2]
              simpa using this

/-! ### The lexemes of a line -/

theorem code_cstr (raw : List Byte) : code (cstr raw) = code raw := by
  induction raw with
  | nil => rfl
  | cons c s ih =>
    unfold cstr at *
    rw [List.takeWhile_cons]
    by_cases h : c = 0
    · subst h
      simp [code_cons, isTerm_zero, code_nil]
    · have : (c != 0) = true := by simpa using h
      rw [if_pos this, code_cons, code_cons, ih]

theorem scan_fuel : ∀ (fuel : Nat) (off : Nat) (s : Str) (cnt fuel' : Nat), s.length < fuel → s.length < fuel' →
    scan fuel off s cnt = scan fuel' off s cnt := by
  intro fuel
  induction fuel with
  | zero => intro off s cnt fuel' h; omega
  | succ fuel ih =>
    intro off s cnt fuel' h h'
    cases fuel' with
    | zero => omega
    | succ fuel' =>
      unfold scan
      by_cases h1 : isTerm (rd s) = true
      · rw [if_pos h1, if_pos h1]
      · rw [if_neg h1, if_neg h1]
        have hne : s ≠ [] := by
          rintro rfl
          exact h1 isTerm_zero
        cases hk : lexOne s with
        | error q => rfl
        | ok q =>
          obtain ⟨n, x⟩ := q
          obtain ⟨hn1, hn2⟩ := lexOne_len hne hk
          have hd : (s.drop n).length < s.length := by rw [List.length_drop]; omega
          have hdt : (s.drop n).tail.length < s.length := by rw [List.length_tail]; omega
          have e1 := skipBlanks_length (off + n + 1) (s.drop n).tail
          have e2 := skipBlanks_length (off + n) (s.drop n)
          simp only
          rw [ih _ (skipBlanks (off + n + 1) (s.drop n).tail).2 (cnt + 1) fuel' (by omega) (by omega),
            ih _ (skipBlanks (off + n) (s.drop n)).2 (cnt + 1) fuel' (by omega) (by omega)]

/-- The lexemes only depend on the meaningful part of the line. -/
theorem lexemes_code (raw : List Byte) :
    lexemes raw = scan ((code raw).length + 1) (skipBlanks 0 (code raw)).1 (skipBlanks 0 (code raw)).2 0 := by
  unfold lexemes
  rw [← scan_code, ← code_cstr raw, skipBlanks_code]
  simp only
  have h1 := code_length_le (skipBlanks 0 (cstr raw)).2
  have h2 := skipBlanks_length 0 (code (cstr raw))
  rw [skipBlanks_code] at h2
  simp only at h2
  exact scan_fuel _ _ _ _ _ (by omega) (by omega)

theorem lexes_skip {raw : List Byte} {ls : List (Nat × Lexeme)} :
    Lexes raw ls ↔ Tokens true (skipBlanks 0 (code raw)).1 (skipBlanks 0 (code raw)).2 ls := by
  constructor
  · rintro ⟨bl, s, h1, h2, h3, h4⟩
    rw [h1, skipBlanks_of h2 h3]
    simpa using h4
  · intro h
    obtain ⟨bl, b1, b2, b3, b4⟩ := skipBlanks_spec 0 (code raw)
    refine ⟨bl, _, b1, fun d hd => (isBlank_iff d).1 (b3 d hd), ?_, ?_⟩
    · intro d r hd
      have := b4 d r hd
      rw [Bool.eq_false_iff, ne_eq, isBlank_iff] at this
      exact ⟨fun h => this (.inl h), fun h => this (.inr h)⟩
    · rw [b2] at h
      simpa using h

theorem noTerm_skip (raw : List Byte) : NoTerm (skipBlanks 0 (code raw)).2 := by
  obtain ⟨bl, b1, _, _, _⟩ := skipBlanks_spec 0 (code raw)
  have := noTerm_code raw
  rw [b1] at this
  exact this.append_right

/-- Completeness for lines. -/
theorem lexemes_complete {raw : List Byte} {ls : List (Nat × Lexeme)} (h : Lexes raw ls) :
    lexemes raw = if ls.length ≤ 8 then .ok ls else .error .tooMany := by
  rw [lexemes_code, scan_complete (lexes_skip.1 h) _ 0 (noTerm_skip raw)
    (by have := skipBlanks_length 0 (code raw); omega) (by simp) (by omega)]
  simp

/-- Soundness for lines. -/
theorem lexemes_sound {raw : List Byte} {ls : List (Nat × Lexeme)} (hh : HugeFree raw) (h : lexemes raw = .ok ls) :
    Lexes raw ls ∧ ls.length ≤ 8 := by
  rw [lexemes_code] at h
  obtain ⟨bl, b1, b2, b3, b4⟩ := skipBlanks_spec 0 (code raw)
  refine ⟨lexes_skip.2 ?_, by have := scan_length _ _ _ _ _ (by omega) h; omega⟩
  have hfresh : Fresh bl (skipBlanks 0 (code raw)).2 := by
    left
    intro d hd
    exact byte_blank d (b3 d (List.mem_of_getLast? hd))
  exact scan_sound hh _ _ bl _ 0 ls b1 hfresh (by have := skipBlanks_length 0 (code raw); omega) h

theorem lexemes_iff {raw : List Byte} (hh : HugeFree raw) (ls : List (Nat × Lexeme)) :
    lexemes raw = .ok ls ↔ Lexes raw ls ∧ ls.length ≤ 8 := by
  constructor
  · exact lexemes_sound hh
  · rintro ⟨h, hl⟩
    rw [lexemes_complete h, if_pos hl]

end Gaia
