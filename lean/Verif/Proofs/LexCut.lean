import Verif.Proofs.LexFault
import Verif.Spec.Cut

/-! The scanner meets the specification `Spec.Cuts`, without any bound on literals. -/
namespace Gaia
open Spec

theorem cutSpell_lexOne {t : Str} {x : Lexeme} (h : CutSpell t x) (rest : Str) (hf : Follows x rest) :
    lexOne (t ++ rest) = .ok (t.length, x) := by
  cases h with
  | spelled _ _ h => exact spell_lexOne h rest hf
  | wrapped pre ds b hp hne hd hbig hv =>
    obtain ⟨conv, hconv, h1, h2⟩ := litStart_conv hp
    have hend : isEndOfToken (rd rest) = true := by
      rcases hf with h | h | h
      · simp [Lexeme.isPunct] at h
      · exact h
      · simp [isName] at h
    have hnd : ∀ c r', rest = c :: r' → ¬ IsDigitOf b c := by
      rintro c r' rfl ⟨v, hv, _⟩
      have := byte_eot_digit c hend
      rw [this] at hv; cases hv
    have hne' : pre = [] → ∃ d r', ds ++ rest = d :: r' ∧ isDig 10 d = true := by
      rintro rfl
      cases ds with
      | nil => exact absurd rfl hne
      | cons d ds =>
        refine ⟨d, ds ++ rest, rfl, ?_⟩
        rcases h2 with ⟨_, rfl⟩ | ⟨h, _⟩
        · exact (isDig_iff 10 d).2 (hd d (by simp))
        · simp at h
    obtain ⟨d1, d2⟩ := digits_append hd hnd
    have hl : ds.length ≠ 0 := by simpa using hne
    have hlit : ¬ (pre.length + ds.length = 1 ∧ (b = 2 ∨ b = 16)) := by
      rcases h2 with ⟨_, rfl⟩ | ⟨h, _⟩
      · simp
      · omega
    rw [List.append_assoc, h1 _ hne', litBody_eq hconv, d1, d2, if_pos hend,
      if_neg (by omega), if_neg hlit, if_neg (by omega), List.length_append]

theorem lexOne_cutSpell {s : Str} {n : Nat} {x : Lexeme} (hs : s ≠ []) (h : lexOne s = .ok (n, x)) :
    CutSpell (s.take n) x ∧ (x.isPunct = true ∨ isEndOfToken (rd (s.drop n)) = true ∨
      (rd (s.drop n) = 58 ∧ ∃ w, x = wordLexeme w)) := by
  by_cases hh : HeadSmall s
  · obtain ⟨h1, h2⟩ := lexOne_spell hs hh h
    exact ⟨.spelled _ _ h1, h2⟩
  obtain ⟨c, s', rfl⟩ := List.exists_cons_of_ne_nil hs
  have hrd : rd (c :: s') = c := rfl
  have key : ∀ {conv : Byte → Option Nat} {b : Nat} {pre u : Str}, ConvOK conv b → LitStart pre b → c :: s' = pre ++ u →
      (pre = [] ∧ b = 10 ∨ pre.length = 1 ∧ (b = 2 ∨ b = 16)) →
      2 ^ 64 ≤ positional b (digits b u) → litBody conv b u pre.length = .ok (n, x) →
      CutSpell ((c :: s').take n) x ∧ (x.isPunct = true ∨ isEndOfToken (rd ((c :: s').drop n)) = true ∨
      (rd ((c :: s').drop n) = 58 ∧ ∃ w, x = wordLexeme w)) := by
    intro conv b pre u hc hp hu hpb hbig hl
    obtain ⟨e1, e2, e3, e4, e5, e6⟩ := litBody_ok hc hl
    have ht : u.take (digits b u).length = digits b u := take_takeWhile _ _
    have hd : u.drop (digits b u).length = afterDigits b u := drop_takeWhile _ _
    rw [hu, e2, List.take_length_add_append, List.drop_length_add_append, ht, hd, e5]
    refine ⟨.wrapped pre _ b hp ?_ (digits_all _ _) hbig e6, .inr (.inl e1)⟩
    intro h0
    rw [h0] at hbig
    simp [positional] at hbig
  unfold HeadSmall at hh
  rw [hrd] at hh
  unfold lexOne at h
  rw [hrd] at h
  have hlt : ∀ {a b : Nat}, ¬ (a < b) → b ≤ a := fun h => Nat.le_of_not_lt h
  by_cases h36 : c = 36
  · subst h36
    have hp : punctLexeme 36 = none := by decide
    rw [hp] at h
    simp only at h
    rw [if_neg (by decide), if_pos trivial] at h
    refine key convOK_hex .hex rfl (.inr ⟨rfl, .inr rfl⟩) ?_ h
    by_contra hc
    exact hh ⟨fun _ => Nat.lt_of_not_le hc, fun h => absurd h (by decide), fun h => absurd h (by decide)⟩
  by_cases h37 : c = 37
  · subst h37
    have hp : punctLexeme 37 = none := by decide
    rw [hp] at h
    simp only at h
    rw [if_neg (by decide), if_neg (by decide), if_pos trivial] at h
    refine key convOK_bin .bin rfl (.inr ⟨rfl, .inl rfl⟩) ?_ h
    by_contra hc
    exact hh ⟨fun h => absurd h (by decide), fun _ => Nat.lt_of_not_le hc, fun h => absurd h (by decide)⟩
  by_cases hdig : isDigit c = true
  · have hp : punctLexeme c = none ∧ isAlpha c = false := by
      have : ∀ c : Byte, isDigit c = true → punctLexeme c = none ∧ isAlpha c = false := by decide +kernel
      exact this c hdig
    rw [hp.1] at h
    simp only at h
    rw [if_neg (by rw [hp.2]; simp), if_neg h36, if_neg h37, if_pos hdig] at h
    refine key convOK_dec .dec rfl (.inl ⟨rfl, rfl⟩) ?_ h
    by_contra hc
    exact hh ⟨fun h => absurd h h36, fun h => absurd h h37, fun _ => Nat.lt_of_not_le hc⟩
  exact absurd ⟨fun h => absurd h h36, fun h => absurd h h37, fun h => absurd h hdig⟩ hh

theorem cutSpell_head {t : Str} {x : Lexeme} (h : CutSpell t x) : ∃ c r, t = c :: r ∧ c ≠ 58 := by
  cases h with
  | spelled _ _ h => exact spell_head h
  | wrapped pre ds b hp hne hd =>
    obtain ⟨c, ds, rfl⟩ := List.exists_cons_of_ne_nil hne
    cases hp with
    | hex => exact ⟨36, _, rfl, by decide⟩
    | bin => exact ⟨37, _, rfl, by decide⟩
    | dec =>
      refine ⟨c, ds, rfl, ?_⟩
      rintro rfl
      have := (isDig_iff 10 58).2 (hd 58 (by simp))
      revert this
      decide

theorem cut_head {first : Bool} {off : Nat} {s : Str} {ls : List (Nat × Lexeme)}
    (h : CutTokens first off s ls) : rd s ≠ 58 := by
  cases h with
  | done => simp [rd]
  | cons _ _ t bl s x ls ht =>
    obtain ⟨c, r, rfl, hc⟩ := cutSpell_head ht
    exact hc
  | colon _ t bl s l ls ht =>
    obtain ⟨c, r, rfl, hc⟩ := cutSpell_head ht
    exact hc

/-- Completeness: text cut into lexemes is scanned as those lexemes, or refused for having more than 8. -/
theorem cut_complete {first : Bool} {off : Nat} {s : Str} {ls : List (Nat × Lexeme)} (h : CutTokens first off s ls) :
    ∀ (fuel cnt : Nat), NoTerm s → s.length < fuel → (first = true ↔ cnt = 0) → cnt ≤ 8 →
      scan fuel off s cnt = if cnt + ls.length ≤ 8 then .ok ls else .error .tooMany := by
  induction h with
  | done first off =>
    intro fuel cnt _ hf _ h8
    cases fuel with
    | zero => omega
    | succ fuel => simp [scan, rd, isTerm_zero, h8]
  | cons first off t bl s x ls ht hd hb hs hrest ih =>
    intro fuel cnt hn hf hfirst h8
    cases fuel with
    | zero => omega
    | succ fuel =>
      obtain ⟨c, r, htc, hc⟩ := cutSpell_head ht
      have hterm : isTerm (rd (t ++ bl ++ s)) = false := by
        subst htc
        exact hn c (by simp)
      have hn' : NoTerm (bl ++ s) := by
        rw [List.append_assoc] at hn
        exact hn.append_right
      have hfol : Follows x (bl ++ s) := by
        rcases hd with h | h
        · exact .inl h
        · exact .inr (.inl ((delimited_iff hn').1 h))
      have hl := cutSpell_lexOne ht (bl ++ s) hfol
      unfold scan
      rw [if_neg (by rw [hterm]; simp), List.append_assoc, hl]
      have hdrop : (t ++ (bl ++ s)).drop t.length = bl ++ s := List.drop_left
      have hcolon : rd (bl ++ s) ≠ 58 := by
        cases bl with
        | nil => exact cut_head hrest
        | cons b bl' =>
          have := hb b (by simp)
          intro h58
          have hbb : b = 58 := h58
          rw [hbb] at this
          revert this; decide
      simp only [hdrop, if_neg hcolon, skipBlanks_of hb hs]
      by_cases hc8 : cnt = 8
      · rw [if_pos hc8, if_neg (by simp only [List.length_cons]; omega)]
      · rw [if_neg hc8]
        have hlen : t.length ≠ 0 := by rw [htc]; simp
        rw [ih fuel (cnt + 1) hn'.append_right (by simp only [List.length_append] at hf; omega)
          (by simp) (by omega)]
        simp only [List.length_cons]
        by_cases h9 : cnt + 1 + ls.length ≤ 8
        · rw [if_pos h9, if_pos (by omega)]
        · rw [if_neg h9, if_neg (by omega)]
  | colon off t bl s l ls ht hb hs hrest ih =>
    intro fuel cnt hn hf hfirst h8
    cases fuel with
    | zero => omega
    | succ fuel =>
      obtain ⟨c, r, htc, hc⟩ := cutSpell_head ht
      have hcnt : cnt = 0 := hfirst.1 rfl
      have hterm : isTerm (rd (t ++ 58 :: bl ++ s)) = false := by
        subst htc
        exact hn c (by simp)
      have hn' : NoTerm (bl ++ s) := by
        rw [List.append_assoc] at hn
        have := hn.append_right
        exact fun d hd => this d (by simp only [List.cons_append, List.mem_cons]; exact .inr hd)
      have hl := cutSpell_lexOne ht (58 :: bl ++ s) (.inr (.inr ⟨rfl, rfl⟩))
      unfold scan
      rw [if_neg (by rw [hterm]; simp), List.append_assoc, hl]
      have hdrop : (t ++ (58 :: bl ++ s)).drop t.length = 58 :: (bl ++ s) := List.drop_left
      have hrd : rd (58 :: (bl ++ s)) = 58 := rfl
      have hlen : t.length ≠ 0 := by rw [htc]; simp
      simp only [hdrop, hrd, if_true, List.tail_cons, skipBlanks_of hb hs, hcnt, isName, and_self]
      rw [ih fuel (0 + 1) hn'.append_right (by simp only [List.length_append, List.length_cons] at hf; omega)
          (by simp) (by omega)]
      simp only [List.length_cons]
      by_cases h9 : 0 + 1 + ls.length ≤ 8
      · rw [if_neg (by omega), if_pos h9, if_pos (by omega)]
      · rw [if_neg (by omega), if_neg h9, if_neg (by omega)]

/-- Soundness: the lexemes found are a cut of the text. -/
theorem cut_sound {line : List Byte} :
    ∀ (fuel off : Nat) (p s : Str) (cnt : Nat) (ls : List (Nat × Lexeme)), code line = p ++ s → 
      s.length < fuel → scan fuel off s cnt = .ok ls → CutTokens (decide (cnt = 0)) off s ls := by
  intro fuel
  induction fuel with
  | zero => intro off p s cnt ls _ h; omega
  | succ fuel ih =>
    intro off p s cnt ls hp hlen h
    have hnt : NoTerm s := by
      have := noTerm_code line
      rw [hp] at this
      exact this.append_right
    unfold scan at h
    by_cases h1 : isTerm (rd s) = true
    · rw [if_pos h1] at h
      have : s = [] := by
        cases s with
        | nil => rfl
        | cons c r =>
          have := hnt c (by simp)
          rw [show rd (c :: r) = c from rfl, this] at h1
          simp at h1
      subst this
      simp only [Except.ok.injEq] at h
      subst h
      exact CutTokens.done _ _
    · rw [if_neg h1] at h
      have hne : s ≠ [] := by
        rintro rfl
        exact h1 isTerm_zero
      cases hk : lexOne s with
      | error q => rw [hk] at h; simp at h
      | ok q =>
        obtain ⟨n, x⟩ := q
        rw [hk] at h
        simp only at h
        obtain ⟨hsp, hfol⟩ := lexOne_cutSpell hne hk
        obtain ⟨hn1, hn2⟩ := lexOne_len hne hk
        have htake : (s.take n).length = n := by rw [List.length_take]; omega
        have hsplit : s = s.take n ++ s.drop n := (List.take_append_drop n s).symm
        by_cases h8 : cnt = 8
        · rw [if_pos h8] at h; simp at h
        rw [if_neg h8] at h
        by_cases hc : rd (s.drop n) = 58
        · rw [if_pos hc] at h
          by_cases hname : isName x = true ∧ cnt = 0
          · rw [if_pos hname] at h
            obtain ⟨bl, b1, b2, b3, b4⟩ := skipBlanks_spec (off + n + 1) (s.drop n).tail
            have hcons : s.drop n = 58 :: (s.drop n).tail := by
              cases hd : s.drop n with
              | nil => rw [hd] at hc; simp [rd] at hc
              | cons d r =>
                rw [hd] at hc
                have : d = 58 := hc
                rw [this]; rfl
            generalize hs' : (skipBlanks (off + n + 1) (s.drop n).tail).2 = s' at *
            generalize ho' : (skipBlanks (off + n + 1) (s.drop n).tail).1 = o' at *
            cases hrec : scan fuel o' s' (cnt + 1) with
            | error f => rw [hrec] at h; simp at h
            | ok ls' =>
              rw [hrec] at h
              simp only [Except.ok.injEq] at h
              have hs2 : s = s.take n ++ 58 :: bl ++ s' := by
                conv_lhs => rw [hsplit, hcons, b1]
                simp
              have hB : Blanks bl := fun d hd => (isBlank_iff d).1 (b3 d hd)
              have hN : NoLeadingBlank s' := by
                intro d r hd
                have := b4 d r hd
                rw [Bool.eq_false_iff, ne_eq, isBlank_iff] at this
                exact ⟨fun h => this (.inl h), fun h => this (.inr h)⟩
              have hlen' : s'.length < fuel := by
                have := congrArg List.length hs2
                simp only [List.length_append, List.length_cons] at this
                omega
              have := ih o' (p ++ (s.take n ++ 58 :: bl)) s' (cnt + 1) ls'
                (by rw [hp, List.append_assoc]; congr 1) hlen' hrec
              cases x with
              | name l =>
                rw [← h, hs2]
                rw [show decide (cnt = 0) = true by simp [hname.2]]
                refine CutTokens.colon off _ bl s' l ls' hsp hB hN ?_
                rw [htake, ← b2]
                simpa using this
              | _ => simp [isName] at hname
          · rw [if_neg hname] at h; simp at h
        · rw [if_neg hc] at h
          obtain ⟨bl, b1, b2, b3, b4⟩ := skipBlanks_spec (off + n) (s.drop n)
          generalize hs' : (skipBlanks (off + n) (s.drop n)).2 = s' at *
          generalize ho' : (skipBlanks (off + n) (s.drop n)).1 = o' at *
          cases hrec : scan fuel o' s' (cnt + 1) with
          | error f => rw [hrec] at h; simp at h
          | ok ls' =>
            rw [hrec] at h
            simp only [Except.ok.injEq] at h
            have hs2 : s = s.take n ++ bl ++ s' := by
              conv_lhs => rw [hsplit, b1]
              simp
            have hB : Blanks bl := fun d hd => (isBlank_iff d).1 (b3 d hd)
            have hN : NoLeadingBlank s' := by
              intro d r hd
              have := b4 d r hd
              rw [Bool.eq_false_iff, ne_eq, isBlank_iff] at this
              exact ⟨fun h => this (.inl h), fun h => this (.inr h)⟩
            have hlen' : s'.length < fuel := by
              have := congrArg List.length hs2
              simp only [List.length_append] at this
              omega
            have hnd : NoTerm (s.drop n) := hnt.drop n
            have hD : x.isPunct = true ∨ isEndOfToken (rd (s.drop n)) = true := by
              rcases hfol with h | h | h
              · exact .inl h
              · exact .inr h
              · exact absurd h.1 hc
            have := ih o' (p ++ (s.take n ++ bl)) s' (cnt + 1) ls'
              (by rw [hp, List.append_assoc]; congr 1) hlen' hrec
            rw [← h, hs2]
            refine CutTokens.cons _ off _ bl s' x ls' hsp ?_ hB hN ?_
            · rw [← b1, delimited_iff hnd]; exact hD
            · rw [htake, ← b2]
              simpa using this

theorem cuts_skip {raw : List Byte} {ls : List (Nat × Lexeme)} :
    Cuts raw ls ↔ CutTokens true (skipBlanks 0 (code raw)).1 (skipBlanks 0 (code raw)).2 ls := by
  constructor
  · rintro ⟨bl, s, h1, h2, h3, h4⟩
    rw [h1, skipBlanks_of h2 h3]
    simpa using h4
  · intro h
    obtain ⟨bl, b1, b2, b3, b4⟩ := skipBlanks_spec 0 (code raw)
    refine ⟨bl, _, b1, fun d hd => (isBlank_iff d).1 (b3 d hd), ?_, ?_⟩
    · intro d r hd
      have := b4 d r hd
      rw [Bool.eq_false_iff, ne_eq, isBlank_iff] at this
      exact ⟨fun h => this (.inl h), fun h => this (.inr h)⟩
    · rw [b2] at h
      simpa using h

/-- Completeness for lines. -/
theorem lexemes_cut_complete {raw : List Byte} {ls : List (Nat × Lexeme)} (h : Cuts raw ls) :
    lexemes raw = if ls.length ≤ 8 then .ok ls else .error .tooMany := by
  rw [lexemes_code, cut_complete (cuts_skip.1 h) _ 0 (noTerm_skip raw)
    (by have := skipBlanks_length 0 (code raw); omega) (by simp) (by omega)]
  simp

/-- Soundness for lines. -/
theorem lexemes_cut_sound {raw : List Byte} {ls : List (Nat × Lexeme)} (h : lexemes raw = .ok ls) :
    Cuts raw ls ∧ ls.length ≤ 8 := by
  rw [lexemes_code] at h
  obtain ⟨bl, b1, b2, b3, b4⟩ := skipBlanks_spec 0 (code raw)
  refine ⟨cuts_skip.2 ?_, by have := scan_length _ _ _ _ _ (by omega) h; omega⟩
  exact cut_sound _ _ bl _ 0 ls b1 (by have := skipBlanks_length 0 (code raw); omega) h


/-- A line is scanned as the lexemes `ls` exactly if it is cut into them and there are at most eight. -/
theorem lexemes_cuts {raw : List Byte} (ls : List (Nat × Lexeme)) :
    lexemes raw = .ok ls ↔ Cuts raw ls ∧ ls.length ≤ 8 := by
  constructor
  · exact lexemes_cut_sound
  · rintro ⟨h, hl⟩
    rw [lexemes_cut_complete h, if_pos hl]

theorem Spec.Lexes.cuts {line : List Byte} {ls : List (Nat × Lexeme)} (h : Lexes line ls) : Cuts line ls := by
  have : ∀ {first : Bool} {off : Nat} {s : Str} {ls : List (Nat × Lexeme)}, Tokens first off s ls → CutTokens first off s ls := by
    intro first off s ls h
    induction h with
    | done first off => exact .done _ _
    | cons first off t bl s x ls ht hd hb hs hrest ih => exact .cons _ _ t bl s x ls (.spelled _ _ ht) hd hb hs ih
    | colon off t bl s l ls ht hb hs hrest ih => exact .colon _ t bl s l ls (.spelled _ _ ht) hb hs ih
  obtain ⟨bl, s, h1, h2, h3, h4⟩ := h
  exact ⟨bl, s, h1, h2, h3, this h4⟩

end Gaia
