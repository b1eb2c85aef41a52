import Verif.Proofs.LexFault

/-! Lexical errors of whole lines. -/
namespace Gaia
open Spec

/-- Prefix the lexemes read before. -/
def prepend (ls : List (Nat × Lexeme)) : Except LexFail (List (Nat × Lexeme)) → Except LexFail (List (Nat × Lexeme))
  | .ok r => .ok (ls ++ r)
  | .error f => .error f

theorem prepend_nil (x : Except LexFail (List (Nat × Lexeme))) : prepend [] x = x := by cases x <;> rfl

theorem prepend_cons (q : Nat × Lexeme) (ls : List (Nat × Lexeme)) (x : Except LexFail (List (Nat × Lexeme))) :
    (match prepend ls x with | .ok r => .ok (q :: r) | .error f => .error f) = prepend (q :: ls) x := by cases x <;> rfl

theorem begins_colon_done {off off' : Nat} {r s' : Str} {ls : List (Nat × Lexeme)} (h : Begins false off (58 :: r) ls off' s') :
    ls = [] ∧ off' = off ∧ s' = 58 :: r := by
  generalize hf : false = first at h
  generalize hu : 58 :: r = u at h
  cases h with
  | done => exact ⟨rfl, rfl, rfl⟩
  | cons _ _ t bl s x ls _ _ ht =>
    obtain ⟨c, t', rfl, hc⟩ := spell_head ht
    simp only [List.cons_append, List.cons.injEq] at hu
    exact absurd hu.1.symm hc
  | colon => cases hf

theorem bad58 (r : Str) : lexOne (58 :: r) = .error (.illegalChar, 0) := by
  unfold lexOne
  have hrd : rd (58 :: r) = 58 := rfl
  rw [hrd]
  rfl

theorem scan_begins {first : Bool} {off : Nat} {s : Str} {ls : List (Nat × Lexeme)} {off' : Nat} {s' : Str}
    (h : Begins first off s ls off' s') :
    ∀ (fuel cnt : Nat), NoTerm s → s.length < fuel → (first = true ↔ cnt = 0) → cnt + ls.length ≤ 8 →
      ∃ fuel', s'.length < fuel' ∧ NoTerm s' ∧ scan fuel off s cnt = prepend ls (scan fuel' off' s' (cnt + ls.length)) := by
  induction h with
  | done first off s =>
    intro fuel cnt hn hf _ _
    exact ⟨fuel, hf, hn, (prepend_nil _).symm⟩
  | cons first off t bl s x ls off' s' ht hd hb hs hrest ih =>
    intro fuel cnt hn hf hfirst h8
    cases fuel with
    | zero => omega
    | succ fuel =>
      simp only [List.length_cons] at h8
      obtain ⟨c, r, htc, hc⟩ := spell_head ht
      have hterm : isTerm (rd (t ++ bl ++ s)) = false := by
        subst htc
        exact hn c (by simp)
      have hn' : NoTerm (bl ++ s) := by
        rw [List.append_assoc] at hn
        exact hn.append_right
      have hfol : Follows x (bl ++ s) := by
        rcases hd with h | h
        · exact .inl h
        · exact .inr (.inl ((delimited_iff hn').1 h))
      have hl := spell_lexOne ht (bl ++ s) hfol
      have hdrop : (t ++ (bl ++ s)).drop t.length = bl ++ s := List.drop_left
      have hlen : t.length ≠ 0 := by rw [htc]; simp
      have hfs : s.length < fuel := by simp only [List.length_append] at hf; omega
      have hsc : scan (fuel + 1) off (t ++ bl ++ s) cnt = if rd (bl ++ s) = 58 then
          (if isName x ∧ cnt = 0 then
            match scan fuel (skipBlanks (off + t.length + 1) (bl ++ s).tail).1
                (skipBlanks (off + t.length + 1) (bl ++ s).tail).2 (cnt + 1) with
            | .ok ls => .ok ((off, x) :: ls)
            | .error f => .error f
          else .error (.at .illegalChar (off + t.length)))
          else match scan fuel (off + t.length + bl.length) s (cnt + 1) with
          | .ok ls => .ok ((off, x) :: ls)
          | .error f => .error f := by
        conv_lhs => unfold scan
        rw [if_neg (by rw [hterm]; simp), List.append_assoc, hl]
        simp only [hdrop, if_neg (show ¬ cnt = 8 by omega), skipBlanks_of hb hs]
        rfl
      rw [hsc]
      by_cases hcol : rd (bl ++ s) = 58
      · rw [if_pos hcol]
        have hbl : bl = [] := by
          cases bl with
          | nil => rfl
          | cons b bl' =>
            have := hb b (by simp)
            have hbb : b = 58 := hcol
            rw [hbb] at this
            exact absurd this (by decide)
        subst hbl
        rw [List.nil_append] at hcol
        obtain ⟨r', rfl⟩ : ∃ r', s = 58 :: r' := by
          cases s with
          | nil => simp [rd] at hcol
          | cons d r' => exact ⟨r', by rw [show d = 58 from hcol]⟩
        have hpun : x.isPunct = true := by
          rcases hd with h | h | ⟨d, r'', h1, h2⟩
          · exact h
          · cases h
          · rw [List.nil_append, List.cons.injEq] at h1
            rw [← h1.1] at h2
            exact absurd h2 (by decide)
        have hnn : ¬ (isName x = true ∧ cnt = 0) := by
          rintro ⟨h, _⟩
          cases x <;> simp [isName, Lexeme.isPunct] at h hpun
        rw [if_neg hnn]
        obtain ⟨rfl, rfl, rfl⟩ := begins_colon_done hrest
        refine ⟨fuel + 1, by omega, hn', ?_⟩
        conv_rhs => unfold scan
        have ht58 : isTerm (rd (58 :: r')) = false := (by decide : isTerm 58 = false)
        rw [ht58, bad58]
        simp [prepend]
      · rw [if_neg hcol]
        obtain ⟨fuel', e1, e2, e3⟩ := ih fuel (cnt + 1) hn'.append_right hfs (by simp) (by omega)
        refine ⟨fuel', e1, e2, ?_⟩
        rw [e3, show cnt + 1 + ls.length = cnt + ((off, x) :: ls).length by simp only [List.length_cons]; omega]
        exact prepend_cons _ _ _
  | colon off t bl s l ls off' s' ht hb hs hrest ih =>
    intro fuel cnt hn hf hfirst h8
    cases fuel with
    | zero => omega
    | succ fuel =>
      simp only [List.length_cons] at h8
      obtain ⟨c, r, htc, hc⟩ := spell_head ht
      have hcnt : cnt = 0 := hfirst.1 rfl
      have hterm : isTerm (rd (t ++ 58 :: bl ++ s)) = false := by
        subst htc
        exact hn c (by simp)
      have hn' : NoTerm (bl ++ s) := by
        rw [List.append_assoc] at hn
        have := hn.append_right
        exact fun d hd => this d (by simp only [List.cons_append, List.mem_cons]; exact .inr hd)
      have hl := spell_lexOne ht (58 :: bl ++ s) (.inr (.inr ⟨rfl, rfl⟩))
      have hdrop : (t ++ (58 :: bl ++ s)).drop t.length = 58 :: (bl ++ s) := List.drop_left
      have hrd : rd (58 :: (bl ++ s)) = 58 := rfl
      have hlen : t.length ≠ 0 := by rw [htc]; simp
      obtain ⟨fuel', e1, e2, e3⟩ := ih fuel (cnt + 1) hn'.append_right
        (by simp only [List.length_append, List.length_cons] at hf; omega) (by simp) (by omega)
      refine ⟨fuel', e1, e2, ?_⟩
      conv_lhs => unfold scan
      rw [if_neg (by rw [hterm]; simp), List.append_assoc, hl]
      simp only [hdrop, hrd, if_true, List.tail_cons, skipBlanks_of hb hs, isName, hcnt, and_self, if_neg (show ¬ (0 : Nat) = 8 by omega)]
      rw [hcnt] at e3
      rw [e3, show 0 + 1 + ls.length = 0 + ((off, Lexeme.name l) :: ls).length by simp only [List.length_cons]; omega]
      exact prepend_cons _ _ _

theorem lineBegins_skip {raw : List Byte} {ls : List (Nat × Lexeme)} {off : Nat} {s : Str} :
    LineBegins raw ls off s ↔ Begins true (skipBlanks 0 (code raw)).1 (skipBlanks 0 (code raw)).2 ls off s := by
  constructor
  · rintro ⟨bl, u, h1, h2, h3, h4⟩
    rw [h1, skipBlanks_of h2 h3]
    simpa using h4
  · intro h
    obtain ⟨bl, b1, b2, b3, b4⟩ := skipBlanks_spec 0 (code raw)
    refine ⟨bl, _, b1, fun d hd => (isBlank_iff d).1 (b3 d hd), ?_, ?_⟩
    · intro d r hd
      have := b4 d r hd
      rw [Bool.eq_false_iff, ne_eq, isBlank_iff] at this
      exact ⟨fun h => this (.inl h), fun h => this (.inr h)⟩
    · rw [b2] at h
      simpa using h

theorem lexemes_begins {raw : List Byte} {ls : List (Nat × Lexeme)} {off : Nat} {s : Str} (h : LineBegins raw ls off s)
    (h8 : ls.length ≤ 8) : ∃ fuel, s.length < fuel ∧ NoTerm s ∧ lexemes raw = prepend ls (scan fuel off s ls.length) := by
  obtain ⟨fuel, e1, e2, e3⟩ := scan_begins (lineBegins_skip.1 h) ((code raw).length + 1) 0 (noTerm_skip raw)
    (by have := skipBlanks_length 0 (code raw); omega) (by simp) (by omega)
  exact ⟨fuel, e1, e2, by rw [lexemes_code, e3, Nat.zero_add]⟩

/-- The text of the line splits where the lexemes end. -/
theorem begins_suffix {first : Bool} {off : Nat} {s : Str} {ls : List (Nat × Lexeme)} {off' : Nat} {s' : Str}
    (h : Begins first off s ls off' s') : ∃ p, s = p ++ s' ∧ off' = off + p.length := by
  induction h with
  | done => exact ⟨[], rfl, rfl⟩
  | cons first off t bl s x ls off' s' _ _ _ _ _ ih =>
    obtain ⟨p, rfl, rfl⟩ := ih
    exact ⟨t ++ bl ++ p, by simp, by simp; omega⟩
  | colon off t bl s l ls off' s' _ _ _ _ ih =>
    obtain ⟨p, rfl, rfl⟩ := ih
    exact ⟨t ++ 58 :: bl ++ p, by simp, by simp; omega⟩

/-- The remaining text starts a fresh lexeme, as far as digit runs are concerned. -/
theorem begins_fresh {first : Bool} {off : Nat} {s : Str} {ls : List (Nat × Lexeme)} {off' : Nat} {s' : Str}
    (h : Begins first off s ls off' s') (hn : NoTerm s) : ∀ q, Fresh q s → ∃ p, s = p ++ s' ∧ Fresh (q ++ p) s' := by
  induction h with
  | done => intro q hq; exact ⟨[], rfl, by rwa [List.append_nil]⟩
  | cons first off t bl s x ls off' s' ht hd hb hs _ ih =>
    intro q _
    have hn' : NoTerm (bl ++ s) := by
      rw [List.append_assoc] at hn
      exact hn.append_right
    have hf : Fresh (q ++ (t ++ bl)) s := by
      rcases List.eq_nil_or_concat bl with rfl | ⟨bl', e, rfl⟩
      · rcases hd with h | h
        · left
          obtain ⟨c, hc1, hc2⟩ := spell_punct_last ht h
          intro d hd
          rw [hc1, List.append_nil, List.getLast?_append, List.getLast?_singleton, Option.some_or,
            Option.some.injEq] at hd
          subst hd
          exact byte_punct _ hc2
        · right
          rw [delimited_iff hn', List.nil_append] at h
          exact byte_eot_notdigit _ h
      · left
        intro d hd
        simp only [List.concat_eq_append, ← List.append_assoc, List.getLast?_append,
            List.getLast?_singleton, Option.some_or, Option.some.injEq] at hd
        subst hd
        exact byte_blank e ((isBlank_iff e).2 (hb e (by simp)))
    obtain ⟨p, rfl, h2⟩ := ih hn'.append_right _ hf
    refine ⟨t ++ bl ++ p, by simp, ?_⟩
    rwa [← List.append_assoc]
  | colon off t bl s l ls off' s' ht hb hs _ ih =>
    intro q _
    have hn' : NoTerm (bl ++ s) := by
      rw [List.append_assoc] at hn
      have := hn.append_right
      exact fun d hd => this d (by simp only [List.cons_append, List.mem_cons]; exact .inr hd)
    have hf : Fresh (q ++ (t ++ 58 :: bl)) s := by
      left
      intro d hd
      rw [List.append_cons, ← List.append_assoc, ← List.append_assoc] at hd
      rcases List.eq_nil_or_concat bl with rfl | ⟨bl', e, rfl⟩
      · simp only [List.append_nil, List.getLast?_append, List.getLast?_singleton, Option.some_or,
          Option.some.injEq] at hd
        subst hd; decide
      · simp only [List.concat_eq_append, ← List.append_assoc, List.getLast?_append,
          List.getLast?_singleton, Option.some_or, Option.some.injEq] at hd
        subst hd
        exact byte_blank e ((isBlank_iff e).2 (hb e (by simp)))
    obtain ⟨p, rfl, h2⟩ := ih hn'.append_right _ hf
    refine ⟨t ++ 58 :: bl ++ p, by simp, ?_⟩
    rwa [← List.append_assoc]

end Gaia
