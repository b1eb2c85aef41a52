import Verif.Proofs.LexFault2

/-! Lexical errors of whole lines: completeness and soundness. -/
namespace Gaia
open Spec

theorem small_of {line p s : Str} (hh : HugeFree line) (hp : code line = p ++ s) (hf : Fresh p s) :
    ∀ pre ds b r, s = pre ++ ds ++ r → LitStart pre b → (∀ x ∈ ds, IsDigitOf b x) → positional b ds < 2 ^ 64 := by
  intro pre ds b r hs hl hd
  cases hl with
  | hex =>
    have : code line = (p ++ [36]) ++ ds ++ r := by rw [hp, hs]; simp
    exact (hh _ _ _ this).1 (by simp) hd
  | bin =>
    have : code line = (p ++ [37]) ++ ds ++ r := by rw [hp, hs]; simp
    exact (hh _ _ _ this).2.1 (by simp) hd
  | dec =>
    rcases hf with hf | hf
    · have : code line = p ++ ds ++ r := by rw [hp, hs]; simp
      exact (hh _ _ _ this).2.2 hf hd
    · cases ds with
      | nil => simp [positional]
      | cons d ds =>
        rw [hs] at hf
        have h1 := hd d (by simp)
        have h2 : isDigit d = false := hf
        rw [← isDig_iff] at h1
        have : ∀ c : Byte, isDig 10 c = true → isDigit c = true := by decide +kernel
        rw [this d h1] at h2
        cases h2

theorem lineBegins_fresh {line : List Byte} {ls : List (Nat × Lexeme)} {off : Nat} {s : Str} (h : LineBegins line ls off s) :
    ∃ p, code line = p ++ s ∧ Fresh p s := by
  obtain ⟨bl, u, h1, h2, h3, h4⟩ := h
  have hnt : NoTerm u := by
    have := noTerm_code line
    rw [h1] at this
    exact this.append_right
  have hf : Fresh bl u := by
    left
    intro d hd
    exact byte_blank d ((isBlank_iff d).2 (h2 d (List.mem_of_getLast? hd)))
  obtain ⟨p, rfl, hp⟩ := begins_fresh h4 hnt bl hf
  exact ⟨bl ++ p, by rw [h1, List.append_assoc], hp⟩

theorem badToken_ne {s : Str} {e : Err} {k : Nat} (h : BadToken s e k) : s ≠ [] := by
  cases h with
  | literalChar => simp
  | literalEmpty pre b r hp hne => simp [hne]
  | literalBig pre ds b r hp hne => simp [hne]
  | wordLong t r ht => obtain ⟨c, u, rfl, _⟩ := ht; simp
  | wordChar => simp
  | directiveLong => simp
  | directiveUnknown => simp
  | directiveChar => simp
  | other => simp

theorem noTerm_head {s : Str} (h : NoTerm s) (hne : s ≠ []) : isTerm (rd s) = false := by
  cases s with
  | nil => exact absurd rfl hne
  | cons c r => exact h c (by simp)

/-- A word followed by a colon is read as a word. -/
theorem lexOne_word_colon {t r : Str} (ht : IsWord t) (hlen : t.length ≤ 63) :
    lexOne (t ++ 58 :: r) = .ok (t.length, wordLexeme (t.map toUpper)) := by
  obtain ⟨d1, d2⟩ := word_append (r := 58 :: r) ht (by
    rintro c' r' h; obtain ⟨rfl, rfl⟩ : (58 : Byte) = c' ∧ r = r' := by simpa using h
    decide)
  rw [lexOne_word ht, wordBody_eq, d1, d2, if_neg (by omega), if_pos]
  · rw [textStop_iff]; exact .inr rfl

/-- Completeness: a lexical fault is reported. -/
theorem lexFault_complete {line : List Byte} {e : Err} {pos : Nat} (hh : e = .tooBigLiteral → HugeFree line) (h : LexFault line e pos) :
    lexemes line = .error (.at e pos) := by
  cases h with
  | token ls off s e k hb h8 ht =>
    obtain ⟨fuel, e1, e2, e3⟩ := lexemes_begins hb h8
    obtain ⟨p, hp, hf⟩ := lineBegins_fresh hb
    rw [e3]
    cases fuel with
    | zero => omega
    | succ fuel =>
      unfold scan
      rw [noTerm_head e2 (badToken_ne ht), badToken_lexOne ht e2 (fun he => small_of (hh he) hp hf)]
      rfl
  | colon ls off t r hb h8 ht hlen hn =>
    obtain ⟨fuel, e1, e2, e3⟩ := lexemes_begins hb (by omega)
    rw [e3]
    cases fuel with
    | zero => omega
    | succ fuel =>
      unfold scan
      rw [noTerm_head e2 (by simp), lexOne_word_colon ht hlen]
      have hdrop : (t ++ 58 :: r).drop t.length = 58 :: r := List.drop_left
      have hrd : rd (58 :: r) = 58 := rfl
      simp only [hdrop, hrd, if_true, Bool.false_eq_true, if_false, if_neg (show ¬ ls.length = 8 by omega)]
      rw [if_neg]
      · rfl
      · rintro ⟨h1, h2⟩
        refine hn ⟨List.length_eq_zero_iff.1 h2, ?_⟩
        cases hx : wordLexeme (t.map toUpper) with
        | name l => exact ⟨l, rfl⟩
        | _ => rw [hx] at h1; simp [isName] at h1

/-- Completeness: nine lexemes are too many. -/
theorem tooMany_complete {line : List Byte} (h : TooMany line) : lexemes line = .error .tooMany := by
  obtain ⟨ls, off, t, x, r, hb, h8, ht, hd⟩ := h
  obtain ⟨fuel, e1, e2, e3⟩ := lexemes_begins hb (by omega)
  rw [e3]
  obtain ⟨c, t', htc, -⟩ := spell_head ht
  have hne : t ++ r ≠ [] := by rw [htc]; simp
  have hl : ∃ y, lexOne (t ++ r) = .ok (t.length, y) := by
    rcases hd with h | h | ⟨h, r', rfl⟩
    · exact ⟨x, spell_lexOne ht r (.inl h)⟩
    · exact ⟨x, spell_lexOne ht r (.inr (.inl ((delimited_iff e2.append_right).1 h)))⟩
    · have hlen : t.length ≤ 63 := by
        obtain ⟨d, u, rfl, hd1, -⟩ := h
        cases ht with
        | word _ _ _ _ hlen => exact hlen
        | hex => exact absurd hd1 (by decide)
        | bin => exact absurd hd1 (by decide)
        | dec _ _ h =>
          have := h d (by simp)
          rw [← isDig_iff] at this
          have hno : ∀ c : Byte, isDig 10 c = true → isAlpha c = false := by decide +kernel
          rw [hno d this] at hd1; cases hd1
        | directive _ _ hx =>
          exfalso
          obtain ⟨r2, h2, -⟩ := directive_shape hx
          rw [List.cons.injEq] at h2
          rw [h2.1] at hd1
          exact absurd hd1 (by decide)
        | punct _ _ hx => simp
      exact ⟨_, lexOne_word_colon h hlen⟩
  obtain ⟨y, hy⟩ := hl
  cases fuel with
  | zero => omega
  | succ fuel =>
    unfold scan
    rw [noTerm_head e2 hne, hy]
    simp [h8, prepend]

/-- A lexeme that may be followed by a colon was read from a word. -/
theorem spell_isWord {t w : Str} {x : Lexeme} (h : Spell t x) (hx : x = wordLexeme w) :
    IsWord t ∧ t.length ≤ 63 ∧ x = wordLexeme (t.map toUpper) := by
  have hno : ∀ v, Lexeme.lit v ≠ wordLexeme w := by
    intro v
    unfold wordLexeme
    split_ifs <;> try simp
    split <;> simp
  cases h with
  | word c t hc ht hlen => exact ⟨⟨c, t, rfl, hc, ht⟩, hlen, rfl⟩
  | hex => exact absurd hx (hno _)
  | bin => exact absurd hx (hno _)
  | dec => exact absurd hx (hno _)
  | directive _ _ h =>
    exfalso
    unfold directiveLexeme at h
    unfold wordLexeme at hx
    split_ifs at h <;> simp only [Option.some.injEq] at h <;> subst h <;> (split_ifs at hx; split at hx <;> simp at hx)
  | punct c _ h =>
    exfalso
    have := ((punct_rel c).2 _ h).2.2
    rw [hx, wordLexeme_not_punct] at this
    cases this

/-- What a failed scan of a text says. -/
def ScanFault (first : Bool) (off : Nat) (s : Str) (cnt : Nat) : LexFail → Prop
  | .at e pos => ∃ ls off' s', Begins first off s ls off' s' ∧
      ((∃ k, BadToken s' e k ∧ pos = off' + k ∧ cnt + ls.length ≤ 8) ∨
       (e = .illegalChar ∧ ∃ t r, s' = t ++ 58 :: r ∧ IsWord t ∧ t.length ≤ 63 ∧ pos = off' + t.length ∧ cnt + ls.length ≤ 7 ∧
         ¬ (cnt + ls.length = 0 ∧ ∃ l, wordLexeme (t.map toUpper) = .name l)))
  | .tooMany => ∃ ls off' t x r, Begins first off s ls off' (t ++ r) ∧ cnt + ls.length = 8 ∧ Spell t x ∧
      (x.isPunct = true ∨ Delimited r ∨ IsWord t ∧ ∃ r', r = 58 :: r')

theorem ScanFault.cons {first : Bool} {off : Nat} {t bl s : Str} {x : Lexeme} {cnt : Nat} {f : LexFail}
    (ht : Spell t x) (hd : x.isPunct = true ∨ Delimited (bl ++ s)) (hb : Blanks bl) (hs : NoLeadingBlank s)
    (h : ScanFault false (off + t.length + bl.length) s (cnt + 1) f) : ScanFault first off (t ++ bl ++ s) cnt f := by
  cases f with
  | «at» e pos =>
    obtain ⟨ls, off', s', h1, h2⟩ := h
    refine ⟨(off, x) :: ls, off', s', .cons _ _ _ _ _ _ _ _ _ ht hd hb hs h1, ?_⟩
    have : cnt + ((off, x) :: ls).length = cnt + 1 + ls.length := by simp only [List.length_cons]; omega
    rw [this]; exact h2
  | tooMany =>
    obtain ⟨ls, off', t', x', r', h1, h2⟩ := h
    refine ⟨(off, x) :: ls, off', t', x', r', .cons _ _ _ _ _ _ _ _ _ ht hd hb hs h1, ?_⟩
    have : cnt + ((off, x) :: ls).length = cnt + 1 + ls.length := by simp only [List.length_cons]; omega
    rw [this]; exact h2

theorem ScanFault.colon {off : Nat} {t bl s l : Str} {cnt : Nat} {f : LexFail}
    (ht : Spell t (.name l)) (hb : Blanks bl) (hs : NoLeadingBlank s)
    (h : ScanFault false (off + t.length + 1 + bl.length) s (cnt + 1) f) : ScanFault true off (t ++ 58 :: bl ++ s) cnt f := by
  cases f with
  | «at» e pos =>
    obtain ⟨ls, off', s', h1, h2⟩ := h
    refine ⟨(off, .name l) :: ls, off', s', .colon _ _ _ _ _ _ _ _ ht hb hs h1, ?_⟩
    have : cnt + ((off, Lexeme.name l) :: ls).length = cnt + 1 + ls.length := by simp only [List.length_cons]; omega
    rw [this]; exact h2
  | tooMany =>
    obtain ⟨ls, off', t', x', r', h1, h2⟩ := h
    refine ⟨(off, .name l) :: ls, off', t', x', r', .colon _ _ _ _ _ _ _ _ ht hb hs h1, ?_⟩
    have : cnt + ((off, Lexeme.name l) :: ls).length = cnt + 1 + ls.length := by simp only [List.length_cons]; omega
    rw [this]; exact h2

theorem rd_colon_cons {s : Str} (h : rd s = 58) : s = 58 :: s.tail := by
  cases s with
  | nil => simp [rd] at h
  | cons d r =>
    have : d = 58 := h
    rw [this]; rfl

/-- Soundness of a failed scan. -/
theorem scan_fault {line : List Byte} (hh : HugeFree line) :
    ∀ (fuel off : Nat) (p s : Str) (cnt : Nat) (f : LexFail), code line = p ++ s → Fresh p s → cnt ≤ 8 →
      s.length < fuel → scan fuel off s cnt = .error f → ScanFault (decide (cnt = 0)) off s cnt f := by
  intro fuel
  induction fuel with
  | zero => intro off p s cnt f _ _ _ h; omega
  | succ fuel ih =>
    intro off p s cnt f hp hf hcnt hlen h
    have hnt : NoTerm s := by
      have := noTerm_code line
      rw [hp] at this
      exact this.append_right
    unfold scan at h
    by_cases h1 : isTerm (rd s) = true
    · rw [if_pos h1] at h; cases h
    · rw [if_neg h1] at h
      have hne : s ≠ [] := by
        rintro rfl
        exact h1 isTerm_zero
      cases hk : lexOne s with
      | error q =>
        obtain ⟨e, k⟩ := q
        rw [hk] at h
        simp only [Except.error.injEq] at h
        subst h
        exact ⟨[], off, s, .done _ _ _, .inl ⟨k, lexOne_badToken hne hnt (headSmall_of hh hp hf) hk, rfl, by simpa using hcnt⟩⟩
      | ok q =>
        obtain ⟨n, x⟩ := q
        rw [hk] at h
        simp only at h
        obtain ⟨hsp, hfol⟩ := lexOne_spell hne (headSmall_of hh hp hf) hk
        obtain ⟨hn1, hn2⟩ := lexOne_len hne hk
        have htake : (s.take n).length = n := by rw [List.length_take]; omega
        have hsplit : s = s.take n ++ s.drop n := (List.take_append_drop n s).symm
        have hnd : NoTerm (s.drop n) := hnt.drop n
        by_cases h8 : cnt = 8
        · rw [if_pos h8] at h
          simp only [Except.error.injEq] at h
          subst h
          refine ⟨[], off, s.take n, x, s.drop n, by rw [← hsplit]; exact .done _ _ _, by simpa using h8, hsp, ?_⟩
          rcases hfol with h | h | ⟨h, w, hw⟩
          · exact .inl h
          · exact .inr (.inl ((eot_iff_delim hnd).1 h))
          · exact .inr (.inr ⟨(spell_isWord hsp hw).1, _, rd_colon_cons h⟩)
        rw [if_neg h8] at h
        by_cases hc : rd (s.drop n) = 58
        · rw [if_pos hc] at h
          have hcons : s.drop n = 58 :: (s.drop n).tail := rd_colon_cons hc
          by_cases hname : isName x = true ∧ cnt = 0
          · rw [if_pos hname] at h
            obtain ⟨bl, b1, b2, b3, b4⟩ := skipBlanks_spec (off + n + 1) (s.drop n).tail
            generalize hs' : (skipBlanks (off + n + 1) (s.drop n).tail).2 = s' at *
            generalize ho' : (skipBlanks (off + n + 1) (s.drop n).tail).1 = o' at *
            cases hrec : scan fuel o' s' (cnt + 1) with
            | ok ls' => rw [hrec] at h; cases h
            | error f' =>
              rw [hrec] at h
              simp only [Except.error.injEq] at h
              have hs2 : s = s.take n ++ 58 :: bl ++ s' := by
                conv_lhs => rw [hsplit, hcons, b1]
                simp
              have hB : Blanks bl := fun d hd => (isBlank_iff d).1 (b3 d hd)
              have hN : NoLeadingBlank s' := by
                intro d r hd
                have := b4 d r hd
                rw [Bool.eq_false_iff, ne_eq, isBlank_iff] at this
                exact ⟨fun h => this (.inl h), fun h => this (.inr h)⟩
              have hlen' : s'.length < fuel := by
                have := congrArg List.length hs2
                simp only [List.length_append, List.length_cons] at this
                omega
              have hfresh : Fresh (p ++ (s.take n ++ 58 :: bl)) s' := by
                left
                intro d hd
                rw [List.append_cons, ← List.append_assoc, ← List.append_assoc] at hd
                rcases List.eq_nil_or_concat bl with rfl | ⟨bl', e, rfl⟩
                · simp only [List.append_nil, List.getLast?_append, List.getLast?_singleton, Option.some_or,
                    Option.some.injEq] at hd
                  subst hd; decide
                · simp only [List.concat_eq_append, ← List.append_assoc, List.getLast?_append,
                    List.getLast?_singleton, Option.some_or, Option.some.injEq] at hd
                  subst hd
                  exact byte_blank e (b3 e (by simp))
              have := ih o' (p ++ (s.take n ++ 58 :: bl)) s' (cnt + 1) f'
                (by rw [hp, List.append_assoc]; congr 1) hfresh (by omega) hlen' hrec
              cases x with
              | name l =>
                rw [← h, hs2]
                rw [show decide (cnt = 0) = true by simp [hname.2]]
                refine ScanFault.colon hsp hB hN ?_
                rw [htake, ← b2]
                simpa using this
              | _ => simp [isName] at hname
          · rw [if_neg hname] at h
            simp only [Except.error.injEq] at h
            subst h
            rcases hfol with h | h | ⟨h, w, hw⟩
            · refine ⟨[(off, x)], off + n, s.drop n, ?_, .inl ⟨0, ?_, rfl, by simp only [List.length_singleton]; omega⟩⟩
              · have := Begins.cons (decide (cnt = 0)) off (s.take n) [] (s.drop n) x [] (off + n) (s.drop n) hsp (.inl h)
                  (by intro d hd; cases hd)
                  (by rw [hcons]; rintro d r hd; obtain ⟨rfl, -⟩ : (58 : Byte) = d ∧ _ := by simpa using hd
                      decide)
                  (by rw [htake]; exact .done _ _ _)
                rwa [List.append_nil, ← hsplit] at this
              · rw [hcons]
                exact .other 58 _ (by decide) (by decide) (by decide) (by decide)
            · rw [hc] at h
              exact absurd h (by decide)
            · obtain ⟨g1, g2, g3⟩ := spell_isWord hsp hw
              refine ⟨[], off, s, .done _ _ _, .inr ⟨rfl, s.take n, (s.drop n).tail, ?_, g1, g2, by rw [htake], ?_, ?_⟩⟩
              · rw [← hcons]; exact hsplit
              · simp only [List.length_nil]; omega
              · rintro ⟨q1, l, q2⟩
                refine hname ⟨?_, by simpa using q1⟩
                rw [g3, q2]; rfl
        · rw [if_neg hc] at h
          obtain ⟨bl, b1, b2, b3, b4⟩ := skipBlanks_spec (off + n) (s.drop n)
          generalize hs' : (skipBlanks (off + n) (s.drop n)).2 = s' at *
          generalize ho' : (skipBlanks (off + n) (s.drop n)).1 = o' at *
          cases hrec : scan fuel o' s' (cnt + 1) with
          | ok ls' => rw [hrec] at h; cases h
          | error f' =>
            rw [hrec] at h
            simp only [Except.error.injEq] at h
            have hs2 : s = s.take n ++ bl ++ s' := by
              conv_lhs => rw [hsplit, b1]
              simp
            have hB : Blanks bl := fun d hd => (isBlank_iff d).1 (b3 d hd)
            have hN : NoLeadingBlank s' := by
              intro d r hd
              have := b4 d r hd
              rw [Bool.eq_false_iff, ne_eq, isBlank_iff] at this
              exact ⟨fun h => this (.inl h), fun h => this (.inr h)⟩
            have hlen' : s'.length < fuel := by
              have := congrArg List.length hs2
              simp only [List.length_append] at this
              omega
            have hD : x.isPunct = true ∨ isEndOfToken (rd (s.drop n)) = true := by
              rcases hfol with h | h | h
              · exact .inl h
              · exact .inr h
              · exact absurd h.1 hc
            have hfresh : Fresh (p ++ (s.take n ++ bl)) s' := by
              rcases List.eq_nil_or_concat bl with rfl | ⟨bl', e, rfl⟩
              · rcases hD with h | h
                · left
                  obtain ⟨c, hc1, hc2⟩ := spell_punct_last hsp h
                  intro d hd
                  rw [hc1, List.append_nil, List.getLast?_append, List.getLast?_singleton, Option.some_or,
                    Option.some.injEq] at hd
                  subst hd
                  exact byte_punct _ hc2
                · right
                  have : s.drop n = s' := by simpa using b1
                  rw [← this]
                  exact byte_eot_notdigit _ h
              · left
                intro d hd
                simp only [List.concat_eq_append, ← List.append_assoc, List.getLast?_append,
                    List.getLast?_singleton, Option.some_or, Option.some.injEq] at hd
                subst hd
                exact byte_blank e (b3 e (by simp))
            have := ih o' (p ++ (s.take n ++ bl)) s' (cnt + 1) f'
              (by rw [hp, List.append_assoc]; congr 1) hfresh (by omega) hlen' hrec
            rw [← h, hs2]
            refine ScanFault.cons hsp ?_ hB hN ?_
            · rw [← b1, delimited_iff hnd]; exact hD
            · rw [htake, ← b2]
              simpa using this

theorem lexemes_fault {line : List Byte} {f : LexFail} (hh : HugeFree line) (h : lexemes line = .error f) :
    ∃ bl u, code line = bl ++ u ∧ Blanks bl ∧ NoLeadingBlank u ∧ ScanFault true bl.length u 0 f := by
  rw [lexemes_code] at h
  obtain ⟨bl, b1, b2, b3, b4⟩ := skipBlanks_spec 0 (code line)
  have hfresh : Fresh bl (skipBlanks 0 (code line)).2 := by
    left
    intro d hd
    exact byte_blank d (b3 d (List.mem_of_getLast? hd))
  refine ⟨bl, _, b1, fun d hd => (isBlank_iff d).1 (b3 d hd), ?_, ?_⟩
  · intro d r hd
    have := b4 d r hd
    rw [Bool.eq_false_iff, ne_eq, isBlank_iff] at this
    exact ⟨fun h => this (.inl h), fun h => this (.inr h)⟩
  · have := scan_fault hh _ _ bl _ 0 f b1 hfresh (by omega) (by have := skipBlanks_length 0 (code line); omega) h
    rw [b2] at this
    simpa using this

/-- Soundness: a reported lexical error is a fault of the line. -/
theorem lexFault_sound {line : List Byte} {e : Err} {pos : Nat} (hh : HugeFree line) (h : lexemes line = .error (.at e pos)) :
    LexFault line e pos := by
  obtain ⟨bl, u, h1, h2, h3, ls, off, s, h4, h5⟩ := lexemes_fault hh h
  have hb : LineBegins line ls off s := ⟨bl, u, h1, h2, h3, h4⟩
  rcases h5 with ⟨k, g1, rfl, g3⟩ | ⟨rfl, t, r, rfl, g2, g3, rfl, g5, g6⟩
  · exact .token ls off s e k hb (by omega) g1
  · refine .colon ls off t r hb (by omega) g2 g3 ?_
    rintro ⟨rfl, h⟩
    exact g6 ⟨rfl, h⟩

theorem tooMany_sound {line : List Byte} (hh : HugeFree line) (h : lexemes line = .error .tooMany) : TooMany line := by
  obtain ⟨bl, u, h1, h2, h3, ls, off, t, x, r, h4, h5, h6⟩ := lexemes_fault hh h
  exact ⟨ls, off, t, x, r, ⟨bl, u, h1, h2, h3, h4⟩, by omega, h6⟩

/-- Lexical errors, exactly. -/
theorem lexemes_error_iff {line : List Byte} (hh : HugeFree line) (e : Err) (pos : Nat) :
    lexemes line = .error (.at e pos) ↔ LexFault line e pos := ⟨lexFault_sound hh, lexFault_complete fun _ => hh⟩

theorem lexemes_tooMany_iff {line : List Byte} (hh : HugeFree line) : lexemes line = .error .tooMany ↔ TooMany line :=
  ⟨tooMany_sound hh, tooMany_complete⟩

end Gaia
