import Verif.Proofs.Diag
import Verif.Spec.LexFault

/-! Lexical errors: the scanner against the specification. -/
namespace Gaia
open Spec

theorem byte_alpha_word : ∀ c : Byte, isAlpha c = true → wordChar c = true := by decide +kernel
theorem byte_isDigit : ∀ c : Byte, isDigit c = true → isDig 10 c = true := by decide +kernel

theorem eot_iff_delim {s : Str} (h : NoTerm s) : isEndOfToken (rd s) = true ↔ Delimited s := (delimited_iff h).symm

theorem litStart_conv {pre : Str} {b : Nat} (h : LitStart pre b) : ∃ conv, ConvOK conv b ∧
    (∀ u, (pre = [] → ∃ d r, u = d :: r ∧ isDig 10 d = true) → lexOne (pre ++ u) = litBody conv b u pre.length) ∧
    (pre = [] ∧ b = 10 ∨ pre.length = 1 ∧ (b = 2 ∨ b = 16)) := by
  cases h with
  | hex => exact ⟨_, convOK_hex, fun u _ => rfl, .inr ⟨rfl, .inr rfl⟩⟩
  | bin => exact ⟨_, convOK_bin, fun u _ => rfl, .inr ⟨rfl, .inl rfl⟩⟩
  | dec =>
    refine ⟨_, convOK_dec, fun u hu => ?_, .inl ⟨rfl, rfl⟩⟩
    obtain ⟨d, r, rfl, hd⟩ := hu rfl
    obtain ⟨h1, h2, h3, h4, h5⟩ := byte_digit d hd
    unfold lexOne
    have hrd : rd (d :: r) = d := rfl
    simp only [List.nil_append, hrd, h1, h2, if_neg h3, if_neg h4, h5, if_true, Bool.false_eq_true, if_false, List.length_nil]

theorem digits_append {b : Nat} {ds r : Str} (hd : ∀ x ∈ ds, IsDigitOf b x) (hr : ∀ c r', r = c :: r' → ¬ IsDigitOf b c) :
    digits b (ds ++ r) = ds ∧ afterDigits b (ds ++ r) = r := by
  refine takeWhile_append_all (isDig b) ds r (fun c hc => (isDig_iff b c).2 (hd c hc)) ?_
  intro c r' h
  have := hr c r' h
  rw [← isDig_iff] at this
  simpa using this

theorem delim_not_digit {r : Str} (h : Delimited r) (b : Nat) : ∀ c r', r = c :: r' → ¬ IsDigitOf b c := by
  rintro c r' rfl ⟨v, hv, _⟩
  have : ∀ c : Byte, (c = 32 ∨ c = 9 ∨ c = 44 ∨ c = 40 ∨ c = 41) → digitValue c = none := by decide +kernel
  rcases h with h | ⟨c', r'', h, hc⟩
  · cases h
  · obtain ⟨rfl, rfl⟩ : c = c' ∧ r' = r'' := by simpa using h
    rw [this c hc] at hv; cases hv

theorem word_append {t r : Str} (ht : IsWord t) (hr : ∀ c r', r = c :: r' → wordChar c = false) :
    word (t ++ r) = t ∧ afterWord (t ++ r) = r := by
  obtain ⟨c, u, rfl, hc, hu⟩ := ht
  refine takeWhile_append_all wordChar (c :: u) r ?_ hr
  intro x hx
  rcases List.mem_cons.1 hx with rfl | hx
  · exact byte_alpha_word _ hc
  · exact hu x hx

theorem lexOne_word {t : Str} (ht : IsWord t) (r : Str) : lexOne (t ++ r) = wordBody (t ++ r) := by
  obtain ⟨c, u, rfl, hc, hu⟩ := ht
  unfold lexOne
  have hrd : rd (c :: u ++ r) = c := rfl
  simp only [hrd, alpha_not_punct hc, hc, if_true]

theorem lexOne_dir (r : Str) : lexOne (46 :: r) = dirBody (46 :: r) := by
  unfold lexOne
  have hrd : rd (46 :: r) = 46 := rfl
  have h1 : punctLexeme 46 = none := by decide
  have h2 : isAlpha 46 = false := by decide
  have h3 : isDigit 46 = false := by decide
  have h4 : (46 : Byte) ≠ 36 := by decide
  have h5 : (46 : Byte) ≠ 37 := by decide
  simp only [hrd, h1, h2, h3, if_neg h4, if_neg h5, Bool.false_eq_true, if_false, if_true]

/-- Completeness for one token. -/
theorem badToken_lexOne {s : Str} {e : Err} {k : Nat} (h : BadToken s e k) (hn : NoTerm s)
    (hs : e = .tooBigLiteral →
      ∀ pre ds b r, s = pre ++ ds ++ r → LitStart pre b → (∀ x ∈ ds, IsDigitOf b x) → positional b ds < 2 ^ 64) :
    lexOne s = .error (e, k) := by
  cases h with
  | literalChar pre ds b c r hp hne hd hc hr =>
    obtain ⟨conv, hconv, h1, h2⟩ := litStart_conv hp
    have hnr : NoTerm (c :: r) := hn.append_right
    have hne' : pre = [] → ∃ d r', ds ++ c :: r = d :: r' ∧ isDig 10 d = true := by
      rintro rfl
      cases ds with
      | nil => simp at hne
      | cons d ds =>
        refine ⟨d, ds ++ c :: r, rfl, ?_⟩
        rcases h2 with ⟨_, rfl⟩ | ⟨h, _⟩
        · exact (isDig_iff 10 d).2 (hd d (by simp))
        · simp at h
    obtain ⟨d1, d2⟩ := digits_append (r := c :: r) hd (by rintro c' r' h; obtain ⟨rfl, rfl⟩ : c = c' ∧ r = r' := by simpa using h
                                                          exact hc)
    rw [List.append_assoc, h1 _ hne', litBody_eq hconv, d1, d2, if_neg]
    rw [eot_iff_delim hnr]
    exact hr
  | literalEmpty pre b r hp hne hr =>
    obtain ⟨conv, hconv, h1, h2⟩ := litStart_conv hp
    have hnr : NoTerm r := hn.append_right
    obtain ⟨d1, d2⟩ := digits_append (b := b) (ds := []) (r := r) (by simp) (delim_not_digit hr b)
    rw [List.nil_append] at d1 d2
    rw [h1 r (fun h => absurd h hne), litBody_eq hconv, d1, d2, if_pos ((eot_iff_delim hnr).2 hr)]
    rcases h2 with ⟨h, _⟩ | ⟨h, hb⟩
    · exact absurd h hne
    · rw [h, if_neg (by simp), if_pos ⟨by simp, hb⟩]
  | literalBig pre ds b r hp hne hd hr hv =>
    obtain ⟨conv, hconv, h1, h2⟩ := litStart_conv hp
    have hnr : NoTerm r := hn.append_right
    have hbig := hs rfl pre ds b r rfl hp hd
    have hne' : pre = [] → ∃ d r', ds ++ r = d :: r' ∧ isDig 10 d = true := by
      rintro rfl
      cases ds with
      | nil => simp at hne
      | cons d ds =>
        refine ⟨d, ds ++ r, rfl, ?_⟩
        rcases h2 with ⟨_, rfl⟩ | ⟨h, _⟩
        · exact (isDig_iff 10 d).2 (hd d (by simp))
        · simp at h
    obtain ⟨d1, d2⟩ := digits_append hd (delim_not_digit hr b)
    have hl : ds.length ≠ 0 := by simpa using hne
    rw [List.append_assoc, h1 _ hne', litBody_eq hconv, d1, d2, if_pos ((eot_iff_delim hnr).2 hr), if_neg (by omega), if_neg,
      Nat.mod_eq_of_lt hbig, if_pos hv]
    rcases h2 with ⟨_, rfl⟩ | ⟨h, _⟩
    · simp
    · omega
  | wordLong t r ht hlen =>
    rw [lexOne_word ht, wordBody_eq, if_pos]
    obtain ⟨c, u, rfl, hc, hu⟩ := ht
    have hall : ∀ x ∈ c :: u, Spec.wordChar x = true := by
      intro x hx
      rcases List.mem_cons.1 hx with rfl | hx
      · exact byte_alpha_word _ hc
      · exact hu x hx
    unfold word
    rw [List.takeWhile_append_of_pos hall, List.length_append]
    omega
  | wordChar t c r ht hlen hc hcol hr =>
    have hnr : NoTerm (c :: r) := hn.append_right
    obtain ⟨d1, d2⟩ := word_append (r := c :: r) ht (by rintro c' r' h; obtain ⟨rfl, rfl⟩ : c = c' ∧ r = r' := by simpa using h
                                                        exact hc)
    rw [lexOne_word ht, wordBody_eq, d1, d2, if_neg (by omega), if_neg]
    rw [textStop_iff, eot_iff_delim hnr]
    rintro (h | h)
    · exact hr h
    · exact hcol h
  | directiveLong t r ht hlen =>
    rw [List.cons_append, lexOne_dir, dirBody_eq, if_pos]
    rw [List.takeWhile_append_of_pos ht, List.length_append]
    omega
  | directiveUnknown t r ht hlen hr hx =>
    have hnr : NoTerm r := by
      have : (46 :: t ++ r) = (46 :: t) ++ r := rfl
      exact (this ▸ hn).append_right
    have hra : ∀ c r', r = c :: r' → isAlpha c = false := by
      rintro c r' rfl
      exact byte_eot_alpha c ((eot_iff_delim hnr).2 hr)
    obtain ⟨d1, d2⟩ := takeWhile_append_all isAlpha t r ht hra
    have htake : (46 :: (t ++ r)).take (1 + t.length) = 46 :: t := by
      rw [Nat.add_comm, List.take_succ_cons, List.take_left]
    rw [List.cons_append, lexOne_dir, dirBody_eq, d1, d2, if_neg (by omega), if_pos ((eot_iff_delim hnr).2 hr), htake, hx]
  | directiveChar t c r ht hlen hc hr =>
    have hnr : NoTerm (c :: r) := by
      have : (46 :: t ++ c :: r) = (46 :: t) ++ (c :: r) := rfl
      exact (this ▸ hn).append_right
    obtain ⟨d1, d2⟩ := takeWhile_append_all isAlpha t (c :: r) ht (by
      rintro c' r' h; obtain ⟨rfl, rfl⟩ : c = c' ∧ r = r' := by simpa using h
      exact hc)
    rw [List.cons_append, lexOne_dir, dirBody_eq, d1, d2, if_neg (by omega), if_neg]
    rw [eot_iff_delim hnr]
    exact hr
  | other c r h1 h2 h3 h4 =>
    unfold lexOne
    have hrd : rd (c :: r) = c := rfl
    simp only [hrd, h1, h2, h3, if_neg h4.1, if_neg h4.2.1, if_neg h4.2.2, Bool.false_eq_true, if_false]

theorem noTerm_after {p : Byte → Bool} {s : Str} (h : NoTerm s) : NoTerm (s.dropWhile p) :=
  fun c hc => h c ((List.dropWhile_suffix p).subset hc)

/-- A literal body that fails. -/
theorem litBody_bad {pre : Str} {b : Nat} {conv : Byte → Option Nat} (hp : LitStart pre b) (hconv : ConvOK conv b) {u : Str}
    (hn : NoTerm u) (hu : pre = [] → digits b u ≠ []) (hsm : positional b (digits b u) < 2 ^ 64) {e : Err} {k : Nat}
    (h : litBody conv b u pre.length = .error (e, k)) : BadToken (pre ++ u) e k := by
  have hsplit : u = digits b u ++ afterDigits b u := (List.takeWhile_append_dropWhile).symm
  have hna : NoTerm (afterDigits b u) := noTerm_after hn
  have hpre : pre = [] ∧ b = 10 ∨ pre.length = 1 ∧ (b = 2 ∨ b = 16) := (litStart_conv hp).choose_spec.2.2
  rw [litBody_eq hconv] at h
  split_ifs at h with h1 h2 h3 h4
  · exfalso
    have : pre = [] := List.length_eq_zero_iff.1 (by omega)
    exact hu this (List.length_eq_zero_iff.1 (by omega))
  · obtain ⟨rfl, rfl⟩ : Err.illegalChar = e ∧ 1 = k := by simpa using h
    have hp1 : pre.length = 1 := by
      rcases hpre with ⟨rfl, rfl⟩ | ⟨h, _⟩
      · simp at h3
      · exact h
    have hd0 : digits b u = [] := List.length_eq_zero_iff.1 (by omega)
    have hua : afterDigits b u = u := by
      rw [hd0, List.nil_append] at hsplit
      exact hsplit.symm
    rw [hua] at h1
    exact .literalEmpty pre b u hp (by rintro rfl; simp at hp1) ((eot_iff_delim hn).1 h1)
  · obtain ⟨rfl, rfl⟩ : Err.tooBigLiteral = e ∧ 0 = k := by simpa using h
    rw [Nat.mod_eq_of_lt hsm] at h4
    have hne : digits b u ≠ [] := by
      intro h0
      rw [h0] at h4
      simp [positional] at h4
    have := BadToken.literalBig pre (digits b u) b (afterDigits b u) hp hne (digits_all b u) ((eot_iff_delim hna).1 h1) h4
    rwa [List.append_assoc, ← hsplit] at this
  · obtain ⟨rfl, rfl⟩ : Err.illegalChar = e ∧ pre.length + (digits b u).length = k := by simpa using h
    cases ha : afterDigits b u with
    | nil => rw [ha] at h1; exact absurd isEndOfToken_zero h1
    | cons c r =>
      have hc : ¬ IsDigitOf b c := by
        rw [← isDig_iff]
        have := dropWhile_head (isDig b) u c r ha
        simp [this]
      rw [ha] at h1 hna
      have hne : pre ++ digits b u ≠ [] := by
        intro h0
        obtain ⟨h5, h6⟩ := List.append_eq_nil_iff.1 h0
        exact hu h5 h6
      have := BadToken.literalChar pre (digits b u) b c r hp hne (digits_all b u) hc (fun h => h1 ((eot_iff_delim hna).2 h))
      rw [List.append_assoc, ← ha, ← hsplit] at this
      exact this

/-- Soundness for one token. -/
theorem lexOne_badToken {s : Str} {e : Err} {k : Nat} (hne : s ≠ []) (hn : NoTerm s) (hsm : HeadSmall s)
    (h : lexOne s = .error (e, k)) : BadToken s e k := by
  obtain ⟨c, s', rfl⟩ := List.exists_cons_of_ne_nil hne
  have hrd : rd (c :: s') = c := rfl
  have hn' : NoTerm s' := fun x hx => hn x (by simp [hx])
  unfold lexOne at h
  rw [hrd] at h
  cases hp : punctLexeme c with
  | some x => rw [hp] at h; cases h
  | none =>
    rw [hp] at h
    simp only [List.tail_cons] at h
    split_ifs at h with h1 h2 h3 h4 h5
    · -- word
      rw [wordBody_eq] at h
      have hsplit : c :: s' = word (c :: s') ++ afterWord (c :: s') := (List.takeWhile_append_dropWhile).symm
      have hna : NoTerm (afterWord (c :: s')) := noTerm_after hn
      have hw : IsWord (word (c :: s')) := by
        unfold word
        have : wordChar c = true := byte_alpha_word c h1
        rw [List.takeWhile_cons, if_pos this]
        exact ⟨c, _, rfl, h1, takeWhile_all _ _⟩
      split_ifs at h with g1 g2
      · obtain ⟨rfl, rfl⟩ : Err.tooLongLabel = e ∧ 0 = k := by simpa using h
        rw [hsplit]
        exact .wordLong _ _ hw g1
      · obtain ⟨rfl, rfl⟩ : Err.illegalChar = e ∧ _ = k := by simpa using h
        cases ha : afterWord (c :: s') with
        | nil => rw [ha] at g2; exact absurd isTextStop_zero g2
        | cons d r =>
          rw [ha] at g2 hna
          have hd : wordChar d = false := dropWhile_head wordChar _ d r ha
          rw [textStop_iff, eot_iff_delim hna] at g2
          push Not at g2
          have := BadToken.wordChar _ d r hw (by omega) hd g2.2 g2.1
          rw [← ha, ← hsplit] at this
          exact this
    · subst h2
      exact litBody_bad .hex convOK_hex hn' (by simp) (hsm.1 rfl) h
    · subst h3
      exact litBody_bad .bin convOK_bin hn' (by simp) (hsm.2.1 rfl) h
    · refine litBody_bad (pre := []) .dec convOK_dec hn (fun _ h0 => ?_) (hsm.2.2 h4) h
      unfold digits at h0
      have : isDig 10 c = true := byte_isDigit c h4
      rw [List.takeWhile_cons, if_pos this] at h0
      cases h0
    · subst h5
      rw [dirBody_eq] at h
      have hsplit : s' = s'.takeWhile isAlpha ++ s'.dropWhile isAlpha := (List.takeWhile_append_dropWhile).symm
      have hna : NoTerm (s'.dropWhile isAlpha) := noTerm_after hn'
      have hall : ∀ x ∈ s'.takeWhile isAlpha, isAlpha x = true := takeWhile_all _ _
      split_ifs at h with g1 g2
      · obtain ⟨rfl, rfl⟩ : Err.illegalDirective = e ∧ 0 = k := by simpa using h
        have := BadToken.directiveLong _ (s'.dropWhile isAlpha) hall g1
        rwa [List.cons_append, ← hsplit] at this
      · have htake : (46 :: s').take (1 + (s'.takeWhile isAlpha).length) = 46 :: s'.takeWhile isAlpha := by
          rw [Nat.add_comm, List.take_succ_cons, take_takeWhile]
        rw [htake] at h
        split at h
        · cases h
        · rename_i hx
          obtain ⟨rfl, rfl⟩ : Err.illegalDirective = e ∧ 0 = k := by simpa using h
          have := BadToken.directiveUnknown _ (s'.dropWhile isAlpha) hall (by omega) ((eot_iff_delim hna).1 g2) hx
          rwa [List.cons_append, ← hsplit] at this
      · obtain ⟨rfl, rfl⟩ : Err.illegalChar = e ∧ _ = k := by simpa using h
        cases ha : s'.dropWhile isAlpha with
        | nil => rw [ha] at g2; exact absurd isEndOfToken_zero g2
        | cons d r =>
          rw [ha] at g2 hna
          have hd : isAlpha d = false := dropWhile_head isAlpha _ d r ha
          have := BadToken.directiveChar _ d r hall (by omega) hd (fun h => g2 ((eot_iff_delim hna).2 h))
          rw [List.cons_append, ← ha, ← hsplit] at this
          exact this
    · obtain ⟨rfl, rfl⟩ : Err.illegalChar = e ∧ 0 = k := by simpa using h
      exact .other c s' (by simpa using h1) (by simpa using h4) hp ⟨h2, h3, h5⟩

end Gaia
