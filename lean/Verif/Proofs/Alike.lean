import Verif.Proofs.Congr

/-! Case and layout do not matter. -/
set_option linter.unusedSimpArgs false
namespace Gaia
open Spec

/-- Characters that count as the same. -/
def UpEq (c c' : Byte) : Prop := toUpper c = toUpper c'

theorem Recased.upEq {c c' : Byte} (h : Recased c c') : UpEq c c' := by
  unfold UpEq
  rcases h with rfl | ⟨h1, h2, rfl⟩ | ⟨h1, h2, rfl⟩
  · rfl
  · have : ∀ c : Byte, 97 ≤ c.toNat → c.toNat ≤ 122 → toUpper c = toUpper (c - 32) := by decide +kernel
    exact this c h1 h2
  · have : ∀ c : Byte, 65 ≤ c.toNat → c.toNat ≤ 90 → toUpper c = toUpper (c + 32) := by decide +kernel
    exact this c h1 h2

theorem Spec.Alike.mono {R S : Byte → Byte → Prop} (hRS : ∀ c c', R c c' → S c c') {s s' : Str} (h : Alike R s s') : Alike S s s' := by
  induction h with
  | trail b b' hb hb' => exact .trail b b' hb hb'
  | char c c' s s' hc h1 h2 _ ih => exact .char c c' s s' (hRS _ _ hc) h1 h2 ih
  | blanks b b' s s' hb hb' hne hne' _ ih => exact .blanks b b' s s' hb hb' hne hne' ih

theorem blanks_head {b s : Str} (hb : Blanks b) (hne : b ≠ []) : ∃ c r, b ++ s = c :: r ∧ (c = 32 ∨ c = 9) := by
  cases b with
  | nil => exact absurd rfl hne
  | cons c b => exact ⟨c, b ++ s, rfl, hb c (by simp)⟩

/-- A predicate that does not see case and is false on blanks. -/
structure Blind (p : Byte → Bool) : Prop where
  up : ∀ c, p (toUpper c) = p c
  sp : p 32 = false
  tab : p 9 = false

theorem Blind.eq {p : Byte → Bool} (hp : Blind p) {c c' : Byte} (h : UpEq c c') : p c = p c' := by
  rw [← hp.up c, ← hp.up c', h]

theorem Blind.blank {p : Byte → Bool} (hp : Blind p) {c : Byte} (h : c = 32 ∨ c = 9) : p c = false := by
  rcases h with rfl | rfl
  · exact hp.sp
  · exact hp.tab

theorem takeWhile_blanks {p : Byte → Bool} (hp : Blind p) {b s : Str} (hb : Blanks b) (hne : b ≠ []) :
    (b ++ s).takeWhile p = [] ∧ (b ++ s).dropWhile p = b ++ s := by
  obtain ⟨c, r, h, hc⟩ := blanks_head (s := s) hb hne
  rw [h]
  have := hp.blank hc
  constructor
  · rw [List.takeWhile_cons, if_neg (by simp [this])]
  · rw [List.dropWhile_cons, if_neg (by simp [this])]

theorem takeWhile_blanks' {p : Byte → Bool} (hp : Blind p) {b : Str} (hb : Blanks b) :
    b.takeWhile p = [] ∧ b.dropWhile p = b := by
  cases b with
  | nil => exact ⟨rfl, rfl⟩
  | cons c b =>
    have := takeWhile_blanks hp (s := []) hb (by simp)
    rwa [List.append_nil] at this

theorem alike_span {p : Byte → Bool} (hp : Blind p) {s s' : Str} (h : Alike UpEq s s') :
    (s.takeWhile p).map toUpper = (s'.takeWhile p).map toUpper ∧ Alike UpEq (s.dropWhile p) (s'.dropWhile p) := by
  induction h with
  | trail b b' hb hb' =>
    rw [(takeWhile_blanks' hp hb).1, (takeWhile_blanks' hp hb).2, (takeWhile_blanks' hp hb').1, (takeWhile_blanks' hp hb').2]
    exact ⟨rfl, .trail b b' hb hb'⟩
  | char c c' s s' hc h1 h2 hs ih =>
    have := hp.eq hc
    rw [List.takeWhile_cons, List.takeWhile_cons, List.dropWhile_cons, List.dropWhile_cons, this]
    cases p c' with
    | true => exact ⟨by simp only [if_true, List.map_cons, ih.1]; rw [show toUpper c = toUpper c' from hc], ih.2⟩
    | false => exact ⟨rfl, .char c c' s s' hc h1 h2 hs⟩
  | blanks b b' s s' hb hb' hne hne' hs _ =>
    rw [(takeWhile_blanks hp hb hne).1, (takeWhile_blanks hp hb hne).2, (takeWhile_blanks hp hb' hne').1,
      (takeWhile_blanks hp hb' hne').2]
    exact ⟨rfl, .blanks b b' s s' hb hb' hne hne' hs⟩

theorem alike_end {q : Byte → Bool} (hq : ∀ c, q (toUpper c) = q c) (h0 : q 0 = true) (h32 : q 32 = true) (h9 : q 9 = true)
    {s s' : Str} (h : Alike UpEq s s') : q (rd s) = q (rd s') := by
  have hb : ∀ c : Byte, c = 32 ∨ c = 9 → q c = true := by rintro c (rfl | rfl) <;> assumption
  have hbl : ∀ b : Str, Blanks b → q (rd b) = true := by
    intro b hb'
    cases b with
    | nil => exact h0
    | cons c b => exact hb c (hb' c (by simp))
  cases h with
  | trail b b' h1 h2 => rw [hbl _ h1, hbl _ h2]
  | char c c' s s' hc _ _ _ =>
    show q c = q c'
    rw [← hq c, ← hq c', show toUpper c = toUpper c' from hc]
  | blanks b b' s s' h1 h2 hne hne' _ =>
    obtain ⟨c, r, e, hc⟩ := blanks_head (s := s) h1 hne
    obtain ⟨c', r', e', hc'⟩ := blanks_head (s := s') h2 hne'
    rw [e, e']
    show q c = q c'
    rw [hb c hc, hb c' hc']

theorem blind_digit (b : Nat) (hb : b = 2 ∨ b = 10 ∨ b = 16) : Blind (isDig b) := by
  rcases hb with rfl | rfl | rfl <;> exact ⟨by decide +kernel, by decide +kernel, by decide +kernel⟩
theorem blind_word : Blind wordChar := ⟨by decide +kernel, by decide +kernel, by decide +kernel⟩
theorem blind_alpha : Blind isAlpha := ⟨by decide +kernel, by decide +kernel, by decide +kernel⟩

theorem positional_up (b : Nat) (ds : Str) : positional b (ds.map toUpper) = positional b ds := by
  unfold positional
  rw [List.foldl_map]
  have : ∀ c : Byte, digitValue (toUpper c) = digitValue c := by decide +kernel
  simp only [this]

theorem positional_congr (b : Nat) {ds ds' : Str} (h : ds.map toUpper = ds'.map toUpper) : positional b ds = positional b ds' := by
  rw [← positional_up b ds, h, positional_up]

theorem length_congr {ds ds' : Str} (h : ds.map toUpper = ds'.map toUpper) : ds.length = ds'.length := by
  have := congrArg List.length h
  simpa using this

theorem litBody_alike {conv : Byte → Option Nat} {b : Nat} (hc : ConvOK conv b) (hb : b = 2 ∨ b = 10 ∨ b = 16) {s s' : Str}
    (h : Alike UpEq s s') (k : Nat) : litBody conv b s k = litBody conv b s' k := by
  obtain ⟨h1, h2⟩ := alike_span (blind_digit b hb) h
  rw [litBody_eq hc, litBody_eq hc]
  unfold digits afterDigits
  rw [length_congr h1, positional_congr b h1,
    alike_end (q := isEndOfToken) (by decide +kernel) (by decide +kernel) (by decide +kernel) (by decide +kernel) h2]

theorem wordBody_alike {s s' : Str} (h : Alike UpEq s s') : wordBody s = wordBody s' := by
  obtain ⟨h1, h2⟩ := alike_span blind_word h
  rw [wordBody_eq, wordBody_eq]
  unfold word afterWord
  rw [length_congr h1, h1,
    alike_end (q := isTextStop) (by decide +kernel) (by decide +kernel) (by decide +kernel) (by decide +kernel) h2]

theorem dirBody_alike {s s' : Str} {c : Byte} (h : Alike UpEq s s') : dirBody (c :: s) = dirBody (c :: s') := by
  obtain ⟨h1, h2⟩ := alike_span blind_alpha h
  rw [dirBody_eq, dirBody_eq, length_congr h1,
    alike_end (q := isEndOfToken) (by decide +kernel) (by decide +kernel) (by decide +kernel) (by decide +kernel) h2]
  rw [Nat.add_comm 1, List.take_succ_cons, List.take_succ_cons, List.map_cons, List.map_cons, take_takeWhile,
    ← length_congr h1, take_takeWhile, h1]

theorem noLead_trail {b : Str} (hb : Blanks b) (h : NoLeadingBlank b) : b = [] := by
  cases b with
  | nil => rfl
  | cons c b =>
    have := h c b rfl
    rcases hb c (by simp) with h' | h'
    · exact absurd h' this.1
    · exact absurd h' this.2

theorem noLead_blanks {b s : Str} (hb : Blanks b) (hne : b ≠ []) (h : NoLeadingBlank (b ++ s)) : False := by
  obtain ⟨c, r, e, hc⟩ := blanks_head (s := s) hb hne
  have := h c r e
  rcases hc with h' | h'
  · exact this.1 h'
  · exact this.2 h'

/-- One token. -/
theorem lexOne_alike {s s' : Str} (h : Alike UpEq s s') (hn : NoLeadingBlank s) (hn' : NoLeadingBlank s') :
    lexOne s = lexOne s' := by
  cases h with
  | trail b b' hb hb' => rw [noLead_trail hb hn, noLead_trail hb' hn']
  | blanks b b' s s' hb hb' hne hne' _ => exact (noLead_blanks hb hne hn).elim
  | char c c' s s' hc h1 h2 hs =>
    have hrd : rd (c :: s) = c := rfl
    have hrd' : rd (c' :: s') = c' := rfl
    have hall : Alike UpEq (c :: s) (c' :: s') := .char c c' s s' hc h1 h2 hs
    have hpu : ∀ c : Byte, punctLexeme (toUpper c) = punctLexeme c := by decide +kernel
    have hp : punctLexeme c = punctLexeme c' := by rw [← hpu c, ← hpu c', show toUpper c = toUpper c' from hc]
    have hsame : ∀ d : Byte, (∀ c : Byte, toUpper c = toUpper d → c = d) → (c = d ↔ c' = d) := by
      intro d hd
      constructor
      · rintro rfl; exact hd c' (show toUpper c = toUpper c' from hc).symm
      · rintro rfl; exact hd c hc
    have e36 := hsame 36 (by decide +kernel)
    have e37 := hsame 37 (by decide +kernel)
    have e46 := hsame 46 (by decide +kernel)
    have hdig : isDigit c = isDigit c' := by
      have : ∀ c : Byte, isDigit (toUpper c) = isDigit c := by decide +kernel
      rw [← this c, ← this c', show toUpper c = toUpper c' from hc]
    unfold lexOne
    rw [hrd, hrd', hp, blind_alpha.eq hc, hdig, wordBody_alike hall, litBody_alike convOK_dec (by simp) hall]
    simp only [List.tail_cons, litBody_alike convOK_hex (by simp) hs, litBody_alike convOK_bin (by simp) hs, e36, e37, e46]
    cases punctLexeme c' with
    | some x => rfl
    | none =>
      simp only
      split_ifs with g1 g2 g3 g4 g5
      · rfl
      · rfl
      · rfl
      · rfl
      · rw [e46.2 g5, g5]
        exact dirBody_alike hs
      · rfl

theorem takeWhile_nonblank {p : Byte → Bool} (hp : Blind p) (s : Str) : ∀ c ∈ s.takeWhile p, c ≠ 32 ∧ c ≠ 9 := by
  intro c hc
  have := takeWhile_all _ _ c hc
  constructor
  · rintro rfl; rw [hp.sp] at this; cases this
  · rintro rfl; rw [hp.tab] at this; cases this

theorem litBody_len {conv : Byte → Option Nat} {b : Nat} (hc : ConvOK conv b) {s : Str} {k n : Nat} {x : Lexeme}
    (h : litBody conv b s k = .ok (n, x)) : n = k + (s.takeWhile (isDig b)).length := (litBody_ok hc h).2.1

/-- A token has no blanks in it. -/
theorem lexOne_nonblank {s : Str} {n : Nat} {x : Lexeme} (h : lexOne s = .ok (n, x)) : ∀ c ∈ s.take n, c ≠ 32 ∧ c ≠ 9 := by
  cases s with
  | nil => intro c hc; simp at hc
  | cons d s =>
    have hrd : rd (d :: s) = d := rfl
    unfold lexOne at h
    rw [hrd] at h
    cases hp : punctLexeme d with
    | some y =>
      rw [hp] at h
      simp only [Except.ok.injEq, Prod.mk.injEq] at h
      obtain ⟨rfl, rfl⟩ := h
      intro c hc
      have hb : ∀ c : Byte, (punctLexeme c).isSome = true → c ≠ 32 ∧ c ≠ 9 := by decide +kernel
      obtain rfl : c = d := by simpa using hc
      exact hb c (by rw [hp]; rfl)
    | none =>
      rw [hp] at h
      simp only [List.tail_cons] at h
      split_ifs at h with h1 h2 h3 h4 h5
      · rw [wordBody_eq] at h
        split_ifs at h
        simp only [Except.ok.injEq, Prod.mk.injEq] at h
        rw [← h.1]
        unfold word
        rw [take_takeWhile]
        exact takeWhile_nonblank blind_word _
      · have := litBody_len convOK_hex h
        subst this
        subst h2
        rw [Nat.add_comm, List.take_succ_cons, take_takeWhile]
        intro c hc
        rcases List.mem_cons.1 hc with rfl | hc
        · decide
        · exact takeWhile_nonblank (blind_digit 16 (by simp)) _ c hc
      · have := litBody_len convOK_bin h
        subst this
        subst h3
        rw [Nat.add_comm, List.take_succ_cons, take_takeWhile]
        intro c hc
        rcases List.mem_cons.1 hc with rfl | hc
        · decide
        · exact takeWhile_nonblank (blind_digit 2 (by simp)) _ c hc
      · have := litBody_len convOK_dec h
        subst this
        rw [Nat.zero_add, take_takeWhile]
        exact takeWhile_nonblank (blind_digit 10 (by simp)) _
      · subst h5
        rw [dirBody_eq] at h
        split_ifs at h
        have hn : n = 1 + (s.takeWhile isAlpha).length := by
          split at h
          · simp only [Except.ok.injEq, Prod.mk.injEq] at h; exact h.1.symm
          · cases h
        subst hn
        rw [Nat.add_comm, List.take_succ_cons, take_takeWhile]
        intro c hc
        rcases List.mem_cons.1 hc with rfl | hc
        · decide
        · exact takeWhile_nonblank blind_alpha _ c hc

theorem alike_drop {s s' : Str} (h : Alike UpEq s s') : ∀ n, (∀ c ∈ s.take n, c ≠ 32 ∧ c ≠ 9) → n ≤ s.length →
    Alike UpEq (s.drop n) (s'.drop n) ∧ n ≤ s'.length := by
  induction h with
  | trail b b' hb hb' =>
    intro n hn hl
    cases n with
    | zero => exact ⟨.trail b b' hb hb', Nat.zero_le _⟩
    | succ n =>
      cases b with
      | nil => simp at hl
      | cons c b =>
        have := hn c (by simp)
        rcases hb c (by simp) with h | h
        · exact absurd h this.1
        · exact absurd h this.2
  | char c c' s s' hc h1 h2 hs ih =>
    intro n hn hl
    cases n with
    | zero => exact ⟨.char c c' s s' hc h1 h2 hs, Nat.zero_le _⟩
    | succ n =>
      have := ih n (fun d hd => hn d (by simp [hd])) (by simpa using hl)
      exact ⟨this.1, by simpa using this.2⟩
  | blanks b b' s s' hb hb' hne hne' hs _ =>
    intro n hn hl
    cases n with
    | zero => exact ⟨.blanks b b' s s' hb hb' hne hne' hs, Nat.zero_le _⟩
    | succ n =>
      obtain ⟨c, r, e, hc⟩ := blanks_head (s := s) hb hne
      have := hn c (by rw [e]; simp)
      rcases hc with h | h
      · exact absurd h this.1
      · exact absurd h this.2

theorem skip_append {b s : Str} (hb : Blanks b) : ∀ off, ∃ off', skipBlanks off (b ++ s) = skipBlanks off' s := by
  induction b with
  | nil => intro off; exact ⟨off, rfl⟩
  | cons c b ih =>
    intro off
    have hc : isBlank c = true := (isBlank_iff c).2 (hb c (by simp))
    obtain ⟨off', h⟩ := ih (fun x hx => hb x (by simp [hx])) (off + 1)
    refine ⟨off', ?_⟩
    rw [← h, List.cons_append]
    conv_lhs => unfold skipBlanks
    rw [if_pos hc]

theorem skip_blanks {b : Str} (hb : Blanks b) (off : Nat) : (skipBlanks off b).2 = [] := by
  have := skip_append (s := []) hb off
  rw [List.append_nil] at this
  obtain ⟨off', h⟩ := this
  rw [h]; rfl

theorem skip_noLead (off : Nat) (s : Str) : NoLeadingBlank (skipBlanks off s).2 := by
  obtain ⟨_, _, _, _, h⟩ := skipBlanks_spec off s
  intro d r hd
  have := h d r hd
  rw [Bool.eq_false_iff, ne_eq, isBlank_iff] at this
  exact ⟨fun h => this (.inl h), fun h => this (.inr h)⟩

/-- Skipping blanks. -/
theorem skip_alike {s s' : Str} (h : Alike UpEq s s') : ∀ off off', Alike UpEq (skipBlanks off s).2 (skipBlanks off' s').2 := by
  induction h with
  | trail b b' hb hb' => intro off off'; rw [skip_blanks hb, skip_blanks hb']; exact .trail [] [] (by intro; simp) (by intro; simp)
  | char c c' s s' hc h1 h2 hs ih =>
    intro off off'
    have g : ∀ c : Byte, c ≠ 32 ∧ c ≠ 9 → isBlank c = false := by decide +kernel
    unfold skipBlanks
    rw [if_neg (by simp [g c h1]), if_neg (by simp [g c' h2])]
    exact .char c c' s s' hc h1 h2 hs
  | blanks b b' s s' hb hb' hne hne' hs ih =>
    intro off off'
    obtain ⟨o, h1⟩ := skip_append (s := s) hb off
    obtain ⟨o', h2⟩ := skip_append (s := s') hb' off'
    rw [h1, h2]
    exact ih o o'

theorem alike_colon {s s' : Str} (h : Alike UpEq s s') : rd s = 58 ↔ rd s' = 58 := by
  have hb : ∀ b : Str, Blanks b → rd b ≠ 58 := by
    intro b hb h
    cases b with
    | nil => exact absurd h (by decide)
    | cons c b =>
      have h' : c = 58 := h
      rcases hb c (by simp) with rfl | rfl <;> exact absurd h' (by decide)
  have hb2 : ∀ b s : Str, Blanks b → b ≠ [] → rd (b ++ s) ≠ 58 := by
    intro b s hb hne h
    obtain ⟨c, r, e, hc⟩ := blanks_head (s := s) hb hne
    rw [e] at h
    have h' : c = 58 := h
    rcases hc with rfl | rfl <;> exact absurd h' (by decide)
  cases h with
  | trail b b' h1 h2 => exact ⟨fun h => absurd h (hb _ h1), fun h => absurd h (hb _ h2)⟩
  | blanks b b' s s' h1 h2 hne hne' _ => exact ⟨fun h => absurd h (hb2 _ _ h1 hne), fun h => absurd h (hb2 _ _ h2 hne')⟩
  | char c c' s s' hc _ _ _ =>
    show c = 58 ↔ c' = 58
    have hd : ∀ c : Byte, toUpper c = toUpper 58 → c = 58 := by decide +kernel
    constructor
    · rintro rfl; exact hd c' (show toUpper 58 = toUpper c' from hc).symm
    · rintro rfl; exact hd c hc

theorem kinds_cons {o o' : Nat} {x : Lexeme} {r r' : Except LexFail (List (Nat × Lexeme))} : kinds r = kinds r' →
    kinds (match r with | .ok ls => .ok ((o, x) :: ls) | .error f => .error f) =
    kinds (match r' with | .ok ls => .ok ((o', x) :: ls) | .error f => .error f) := by
  intro h
  cases r with
  | ok ls =>
    cases r' with
    | ok ls' =>
      have : ls.map (·.2) = ls'.map (·.2) := by simpa [kinds] using h
      simp only [kinds, List.map_cons, this]
    | error f => cases f <;> cases h
  | error f =>
    cases r' with
    | ok ls' => cases f <;> cases h
    | error f' => exact h

theorem scan_alike : ∀ (fuel fuel' off off' : Nat) (s s' : Str) (cnt : Nat), Alike UpEq s s' → NoLeadingBlank s →
    NoLeadingBlank s' → s.length < fuel → s'.length < fuel' →
    kinds (scan fuel off s cnt) = kinds (scan fuel' off' s' cnt) := by
  intro fuel
  induction fuel with
  | zero => intro _ _ _ _ _ _ _ _ _ h; omega
  | succ fuel ih =>
    intro fuel' off off' s s' cnt h hn hn' hf hf'
    cases fuel' with
    | zero => omega
    | succ fuel' =>
      have hterm : isTerm (rd s) = isTerm (rd s') := by
        cases h with
        | trail b b' hb hb' => rw [noLead_trail hb hn, noLead_trail hb' hn']
        | blanks b b' s s' hb hb' hne hne' _ => exact (noLead_blanks hb hne hn).elim
        | char c c' s s' hc _ _ _ =>
          show isTerm c = isTerm c'
          have : ∀ c : Byte, isTerm (toUpper c) = isTerm c := by decide +kernel
          rw [← this c, ← this c', show toUpper c = toUpper c' from hc]
      unfold scan
      rw [hterm, lexOne_alike h hn hn']
      by_cases ht : isTerm (rd s') = true
      · rw [if_pos ht, if_pos ht]
      · rw [if_neg ht, if_neg ht]
        cases hk : lexOne s' with
        | error q => obtain ⟨e, k⟩ := q; rfl
        | ok q =>
          obtain ⟨n, x⟩ := q
          have hne : s ≠ [] := by
            rintro rfl
            rw [← hterm] at ht
            exact ht isTerm_zero
          have hk1 : lexOne s = .ok (n, x) := by rw [lexOne_alike h hn hn', hk]
          obtain ⟨q1, q2⟩ := lexOne_len hne hk1
          obtain ⟨hd, q3⟩ := alike_drop h n (lexOne_nonblank hk1) q2
          simp only
          have hcol := alike_colon hd
          by_cases h8 : cnt = 8
          · rw [if_pos h8, if_pos h8]
          rw [if_neg h8, if_neg h8]
          by_cases hc : rd (s.drop n) = 58
          · have hc' := hcol.1 hc
            rw [if_pos hc, if_pos hc']
            split_ifs
            · have e1 := rd_colon_cons hc
              have e2 := rd_colon_cons hc'
              have htl : Alike UpEq (s.drop n).tail (s'.drop n).tail := by
                have hl : 1 ≤ (s.drop n).length := by rw [e1]; simp
                have := (alike_drop hd 1 (by rw [e1]; intro c hc; obtain rfl : c = 58 := by simpa using hc
                                             decide) hl).1
                simpa using this
              refine kinds_cons (ih _ _ _ _ _ _ (skip_alike htl _ _) (skip_noLead _ _) (skip_noLead _ _) ?_ ?_)
              · have := skipBlanks_length (off + n + 1) (s.drop n).tail
                simp only [List.length_tail, List.length_drop] at this
                omega
              · have := skipBlanks_length (off' + n + 1) (s'.drop n).tail
                simp only [List.length_tail, List.length_drop] at this
                omega
            · rfl
          · have hc' : ¬ rd (s'.drop n) = 58 := fun h => hc (hcol.2 h)
            rw [if_neg hc, if_neg hc']
            refine kinds_cons (ih _ _ _ _ _ _ (skip_alike hd _ _) (skip_noLead _ _) (skip_noLead _ _) ?_ ?_)
            · have := skipBlanks_length (off + n) (s.drop n)
              simp only [List.length_drop] at this
              omega
            · have := skipBlanks_length (off' + n) (s'.drop n)
              simp only [List.length_drop] at this
              omega

/-- Lines that differ in case, blanks and comments have the same lexemes. -/
theorem kinds_alike {R : Byte → Byte → Prop} (hR : ∀ c c', R c c' → UpEq c c') {l l' : List Byte} (h : LineAlike R l l') :
    kinds (lexemes l) = kinds (lexemes l') := by
  obtain ⟨b, b', s, s', h1, h2, hb, hb', hs⟩ := h
  rw [lexemes_code, lexemes_code]
  have ha : Alike UpEq (skipBlanks 0 (code l)).2 (skipBlanks 0 (code l')).2 := by
    rw [h1, h2]
    obtain ⟨o, e1⟩ := skip_append (s := s) hb 0
    obtain ⟨o', e2⟩ := skip_append (s := s') hb' 0
    rw [e1, e2]
    exact skip_alike (hs.mono hR) _ _
  refine scan_alike _ _ _ _ _ _ _ ha (skip_noLead _ _) (skip_noLead _ _) ?_ ?_
  · have := skipBlanks_length 0 (code l); omega
  · have := skipBlanks_length 0 (code l'); omega

end Gaia
