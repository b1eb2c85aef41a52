import Verif.Proofs.LexSpec
import Verif.Spec.Diagnostic

/-! What `print_error` prints. -/
namespace Gaia
open Spec

theorem trimEnd_eq (l : Str) : trimEnd l = (l.reverse.dropWhile isTrailing).reverse := rfl

theorem trimRev_eq (r : Str) : trimRev r = if r.dropWhile isTrailing = [] then none else some (r.dropWhile isTrailing) := by
  induction r with
  | nil => rfl
  | cons c r ih =>
    unfold trimRev
    rw [List.dropWhile_cons]
    split_ifs with h <;> simp_all

theorem arrowLoop_eq : ∀ (n : Nat) (l : Str) (k t : Nat), n ≤ l.length → t ≤ 8 → t % 8 = k % 8 →
    arrowLoop n l k t = some ((l.take n).foldl (fun col c => if c = 9 then (col / 8 + 1) * 8 else col + 1) k) := by
  intro n
  induction n with
  | zero => intro l k t _ _ _; simp [arrowLoop]
  | succ n ih =>
    intro l k t hn ht hk
    cases l with
    | nil => simp at hn
    | cons c l =>
      unfold arrowLoop
      simp only [List.length_cons] at hn
      rw [List.take_succ_cons, List.foldl_cons]
      have e8 : (if (t == 8) = true then 0 else t) = k % 8 := by
        by_cases h : t = 8
        · subst h; simp; omega
        · simp [h]; omega
      simp only [e8]
      by_cases hc : c = 9
      · subst hc
        simp only [beq_self_eq_true, if_true]
        rw [ih l _ _ (by omega) (by omega) (by omega)]
        have : k + (8 - k % 8) = (k / 8 + 1) * 8 := by omega
        rw [this]
      · have : (c == 9) = false := by simpa using hc
        simp only [this, if_neg hc]
        rw [if_neg (by simp), ih l _ _ (by omega) (by omega) (by omega)]

theorem arrowLoop_column {n : Nat} {l : Str} (h : n ≤ l.length) : arrowLoop n l 0 0 = some (column (l.take n)) :=
  arrowLoop_eq n l 0 0 h (by omega) rfl

/-- A line that has something to show, and a position inside it. -/
def Shows (l : Str) (pos : Option Nat) : Prop :=
  (∃ c ∈ l, isTrailing c = false) ∧ ∀ p, pos = some p → p ≤ l.length

theorem dropWhile_ne_nil {α} {p : α → Bool} {l : List α} (h : ∃ c ∈ l, p c = false) : l.dropWhile p ≠ [] := by
  obtain ⟨c, hc, hp⟩ := h
  intro h0
  have hs := List.takeWhile_append_dropWhile (p := p) (l := l)
  rw [h0, List.append_nil] at hs
  rw [← hs] at hc
  rw [takeWhile_all p l c hc] at hp
  simp at hp

theorem printError_eq {l : Str} {e : Err} {pos : Option Nat} (fn : Str) (n : Nat) (hs : Shows l pos)
    (he : errorMessage fn e = some (message e)) : printError (some l) e pos fn n = .ok (diag l e pos fn n) := by
  obtain ⟨⟨c, hc, ht⟩, hp⟩ := hs
  unfold printError diag
  have hne : l.reverse.dropWhile isTrailing ≠ [] :=
    dropWhile_ne_nil ⟨c, by simpa using hc, ht⟩
  simp only [he, trimRev_eq, if_neg hne]
  cases pos with
  | none => simp [trimEnd_eq]
  | some p =>
    simp only [arrowLoop_column (hp p rfl), trimEnd_eq, List.append_assoc]

theorem raise_eq {α} {l : Str} {e : Err} {pos : Option Nat} (fn : Str) (n : Nat) (hs : Shows l pos)
    (he : errorMessage fn e = some (message e)) :
    (raise (some l) e pos fn n : Res α) = .err ⟨e, diag l e pos fn n⟩ := by
  unfold raise
  rw [printError_eq fn n hs he]
  rfl

/-! ### Where the lexer reports errors -/

theorem lexOne_error_bound {s : Str} {e : Err} {k : Nat} (h : lexOne s = .error (e, k)) (hs : s ≠ []) :
    k ≤ s.length ∧ (e = .illegalChar ∨ e = .tooBigLiteral ∨ e = .tooLongLabel ∨ e = .illegalDirective) := by
  obtain ⟨c, s', rfl⟩ := List.exists_cons_of_ne_nil hs
  have hlit : ∀ (conv : Byte → Option Nat) (b k' : Nat) (u : Str), ConvOK conv b → litBody conv b u k' = .error (e, k) →
      k ≤ k' + u.length ∧ (e = .illegalChar ∨ e = .tooBigLiteral ∨ e = .tooLongLabel ∨ e = .illegalDirective) := by
    intro conv b k' u hc hu
    rw [litBody_eq hc] at hu
    have hd : (digits b u).length ≤ u.length := (List.takeWhile_prefix _).length_le
    split_ifs at hu with h1 h2 h3 h4 <;> simp only [Except.error.injEq, Prod.mk.injEq] at hu <;>
      obtain ⟨rfl, rfl⟩ := hu <;> refine ⟨by omega, by simp⟩
  unfold lexOne at h
  cases hp : punctLexeme (rd (c :: s')) with
  | some y => rw [hp] at h; simp at h
  | none =>
    rw [hp] at h
    simp only at h
    split_ifs at h with h1 h2 h3 h4 h5
    · rw [wordBody_eq] at h
      have hd : (word (c :: s')).length ≤ (c :: s').length := (List.takeWhile_prefix _).length_le
      split_ifs at h <;> simp only [Except.error.injEq, Prod.mk.injEq] at h <;>
        obtain ⟨rfl, rfl⟩ := h <;> refine ⟨by omega, by simp⟩
    · have := hlit _ _ _ _ convOK_hex h
      simp only [List.tail_cons, List.length_cons] at *
      exact ⟨by omega, this.2⟩
    · have := hlit _ _ _ _ convOK_bin h
      simp only [List.tail_cons, List.length_cons] at *
      exact ⟨by omega, this.2⟩
    · have := hlit _ _ _ _ convOK_dec h
      exact ⟨by omega, this.2⟩
    · rw [dirBody_eq] at h
      have hd : (s'.takeWhile isAlpha).length ≤ s'.length := (List.takeWhile_prefix _).length_le
      simp only [List.length_cons]
      by_cases w1 : 63 ≤ (s'.takeWhile isAlpha).length
      · rw [if_pos w1] at h
        simp only [Except.error.injEq, Prod.mk.injEq] at h
        obtain ⟨rfl, rfl⟩ := h
        exact ⟨by omega, by simp⟩
      rw [if_neg w1] at h
      by_cases w2 : isEndOfToken (rd (s'.dropWhile isAlpha)) = true
      · rw [if_pos w2] at h
        split at h
        · simp at h
        · simp only [Except.error.injEq, Prod.mk.injEq] at h
          obtain ⟨rfl, rfl⟩ := h
          exact ⟨by omega, by simp⟩
      · rw [if_neg w2] at h
        simp only [Except.error.injEq, Prod.mk.injEq] at h
        obtain ⟨rfl, rfl⟩ := h
        exact ⟨by omega, by simp⟩
    · simp only [Except.error.injEq, Prod.mk.injEq] at h
      obtain ⟨rfl, rfl⟩ := h
      exact ⟨by simp, by simp⟩

theorem scan_error : ∀ (fuel off : Nat) (s : Str) (cnt : Nat) (e : Err) (pos : Nat),
    scan fuel off s cnt = .error (.at e pos) →
    isTerm (rd s) = false ∧ off ≤ pos ∧ pos ≤ off + s.length ∧
      (e = .illegalChar ∨ e = .tooBigLiteral ∨ e = .tooLongLabel ∨ e = .illegalDirective) := by
  intro fuel
  induction fuel with
  | zero => intro off s cnt e pos h; simp [scan] at h
  | succ fuel ih =>
    intro off s cnt e pos h
    unfold scan at h
    by_cases h1 : isTerm (rd s) = true
    · rw [if_pos h1] at h; simp at h
    rw [if_neg h1] at h
    have hne : s ≠ [] := by
      rintro rfl
      exact h1 isTerm_zero
    have h1' : isTerm (rd s) = false := by simpa using h1
    refine ⟨h1', ?_⟩
    cases hk : lexOne s with
    | error q =>
      obtain ⟨e', k⟩ := q
      rw [hk] at h
      simp only [Except.error.injEq, LexFail.at.injEq] at h
      obtain ⟨rfl, rfl⟩ := h
      have := lexOne_error_bound hk hne
      exact ⟨by omega, by omega, this.2⟩
    | ok q =>
      obtain ⟨n, x⟩ := q
      obtain ⟨hn1, hn2⟩ := lexOne_len hne hk
      rw [hk] at h
      simp only at h
      have hdl : (s.drop n).length = s.length - n := List.length_drop
      split_ifs at h with h2 h3 h4
      · simp at h
      · obtain ⟨bl, b1, b2, b3, b4⟩ := skipBlanks_spec (off + n + 1) (s.drop n).tail
        have hl := congrArg List.length b1
        rw [List.length_append, List.length_tail] at hl
        have h58 : (s.drop n).length ≠ 0 := by
          intro h0
          rw [List.length_eq_zero_iff] at h0
          rw [h0] at h3; simp [rd] at h3
        split at h
        · simp at h
        · rename_i f hf
          simp only [Except.error.injEq] at h
          subst h
          have := ih _ _ _ _ _ hf
          rw [b2] at this
          exact ⟨by omega, by omega, this.2.2.2⟩
      · simp only [Except.error.injEq, LexFail.at.injEq] at h
        obtain ⟨rfl, rfl⟩ := h
        exact ⟨by omega, by omega, by simp⟩
      · obtain ⟨bl, b1, b2, b3, b4⟩ := skipBlanks_spec (off + n) (s.drop n)
        have hl := congrArg List.length b1
        rw [List.length_append] at hl
        split at h
        · simp at h
        · rename_i f hf
          simp only [Except.error.injEq] at h
          subst h
          have := ih _ _ _ _ _ hf
          rw [b2] at this
          exact ⟨by omega, by omega, this.2.2.2⟩

/-- The line has a lexeme, so something to show. -/
theorem shows_of_nonempty {raw : List Byte} (h : isTerm (rd (skipBlanks 0 (cstr raw)).2) = false) :
    ∃ c ∈ cstr raw, isTrailing c = false := by
  obtain ⟨bl, b1, b2, b3, b4⟩ := skipBlanks_spec 0 (cstr raw)
  cases hs : (skipBlanks 0 (cstr raw)).2 with
  | nil => rw [hs] at h; simp [rd, isTerm_zero] at h
  | cons c r =>
    rw [hs] at h b1
    have hb := b4 c r hs
    have ht : isTerm c = false := h
    refine ⟨c, by rw [b1]; simp, ?_⟩
    have : ∀ c : Byte, isBlank c = false → isTerm c = false → isTrailing c = false := by decide +kernel
    exact this c hb ht

theorem lexemes_error {raw : List Byte} {e : Err} {pos : Nat} (h : lexemes raw = .error (.at e pos)) :
    Shows (cstr raw) (some pos) ∧
      (e = .illegalChar ∨ e = .tooBigLiteral ∨ e = .tooLongLabel ∨ e = .illegalDirective) := by
  have h' := h
  unfold lexemes at h
  obtain ⟨h1, h2, h3, h4⟩ := scan_error _ _ _ _ _ _ h
  obtain ⟨bl, b1, b2, b3, b4⟩ := skipBlanks_spec 0 (cstr raw)
  have hl := congrArg List.length b1
  rw [List.length_append] at hl
  refine ⟨⟨shows_of_nonempty h1, ?_⟩, h4⟩
  rintro p ⟨⟩
  omega

/-- Offsets of lexemes lie inside the text. -/
theorem scan_offsets : ∀ (fuel off : Nat) (s : Str) (cnt : Nat) (ls : List (Nat × Lexeme)),
    scan fuel off s cnt = .ok ls → ∀ p ∈ ls, isTerm (rd s) = false ∧ off ≤ p.1 ∧ p.1 ≤ off + s.length := by
  intro fuel
  induction fuel with
  | zero => intro off s cnt ls h; simp [scan] at h; subst h; simp
  | succ fuel ih =>
    intro off s cnt ls h
    unfold scan at h
    by_cases h1 : isTerm (rd s) = true
    · rw [if_pos h1] at h; simp at h; subst h; simp
    rw [if_neg h1] at h
    have hne : s ≠ [] := by
      rintro rfl
      exact h1 isTerm_zero
    have h1' : isTerm (rd s) = false := by simpa using h1
    cases hk : lexOne s with
    | error q => rw [hk] at h; simp at h
    | ok q =>
      obtain ⟨n, x⟩ := q
      obtain ⟨hn1, hn2⟩ := lexOne_len hne hk
      rw [hk] at h
      simp only at h
      have hdl : (s.drop n).length = s.length - n := List.length_drop
      split_ifs at h with h2 h3 h4
      · obtain ⟨bl, b1, b2, b3, b4⟩ := skipBlanks_spec (off + n + 1) (s.drop n).tail
        have hl := congrArg List.length b1
        rw [List.length_append, List.length_tail] at hl
        have h58 : (s.drop n).length ≠ 0 := by
          intro h0
          rw [List.length_eq_zero_iff] at h0
          rw [h0] at h3; simp [rd] at h3
        split at h
        · rename_i ls' hf
          simp only [Except.ok.injEq] at h
          subst h
          intro p hp
          rcases List.mem_cons.1 hp with rfl | hp
          · exact ⟨h1', by simp, by simp⟩
          · have := ih _ _ _ _ hf p hp
            rw [b2] at this
            exact ⟨h1', by omega, by omega⟩
        · simp at h
      · obtain ⟨bl, b1, b2, b3, b4⟩ := skipBlanks_spec (off + n) (s.drop n)
        have hl := congrArg List.length b1
        rw [List.length_append] at hl
        split at h
        · rename_i ls' hf
          simp only [Except.ok.injEq] at h
          subst h
          intro p hp
          rcases List.mem_cons.1 hp with rfl | hp
          · exact ⟨h1', by simp, by simp⟩
          · have := ih _ _ _ _ hf p hp
            rw [b2] at this
            exact ⟨h1', by omega, by omega⟩
        · simp at h

theorem lexemes_shows {raw : List Byte} {ls : List (Nat × Lexeme)} (h : lexemes raw = .ok ls) (hne : ls ≠ []) :
    Shows (cstr raw) none ∧ ∀ p ∈ ls, Shows (cstr raw) (some p.1) := by
  unfold lexemes at h
  obtain ⟨bl, b1, b2, b3, b4⟩ := skipBlanks_spec 0 (cstr raw)
  have hl := congrArg List.length b1
  rw [List.length_append] at hl
  have ho := scan_offsets _ _ _ _ _ h
  obtain ⟨q, ls', rfl⟩ := List.exists_cons_of_ne_nil hne
  have hs := shows_of_nonempty (ho q (by simp)).1
  refine ⟨⟨hs, by simp⟩, fun p hp => ⟨hs, ?_⟩⟩
  rintro _ ⟨⟩
  have := ho p hp
  omega

end Gaia
