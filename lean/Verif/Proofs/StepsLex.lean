import Verif.Proofs.Steps
import Verif.Proofs.Syntax

/-! How many iterations lexing a line takes, and how long the texts of its tokens are. -/
namespace Gaia.Steps
open Gaia

theorem blankSteps_le : ∀ s : Str, blankSteps s ≤ s.length := by
  intro s
  induction s with
  | nil => simp [blankSteps]
  | cons c s ih => unfold blankSteps; split <;> simp only [List.length_cons] <;> omega

theorem digitSteps_le (conv : Byte → Option Nat) : ∀ s : Str, digitSteps conv s ≤ s.length := by
  intro s
  induction s with
  | nil => simp [digitSteps]
  | cons c s ih => unfold digitSteps; split <;> simp only [List.length_cons] <;> omega

theorem scanSteps_le (stop valid : Byte → Bool) : ∀ fuel s, scanSteps stop valid fuel s ≤ fuel := by
  intro fuel
  induction fuel with
  | zero => intro s; simp [scanSteps]
  | succ fuel ih =>
    intro s
    unfold scanSteps
    simp only
    have := ih s.tail
    split
    · omega
    · split <;> omega

theorem scanLoop_le (stop valid : Byte → Bool) : ∀ fuel i s n, scanLoop stop valid fuel i s = .done n → n ≤ i + fuel := by
  intro fuel
  induction fuel with
  | zero => intro i s n h; cases h; omega
  | succ fuel ih =>
    intro i s n h
    unfold scanLoop at h
    simp only at h
    split at h
    · cases h; omega
    · split at h
      · cases h
      · have := ih _ _ _ h; omega

/-- One token: at most 64 iterations to find its end and 63 to copy it, or one per digit. -/
theorem lexSteps_le (s : Str) (hs : s.length ≤ 127) : lexSteps s ≤ 127 := by
  unfold lexSteps
  simp only
  split
  · omega
  · split
    · unfold lexTextSteps
      have h1 := scanSteps_le isTextStop isValidTokenChar MAX_TOKEN_STR_LEN s
      have h64 : MAX_TOKEN_STR_LEN = 64 := rfl
      split
      · omega
      · rename_i n hn
        have := scanLoop_le _ _ _ _ _ _ hn
        split <;> omega
    · split
      · unfold lexLiteralSteps
        have h1 := digitSteps_le hexDigitToInt s.tail
        have h2 := digitSteps_le binDigitToInt s.tail
        have h3 := digitSteps_le decDigitToInt s
        have h4 : s.tail.length ≤ s.length := by simp
        simp only
        repeat' split
        all_goals omega
      · split
        · unfold lexDirectiveSteps
          have h1 := scanSteps_le isEndOfToken isAlpha (MAX_TOKEN_STR_LEN - 1) s.tail
          have h64 : MAX_TOKEN_STR_LEN = 64 := rfl
          split
          · omega
          · rename_i n hn
            have := scanLoop_le _ _ _ _ _ _ hn
            split <;> omega
        · omega

/-- The token sequence: eight slots, texts that fit. -/
structure Short (lx : Lexer) : Prop where
  len : lx.seq.length = 8
  curr : lx.curr ≤ 8
  str : ∀ t ∈ lx.seq, t.str.length ≤ 63

theorem addToken_ok {lx lx' : Lexer} {tk : Token} (h : Short lx) (e : addToken lx tk = .ok lx') :
    Short lx' ∧ lx'.curr = lx.curr + 1 := by
  unfold addToken at e
  have h8 : MAX_TOKENS = 8 := rfl
  split at e
  · cases e
  · cases hn : lx.seq[lx.curr]? with
    | none => rw [hn] at e; cases e
    | some new =>
      rw [hn] at e
      simp only at e
      split at e
      · rw [C.bind_eq_ok] at e
        obtain ⟨n1, hn1, e⟩ := e
        cases e
        have hc := h.curr
        have hmem : new ∈ lx.seq := List.mem_of_getElem? hn
        have hstr : n1.str.length ≤ 63 := by
          unfold tokenStrcpy at hn1
          split at hn1
          · cases hn1; exact h.str new hmem
          · split at hn1
            · cases hn1
            · cases hn1
              have h64 : MAX_TOKEN_STR_LEN = 64 := rfl
              show tk.str.length ≤ 63
              omega
        refine ⟨⟨by simpa using h.len, by show lx.curr + 1 ≤ 8; omega, ?_⟩, rfl⟩
        intro t ht
        rcases List.mem_or_eq_of_mem_set ht with ht | rfl
        · exact h.str t ht
        · exact hstr
      · cases e

theorem skipBlanks_le : ∀ (s : Str) (off : Nat), (skipBlanks off s).2.length ≤ s.length := by
  intro s
  induction s with
  | nil => intro off; simp [skipBlanks]
  | cons c s ih =>
    intro off
    unfold skipBlanks
    split
    · have := ih (off + 1); simp only [List.length_cons]; omega
    · simp

theorem raise_ne_ok {α} (line : Option Str) (e : Err) (bad : Option Nat) (fn : Str) (n : Nat) (a : α) : raise line e bad fn n ≠ .ok a := by
  unfold raise
  cases printError line e bad fn n <;> intro h <;> cases h

theorem lexLoop_steps (buffer : Str) : ∀ (fuel off : Nat) (s : Str) (lx : Lexer) (tk : Token) (instr : Instr), Short lx → s.length ≤ 127 →
    (lexLoop buffer fuel off s lx tk instr).steps ≤ 255 * (9 - lx.curr) ∧
    ∀ r, (lexLoop buffer fuel off s lx tk instr).result = .ok r → Short r.1 := by
  intro fuel
  induction fuel with
  | zero =>
    intro off s lx tk instr h _
    refine ⟨by simp [lexLoop], ?_⟩
    intro r hr
    cases hr
  | succ fuel ih =>
    intro off s lx tk instr h hs
    unfold lexLoop
    have hc := h.curr
    split
    · refine ⟨by simp, ?_⟩
      intro r hr
      cases hr
      exact h
    · have hl := lexSteps_le s hs
      rw [steps_tick, result_tick]
      have quiet : ∀ {r : C Fail (Lexer × Token × Instr)}, (∀ a, r ≠ .ok a) →
          1 + lexSteps s + (lift r).steps ≤ 255 * (9 - lx.curr) ∧ ∀ a, (lift r).result = .ok a → Short a.1 := by
        intro r hr
        refine ⟨by rw [steps_lift]; omega, fun a ha => absurd ha (hr a)⟩
      cases lex off s tk instr with
      | ub u => exact quiet (by intro a h; cases h)
      | err e => exact quiet (raise_ne_ok _ _ _ _ _)
      | ok r =>
        obtain ⟨n, tk, instr⟩ := r
        simp only
        split
        · exact quiet (by intro a h; cases h)
        · cases ha : addToken lx tk with
          | ub u => exact quiet (by intro a h; cases h)
          | err e => exact quiet (by intro a h; cases h)
          | ok lx' =>
            obtain ⟨h', hcurr⟩ := addToken_ok h ha
            have hc' := h'.curr
            have go : ∀ (o : Nat) (s' : Str), s'.length ≤ s.length →
                1 + lexSteps s + (tick (blankSteps s') (lexLoop buffer fuel (skipBlanks o s').1 (skipBlanks o s').2 lx' tk instr)).steps
                  ≤ 255 * (9 - lx.curr) ∧
                ∀ a, (tick (blankSteps s') (lexLoop buffer fuel (skipBlanks o s').1 (skipBlanks o s').2 lx' tk instr)).result = .ok a →
                  Short a.1 := by
              intro o s' hs'
              have hb := blankSteps_le s'
              have hk := skipBlanks_le s' o
              obtain ⟨i1, i2⟩ := ih (skipBlanks o s').1 (skipBlanks o s').2 lx' tk instr h' (by omega)
              rw [steps_tick, result_tick]
              exact ⟨by omega, i2⟩
            simp only
            split
            · split
              · exact go _ _ (by simp)
              · exact quiet (raise_ne_ok _ _ _ _ _)
            · exact go _ _ (by simp)

theorem cstr_length_le : ∀ raw : List Byte, (cstr raw).length ≤ raw.length := by
  intro raw
  unfold cstr
  exact (List.takeWhile_sublist _).length_le

/-- Lexing a line takes at most 3014 iterations. -/
theorem lexLine_steps {raw : List Byte} (hr : raw.length ≤ 127) {lx : Lexer} (h8 : lx.seq.length = 8) (tk : Token) (instr : Instr) (n : Nat) :
    (lexLine raw lx tk instr n).steps ≤ 3014 ∧ ∀ r, (lexLine raw lx tk instr n).result = .ok r → Short r.1 := by
  have hb := cstr_length_le raw
  have hS : Short { resetLexer lx with line := some (cstr raw), lineNum := n } := by
    refine ⟨by simpa [resetLexer] using h8, Nat.zero_le _, ?_⟩
    intro t ht
    simp only [resetLexer, List.mem_map] at ht
    obtain ⟨t0, _, rfl⟩ := ht
    simp [resetToken]
  have hk := skipBlanks_le (cstr raw) 0
  obtain ⟨l1, l2⟩ := lexLoop_steps (cstr raw) ((skipBlanks 0 (cstr raw)).2.length + 1) (skipBlanks 0 (cstr raw)).1 (skipBlanks 0 (cstr raw)).2 _
    (resetToken tk) (resetInstruction instr) hS (by omega)
  have hbs := blankSteps_le (cstr raw)
  have l1' : (lexLoop (cstr raw) ((skipBlanks 0 (cstr raw)).2.length + 1) (skipBlanks 0 (cstr raw)).1 (skipBlanks 0 (cstr raw)).2
    { resetLexer lx with line := some (cstr raw), lineNum := n } (resetToken tk) (resetInstruction instr)).steps ≤ 2295 := l1
  unfold lexLine
  simp only
  rw [steps_tick, result_tick]
  constructor
  · have e : resetLexerSteps + resetTokenSteps = 584 := rfl
    have h8 : MAX_TOKENS = 8 := rfl
    have step := steps_bind_le l1' (f := fun r => tick (MAX_TOKENS - r.1.curr) (pure (fillNull r.1, r.2.1, r.2.2) : T Fail (Lexer × Token × Instr))) (m := 8)
      (by intro a _; rw [steps_tick, steps_pure]; omega)
    exact (Nat.add_le_add (Nat.add_le_add (le_of_eq e) (hbs.trans (hb.trans hr))) step).trans (by norm_num)
  · intro r hr
    rw [result_bind, C.bind_eq_ok] at hr
    obtain ⟨a, ha, hr⟩ := hr
    have := l2 a ha
    cases hr
    refine ⟨?_, this.curr, ?_⟩
    · have := this.len
      simp [fillNull]
      omega
    · intro t ht
      simp only [fillNull, List.mem_append, List.mem_map] at ht
      rcases ht with ht | ⟨t0, ht0, rfl⟩
      · exact this.str t (List.mem_of_mem_take ht)
      · exact this.str t0 (List.mem_of_mem_drop ht0)

/-- Checking the line keeps the texts. -/
theorem parseLine_short {lx lx' : Lexer} (h : Short lx) (e : parseLine lx = .ok lx') : Short lx' := by
  rw [parseLine_eq h.len] at e
  have hf : Short (finish lx) := by
    have hset : ∀ i v, Short (setValue lx i v) := by
      intro i v
      unfold setValue
      refine ⟨by simpa using h.len, h.curr, ?_⟩
      intro t ht
      obtain ⟨j, hj⟩ := List.mem_iff_getElem?.1 ht
      rw [List.getElem?_modify] at hj
      cases h0 : lx.seq[j]? with
      | none => rw [h0] at hj; cases hj
      | some t0 =>
        have := h.str t0 (List.mem_of_getElem? h0)
        rw [h0] at hj
        simp only [Option.map_eq_map, Option.map_some, Option.some.injEq] at hj
        rw [← hj]
        split <;> exact this
    unfold finish
    split
    · exact hset _ _
    · split
      · exact hset _ _
      · exact h
  cases hv : syn (types lx) with
  | ok u => rw [hv] at e; cases e; exact hf
  | error p =>
    rw [hv] at e
    obtain ⟨i, c⟩ := p
    unfold verdict syntaxError at e
    rw [C.bind_eq_ok] at e
    obtain ⟨t, _, e⟩ := e
    exact absurd e (raise_ne_ok _ _ _ _ _ _)

end Gaia.Steps
