import Verif.Proofs.Lex
import Mathlib.Data.List.Induction

/-! Closed forms of the literal, word and directive scanners, in terms of the longest run of valid characters. -/
namespace Gaia
open Spec (IsDigitOf digitValue positional wordChar)

/-- `c` is a digit of base `b`, as a test. -/
def isDig (b : Nat) (c : Byte) : Bool :=
  match digitValue c with
  | some v => decide (v < b)
  | none => false

theorem isDig_iff (b : Nat) (c : Byte) : isDig b c = true ↔ IsDigitOf b c := by
  unfold isDig IsDigitOf
  cases digitValue c <;> simp

/-- The converter of a base agrees with `digitValue`. -/
def ConvOK (conv : Byte → Option Nat) (b : Nat) : Prop :=
  ∀ c, conv c = if isDig b c then digitValue c else none

theorem convOK_hex : ConvOK hexDigitToInt 16 := by unfold ConvOK; decide +kernel
theorem convOK_bin : ConvOK binDigitToInt 2 := by unfold ConvOK; decide +kernel
theorem convOK_dec : ConvOK decDigitToInt 10 := by unfold ConvOK; decide +kernel

/-- Positional value, starting from a value of the digits before. -/
def folded (b t : Nat) (ds : Str) : Nat := ds.foldl (fun n c => n * b + (digitValue c).getD 0) t

theorem folded_cons (b t : Nat) (c : Byte) (ds : Str) :
    folded b t (c :: ds) = folded b (t * b + (digitValue c).getD 0) ds := rfl

theorem positional_eq (b : Nat) (ds : Str) : positional b ds = folded b 0 ds := rfl

theorem folded_ge (b : Nat) (hb : 1 ≤ b) : ∀ (ds : Str) (t : Nat), t ≤ folded b t ds
  | [], t => Nat.le_refl _
  | c :: ds, t => by
    rw [folded_cons]
    refine Nat.le_trans ?_ (folded_ge b hb ds _)
    have : t * 1 ≤ t * b := Nat.mul_le_mul_left _ hb
    omega

theorem digitLoop_digits {conv : Byte → Option Nat} {b : Nat} (hc : ConvOK conv b) :
    ∀ (ds rest : Str) (t n : Nat), (∀ c ∈ ds, isDig b c = true) →
      digitLoop conv b (ds ++ rest) (t % 2 ^ 64) n =
        digitLoop conv b rest (folded b t ds % 2 ^ 64) (n + ds.length)
  | [], rest, t, n, _ => rfl
  | c :: ds, rest, t, n, h => by
    have hd : isDig b c = true := h c (by simp)
    have hv : ∃ v, digitValue c = some v := by
      obtain ⟨v, hv, _⟩ := (isDig_iff b c).1 hd
      exact ⟨v, hv⟩
    obtain ⟨v, hv⟩ := hv
    rw [List.cons_append]
    conv_lhs => unfold digitLoop
    rw [hc c, if_pos hd, hv]
    simp only
    have hmod : ((t % 2 ^ 64) * b + v) % 2 ^ 64 = (t * b + v) % 2 ^ 64 := by
      rw [Nat.add_mod, Nat.mod_mul_mod, ← Nat.add_mod]
    rw [hmod, digitLoop_digits hc ds rest (t * b + v) (n + 1) (fun x hx => h x (by simp [hx])), folded_cons, hv]
    simp only [Option.getD_some, List.length_cons]
    rw [show n + 1 + ds.length = n + (ds.length + 1) by omega]

theorem digitLoop_stop {conv : Byte → Option Nat} {b : Nat} (hc : ConvOK conv b) (rest : Str) (t n : Nat)
    (h : ∀ c r, rest = c :: r → isDig b c = false) :
    digitLoop conv b rest t n = if isEndOfToken (rd rest) then .done t n else .bad n := by
  cases rest with
  | nil => simp [digitLoop, rd, isEndOfToken_zero]
  | cons c r =>
    unfold digitLoop
    rw [hc c, if_neg (by rw [h c r rfl]; simp)]
    rfl

theorem takeWhile_all {α} (p : α → Bool) (l : List α) : ∀ c ∈ l.takeWhile p, p c = true := by
  intro c hc
  have h := List.all_takeWhile (p := p) (l := l)
  rw [List.all_eq_true] at h
  exact h c hc

theorem dropWhile_head {α} (p : α → Bool) (l : List α) : ∀ c r, l.dropWhile p = c :: r → p c = false := by
  induction l with
  | nil => intro c r h; simp at h
  | cons a l ih =>
    intro c r h
    rw [List.dropWhile_cons] at h
    split_ifs at h with hp
    · exact ih c r h
    · simp only [List.cons.injEq] at h
      rw [← h.1]; simpa using hp

/-- The longest prefix of digits. -/
def digits (b : Nat) (s : Str) : Str := s.takeWhile (isDig b)
/-- What follows it. -/
def afterDigits (b : Nat) (s : Str) : Str := s.dropWhile (isDig b)

theorem litBody_eq {conv : Byte → Option Nat} {b : Nat} (hc : ConvOK conv b) (s : Str) (k : Nat) :
    litBody conv b s k =
      if isEndOfToken (rd (afterDigits b s)) then
        if k + (digits b s).length = 0 then .error (.illegalChar, 0)
        else if k + (digits b s).length = 1 ∧ (b = 2 ∨ b = 16) then .error (.illegalChar, 1)
        else if positional b (digits b s) % 2 ^ 64 > 0xFFFF then .error (.tooBigLiteral, 0)
        else .ok (k + (digits b s).length, .lit (positional b (digits b s) % 2 ^ 64))
      else .error (.illegalChar, k + (digits b s).length) := by
  unfold litBody
  have hs : s = digits b s ++ afterDigits b s := (List.takeWhile_append_dropWhile).symm
  have h1 : digitLoop conv b s 0 k =
      digitLoop conv b (afterDigits b s) (positional b (digits b s) % 2 ^ 64) (k + (digits b s).length) := by
    conv_lhs => rw [hs, show (0 : Nat) = 0 % 2 ^ 64 from rfl]
    exact digitLoop_digits hc _ _ _ _ (takeWhile_all _ _)
  rw [h1, digitLoop_stop hc (afterDigits b s) _ _ (dropWhile_head _ _)]
  generalize positional b (digits b s) % 2 ^ 64 = v
  split_ifs with h1 h2 h3 h4
  · simp only [h2, if_true]
  · simp only [if_neg h2, if_pos h3]
    rw [h3.1]
  · simp only [if_neg h2, if_neg h3, if_pos h4]
  · simp only [if_neg h2, if_neg h3, if_neg h4]
  · rfl

/-! ### Words and directives -/

theorem scanLoop_eq {stop valid : Byte → Bool} (hv : ∀ c, valid c = true → stop c = false) (h0 : stop 0 = true) :
    ∀ (fuel i : Nat) (s : Str), scanLoop stop valid fuel i s =
      if fuel ≤ (s.takeWhile valid).length then .done (i + fuel)
      else if stop (rd (s.dropWhile valid)) then .done (i + (s.takeWhile valid).length)
      else .bad (i + (s.takeWhile valid).length) := by
  intro fuel
  induction fuel with
  | zero => intro i s; simp [scanLoop]
  | succ fuel ih =>
    intro i s
    unfold scanLoop
    cases s with
    | nil => simp [rd, h0]
    | cons c s =>
      simp only [rd, List.headD_cons, List.tail_cons, List.takeWhile_cons, List.dropWhile_cons]
      by_cases hc : valid c = true
      · simp only [hc, hv c hc, Bool.not_true, if_true, List.length_cons, ih]
        have e1 : (fuel ≤ (s.takeWhile valid).length) = (fuel + 1 ≤ (s.takeWhile valid).length + 1) := by simp
        have e2 : i + 1 + fuel = i + (fuel + 1) := by omega
        have e3 : i + 1 + (s.takeWhile valid).length = i + ((s.takeWhile valid).length + 1) := by omega
        rw [e2, e3]
        simp [rd]
      · simp [hc]

/-- The longest prefix of word characters. -/
def word (s : Str) : Str := s.takeWhile wordChar
/-- What follows it. -/
def afterWord (s : Str) : Str := s.dropWhile wordChar

theorem take_takeWhile {α} (p : α → Bool) (s : List α) : s.take (s.takeWhile p).length = s.takeWhile p := by
  exact (List.prefix_iff_eq_take.1 (List.takeWhile_prefix p)).symm

theorem drop_takeWhile {α} (p : α → Bool) (s : List α) : s.drop (s.takeWhile p).length = s.dropWhile p := by
  have h := congrArg (List.drop (s.takeWhile p).length) (List.takeWhile_append_dropWhile (p := p) (l := s))
  rw [List.drop_left] at h
  exact h.symm

theorem wordBody_eq (s : Str) : wordBody s =
    if 64 ≤ (word s).length then .error (.tooLongLabel, 0)
    else if isTextStop (rd (afterWord s)) then .ok ((word s).length, Spec.wordLexeme ((word s).map toUpper))
    else .error (.illegalChar, (word s).length) := by
  unfold wordBody
  rw [scanLoop_eq (stop := isTextStop) (valid := isValidTokenChar) (by decide +kernel) isTextStop_zero]
  have hv : isValidTokenChar = wordChar := rfl
  rw [hv]
  have hm : MAX_TOKEN_STR_LEN = 64 := rfl
  rw [hm]
  unfold word afterWord
  split_ifs with h1 h2
  · simp
  · simp only [Nat.zero_add]
    rw [if_neg (by omega), take_takeWhile]
  · simp

theorem dirBody_eq (c : Byte) (s : Str) : dirBody (c :: s) =
    if 63 ≤ (s.takeWhile isAlpha).length then .error (.illegalDirective, 0)
    else if isEndOfToken (rd (s.dropWhile isAlpha)) then
      match Spec.directiveLexeme (((c :: s).take (1 + (s.takeWhile isAlpha).length)).map toUpper) with
      | some x => .ok (1 + (s.takeWhile isAlpha).length, x)
      | none => .error (.illegalDirective, 0)
    else .error (.illegalChar, 1 + (s.takeWhile isAlpha).length) := by
  unfold dirBody
  rw [show (c :: s).tail = s from rfl]
  rw [scanLoop_eq (stop := isEndOfToken) (valid := isAlpha) (by decide +kernel) isEndOfToken_zero]
  have hm : MAX_TOKEN_STR_LEN = 64 := rfl
  rw [hm]
  split_ifs with h1 h2
  · simp
  · simp only
    rw [if_neg (by omega)]
    rfl
  · simp

end Gaia
