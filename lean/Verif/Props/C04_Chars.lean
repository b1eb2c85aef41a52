import Verif.Props.Example

/-!
The character classes and number formats that the other statements mention, pinned down by plain lists of characters. (The
specification uses the same `isAlpha`, `isDigit`, `toUpper`, `decimal` and `hex04` as the model.)
-/
namespace Gaia
open Spec

/-- **C04, the alphabet.** Upper-casing maps the 26 small letters to the 26 capital ones and leaves every other byte alone. -/
theorem C04_upper_case (c : Byte) :
    toUpper c = (((b! "abcdefghijklmnopqrstuvwxyz").zip (b! "ABCDEFGHIJKLMNOPQRSTUVWXYZ")).lookup c).getD c := by
  have h : ∀ n : Fin 256, toUpper (UInt8.ofNat n) =
      (((b! "abcdefghijklmnopqrstuvwxyz").zip (b! "ABCDEFGHIJKLMNOPQRSTUVWXYZ")).lookup (UInt8.ofNat n)).getD (UInt8.ofNat n) := by
    decide +kernel
  simpa using h ⟨c.toNat, c.toNat_lt⟩

/-- **C03, names.** A name starts with a letter and goes on with letters, digits and underscores. -/
theorem C03_letters (c : Byte) : isAlpha c = (b! "ABCDEFGHIJKLMNOPQRSTUVWXYZabcdefghijklmnopqrstuvwxyz").contains c := by
  have h : ∀ n : Fin 256, isAlpha (UInt8.ofNat n) =
      (b! "ABCDEFGHIJKLMNOPQRSTUVWXYZabcdefghijklmnopqrstuvwxyz").contains (UInt8.ofNat n) := by decide +kernel
  simpa using h ⟨c.toNat, c.toNat_lt⟩

theorem C03_name_characters (c : Byte) :
    wordChar c = (b! "ABCDEFGHIJKLMNOPQRSTUVWXYZabcdefghijklmnopqrstuvwxyz0123456789_").contains c := by
  have h : ∀ n : Fin 256, wordChar (UInt8.ofNat n) =
      (b! "ABCDEFGHIJKLMNOPQRSTUVWXYZabcdefghijklmnopqrstuvwxyz0123456789_").contains (UInt8.ofNat n) := by decide +kernel
  simpa using h ⟨c.toNat, c.toNat_lt⟩

/-- **C01, digits.** The digits and their values; letters of either case count. -/
theorem C01_digits (c : Byte) : digitValue c = ((b! "0123456789abcdefABCDEF").zip
    [0, 1, 2, 3, 4, 5, 6, 7, 8, 9, 10, 11, 12, 13, 14, 15, 10, 11, 12, 13, 14, 15]).lookup c := by
  have h : ∀ n : Fin 256, digitValue (UInt8.ofNat n) = ((b! "0123456789abcdefABCDEF").zip
      [0, 1, 2, 3, 4, 5, 6, 7, 8, 9, 10, 11, 12, 13, 14, 15, 10, 11, 12, 13, 14, 15]).lookup (UInt8.ofNat n) := by decide +kernel
  simpa using h ⟨c.toNat, c.toNat_lt⟩

/-! ### Numbers in messages -/

theorem digitChar_number (b : Nat) (hb : b ≤ 16) (d : Nat) (h : d < b) :
    IsDigitOf b (UInt8.ofNat d.digitChar.toNat) ∧ digitValue (UInt8.ofNat d.digitChar.toNat) = some d ∧
      UInt8.ofNat d.digitChar.toNat ∈ b! "0123456789abcdef" ∧ (UInt8.ofNat d.digitChar.toNat = 48 → d = 0) := by
  have h1 : ∀ d : Fin 16, digitValue (UInt8.ofNat d.val.digitChar.toNat) = some d.val ∧
      UInt8.ofNat d.val.digitChar.toNat ∈ b! "0123456789abcdef" ∧ (UInt8.ofNat d.val.digitChar.toNat = 48 → d.val = 0) := by
    decide +kernel
  obtain ⟨h2, h3, h4⟩ := h1 ⟨d, by omega⟩
  exact ⟨⟨d, h2, h⟩, h2, h3, h4⟩

/-- The digits of a number as bytes. -/
def digitText (b n : Nat) : Str := (Nat.toDigits b n).map fun c => UInt8.ofNat c.toNat

theorem digitsOf_eq {b : Nat} (hb : 1 < b) (n : Nat) : digitText b n =
    if n < b then [UInt8.ofNat n.digitChar.toNat] else digitText b (n / b) ++ [UInt8.ofNat (n % b).digitChar.toNat] := by
  unfold digitText
  rw [Nat.toDigits_eq_if hb]
  split_ifs <;> simp

theorem digitsOf_spec {b : Nat} (hb : 1 < b) (hb' : b ≤ 16) : ∀ n : Nat, positional b (digitText b n) = n ∧
    (∀ c ∈ digitText b n, c ∈ b! "0123456789abcdef" ∧ IsDigitOf b c) ∧ (digitText b n).length ≠ 0 ∧
    ((digitText b n).head? = some 48 → n = 0) := by
  intro n
  induction n using Nat.strong_induction_on with
  | _ n ih =>
    rw [digitsOf_eq hb]
    by_cases h : n < b
    · rw [if_pos h]
      obtain ⟨h1, h2, h3, h4⟩ := digitChar_number b hb' n h
      refine ⟨?_, ?_, by simp, ?_⟩
      · simp [positional, h2]
      · intro c hc
        rw [List.mem_singleton] at hc
        subst hc
        exact ⟨h3, h1⟩
      · intro h5
        simp only [List.head?_cons, Option.some.injEq] at h5
        exact h4 h5
    · rw [if_neg h]
      obtain ⟨i1, i2, i3, i4⟩ := ih (n / b) (Nat.div_lt_self (by omega) hb)
      obtain ⟨h1, h2, h3, h4⟩ := digitChar_number b hb' (n % b) (Nat.mod_lt _ (by omega))
      refine ⟨?_, ?_, by simp, ?_⟩
      · unfold positional at i1 ⊢
        rw [List.foldl_append, i1]
        simp only [List.foldl_cons, List.foldl_nil, h2, Option.getD_some]
        exact Nat.div_add_mod' n b
      · intro c hc
        rcases List.mem_append.1 hc with hc | hc
        · exact i2 c hc
        · rw [List.mem_singleton] at hc
          subst hc
          exact ⟨h3, h1⟩
      · intro h5
        cases h6 : digitText b (n / b) with
        | nil => rw [h6] at i3; simp at i3
        | cons x xs =>
          rw [h6] at h5 i4
          have := i4 (by simpa using h5)
          have h7 : 0 < n / b := Nat.div_pos (by omega) (by omega)
          omega

/-- **C29, C33: decimal numbers.** `decimal n` is the decimal numeral of `n`: decimal digits only, of value `n`, without a leading
zero unless it is `0`. -/
theorem C29_decimal (n : Nat) : positional 10 (decimal n) = n ∧ (∀ c ∈ decimal n, c ∈ b! "0123456789") ∧
    (∀ r, decimal n = 48 :: r → n = 0 ∧ r = []) := by
  obtain ⟨h1, h2, h3, h4⟩ := digitsOf_spec (b := 10) (by decide) (by decide) n
  refine ⟨h1, ?_, ?_⟩
  · intro c hc
    obtain ⟨h5, d, h6, h7⟩ := h2 c hc
    have h8 : ∀ c ∈ b! "0123456789abcdef", (digitValue c).getD 0 < 10 → c ∈ b! "0123456789" := by decide +kernel
    exact h8 c h5 (by rw [h6]; exact h7)
  · intro r hr
    have e : decimal n = digitText 10 n := rfl
    have hn : n = 0 := h4 (by rw [← e, hr]; rfl)
    subst hn
    have h0 : decimal 0 = [48] := by decide
    rw [h0] at hr
    injection hr with _ hr
    exact ⟨rfl, hr.symm⟩

/-- **C29: hexadecimal numbers.** `hex04 n` is the hexadecimal numeral of `n` in small letters, filled up with zeros to four digits
and no further. -/
theorem C29_hex (n : Nat) : positional 16 (hex04 n) = n ∧ (∀ c ∈ hex04 n, c ∈ b! "0123456789abcdef") ∧ 4 ≤ (hex04 n).length ∧
    (4 < (hex04 n).length → (hex04 n).head? ≠ some 48) := by
  obtain ⟨h1, h2, h3, h4⟩ := digitsOf_spec (b := 16) (by decide) (by decide) n
  have e : hex04 n = List.replicate (4 - (digitText 16 n).length) 48 ++ digitText 16 n := rfl
  rw [e]
  refine ⟨?_, ?_, ?_, ?_⟩
  · have hz : ∀ k s, positional 16 (List.replicate k 48 ++ s) = positional 16 s := by
      intro k s
      induction k with
      | zero => rfl
      | succ k ih => rw [List.replicate_succ, List.cons_append, ← ih]; rfl
    rw [hz, h1]
  · intro c hc
    rcases List.mem_append.1 hc with hc | hc
    · rw [(List.mem_replicate.1 hc).2]; decide
    · exact (h2 c hc).1
  · rw [List.length_append, List.length_replicate]; omega
  · intro h5
    rw [List.length_append, List.length_replicate] at h5
    have h6 : 4 - (digitText 16 n).length = 0 := by omega
    rw [h6]
    intro h7
    have hn := h4 h7
    subst hn
    have h0 : (digitText 16 0).length = 1 := by decide
    omega

example : decimal 4660 = b! "4660" ∧ hex04 4660 = b! "1234" ∧ hex04 255 = b! "00ff" ∧ hex04 70000 = b! "11170" := by decide +kernel

end Gaia
