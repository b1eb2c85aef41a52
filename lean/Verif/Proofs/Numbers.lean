import Verif.Spec.Syntax
import Verif.Model.Main
import Mathlib.Data.List.Induction

/-! The numbers printed by `printf`. -/
namespace Gaia
open Spec

/-- The digits of a number, as printed. -/
def digitsOf (b n : Nat) : Str := (Nat.toDigits b n).map fun c => UInt8.ofNat c.toNat

theorem digitChar_value : ∀ d < 16, digitValue (UInt8.ofNat (Nat.digitChar d).toNat) = some d := by decide

theorem positional_append (b : Nat) (s t : Str) : positional b (s ++ t) = positional b s * b ^ t.length + positional b t := by
  induction t using List.reverseRecOn with
  | nil => simp [positional]
  | append_singleton t c ih =>
    rw [← List.append_assoc]
    unfold positional at ih ⊢
    rw [List.foldl_append, ih, List.foldl_append]
    simp only [List.foldl_cons, List.foldl_nil, List.length_append, List.length_cons, List.length_nil]
    rw [Nat.add_mul, Nat.pow_succ, Nat.mul_assoc, Nat.add_assoc]

theorem digitsOf_value {b : Nat} (hb : 1 < b) (hb' : b ≤ 16) (n : Nat) : positional b (digitsOf b n) = n := by
  induction n using Nat.strongRecOn with
  | _ n ih =>
    unfold digitsOf
    rw [Nat.toDigits_eq_if hb]
    split_ifs with h
    · simp only [List.map_cons, List.map_nil, positional, List.foldl_cons, List.foldl_nil]
      rw [digitChar_value n (by omega)]
      simp
    · have hlt : n / b < n := Nat.div_lt_self (by omega) hb
      rw [List.map_append, positional_append]
      have := ih (n / b) hlt
      unfold digitsOf at this
      rw [this]
      simp only [List.map_cons, List.map_nil, positional, List.foldl_cons, List.foldl_nil, List.length_cons, List.length_nil]
      rw [digitChar_value _ (by have := Nat.mod_lt n (show b > 0 by omega); omega)]
      have := Nat.div_add_mod n b
      simp only [Option.getD_some, Nat.zero_mul, Nat.zero_add, Nat.pow_one]
      rw [Nat.mul_comm]; exact this

theorem digitsOf_digits {b : Nat} (hb : 1 < b) (hb' : b ≤ 16) (n : Nat) :
    ∀ c ∈ digitsOf b n, ∃ d < b, digitValue c = some d := by
  induction n using Nat.strongRecOn with
  | _ n ih =>
    unfold digitsOf
    rw [Nat.toDigits_eq_if hb]
    split_ifs with h
    · intro c hc
      obtain rfl : c = _ := by simpa using hc
      exact ⟨n, h, digitChar_value n (by omega)⟩
    · have hlt : n / b < n := Nat.div_lt_self (by omega) hb
      intro c hc
      rw [List.map_append, List.mem_append] at hc
      rcases hc with hc | hc
      · exact ih _ hlt c hc
      · obtain rfl : c = _ := by simpa using hc
        have := Nat.mod_lt n (show b > 0 by omega)
        exact ⟨n % b, this, digitChar_value _ (by omega)⟩

/-- The decimal number printed is the number. -/
theorem decimal_value (n : Nat) : positional 10 (decimal n) = n := digitsOf_value (by decide) (by decide) n

theorem decimal_digits (n : Nat) : ∀ c ∈ decimal n, ∃ d < 10, digitValue c = some d := digitsOf_digits (by decide) (by decide) n

theorem positional_zeros (b k : Nat) : positional b (List.replicate k 48) = 0 := by
  induction k with
  | zero => rfl
  | succ k ih =>
    rw [List.replicate_succ', positional_append, ih]
    simp [positional, show digitValue 48 = some 0 from rfl]

/-- The hexadecimal number printed is the number. -/
theorem hex04_value (n : Nat) : positional 16 (hex04 n) = n := by
  unfold hex04
  rw [positional_append, positional_zeros]
  simp only [Nat.zero_mul, Nat.zero_add]
  exact digitsOf_value (by decide) (by decide) n

theorem hex04_length (n : Nat) : 4 ≤ (hex04 n).length := by
  unfold hex04
  simp only [List.length_append, List.length_replicate, List.length_map]
  omega

theorem decimal_inj {m n : Nat} (h : decimal m = decimal n) : m = n := by
  rw [← decimal_value m, h, decimal_value n]

/-- A run of digits before a character that is no decimal digit ends at that character. -/
theorem decimal_prefix {m n : Nat} {c d : Byte} {s t : Str} (hc : ∀ k < 10, digitValue c ≠ some k) (hd : ∀ k < 10, digitValue d ≠ some k)
    (h : decimal m ++ c :: s = decimal n ++ d :: t) : m = n ∧ c :: s = d :: t := by
  have key : ∀ (xs ys : Str), (∀ x ∈ xs, ∃ k < 10, digitValue x = some k) → (∀ x ∈ ys, ∃ k < 10, digitValue x = some k) →
      xs ++ c :: s = ys ++ d :: t → xs = ys ∧ c :: s = d :: t := by
    intro xs
    induction xs with
    | nil =>
      intro ys _ hy h
      cases ys with
      | nil => exact ⟨rfl, h⟩
      | cons y ys =>
        obtain ⟨rfl, _⟩ := List.cons.inj h
        obtain ⟨k, hk, hv⟩ := hy c (by simp)
        exact absurd hv (hc k hk)
    | cons x xs ih =>
      intro ys hx hy h
      cases ys with
      | nil =>
        obtain ⟨rfl, _⟩ := List.cons.inj h
        obtain ⟨k, hk, hv⟩ := hx x (by simp)
        exact absurd hv (hd k hk)
      | cons y ys =>
        obtain ⟨rfl, h'⟩ := List.cons.inj h
        obtain ⟨rfl, h2⟩ := ih ys (fun z hz => hx z (by simp [hz])) (fun z hz => hy z (by simp [hz])) h'
        exact ⟨rfl, h2⟩
  obtain ⟨h1, h2⟩ := key _ _ (decimal_digits m) (decimal_digits n) h
  exact ⟨decimal_inj h1, h2⟩

/-- Different totals give different reports. -/
theorem report_inj {a b c d : Nat} (h : report a b = report c d) : a = c ∧ b = d := by
  have nd : ∀ k < 10, digitValue 32 ≠ some k := by decide
  have e : ∀ x y, report x y = b! "Assembly successful.\n" ++ (decimal x ++ (32 : Byte) ::
      (b! "(0x" ++ (hex04 x ++ (b! ") bytes assembled.\n" ++ (decimal y ++ (32 : Byte) :: b! "symbols.\n"))))) := by
    intro x y
    unfold report
    simp only [List.append_assoc]
    rfl
  rw [e, e] at h
  obtain ⟨rfl, h⟩ := decimal_prefix nd nd (List.append_cancel_left h)
  have h := (List.cons.inj h).2
  have h := List.append_cancel_left (List.append_cancel_left (List.append_cancel_left h))
  exact ⟨rfl, (decimal_prefix nd nd h).1⟩

end Gaia
