import Mathlib.Analysis.Real.Sqrt
import Mathlib.Algebra.Order.Floor.Ring
import Mathlib.Tactic.Linarith
import Mathlib.Tactic.NormNum
import Mathlib.Tactic.Positivity
import Verif.Model.Prime

/-! `floor(sqrt((double)x))` of prime.c:24 is the integer square root. -/
namespace Gaia

/-- The finite values of an IEEE 754 binary64 (`double`): an integer of at most 53 bits times a power of two in the range of the
format. (prime.c:24 computes with such numbers) -/
def IsDouble (d : ℝ) : Prop := ∃ m e : ℤ, |m| < 2 ^ 53 ∧ -1074 ≤ e ∧ e ≤ 971 ∧ d = (m : ℝ) * (2 : ℝ) ^ e

/-- `d` is a double closest to `y`: what a correctly rounded operation returns (whatever it does with ties). (prime.c:24, `sqrt`) -/
def IsRounded (d y : ℝ) : Prop := IsDouble d ∧ ∀ d', IsDouble d' → |d - y| ≤ |d' - y|

theorem isDouble_nat {n : ℕ} (h : n < 2 ^ 53) : IsDouble (n : ℝ) := by
  refine ⟨(n : ℤ), 0, ?_, by norm_num, by norm_num, by simp⟩
  rw [abs_of_nonneg (by positivity)]
  exact_mod_cast h

/-- An `int` converted to `double` is exact. -/
theorem isRounded_nat {n : ℕ} (h : n < 2 ^ 53) : ∀ d, IsRounded d (n : ℝ) ↔ d = n := by
  intro d
  constructor
  · rintro ⟨_, h1⟩
    have := h1 _ (isDouble_nat h)
    rw [sub_self, abs_zero] at this
    have h2 := abs_nonneg (d - n)
    have h3 : |d - n| = 0 := le_antisymm this h2
    rw [abs_eq_zero] at h3
    linarith
  · rintro rfl
    exact ⟨isDouble_nat h, fun d' _ => by rw [sub_self, abs_zero]; exact abs_nonneg _⟩

theorem floor_sqrt {x : ℕ} (hx : x ≤ INT_MAX) {d : ℝ} (hd : IsRounded d (Real.sqrt x)) : ⌊d⌋ = (Nat.sqrt x : ℤ) := by
  obtain ⟨_, hd⟩ := hd
  generalize hk : Nat.sqrt x = k
  have h1 : k * k ≤ x := by rw [← hk]; exact Nat.sqrt_le x
  have h2 : x + 1 ≤ (k + 1) * (k + 1) := by rw [← hk]; exact Nat.succ_le_succ_sqrt x
  have h3 : k < 46341 := by
    by_contra h
    have : 46341 * 46341 ≤ k * k := Nat.mul_le_mul (by omega) (by omega)
    unfold INT_MAX at hx
    omega
  have x0 : (0 : ℝ) ≤ (x : ℝ) := by positivity
  have s0 : 0 ≤ Real.sqrt x := Real.sqrt_nonneg _
  have s2 : Real.sqrt x * Real.sqrt x = x := Real.mul_self_sqrt x0
  have h1' : (k : ℝ) * k ≤ x := by exact_mod_cast h1
  have h2' : (x : ℝ) + 1 ≤ (k + 1) * (k + 1) := by exact_mod_cast h2
  have h3' : (k : ℝ) + 1 ≤ 46341 := by exact_mod_cast h3
  have k0 : (0 : ℝ) ≤ k := by positivity
  have hlo : (k : ℝ) ≤ Real.sqrt x := Real.le_sqrt_of_sq_le (by rw [pow_two]; exact h1')
  have e17 : ((2 : ℝ) ^ (-17 : ℤ)) = 1 / 131072 := by norm_num
  have hhi : Real.sqrt x < (k : ℝ) + 1 - 1 / 131072 := by
    rw [Real.sqrt_lt' (by linarith)]
    nlinarith
  rw [Int.floor_eq_iff]
  constructor
  · have := hd _ (isDouble_nat (n := k) (by omega))
    by_contra h
    push_cast at h
    rw [abs_of_nonpos (by linarith), abs_of_nonpos (by linarith)] at this
    linarith
  · have hd' : IsDouble ((k : ℝ) + 1 - 1 / 131072) := by
      refine ⟨((k : ℤ) + 1) * 131072 - 1, -17, ?_, by norm_num, by norm_num, ?_⟩
      · rw [abs_of_nonneg (by omega)]
        omega
      · rw [e17]
        push_cast
        ring
    have := hd _ hd'
    by_contra h
    push_cast at h
    rw [not_lt] at h
    rw [abs_of_nonneg (by linarith), abs_of_nonneg (by linarith)] at this
    linarith

end Gaia
