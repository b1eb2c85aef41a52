import Mathlib.NumberTheory.LucasLehmer
import Verif.Proofs.Prime
import Verif.Proofs.FloorSqrt

/-!
C19: the table sizes. `next_prime(x)` returns the least prime above `x`, for every `x` from 0 to `INT_MAX - 1`: it
never loops forever and never overflows, because `INT_MAX = 2^31 - 1` is itself prime. The specification is
Mathlib's `Nat.Prime`.
-/
namespace Gaia

/-- `is_prime` decides primality, for every non-negative `int`. -/
theorem C19_isPrime_correct (x : Nat) : isPrime x = true ↔ Nat.Prime x := isPrime_iff x

theorem INT_MAX_prime : Nat.Prime INT_MAX := by
  have h : (mersenne 31).Prime := lucas_lehmer_sufficiency _ (by simp) (by norm_num)
  exact h

/-- `next_prime x` terminates without overflow and is the least prime greater than `x`. -/
theorem C19_nextPrime_least (x : Nat) (hx : x < INT_MAX) :
    ∃ q, nextPrime x = .ok q ∧ Nat.Prime q ∧ x < q ∧ (∀ r, x < r → Nat.Prime r → q ≤ r) := by
  rcases Nat.eq_zero_or_pos x with rfl | h0
  · exact ⟨2, by decide +kernel, Nat.prime_two, by decide, fun r _ hr => hr.two_le⟩
  by_cases h : 2 * x ≤ INT_MAX
  · obtain ⟨q, h1, h2, h3, _, h5⟩ := nextPrime_bound x h0 h
    exact ⟨q, h1, h2, h3, h5⟩
  · obtain ⟨q, h1, h2, h3, _, h5⟩ :=
      nextPrimeLoop_spec INT_MAX INT_MAX_prime (le_refl _) (x + 2) x hx (by omega)
    exact ⟨q, h1, h2, h3, h5⟩

/-- The result is at most twice the argument, so a resized table is at most four times as large. -/
theorem C19_nextPrime_le (x q : Nat) (h0 : 1 ≤ x) (hx : 2 * x ≤ INT_MAX) (h : nextPrime x = .ok q) :
    q ≤ 2 * x := by
  obtain ⟨q', h1, _, _, h4, _⟩ := nextPrime_bound x h0 hx
  rw [h1] at h
  cases h
  exact h4

/-- The bound of the loop, `i <= floor(sqrt((double)x))`, is what the model says (`i ≤ Nat.sqrt x`), for every non-negative `int x`: the
conversion of `x` is exact, and whichever double closest to the real square root `sqrt` returns, its floor is the integer square root.
So nothing is assumed about `sqrt` but that it is correctly rounded (IEEE 754). -/
theorem C19_loop_bound (x : Nat) (hx : x ≤ INT_MAX) (c d : ℝ) (hc : IsRounded c x) (hd : IsRounded d (Real.sqrt c)) (i : Nat) :
    (i : ℝ) ≤ (⌊d⌋ : ℝ) ↔ i ≤ Nat.sqrt x := by
  have hc' : c = x := (isRounded_nat (by unfold INT_MAX at hx; omega) c).1 hc
  rw [hc'] at hd
  rw [floor_sqrt hx hd]
  exact_mod_cast Iff.rfl

/-- The hypotheses of `C19_loop_bound` hold: 49 and its square root are doubles. -/
example : IsRounded (49 : ℕ) (49 : ℕ) ∧ IsRounded (7 : ℕ) (Real.sqrt (49 : ℕ)) := by
  refine ⟨(isRounded_nat (by norm_num) _).2 rfl, ?_⟩
  have : Real.sqrt (49 : ℕ) = (7 : ℕ) := by
    rw [Real.sqrt_eq_iff_mul_self_eq (by positivity) (by positivity)]
    norm_num
  rw [this]
  exact (isRounded_nat (by norm_num) _).2 rfl

/-- The hypothesis holds at the first resize: the size after 17 is 37. -/
example : 34 < INT_MAX ∧ nextPrime 34 = .ok 37 := by decide +kernel

/-- At `INT_MAX` the C function overflows: the bound is tight. -/
example : nextPrime INT_MAX = .ub .signedOverflow := by decide +kernel

end Gaia
