import Mathlib.NumberTheory.Bertrand
import Verif.Model.Prime

/-! Lemmas about `Model/Prime.lean`. -/
namespace Gaia

theorem isPrimeLoop_iff (x : Nat) : ∀ (fuel i : Nat), i % 2 = 1 → Nat.sqrt x + 1 < i + fuel → 0 < fuel →
    (isPrimeLoop x fuel i = true ↔ ∀ j, i ≤ j → j % 2 = 1 → j ≤ Nat.sqrt x → ¬ j ∣ x) := by
  intro fuel
  induction fuel with
  | zero => intro i _ _ h; omega
  | succ fuel ih =>
    intro i hi hf _
    unfold isPrimeLoop
    by_cases h1 : i ≤ Nat.sqrt x
    · rw [if_pos h1]
      by_cases h2 : x % i = 0
      · have : (x % i == 0) = true := by simp [h2]
        rw [if_pos this]
        simp only [Bool.false_eq_true, false_iff]
        intro h
        exact h i (le_refl _) hi h1 (Nat.dvd_of_mod_eq_zero h2)
      · have : ¬ ((x % i == 0) = true) := by simp [h2]
        rw [if_neg this, ih (i + 2) (by omega) (by omega) (by omega)]
        constructor
        · intro h j hj hjo hjs hd
          rcases Nat.lt_or_ge j (i + 2) with hlt | hge
          · have : j = i := by omega
            subst this
            exact h2 (Nat.mod_eq_zero_of_dvd hd)
          · exact h j hge hjo hjs hd
        · intro h j hj hjo hjs
          exact h j (by omega) hjo hjs
    · rw [if_neg h1]
      simp only [true_iff]
      intro j hj _ hjs
      omega

/-- Trial division is correct. -/
theorem isPrime_iff (x : Nat) : isPrime x = true ↔ Nat.Prime x := by
  unfold isPrime
  by_cases h2 : x < 2
  · rw [if_pos h2]
    simp only [Bool.false_eq_true, false_iff]
    exact fun h => absurd h.two_le (by omega)
  rw [if_neg h2]
  by_cases h4 : x < 4
  · rw [if_pos h4]
    simp only [true_iff]
    interval_cases x
    · exact Nat.prime_two
    · exact Nat.prime_three
  rw [if_neg h4]
  by_cases he : x % 2 = 0
  · have : (x % 2 == 0) = true := by simp [he]
    rw [if_pos this]
    simp only [Bool.false_eq_true, false_iff]
    intro hp
    have := (Nat.prime_dvd_prime_iff_eq Nat.prime_two hp).1 (Nat.dvd_of_mod_eq_zero he)
    omega
  have : ¬ ((x % 2 == 0) = true) := by simp [he]
  have hs : Nat.sqrt x ≤ x := Nat.sqrt_le_self x
  rw [if_neg this, isPrimeLoop_iff x x 3 (by decide) (by omega) (by omega)]
  rw [Nat.prime_def_le_sqrt]
  constructor
  · intro h
    refine ⟨by omega, fun m hm hms hd => ?_⟩
    by_cases hmo : m % 2 = 0
    · exact he (Nat.mod_eq_zero_of_dvd ((Nat.dvd_of_mod_eq_zero hmo).trans hd))
    · exact h m (by omega) (by omega) hms hd
  · rintro ⟨_, h⟩ j hj _ hjs
    exact h j (by omega) hjs

theorem nextPrimeLoop_spec (p : Nat) (hp : Nat.Prime p) (hmax : p ≤ INT_MAX) :
    ∀ (fuel x : Nat), x < p → p < x + fuel + 1 →
      ∃ q, nextPrimeLoop fuel x = .ok q ∧ Nat.Prime q ∧ x < q ∧ q ≤ p ∧
        ∀ r, x < r → Nat.Prime r → q ≤ r := by
  intro fuel
  induction fuel with
  | zero => intro x h1 h2; omega
  | succ fuel ih =>
    intro x h1 h2
    unfold nextPrimeLoop
    rw [if_neg (by omega)]
    by_cases hx : isPrime (x + 1) = true
    · rw [if_pos hx]
      exact ⟨x + 1, rfl, (isPrime_iff _).1 hx, by omega, by omega, fun r hr _ => by omega⟩
    · rw [if_neg hx]
      have hne : x + 1 ≠ p := by
        rintro rfl
        exact hx ((isPrime_iff _).2 hp)
      obtain ⟨q, h, hq, hlt, hle, hmin⟩ := ih (x + 1) (by omega) (by omega)
      refine ⟨q, h, hq, by omega, hle, fun r hr hrp => ?_⟩
      rcases Nat.lt_or_ge (x + 1) r with h' | h'
      · exact hmin r h' hrp
      · have : r = x + 1 := by omega
        subst this
        exact absurd ((isPrime_iff _).2 hrp) hx

/-- Below half of `INT_MAX`, `next_prime` terminates and is the least prime above its argument (at most twice the
argument, by Bertrand's postulate). -/
theorem nextPrime_bound (x : Nat) (h1 : 1 ≤ x) (hx : 2 * x ≤ INT_MAX) :
    ∃ q, nextPrime x = .ok q ∧ Nat.Prime q ∧ x < q ∧ q ≤ 2 * x ∧ ∀ r, x < r → Nat.Prime r → q ≤ r := by
  obtain ⟨p, hp, hlt, hle⟩ := Nat.exists_prime_lt_and_le_two_mul x (by omega)
  obtain ⟨q, h, hq, hxq, hqp, hmin⟩ := nextPrimeLoop_spec p hp (by omega) (x + 2) x hlt (by omega)
  exact ⟨q, h, hq, hxq, by omega, hmin⟩

end Gaia
