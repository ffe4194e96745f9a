import Verif.Lemmas.BesselFn

/-!
# Integrals of products of Bessel functions
-/

set_option linter.unusedSectionVars false

namespace Verif

open Real MeasureTheory intervalIntegral Set

theorem hasDerivAt_j0_mul (α r : ℝ) : HasDerivAt (fun r => besselJ0 (α * r)) (- besselJ1 (α * r) * α) r := by
  have h : HasDerivAt (fun r => α * r) α r := by simpa using (hasDerivAt_id r).const_mul α
  exact (hasDerivAt_besselJ0 (α * r)).comp r h

theorem hasDerivAt_j1_mul (α r : ℝ) : HasDerivAt (fun r => besselJ1 (α * r)) (besselJ1' (α * r) * α) r := by
  have h : HasDerivAt (fun r => α * r) α r := by simpa using (hasDerivAt_id r).const_mul α
  exact (hasDerivAt_besselJ1 (α * r)).comp r h

theorem continuous_j0_mul (α : ℝ) : Continuous fun r => besselJ0 (α * r) := continuous_besselJ0.comp (continuous_const.mul continuous_id)

/-- Lommel's integral. -/
theorem lommel (α β R : ℝ) : (β ^ 2 - α ^ 2) * ∫ r in (0 : ℝ)..R, besselJ0 (α * r) * besselJ0 (β * r) * r =
    R * (β * besselJ0 (α * R) * besselJ1 (β * R) - α * besselJ1 (α * R) * besselJ0 (β * R)) := by
  have hd : ∀ r, HasDerivAt (fun r => r * (β * besselJ0 (α * r) * besselJ1 (β * r) - α * besselJ1 (α * r) * besselJ0 (β * r)))
      ((β ^ 2 - α ^ 2) * (besselJ0 (α * r) * besselJ0 (β * r) * r)) r := fun r => by
    refine ((hasDerivAt_id r).mul ((((hasDerivAt_j0_mul α r).const_mul β).mul (hasDerivAt_j1_mul β r)).sub
      (((hasDerivAt_j1_mul α r).const_mul α).mul (hasDerivAt_j0_mul β r)))).congr_deriv ?_
    have h1 := bessel_equation (α * r)
    have h2 := bessel_equation (β * r)
    simp only [id, Pi.sub_apply, Pi.mul_apply]
    linear_combination (β * besselJ0 (α * r)) * h2 - (α * besselJ0 (β * r)) * h1
  have hc := continuous_j0_mul α
  have hc' := continuous_j0_mul β
  rw [← intervalIntegral.integral_const_mul, integral_eq_sub_of_hasDerivAt (fun r _ => hd r)
    ((by fun_prop : Continuous fun r => (β ^ 2 - α ^ 2) * (besselJ0 (α * r) * besselJ0 (β * r) * r)).intervalIntegrable _ _)]
  simp

theorem lommel_self (α R : ℝ) : ∫ r in (0 : ℝ)..R, besselJ0 (α * r) * besselJ0 (α * r) * r =
    R ^ 2 / 2 * (besselJ0 (α * R) ^ 2 + besselJ1 (α * R) ^ 2) := by
  have hd : ∀ r, HasDerivAt (fun r => r ^ 2 / 2 * (besselJ0 (α * r) ^ 2 + besselJ1 (α * r) ^ 2)) (besselJ0 (α * r) * besselJ0 (α * r) * r) r := fun r => by
    refine ((((hasDerivAt_id r).pow 2).div_const 2).mul (((hasDerivAt_j0_mul α r).pow 2).add ((hasDerivAt_j1_mul α r).pow 2))).congr_deriv ?_
    have h1 := bessel_equation (α * r)
    simp only [id, Nat.cast_ofNat, Pi.add_apply, Pi.pow_apply]
    linear_combination (r * besselJ1 (α * r)) * h1
  have hc := continuous_j0_mul α
  rw [integral_eq_sub_of_hasDerivAt (fun r _ => hd r)
    ((by fun_prop : Continuous fun r => besselJ0 (α * r) * besselJ0 (α * r) * r).intervalIntegrable _ _)]
  simp

/-- Modes that vanish at `R` are orthogonal. -/
theorem hankelIntegral_mode {R x y : ℝ} (hR : R ≠ 0) (hx : 0 < x) (hy : 0 < y) (hx0 : besselJ0 x = 0) (hy0 : besselJ0 y = 0) :
    hankelIntegral R (fun r => besselJ0 (x / R * r)) (y / R) = if x = y then R ^ 2 / 2 * besselJ1 y ^ 2 else 0 := by
  unfold hankelIntegral
  split_ifs with h
  · subst h
    rw [lommel_self, div_mul_cancel₀ _ hR, hx0]
    ring
  · have h1 := lommel (x / R) (y / R) R
    rw [div_mul_cancel₀ _ hR, div_mul_cancel₀ _ hR, hx0, hy0] at h1
    have h2 : (y / R) ^ 2 - (x / R) ^ 2 ≠ 0 := by
      rw [div_pow, div_pow, ← sub_div]
      refine div_ne_zero (fun h3 => h ?_) (pow_ne_zero 2 hR)
      exact ((sq_eq_sq₀ hy.le hx.le).1 (sub_eq_zero.1 h3)).symm
    rcases mul_eq_zero.1 (h1.trans (by ring)) with h3 | h3
    · exact absurd h3 h2
    · exact h3

theorem hankelIntegral_sum {n : ℕ} (R k : ℝ) (c : Fin n → ℝ) {f : Fin n → ℝ → ℝ} (hf : ∀ m, Continuous (f m)) :
    hankelIntegral R (fun r => ∑ m, c m * f m r) k = ∑ m, c m * hankelIntegral R (f m) k := by
  unfold hankelIntegral
  have hk := continuous_j0_mul k
  simp only [← intervalIntegral.integral_const_mul]
  rw [← intervalIntegral.integral_finsetSum fun m _ => Continuous.intervalIntegrable (by have := hf m; fun_prop) _ _]
  congr 1
  funext r
  rw [Finset.sum_mul, Finset.sum_mul]
  exact Finset.sum_congr rfl fun m _ => by ring

end Verif
