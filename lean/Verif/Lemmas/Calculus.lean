import Verif.Lemmas.PhiFun
import Verif.Lemmas.Stages
import Mathlib.Analysis.Calculus.SmoothSeries
import Mathlib.Analysis.Calculus.MeanValue
import Mathlib.Analysis.Calculus.Deriv.Prod
import Mathlib.Analysis.Calculus.Deriv.Mul
import Mathlib.Analysis.Calculus.Deriv.Pow
import Mathlib.Analysis.Calculus.Deriv.Comp

/-!
# Derivatives of matrix exponentials, and linear differential equations with constant forcing
-/

set_option linter.unusedSectionVars false

namespace Verif

open Matrix

variable {ι : Type} [Fintype ι] [DecidableEq ι]

/-- Product rule for a matrix times a vector. -/
theorem hasDerivAt_mulVec {M : ℝ → Mat ι} {M' : Mat ι} {v : ℝ → Vec ι} {v' : Vec ι} {t : ℝ}
    (hM : ∀ i j, HasDerivAt (fun s => M s i j) (M' i j) t) (hv : HasDerivAt v v' t) :
    HasDerivAt (fun s => M s *ᵥ v s) (M' *ᵥ v t + M t *ᵥ v') t := by
  rw [hasDerivAt_pi] at hv ⊢
  intro i
  have : HasDerivAt (fun s => ∑ j, M s i j * v s j) (∑ j, (M' i j * v t j + M t i j * v' j)) t :=
    HasDerivAt.fun_sum fun j _ => (hM i j).mul (hv j)
  rw [Finset.sum_add_distrib] at this
  exact this

section norm

open scoped Matrix.Norms.Operator

theorem HasDerivAt.entry {M : ℝ → Mat ι} {M' : Mat ι} {t : ℝ} (h : HasDerivAt M M' t) (i j : ι) :
    HasDerivAt (fun s => M s i j) (M' i j) t := by
  have hc : Continuous (Matrix.entryLinearMap ℝ ℂ i j : Mat ι →ₗ[ℝ] ℂ) := continuous_apply_apply i j
  exact (⟨_, hc⟩ : Mat ι →L[ℝ] ℂ).hasFDerivAt.comp_hasDerivAt t h

theorem expm_hasDerivAt (L : Mat ι) (t : ℝ) : HasDerivAt (fun s => expm L s) (L * expm L t) t := by
  have h := (hasDerivAt_exp_smul_const' (𝕂 := ℝ) L t)
  unfold expm
  have hs : ∀ s : ℝ, s • L = (s : ℂ) • L := fun s => (Complex.coe_smul s L).symm
  simp_rw [hs] at h
  exact h

/-- `t φ_1(t L)` is the antiderivative of `exp(t L)`. -/
theorem phiOne_hasDerivAt (L : Mat ι) (t : ℝ) :
    HasDerivAt (fun s : ℝ => (s : ℂ) • phiMat 1 ((s : ℂ) • L)) (expm L t) t := by
  have he : (fun s : ℝ => (s : ℂ) • phiMat 1 ((s : ℂ) • L)) =
      fun s : ℝ => ∑' n : ℕ, ((s : ℂ) ^ (n + 1) * ((n + 1).factorial : ℂ)⁻¹) • L ^ n := by
    funext s
    unfold phiMat
    rw [← (phiMat_summable 1 ((s : ℂ) • L)).tsum_const_smul]
    refine tsum_congr fun n => ?_
    rw [smul_pow (s : ℂ), smul_smul, smul_smul]
    congr 1; ring
  have hd : expm L t = ∑' n : ℕ, ((t : ℂ) ^ n * ((n.factorial : ℂ))⁻¹) • L ^ n := by
    unfold expm
    rw [← phiMat_zero]
    unfold phiMat
    refine tsum_congr fun n => ?_
    rw [smul_pow (t : ℂ), smul_smul]
    congr 1; rw [add_zero]; ring
  rw [he, hd]
  set T : ℝ := |t| + 1
  have hT : 0 ≤ T := by positivity
  have hu : Summable fun n : ℕ => ‖((n.factorial : ℂ))⁻¹ • ((T : ℂ) • L) ^ n‖ := by
    have := phiA_norm_summable 0 ((T : ℂ) • L)
    simpa only [add_zero] using this
  refine hasDerivAt_tsum_of_isPreconnected (t := Metric.ball (0 : ℝ) T) (y₀ := 0)
    (g := fun (n : ℕ) (s : ℝ) => ((s : ℂ) ^ (n + 1) * ((n + 1).factorial : ℂ)⁻¹) • L ^ n)
    (g' := fun (n : ℕ) (s : ℝ) => ((s : ℂ) ^ n * (n.factorial : ℂ)⁻¹) • L ^ n) hu Metric.isOpen_ball
    (convex_ball 0 T).isPreconnected ?_ ?_ ?_ ?_ ?_
  · intro n y _
    have h1 : HasDerivAt (fun s : ℝ => (s : ℂ) ^ (n + 1)) (((n + 1 : ℕ) : ℂ) * (y : ℂ) ^ n) y := by
      have h := (Complex.ofRealCLM.hasDerivAt (x := y)).fun_pow (n + 1)
      simp only [Complex.ofRealCLM_apply, Nat.add_sub_cancel, Complex.ofReal_one, mul_one] at h
      exact h
    have h2 := (h1.mul_const (((n + 1).factorial : ℂ)⁻¹)).smul_const (L ^ n)
    refine h2.congr_deriv ?_
    congr 1
    rw [Nat.factorial_succ]
    have : ((n + 1 : ℕ) : ℂ) ≠ 0 := Nat.cast_ne_zero.mpr n.succ_ne_zero
    have h3 : (n.factorial : ℂ) ≠ 0 := Nat.cast_ne_zero.mpr n.factorial_ne_zero
    rw [Nat.cast_mul]
    field_simp
  · intro n y hy
    have hy' : |y| ≤ T := by
      have := Metric.mem_ball.mp hy
      rw [Real.dist_eq, sub_zero] at this
      exact this.le
    rw [smul_pow (T : ℂ), smul_smul, norm_smul, norm_smul]
    refine mul_le_mul_of_nonneg_right ?_ (norm_nonneg _)
    rw [mul_comm, norm_mul, norm_mul, norm_pow, norm_pow, Complex.norm_real, Complex.norm_real, Real.norm_eq_abs,
      Real.norm_of_nonneg hT]
    gcongr
  · simpa [T] using (by positivity : (0 : ℝ) < |t| + 1)
  · refine summable_of_ne_finset_zero (s := ∅) fun n _ => ?_
    simp
  · rw [Metric.mem_ball, Real.dist_eq, sub_zero]
    simp [T]

end norm

theorem phiOne_mul (L : Mat ι) (t : ℝ) : L * ((t : ℂ) • phiMat 1 ((t : ℂ) • L)) + 1 = expm L t := by
  unfold expm
  rw [← phiMat_zero, phiMat_succ 0]
  simp [add_comm]

/-- A solution of `y' = L y + c`. -/
noncomputable def forced (L : Mat ι) (c u : Vec ι) (t : ℝ) : Vec ι :=
  expm L t *ᵥ u + ((t : ℂ) • phiMat 1 ((t : ℂ) • L)) *ᵥ c

theorem forced_zero (L : Mat ι) (c u : Vec ι) : forced L c u 0 = u := by simp [forced]

theorem forced_hasDerivAt (L : Mat ι) (c u : Vec ι) (t : ℝ) :
    HasDerivAt (forced L c u) (L *ᵥ forced L c u t + c) t := by
  have h1 := hasDerivAt_mulVec (HasDerivAt.entry (expm_hasDerivAt L t)) (hasDerivAt_const t u)
  have h2 := hasDerivAt_mulVec (HasDerivAt.entry (phiOne_hasDerivAt L t)) (hasDerivAt_const t c)
  refine (h1.add h2).congr_deriv ?_
  rw [mulVec_zero, mulVec_zero, add_zero, add_zero]
  unfold forced
  rw [← phiOne_mul L t]
  simp only [add_mulVec, mulVec_add, mulVec_mulVec, one_mulVec, mul_add, mul_one]
  abel

/-- It is the only one. -/
theorem forced_unique (L : Mat ι) (c u : Vec ι) (y : ℝ → Vec ι) (h0 : y 0 = u)
    (hy : ∀ t, HasDerivAt y (L *ᵥ y t + c) t) (t : ℝ) : y t = forced L c u t := by
  have hY := forced_hasDerivAt L c u
  have hY0 := forced_zero L c u
  generalize forced L c u = Y at hY hY0 ⊢
  have hd : ∀ t, HasDerivAt (fun s => expm L (-s) *ᵥ (y s - Y s)) 0 t := by
    intro t
    have h1 : ∀ i j, HasDerivAt (fun s => expm L (-s) i j) ((-(L * expm L (-t))) i j) t := by
      intro i j
      have h := (HasDerivAt.entry (expm_hasDerivAt L (-t)) i j).scomp t (hasDerivAt_neg t)
      refine h.congr_deriv ?_
      simp
    refine (hasDerivAt_mulVec h1 ((hy t).sub (hY t))).congr_deriv ?_
    have hcomm : L * expm L (-t) = expm L (-t) * L := by
      unfold expm
      exact ((Commute.refl L).smul_right _).exp_right.eq
    rw [hcomm]
    simp only [Pi.sub_apply, neg_mulVec, ← mulVec_mulVec, mulVec_sub, mulVec_add]
    abel
  have hconst := is_const_of_deriv_eq_zero (fun s => (hd s).differentiableAt) (fun s => (hd s).deriv) t 0
  have h00 : y 0 - Y 0 = 0 := by
    rw [h0, hY0, sub_self]
  simp only [neg_zero, expm_zero, one_mulVec, h00] at hconst
  have : y t - Y t = 0 := by
    rw [← expm_neg_cancel L t (y t - Y t), hconst, mulVec_zero]
  exact sub_eq_zero.mp this

end Verif
