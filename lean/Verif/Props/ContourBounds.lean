import Verif.Props.Phi
import Mathlib.Analysis.Complex.Liouville
import Mathlib.Analysis.Complex.ExponentialBounds
import Mathlib.Analysis.SpecificLimits.Normed

/-!
# Explicit error bounds for the contour means (properties C29, C30)

The error decays geometrically with the number of contour points, uniformly in the step size.
-/

set_option linter.unusedSectionVars false

namespace Verif

open Matrix Finset Filter Topology
open scoped Matrix.Norms.Operator

variable {ι : Type} [Fintype ι] [DecidableEq ι]

theorem norm_phi_le (k : ℕ) (z : ℂ) : ‖phi k z‖ ≤ Real.exp ‖z‖ := by
  have h : HasSum (fun n : ℕ => ‖z‖ ^ n / (n.factorial : ℝ)) (Real.exp ‖z‖) := by
    rw [Real.exp_eq_exp_ℝ]; exact NormedSpace.expSeries_div_hasSum_exp ‖z‖
  unfold phi
  refine tsum_of_norm_bounded h fun j => ?_
  rw [norm_div, norm_pow, Complex.norm_natCast]
  have hf : (j.factorial : ℝ) ≤ ((j + k).factorial : ℝ) := by exact_mod_cast Nat.factorial_le (Nat.le_add_right j k)
  have hp : (0 : ℝ) < j.factorial := by exact_mod_cast Nat.factorial_pos j
  gcongr

theorem expTail_le {R : ℝ} (hR : 0 ≤ R) (N : ℕ) {q : ℝ} (hq : 0 < q) (hq1 : q ≤ 1) : expTail R N ≤ Real.exp (R / q) * q ^ N := by
  have h : HasSum (fun n : ℕ => (R / q) ^ n / (n.factorial : ℝ)) (Real.exp (R / q)) := by
    rw [Real.exp_eq_exp_ℝ]; exact NormedSpace.expSeries_div_hasSum_exp (R / q)
  have h1 : Summable fun j : ℕ => (R / q) ^ (j + N) / ((j + N).factorial : ℝ) := (summable_nat_add_iff N).mpr h.summable
  have h2 : Summable fun j : ℕ => R ^ (j + N) / ((j + N).factorial : ℝ) :=
    (summable_nat_add_iff N).mpr (Real.summable_pow_div_factorial R)
  have h3 : ∑' j : ℕ, (R / q) ^ (j + N) / ((j + N).factorial : ℝ) ≤ Real.exp (R / q) := by
    rw [← h.tsum_eq, ← h.summable.sum_add_tsum_nat_add N]
    exact le_add_of_nonneg_left (Finset.sum_nonneg fun i _ => by positivity)
  calc expTail R N ≤ ∑' j : ℕ, (R / q) ^ (j + N) / ((j + N).factorial : ℝ) * q ^ N := by
        refine h2.tsum_le_tsum (fun j => ?_) (h1.mul_right _)
        have h4 : q ^ (j + N) ≤ q ^ N := pow_le_pow_of_le_one hq.le hq1 (Nat.le_add_left N j)
        calc R ^ (j + N) / ((j + N).factorial : ℝ) = (R / q) ^ (j + N) / ((j + N).factorial : ℝ) * q ^ (j + N) := by
              rw [div_pow]; field_simp
          _ ≤ _ := mul_le_mul_of_nonneg_left h4 (by positivity)
    _ ≤ _ := by
        rw [tsum_mul_right]
        exact mul_le_mul_of_nonneg_right h3 (by positivity)

/-- **C29.** The approximation of `φ_k(c z)` by contour means is geometrically accurate in the number of points `N`, for every
ratio `q < 1`, uniformly over the modes. -/
theorem C29_geometric {cut R : ℝ} {N : ℕ} (hN : 0 < N) (hcut : 0 < cut) (hR : cut ≤ R) (k : ℕ) (c : ℝ) (hc : 0 < c) (hc1 : c ≤ 1)
    (z : ℂ) {q : ℝ} (hq : 0 < q) (hq1 : q < 1) :
    ‖phiMode cut R N k c z - phi k (c * z)‖ ≤ Real.exp (cut + R / q) * (q ^ N / (1 - q)) := by
  have hR0 : 0 < R := hcut.trans_le hR
  have h1q : 0 < 1 - q := by linarith
  by_cases hz : ‖z‖ < cut
  · have h0 : ∀ m < N, z + node R N m ≠ 0 := by
      intro m _ h0
      have := norm_node R N m hR0.le
      rw [show node R N m = -z by linear_combination h0, norm_neg] at this
      linarith
    refine (C29_error hN hR0 k c hc.ne' z hz h0).trans ?_
    have hρ : 0 < R / q := by positivity
    have hs : ∀ w ∈ Metric.sphere z (R / q), ‖phi k (c * w)‖ ≤ Real.exp (cut + R / q) := by
      intro w hw
      refine (norm_phi_le k _).trans (Real.exp_le_exp.mpr ?_)
      rw [norm_mul, Complex.norm_real, Real.norm_of_nonneg hc.le]
      have : ‖w‖ ≤ ‖z‖ + R / q := by
        rw [mem_sphere_iff_norm] at hw
        calc ‖w‖ = ‖z + (w - z)‖ := by congr 1; ring
          _ ≤ _ := (norm_add_le _ _).trans (by rw [hw])
      have := norm_nonneg w
      nlinarith
    have hterm : ∀ n : ℕ, ‖iteratedDeriv n (fun w => phi k (c * w)) z / (n.factorial : ℂ)‖ * R ^ n ≤
        Real.exp (cut + R / q) * q ^ n := by
      intro n
      have h1 := Complex.norm_iteratedDeriv_le_of_forall_mem_sphere_norm_le n hρ
        ((phi_comp_differentiable k c).diffContOnCl (s := Metric.ball z (R / q))) hs
      rw [norm_div, Complex.norm_natCast]
      have hf : (0 : ℝ) < n.factorial := by exact_mod_cast Nat.factorial_pos n
      calc _ ≤ (n.factorial * Real.exp (cut + R / q) / (R / q) ^ n) / n.factorial * R ^ n := by gcongr
        _ = Real.exp (cut + R / q) * q ^ n := by
          rw [div_pow]
          field_simp
    have hg : Summable fun j : ℕ => Real.exp (cut + R / q) * q ^ (j + N) :=
      ((summable_nat_add_iff N).mpr (summable_geometric_of_lt_one hq.le hq1)).mul_left _
    refine (((summable_nat_add_iff N).mpr (taylor_summable (phi_comp_differentiable k c) z hR0.le)).tsum_le_tsum
      (fun j => hterm (j + N)) hg).trans (le_of_eq ?_)
    simp_rw [pow_add]
    rw [tsum_mul_left, tsum_mul_right, tsum_geometric_of_lt_one hq.le hq1]
    ring
  · have hz0 : z ≠ 0 := by
      rintro rfl
      exact hz (by simpa using hcut)
    have : phiMode cut R N k c z = phi k (c * z) := by
      unfold phiMode
      rw [if_neg hz, phi_eq_phiDiv k (mul_ne_zero (by exact_mod_cast hc.ne') hz0)]
    rw [this, sub_self, norm_zero]
    positivity

/-- **C29.** With the default configuration (cutoff 0.01, 32 points, radius 1) all φ values are accurate to `10⁻³³` in exact
arithmetic. -/
theorem C29_default (k : ℕ) (c : ℝ) (hc : 0 < c) (hc1 : c ≤ 1) (z : ℂ) :
    ‖phiMode (1 / 100) 1 32 k c z - phi k (c * z)‖ < 1 / 10 ^ 33 := by
  refine (C29_geometric (by norm_num) (by norm_num) (by norm_num) k c hc hc1 z (q := 1 / 32) (by norm_num) (by norm_num)).trans_lt ?_
  have h1 : Real.exp (1 / 100 + 1 / (1 / 32)) ≤ Real.exp 33 := Real.exp_le_exp.mpr (by norm_num)
  have h2 : Real.exp 33 < 2.7182818286 ^ 33 := by
    rw [show (33 : ℝ) = ((33 : ℕ) : ℝ) * 1 by norm_num, Real.exp_nat_mul]
    exact pow_lt_pow_left₀ Real.exp_one_lt_d9 (Real.exp_pos 1).le (by norm_num)
  calc _ ≤ (2.7182818286 : ℝ) ^ 33 * ((1 / 32) ^ 32 / (1 - 1 / 32)) :=
        mul_le_mul_of_nonneg_right (h1.trans h2.le) (by norm_num)
    _ < _ := by norm_num

/-- 64 points and the default circle: the error of `φ₁(-3)` is at most `e^(9/4) (8/9)^64 9`; with 32 points it is below
`10^-33`. -/
example : ‖phiMode (1 / 100) 1 64 1 1 (-3) - phi 1 ((1 : ℝ) * (-3))‖ ≤
      Real.exp (1 / 100 + 1 / (8 / 9)) * ((8 / 9) ^ 64 / (1 - 8 / 9)) ∧
    ‖phiMode (1 / 100) 1 32 1 1 (1 / 1000) - phi 1 ((1 : ℝ) * (1 / 1000))‖ < 1 / 10 ^ 33 :=
  ⟨C29_geometric (by norm_num) (by norm_num) (by norm_num) 1 1 one_pos le_rfl (-3) (by norm_num) (by norm_num),
    C29_default 1 1 one_pos le_rfl _⟩

/-- The bounds are about an approximation: the mode zero is computed by a contour mean. -/
example : phiMode (1 / 100) 1 32 1 1 0 = contourMean 1 32 (fun w => phiDiv 1 ((1 : ℝ) * w)) 0 := by
  unfold phiMode
  rw [if_pos (by norm_num)]

/-! ### Full matrices -/

theorem norm_one_le : ‖(1 : Mat ι)‖ ≤ 1 := by
  rcases isEmpty_or_nonempty ι with h | h
  · rw [Subsingleton.elim (1 : Mat ι) 0, norm_zero]; exact zero_le_one
  · exact norm_one.le

theorem norm_pow_mat_le (Z : Mat ι) (k : ℕ) : ‖Z ^ k‖ ≤ ‖Z‖ ^ k := by
  cases k with
  | zero => simpa using norm_one_le
  | succ k => exact norm_pow_le' Z k.succ_pos

theorem phiMat_norm_le (k : ℕ) (A : Mat ι) : ‖phiMat k A‖ ≤ Real.exp ‖A‖ := by
  have h : HasSum (fun n : ℕ => ‖A‖ ^ n / (n.factorial : ℝ)) (Real.exp ‖A‖) := by
    rw [Real.exp_eq_exp_ℝ]; exact NormedSpace.expSeries_div_hasSum_exp ‖A‖
  unfold phiMat
  refine tsum_of_norm_bounded h fun j => ?_
  rw [norm_smul, norm_inv, Complex.norm_natCast, div_eq_inv_mul]
  have hf : (j.factorial : ℝ) ≤ ((j + k).factorial : ℝ) := by exact_mod_cast Nat.factorial_le (Nat.le_add_right j k)
  have hp : (0 : ℝ) < j.factorial := by exact_mod_cast Nat.factorial_pos j
  exact mul_le_mul (inv_anti₀ hp hf) (norm_pow_mat_le A j) (norm_nonneg _) (by positivity)

theorem aliasedPoly_close {N : ℕ} (hN : 0 < N) {R : ℝ} (hR : 0 ≤ R) (p : ℕ) (Z : Mat ι) :
    ‖aliasedPoly R N p Z - phiMat p Z‖ ≤ Real.exp ‖Z‖ * expTail R N + expTail ‖Z‖ N := by
  have h : HasSum (fun n : ℕ => ‖Z‖ ^ n / (n.factorial : ℝ)) (Real.exp ‖Z‖) := by
    rw [Real.exp_eq_exp_ℝ]; exact NormedSpace.expSeries_div_hasSum_exp ‖Z‖
  have hT : 0 ≤ expTail R N := tsum_nonneg fun j => by positivity
  have hb : ∀ j, ‖phiCoef p j‖ * ‖Z ^ j‖ ≤ ‖Z‖ ^ j / (j.factorial : ℝ) := by
    intro j
    rw [norm_phiCoef, div_eq_inv_mul]
    have hf : (j.factorial : ℝ) ≤ ((j + p).factorial : ℝ) := by exact_mod_cast Nat.factorial_le (Nat.le_add_right j p)
    have hp : (0 : ℝ) < j.factorial := by exact_mod_cast Nat.factorial_pos j
    exact mul_le_mul (inv_anti₀ hp hf) (norm_pow_mat_le Z j) (norm_nonneg _) (by positivity)
  have hs : Summable fun j => phiCoef p j • Z ^ j := phiMat_summable p Z
  have e : phiMat p Z = ∑ k ∈ range N, phiCoef p k • Z ^ k + ∑' j, phiCoef p (j + N) • Z ^ (j + N) :=
    (hs.sum_add_tsum_nat_add N).symm
  have e2 : aliasedPoly R N p Z - phiMat p Z = ∑ k ∈ range N, (aliased R N (phiCoef p) k - phiCoef p k) • Z ^ k -
      ∑' j, phiCoef p (j + N) • Z ^ (j + N) := by
    rw [e, aliasedPoly]
    simp only [sub_smul, sum_sub_distrib]
    abel
  rw [e2]
  refine (norm_sub_le _ _).trans (add_le_add ?_ ?_)
  · calc _ ≤ ∑ k ∈ range N, ‖Z‖ ^ k / (k.factorial : ℝ) * expTail R N := by
          refine norm_sum_le_of_le _ fun k _ => ?_
          rw [norm_smul]
          calc _ ≤ ‖phiCoef p k‖ * expTail R N * ‖Z ^ k‖ := by gcongr; exact aliased_close hN hR p k
            _ = ‖phiCoef p k‖ * ‖Z ^ k‖ * expTail R N := by ring
            _ ≤ _ := mul_le_mul_of_nonneg_right (hb k) hT
      _ ≤ _ := by
          rw [← sum_mul]
          refine mul_le_mul_of_nonneg_right ?_ hT
          exact sum_le_hasSum _ (fun i _ => by positivity) h
  · refine tsum_of_norm_bounded ((summable_nat_add_iff N).mpr h.summable).hasSum fun j => ?_
    rw [norm_smul]
    exact hb (j + N)

/-- **C30.** Full matrices: when `c h L` is at most half the radius, the inversions succeed and the error of the approximation of
`φ_p(c h L)` is at most `6 e^{3R} 2^{-N}`. -/
theorem C30_geometric {R : ℝ} {N : ℕ} (hN : 0 < N) (hR : 0 < R) (L : Mat ι) (h c : ℝ) (p : ℕ)
    (hZ : ‖((c * h : ℝ) : ℂ) • L‖ ≤ R / 2) :
    ContourOk R N L [c] h ∧
    ‖phiFull R N L h p c - phiMat p (((c * h : ℝ) : ℂ) • L)‖ ≤ 6 * Real.exp (3 * R) * (1 / 2) ^ N := by
  set Z := ((c * h : ℝ) : ℂ) • L with hZd
  have hWZ : ‖((R : ℂ)⁻¹ • Z) ^ N‖ ≤ (1 / 2) ^ N := by
    refine (norm_pow_mat_le _ N).trans (pow_le_pow_left₀ (norm_nonneg _) ?_ N)
    rw [norm_smul, norm_inv, Complex.norm_real, Real.norm_of_nonneg hR.le, inv_mul_le_iff₀ hR]
    linarith
  have hpow : (1 / 2 : ℝ) ^ N ≤ 1 / 2 := by
    calc (1 / 2 : ℝ) ^ N ≤ (1 / 2) ^ 1 := pow_le_pow_of_le_one (by norm_num) (by norm_num) hN
      _ = 1 / 2 := pow_one _
  have hok := contourOk_of_small hN hR L h c (by linarith)
  refine ⟨hok, ?_⟩
  have heq := phiFull_eq hN hR L h c p hok
  set Φ := phiFull R N L h p c
  set W := ((R : ℂ)⁻¹ • Z) ^ N
  have hd : Φ - phiMat p Z = (aliasedPoly R N p Z - phiMat p Z) - W * (Φ - phiMat p Z) - W * phiMat p Z := by
    rw [← heq]; noncomm_ring
  have hphi : ‖phiMat p Z‖ ≤ Real.exp (3 * R) :=
    (phiMat_norm_le p Z).trans (Real.exp_le_exp.mpr (by linarith))
  have hpoly : ‖aliasedPoly R N p Z - phiMat p Z‖ ≤ 2 * Real.exp (3 * R) * (1 / 2) ^ N := by
    refine (aliasedPoly_close hN hR.le p Z).trans ?_
    have h1 := expTail_le hR.le N (q := 1 / 2) (by norm_num) (by norm_num)
    have h2 := expTail_le (norm_nonneg Z) N (q := 1 / 2) (by norm_num) (by norm_num)
    have h3 : Real.exp ‖Z‖ * expTail R N ≤ Real.exp (3 * R) * (1 / 2) ^ N := by
      calc _ ≤ Real.exp ‖Z‖ * (Real.exp (R / (1 / 2)) * (1 / 2) ^ N) := mul_le_mul_of_nonneg_left h1 (Real.exp_pos _).le
        _ = Real.exp (‖Z‖ + R / (1 / 2)) * (1 / 2) ^ N := by rw [Real.exp_add]; ring
        _ ≤ _ := by gcongr; linarith
    have h4 : expTail ‖Z‖ N ≤ Real.exp (3 * R) * (1 / 2) ^ N := by
      refine h2.trans ?_
      gcongr
      linarith
    linarith
  have hmain : ‖Φ - phiMat p Z‖ ≤ 2 * Real.exp (3 * R) * (1 / 2) ^ N + (1 / 2) * ‖Φ - phiMat p Z‖ +
      (1 / 2) ^ N * Real.exp (3 * R) := by
    conv_lhs => rw [hd]
    refine (norm_sub_le _ _).trans (add_le_add ((norm_sub_le _ _).trans (add_le_add hpoly ?_)) ?_)
    · exact (norm_mul_le _ _).trans (mul_le_mul_of_nonneg_right (hWZ.trans hpow) (norm_nonneg _))
    · exact (norm_mul_le _ _).trans (mul_le_mul hWZ hphi (norm_nonneg _) (by positivity))
  linarith

/-- The rotation generator of norm `1/4`, radius 1, 32 points. -/
example : ‖phiFull 1 32 (!![0, 1 / 4; -1 / 4, 0] : Mat (Fin 2)) 1 2 1 -
    phiMat 2 (((1 * 1 : ℝ) : ℂ) • (!![0, 1 / 4; -1 / 4, 0] : Mat (Fin 2)))‖ ≤ 6 * Real.exp (3 * 1) * (1 / 2) ^ 32 := by
  refine (C30_geometric (by norm_num) one_pos _ 1 1 2 ?_).2
  rw [Matrix.linfty_opNorm_def]
  simp [Finset.sup_insert, Fin.univ_succ]
  norm_num

/-- The rotation by a quarter, with the default radius and the full step. -/
example : ‖((1 * 1 : ℝ) : ℂ) • (!![0, 1 / 4; -1 / 4, 0] : Mat (Fin 2))‖ ≤ 1 / 2 := by
  rw [mul_one, Complex.ofReal_one, one_smul, Matrix.linfty_opNorm_def]
  norm_num [Fin.sum_univ_two, Fin.univ_succ]

end Verif
