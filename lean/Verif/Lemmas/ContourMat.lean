import Verif.Lemmas.Contour
import Mathlib.Analysis.Normed.Algebra.GelfandFormula

/-!
# The trapezoidal rule for the full-matrix φ functions
-/

set_option linter.unusedSectionVars false

namespace Verif

open Matrix Filter Topology

variable {ι : Type} [Fintype ι] [DecidableEq ι]

/-- Aliased coefficient `∑_l a_{k+lN} (-R^N)^l`. -/
noncomputable def aliased (R : ℝ) (N : ℕ) (a : ℕ → ℂ) (k : ℕ) : ℂ := ∑' l : ℕ, a (k + l * N) * (-(R : ℂ) ^ N) ^ l

/-- Taylor coefficients of `φ_p`. -/
noncomputable def phiCoef (p j : ℕ) : ℂ := ((j + p).factorial : ℂ)⁻¹

theorem phiCoef_summable (p : ℕ) (R : ℝ) : Summable fun j => ‖phiCoef p j‖ * R ^ j := by
  have h := phi_summable p R
  have := h.norm
  refine Summable.of_norm ?_
  refine this.congr fun j => ?_
  rw [norm_mul, phiCoef, norm_norm, norm_inv, norm_div, norm_pow, norm_pow, Complex.norm_real, div_eq_mul_inv, mul_comm]

theorem phi_eq_coef (p : ℕ) (z : ℂ) : phi p z = ∑' j, phiCoef p j * z ^ j := by
  unfold phi phiCoef
  exact tsum_congr fun j => by rw [div_eq_mul_inv, mul_comm]

theorem aliased_sum {N k : ℕ} (hk : k < N) {R : ℝ} (hR : 0 < R) (p : ℕ) :
    (∑ m ∈ Finset.range N, node R N m ^ (N - k) * phi p (node R N m)) / N = -(R : ℂ) ^ N * aliased R N (phiCoef p) k := by
  have h := alias_hasSum hk hR.le (phiCoef p) (phiCoef_summable p R)
  simp_rw [phi_eq_coef]
  rw [← h.tsum_eq, aliased, ← tsum_mul_left]
  exact tsum_congr fun l => by rw [pow_succ]; ring

/-- The shifted matrices, multiplied by the adjoint geometric sums, give `R^N + Z^N`. -/
theorem node_geom {N : ℕ} (hN : 0 < N) (R : ℝ) (m : ℕ) (Z : Mat ι) :
    (node R N m • (1 : Mat ι) - Z) * ∑ k ∈ Finset.range N, (node R N m) ^ (N - 1 - k) • Z ^ k =
      -((R : ℂ) ^ N • (1 : Mat ι) + Z ^ N) := by
  have hc : Commute Z (node R N m • (1 : Mat ι)) := (Commute.one_right Z).smul_right _
  have h := hc.mul_geom_sum₂ N
  have e : ∑ k ∈ Finset.range N, (node R N m) ^ (N - 1 - k) • Z ^ k =
      ∑ i ∈ Finset.range N, Z ^ i * (node R N m • (1 : Mat ι)) ^ (N - 1 - i) := by
    refine Finset.sum_congr rfl fun k _ => ?_
    rw [smul_pow, one_pow, mul_smul_comm, mul_one]
  rw [e, ← neg_sub, neg_mul, h, smul_pow, one_pow, node_pow hN]
  simp; abel

/-- The approximation used for full matrices, in closed form. -/
theorem phiFull_mul {N : ℕ} (hN : 0 < N) {R : ℝ} (hR : 0 < R) (L : Mat ι) (h c : ℝ) (p : ℕ)
    (hok : ContourOk R N L [c] h) :
    ((R : ℂ) ^ N • (1 : Mat ι) + (((c * h : ℝ) : ℂ) • L) ^ N) * phiFull R N L h p c =
      (R : ℂ) ^ N • ∑ k ∈ Finset.range N, aliased R N (phiCoef p) k • (((c * h : ℝ) : ℂ) • L) ^ k := by
  set Z := ((c * h : ℝ) : ℂ) • L with hZ
  have hinv : ∀ m < N, ((R : ℂ) ^ N • (1 : Mat ι) + Z ^ N) * (node R N m • (1 : Mat ι) - Z)⁻¹ =
      -∑ k ∈ Finset.range N, (node R N m) ^ (N - 1 - k) • Z ^ k := by
    intro m hm
    have hu := hok m hm c (by simp)
    have hg := node_geom hN R m Z
    have hcomm : (node R N m • (1 : Mat ι) - Z) * ∑ k ∈ Finset.range N, (node R N m) ^ (N - 1 - k) • Z ^ k =
        (∑ k ∈ Finset.range N, (node R N m) ^ (N - 1 - k) • Z ^ k) * (node R N m • (1 : Mat ι) - Z) := by
      refine (Commute.sum_right _ _ _ fun k _ => ?_).eq
      refine Commute.smul_right ?_ _
      exact Commute.sub_left ((Commute.one_left _).smul_left _) (Commute.self_pow Z k)
    have e : (R : ℂ) ^ N • (1 : Mat ι) + Z ^ N =
        -((∑ k ∈ Finset.range N, (node R N m) ^ (N - 1 - k) • Z ^ k) * (node R N m • (1 : Mat ι) - Z)) := by
      rw [← hcomm, hg, neg_neg]
    rw [e, neg_mul, Matrix.mul_assoc, Matrix.mul_nonsing_inv _ hu, Matrix.mul_one]
  unfold phiFull
  rw [Finset.mul_sum]
  have hterm : ∀ m ∈ Finset.range N, ((R : ℂ) ^ N • (1 : Mat ι) + Z ^ N) *
      ((node R N m * phiDiv p (node R N m) / N) • (node R N m • (1 : Mat ι) - Z)⁻¹) =
      ∑ k ∈ Finset.range N, (-(node R N m ^ (N - k) * phi p (node R N m) / N)) • Z ^ k := by
    intro m hm
    rw [mul_smul_comm, hinv m (Finset.mem_range.mp hm), smul_neg, Finset.smul_sum, ← Finset.sum_neg_distrib]
    refine Finset.sum_congr rfl fun k hk => ?_
    rw [smul_smul, ← neg_smul, ← phi_eq_phiDiv p (node_ne_zero hR N m)]
    congr 2
    rw [show N - k = (N - 1 - k) + 1 by have := Finset.mem_range.mp hk; omega, pow_succ]
    ring
  rw [Finset.sum_congr rfl hterm, Finset.sum_comm, Finset.smul_sum]
  refine Finset.sum_congr rfl fun k hk => ?_
  rw [← Finset.sum_smul, smul_smul, Finset.sum_neg_distrib, ← Finset.sum_div, aliased_sum (Finset.mem_range.mp hk) hR]
  congr 1; ring

/-- Tail of the exponential series. -/
noncomputable def expTail (R : ℝ) (N : ℕ) : ℝ := ∑' j : ℕ, R ^ (j + N) / ((j + N).factorial : ℝ)

theorem expTail_tendsto (R : ℝ) : Tendsto (expTail R) atTop (𝓝 0) :=
  tail_tendsto fun j => R ^ j / (j.factorial : ℝ)

theorem norm_phiCoef (p j : ℕ) : ‖phiCoef p j‖ = ((j + p).factorial : ℝ)⁻¹ := by
  rw [phiCoef, norm_inv, Complex.norm_natCast]

/-- The aliased coefficients are relatively close to the true ones, uniformly. -/
theorem aliased_close {N : ℕ} (hN : 0 < N) {R : ℝ} (hR : 0 ≤ R) (p k : ℕ) :
    ‖aliased R N (phiCoef p) k - phiCoef p k‖ ≤ ‖phiCoef p k‖ * expTail R N := by
  have hinj : Function.Injective fun l : ℕ => l * N := fun x y h => Nat.eq_of_mul_eq_mul_right hN h
  have hexp : Summable fun j : ℕ => R ^ j / (j.factorial : ℝ) := Real.summable_pow_div_factorial R
  have hn : ∀ l : ℕ, ‖phiCoef p (k + l * N) * (-(R : ℂ) ^ N) ^ l‖ ≤
      ‖phiCoef p k‖ * (R ^ (l * N) / ((l * N).factorial : ℝ)) := by
    intro l
    rw [norm_mul, norm_pow, norm_neg, norm_pow, Complex.norm_real, Real.norm_of_nonneg hR, ← pow_mul, mul_comm N l,
      norm_phiCoef, norm_phiCoef, div_eq_mul_inv, mul_comm (R ^ _), ← mul_assoc, ← mul_inv]
    refine mul_le_mul_of_nonneg_right (inv_anti₀ (by positivity) ?_) (by positivity)
    have := Nat.le_of_dvd (Nat.factorial_pos _) (Nat.factorial_mul_factorial_dvd_factorial_add (k + p) (l * N))
    rw [show k + l * N + p = k + p + l * N by ring]
    exact_mod_cast this
  have hs1 : Summable fun l : ℕ => ‖phiCoef p k‖ * (R ^ (l * N) / ((l * N).factorial : ℝ)) :=
    (hexp.comp_injective hinj).mul_left _
  have hs : Summable fun l : ℕ => phiCoef p (k + l * N) * (-(R : ℂ) ^ N) ^ l := hs1.of_norm_bounded hn
  unfold aliased
  rw [hs.tsum_eq_zero_add]
  simp only [zero_mul, pow_zero, mul_one, add_zero, add_sub_cancel_left]
  have hs1' := (summable_nat_add_iff 1).mpr hs1
  refine (tsum_of_norm_bounded hs1'.hasSum fun l => hn (l + 1)).trans ?_
  rw [tsum_mul_left]
  refine mul_le_mul_of_nonneg_left ?_ (norm_nonneg _)
  have ht := (summable_nat_add_iff (f := fun j : ℕ => R ^ j / (j.factorial : ℝ)) N).mpr hexp
  have e : (fun l : ℕ => R ^ ((l + 1) * N) / (((l + 1) * N).factorial : ℝ)) =
      (fun j => R ^ (j + N) / ((j + N).factorial : ℝ)) ∘ fun l => l * N := by
    funext l
    rw [Function.comp_apply, add_mul, one_mul]
  rw [e]
  exact tsum_comp_le_tsum_of_inj ht (fun j => by positivity) hinj

section norms

open scoped Matrix.Norms.Operator

/-- The polynomial with aliased coefficients. -/
noncomputable def aliasedPoly (R : ℝ) (N p : ℕ) (Z : Mat ι) : Mat ι :=
  ∑ k ∈ Finset.range N, aliased R N (phiCoef p) k • Z ^ k

theorem aliasedPoly_tendsto {R : ℝ} (hR : 0 ≤ R) (p : ℕ) (Z : Mat ι) :
    Tendsto (fun N => aliasedPoly R N p Z) atTop (𝓝 (phiMat p Z)) := by
  have h1 : Tendsto (fun N => ∑ k ∈ Finset.range N, phiCoef p k • Z ^ k) atTop (𝓝 (phiMat p Z)) :=
    (phiMat_summable p Z).hasSum.tendsto_sum_nat
  have hns : Summable fun k => ‖phiCoef p k • Z ^ k‖ := phiA_norm_summable p Z
  have h2 : Tendsto (fun N => aliasedPoly R N p Z - ∑ k ∈ Finset.range N, phiCoef p k • Z ^ k) atTop (𝓝 0) := by
    refine squeeze_zero_norm' (a := fun N => expTail R N * ∑' k, ‖phiCoef p k • Z ^ k‖) ?_ ?_
    · filter_upwards [eventually_gt_atTop 0] with N hN
      unfold aliasedPoly
      rw [← Finset.sum_sub_distrib]
      refine (norm_sum_le _ _).trans ?_
      have : ∀ k ∈ Finset.range N, ‖aliased R N (phiCoef p) k • Z ^ k - phiCoef p k • Z ^ k‖ ≤
          expTail R N * ‖phiCoef p k • Z ^ k‖ := by
        intro k _
        rw [← sub_smul, norm_smul, norm_smul, ← mul_assoc, mul_comm (expTail R N)]
        exact mul_le_mul_of_nonneg_right (aliased_close hN hR p k) (norm_nonneg _)
      refine (Finset.sum_le_sum this).trans ?_
      rw [← Finset.mul_sum]
      refine mul_le_mul_of_nonneg_left (hns.sum_le_tsum _ fun _ _ => norm_nonneg _) ?_
      unfold expTail
      exact tsum_nonneg fun j => by positivity
    · simpa using (expTail_tendsto R).mul_const (∑' k, ‖phiCoef p k • Z ^ k‖)
  simpa using h2.add h1

theorem phiFull_eq {N : ℕ} (hN : 0 < N) {R : ℝ} (hR : 0 < R) (L : Mat ι) (h c : ℝ) (p : ℕ)
    (hok : ContourOk R N L [c] h) :
    (1 + ((R : ℂ)⁻¹ • (((c * h : ℝ) : ℂ) • L)) ^ N) * phiFull R N L h p c =
      aliasedPoly R N p (((c * h : ℝ) : ℂ) • L) := by
  have hne : (R : ℂ) ^ N ≠ 0 := pow_ne_zero _ (by exact_mod_cast hR.ne')
  have hm := phiFull_mul hN hR L h c p hok
  have e : (R : ℂ) ^ N • (1 : Mat ι) + (((c * h : ℝ) : ℂ) • L) ^ N =
      (R : ℂ) ^ N • (1 + ((R : ℂ)⁻¹ • (((c * h : ℝ) : ℂ) • L)) ^ N) := by
    rw [smul_pow ((R : ℂ)⁻¹), smul_add, smul_smul, inv_pow, mul_inv_cancel₀ hne, one_smul]
  rw [e, smul_mul_assoc] at hm
  exact smul_right_injective _ hne hm

/-- When the powers of `Z/R` tend to zero, the contour is eventually free of eigenvalues. -/
theorem contourOk_of_small {N : ℕ} (hN : 0 < N) {R : ℝ} (hR : 0 < R) (L : Mat ι) (h c : ℝ)
    (hW : ‖((R : ℂ)⁻¹ • (((c * h : ℝ) : ℂ) • L)) ^ N‖ < 1) : ContourOk R N L [c] h := by
  intro m hm c' hc'
  simp only [List.mem_singleton] at hc'
  subst hc'
  set Z := ((c' * h : ℝ) : ℂ) • L
  have hne : (R : ℂ) ^ N ≠ 0 := pow_ne_zero _ (by exact_mod_cast hR.ne')
  have e : (R : ℂ) ^ N • (1 : Mat ι) + Z ^ N = (R : ℂ) ^ N • (1 + ((R : ℂ)⁻¹ • Z) ^ N) := by
    rw [smul_pow ((R : ℂ)⁻¹), smul_add, smul_smul, inv_pow, mul_inv_cancel₀ hne, one_smul]
  have hu : IsUnit (1 + ((R : ℂ)⁻¹ • Z) ^ N) := by
    have := isUnit_one_sub_of_norm_lt_one (x := -((R : ℂ)⁻¹ • Z) ^ N) (by rwa [norm_neg])
    rwa [sub_neg_eq_add] at this
  have hu2 : IsUnit (-((R : ℂ) ^ N • (1 : Mat ι) + Z ^ N)) := by
    rw [e]
    exact (hu.smul (Units.mk0 _ hne)).neg
  rw [← node_geom hN R m Z] at hu2
  have := (Matrix.isUnit_iff_isUnit_det _).mp hu2
  rw [Matrix.det_mul] at this
  exact isUnit_of_mul_isUnit_left this

theorem phiFull_tendsto {R : ℝ} (hR : 0 < R) (L : Mat ι) (h c : ℝ) (p : ℕ)
    (hW : Tendsto (fun N => ((R : ℂ)⁻¹ • (((c * h : ℝ) : ℂ) • L)) ^ N) atTop (𝓝 0)) :
    Tendsto (fun N => phiFull R N L h p c) atTop (𝓝 (phiExact L h p c)) := by
  set Z := ((c * h : ℝ) : ℂ) • L
  have hS := aliasedPoly_tendsto hR.le p Z
  have hWn : Tendsto (fun N => ‖((R : ℂ)⁻¹ • Z) ^ N‖) atTop (𝓝 0) := by simpa using hW.norm
  have hSn := hS.norm
  have hev : ∀ᶠ N in atTop, ‖((R : ℂ)⁻¹ • Z) ^ N‖ < 1 / 2 := hWn.eventually_lt_const (by norm_num)
  have hd : Tendsto (fun N => phiFull R N L h p c - aliasedPoly R N p Z) atTop (𝓝 0) := by
    refine squeeze_zero_norm' (a := fun N => ‖((R : ℂ)⁻¹ • Z) ^ N‖ * (2 * ‖aliasedPoly R N p Z‖)) ?_ ?_
    · filter_upwards [eventually_gt_atTop 0, hev] with N hN hlt
      have hok := contourOk_of_small hN hR L h c (by linarith)
      have heq := phiFull_eq hN hR L h c p hok
      have hsub : phiFull R N L h p c - aliasedPoly R N p Z = -(((R : ℂ)⁻¹ • Z) ^ N * phiFull R N L h p c) := by
        rw [← heq, add_mul, one_mul]; abel
      have hb : ‖phiFull R N L h p c‖ ≤ 2 * ‖aliasedPoly R N p Z‖ := by
        have h1 : phiFull R N L h p c = aliasedPoly R N p Z - ((R : ℂ)⁻¹ • Z) ^ N * phiFull R N L h p c := by
          rw [← heq, add_mul, one_mul]; abel
        have h2 : ‖phiFull R N L h p c‖ ≤ ‖aliasedPoly R N p Z‖ + ‖((R : ℂ)⁻¹ • Z) ^ N‖ * ‖phiFull R N L h p c‖ := by
          conv_lhs => rw [h1]
          exact (norm_sub_le _ _).trans (add_le_add le_rfl (norm_mul_le _ _))
        nlinarith [norm_nonneg (phiFull R N L h p c)]
      rw [hsub, norm_neg]
      exact (norm_mul_le _ _).trans (mul_le_mul_of_nonneg_left hb (norm_nonneg _))
    · simpa using hWn.mul (hSn.const_mul 2)
  have := hd.add hS
  simp only [sub_add_cancel, zero_add] at this
  exact this

/-- If all eigenvalues are inside the contour, the powers tend to zero. -/
theorem powers_tendsto {R : ℝ} (hR : 0 < R) (Z : Mat ι) (hρ : spectralRadius ℂ Z < ENNReal.ofReal R) :
    Tendsto (fun N => ((R : ℂ)⁻¹ • Z) ^ N) atTop (𝓝 0) := by
  obtain ⟨q, hq1, hq2⟩ := exists_between hρ
  have hqt : q ≠ ⊤ := (hq2.trans ENNReal.ofReal_lt_top).ne
  lift q to NNReal using hqt
  have hqR : (q : ℝ) < R := by
    have := (ENNReal.lt_ofReal_iff_toReal_lt ENNReal.coe_ne_top).mp hq2
    simpa using this
  have hg := spectrum.pow_nnnorm_pow_one_div_tendsto_nhds_spectralRadius Z
  have hev := hg.eventually_lt_const hq1
  refine squeeze_zero_norm' (a := fun N => ((q : ℝ) / R) ^ N) ?_
    (tendsto_pow_atTop_nhds_zero_of_lt_one (by positivity) ((div_lt_one hR).mpr hqR))
  filter_upwards [hev, eventually_gt_atTop 0] with N hN hpos
  have h1 : ‖Z ^ N‖₊ ≤ q ^ N := by
    have hN' : (‖Z ^ N‖₊ : ENNReal) ^ (1 / (N : ℝ)) ≤ (q : ENNReal) := hN.le
    have := ENNReal.rpow_le_rpow hN' (show (0 : ℝ) ≤ N by positivity)
    rw [← ENNReal.rpow_mul, one_div, inv_mul_cancel₀ (by exact_mod_cast hpos.ne'), ENNReal.rpow_one,
      ENNReal.rpow_natCast] at this
    exact_mod_cast this
  rw [smul_pow, norm_smul, norm_pow, norm_inv, Complex.norm_real, Real.norm_of_nonneg hR.le, div_pow, inv_pow,
    div_eq_inv_mul]
  refine mul_le_mul_of_nonneg_left ?_ (by positivity)
  exact_mod_cast h1

/-- Eigenvalue form of the condition. -/
theorem powers_tendsto_of_spectrum {R : ℝ} (hR : 0 < R) (Z : Mat ι) (hρ : ∀ μ ∈ spectrum ℂ Z, ‖μ‖ < R) :
    Tendsto (fun N => ((R : ℂ)⁻¹ • Z) ^ N) atTop (𝓝 0) := by
  refine powers_tendsto hR Z ?_
  rcases (spectrum ℂ Z).eq_empty_or_nonempty with h0 | hne
  · rw [spectralRadius, h0]
    simpa using hR
  · have := spectrum.spectralRadius_lt_of_forall_lt_of_nonempty hne (r := R.toNNReal) fun μ hμ => by
      rw [← NNReal.coe_lt_coe, Real.coe_toNNReal _ hR.le]
      exact hρ μ hμ
    exact this

end norms

end Verif
