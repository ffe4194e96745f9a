import Verif.Spec.Bessel
import Mathlib.Analysis.Calculus.ParametricIntervalIntegral
import Mathlib.Analysis.SpecialFunctions.Integrals.Basic
import Mathlib.Analysis.Calculus.Deriv.MeanValue
import Mathlib.Analysis.SpecialFunctions.Sqrt
import Mathlib.MeasureTheory.Integral.IntervalIntegral.FundThmCalculus

/-!
# The Bessel functions `J₀` and `J₁`
-/

set_option linter.unusedSectionVars false

namespace Verif

open Real MeasureTheory intervalIntegral Set Filter Topology

/-- The derivative of `J₁`. -/
noncomputable def besselJ1' (x : ℝ) : ℝ := (∫ θ in (0 : ℝ)..π, cos θ * (cos (x * cos θ) * cos θ)) / π

theorem hasDerivAt_besselJ0 (x : ℝ) : HasDerivAt besselJ0 (- besselJ1 x) x := by
  have h := (hasDerivAt_integral_of_dominated_loc_of_deriv_le (μ := volume) (a := 0) (b := π) (s := univ) (x₀ := x)
    (F := fun x θ => cos (x * cos θ)) (F' := fun x θ => - sin (x * cos θ) * cos θ) (bound := fun _ => 1) univ_mem
    (Eventually.of_forall fun y => (by fun_prop : Continuous fun θ => cos (y * cos θ)).aestronglyMeasurable)
    ((by fun_prop : Continuous fun θ => cos (x * cos θ)).intervalIntegrable _ _)
    (by fun_prop : Continuous fun θ => - sin (x * cos θ) * cos θ).aestronglyMeasurable
    (Eventually.of_forall fun θ _ y _ => by
      rw [norm_mul, norm_neg, Real.norm_eq_abs, Real.norm_eq_abs]
      exact mul_le_one₀ (abs_sin_le_one _) (abs_nonneg _) (abs_cos_le_one _))
    intervalIntegrable_const
    (Eventually.of_forall fun θ _ y _ => by
      simpa using (((hasDerivAt_id y).mul_const (cos θ)).cos))).2
  refine (h.div_const π).congr_deriv ?_
  rw [besselJ1, ← neg_div, ← intervalIntegral.integral_neg]
  congr 2
  funext θ
  ring

theorem hasDerivAt_besselJ1 (x : ℝ) : HasDerivAt besselJ1 (besselJ1' x) x := by
  have h := (hasDerivAt_integral_of_dominated_loc_of_deriv_le (μ := volume) (a := 0) (b := π) (s := univ) (x₀ := x)
    (F := fun x θ => cos θ * sin (x * cos θ)) (F' := fun x θ => cos θ * (cos (x * cos θ) * cos θ)) (bound := fun _ => 1) univ_mem
    (Eventually.of_forall fun y => (by fun_prop : Continuous fun θ => cos θ * sin (y * cos θ)).aestronglyMeasurable)
    ((by fun_prop : Continuous fun θ => cos θ * sin (x * cos θ)).intervalIntegrable _ _)
    (by fun_prop : Continuous fun θ => cos θ * (cos (x * cos θ) * cos θ)).aestronglyMeasurable
    (Eventually.of_forall fun θ _ y _ => by
      rw [norm_mul, norm_mul, Real.norm_eq_abs, Real.norm_eq_abs]
      exact mul_le_one₀ (abs_cos_le_one _) (by positivity) (mul_le_one₀ (abs_cos_le_one _) (abs_nonneg _) (abs_cos_le_one _)))
    intervalIntegrable_const
    (Eventually.of_forall fun θ _ y _ => by
      simpa using (((hasDerivAt_id y).mul_const (cos θ)).sin).const_mul (cos θ))).2
  exact h.div_const π

theorem besselJ0_zero : besselJ0 0 = 1 := by simp [besselJ0, pi_ne_zero]

theorem besselJ1_zero : besselJ1 0 = 0 := by simp [besselJ1]

/-- Bessel's equation. -/
theorem bessel_equation (x : ℝ) : x * besselJ1' x + besselJ1 x = x * besselJ0 x := by
  have h : ∫ θ in (0 : ℝ)..π, (cos θ * sin (x * cos θ) + sin θ * (cos (x * cos θ) * (x * - sin θ))) = 0 := by
    rw [integral_eq_sub_of_hasDerivAt (f := fun θ => sin θ * sin (x * cos θ))
      (fun θ _ => (hasDerivAt_sin θ).mul ((hasDerivAt_cos θ).const_mul x).sin)
      ((by fun_prop : Continuous fun θ => cos θ * sin (x * cos θ) + sin θ * (cos (x * cos θ) * (x * - sin θ))).intervalIntegrable _ _)]
    simp
  have e : ∀ θ, cos θ * sin (x * cos θ) + sin θ * (cos (x * cos θ) * (x * - sin θ)) =
      (x * (cos θ * (cos (x * cos θ) * cos θ)) + cos θ * sin (x * cos θ)) - x * cos (x * cos θ) := fun θ => by
    have := sin_sq_add_cos_sq θ
    linear_combination (- x * cos (x * cos θ)) * this
  simp only [e] at h
  rw [integral_sub (Continuous.intervalIntegrable (by fun_prop) _ _) (Continuous.intervalIntegrable (by fun_prop) _ _),
    integral_add (Continuous.intervalIntegrable (by fun_prop) _ _) (Continuous.intervalIntegrable (by fun_prop) _ _),
    intervalIntegral.integral_const_mul, intervalIntegral.integral_const_mul, sub_eq_zero] at h
  rw [besselJ1', besselJ1, besselJ0, mul_div_assoc', ← add_div, mul_div_assoc', h]

theorem abs_mean_le {f : ℝ → ℝ} (hf : ∀ θ, |f θ| ≤ 1) : |(∫ θ in (0 : ℝ)..π, f θ) / π| ≤ 1 := by
  rw [abs_div, abs_of_pos pi_pos, div_le_one pi_pos]
  have := norm_integral_le_of_norm_le_const (a := 0) (b := π) (C := 1) (f := f) fun θ _ => hf θ
  rwa [one_mul, sub_zero, abs_of_pos pi_pos, Real.norm_eq_abs] at this

theorem abs_besselJ0_le (x : ℝ) : |besselJ0 x| ≤ 1 := abs_mean_le fun _ => abs_cos_le_one _

theorem abs_besselJ1_le (x : ℝ) : |besselJ1 x| ≤ 1 := abs_mean_le fun _ => by
  rw [abs_mul]
  exact mul_le_one₀ (abs_cos_le_one _) (abs_nonneg _) (abs_sin_le_one _)

theorem abs_besselJ1'_le (x : ℝ) : |besselJ1' x| ≤ 1 := abs_mean_le fun _ => by
  rw [abs_mul, abs_mul]
  exact mul_le_one₀ (abs_cos_le_one _) (by positivity) (mul_le_one₀ (abs_cos_le_one _) (abs_nonneg _) (abs_cos_le_one _))

theorem besselJ0_lipschitz (x y : ℝ) : |besselJ0 x - besselJ0 y| ≤ |x - y| := by
  have := Convex.norm_image_sub_le_of_norm_hasDerivWithin_le (f := besselJ0) (f' := fun x => - besselJ1 x) (C := 1) (s := univ) (x := y) (y := x)
    (fun x _ => (hasDerivAt_besselJ0 x).hasDerivWithinAt) (fun x _ => by rw [norm_neg]; exact abs_besselJ1_le x) convex_univ trivial trivial
  rwa [one_mul] at this

theorem besselJ1_lipschitz (x y : ℝ) : |besselJ1 x - besselJ1 y| ≤ |x - y| := by
  have := Convex.norm_image_sub_le_of_norm_hasDerivWithin_le (f := besselJ1) (f' := besselJ1') (C := 1) (s := univ) (x := y) (y := x)
    (fun x _ => (hasDerivAt_besselJ1 x).hasDerivWithinAt) (fun x _ => abs_besselJ1'_le x) convex_univ trivial trivial
  rwa [one_mul] at this

theorem continuous_besselJ0 : Continuous besselJ0 := continuous_iff_continuousAt.2 fun x => (hasDerivAt_besselJ0 x).continuousAt

theorem continuous_besselJ1 : Continuous besselJ1 := continuous_iff_continuousAt.2 fun x => (hasDerivAt_besselJ1 x).continuousAt

/-- Positive zeros of `J₀` are simple. -/
theorem besselJ1_ne_zero {z : ℝ} (hz : 0 < z) (h0 : besselJ0 z = 0) : besselJ1 z ≠ 0 := by
  intro h1
  set E : ℝ → ℝ := fun x => x ^ 2 * (besselJ0 x ^ 2 + besselJ1 x ^ 2) with hE
  have hd : ∀ x, HasDerivAt E (2 * x * besselJ0 x ^ 2) x := fun x => by
    refine (((hasDerivAt_id x).pow 2).mul (((hasDerivAt_besselJ0 x).pow 2).add ((hasDerivAt_besselJ1 x).pow 2))).congr_deriv ?_
    have := bessel_equation x
    simp only [id, Nat.cast_ofNat, Pi.add_apply, Pi.pow_apply]
    linear_combination (2 * x * besselJ1 x) * this
  have hcont : Continuous E := continuous_iff_continuousAt.2 fun x => (hd x).continuousAt
  have hmono : MonotoneOn E (Ici 0) := monotoneOn_of_deriv_nonneg (convex_Ici 0) hcont.continuousOn
    (fun x _ => (hd x).differentiableAt.differentiableWithinAt) fun x hx => by
      rw [interior_Ici] at hx
      rw [(hd x).deriv]
      have : (0 : ℝ) < x := hx
      positivity
  have hEz : E z = 0 := by simp [hE, h0, h1]
  have hzero : ∀ x, 0 < x → x ≤ z → besselJ0 x = 0 := fun x hx hxz => by
    have h2 : E x ≤ 0 := hEz ▸ hmono hx.le hz.le hxz
    have h3 : 0 ≤ besselJ0 x ^ 2 + besselJ1 x ^ 2 := by positivity
    have h4 : besselJ0 x ^ 2 + besselJ1 x ^ 2 ≤ 0 := by
      by_contra hc
      have : 0 < E x := mul_pos (by positivity) (not_le.1 hc)
      linarith
    nlinarith [sq_nonneg (besselJ0 x), sq_nonneg (besselJ1 x)]
  have hlim : Tendsto besselJ0 (𝓝[>] 0) (𝓝 1) := by
    have := (continuous_besselJ0.tendsto 0).mono_left (nhdsWithin_le_nhds (s := Ioi 0))
    rwa [besselJ0_zero] at this
  have hev : ∀ᶠ x in 𝓝[>] (0 : ℝ), besselJ0 x = 0 := by
    filter_upwards [Ioo_mem_nhdsGT hz] with x hx
    exact hzero x hx.1 hx.2.le
  have := tendsto_nhds_unique (hlim.congr' hev) tendsto_const_nhds
  norm_num at this

/-! ### Zeros -/

/-- `√x J₀(x)`. -/
noncomputable def besselW (x : ℝ) : ℝ := √x * besselJ0 x

/-- Its derivative. -/
noncomputable def besselW' (x : ℝ) : ℝ := besselJ0 x / (2 * √x) - √x * besselJ1 x

theorem hasDerivAt_besselW {x : ℝ} (hx : 0 < x) : HasDerivAt besselW (besselW' x) x := by
  refine ((hasDerivAt_sqrt hx.ne').mul (hasDerivAt_besselJ0 x)).congr_deriv ?_
  rw [besselW']
  ring

theorem hasDerivAt_besselW' {x : ℝ} (hx : 0 < x) : HasDerivAt besselW' (- (1 + 1 / (4 * x ^ 2)) * besselW x) x := by
  have hq : 0 < √x := sqrt_pos.2 hx
  refine (((hasDerivAt_besselJ0 x).div ((hasDerivAt_sqrt hx.ne').const_mul 2) (by positivity)).sub
    ((hasDerivAt_sqrt hx.ne').mul (hasDerivAt_besselJ1 x))).congr_deriv ?_
  have h1 : besselJ1' x = besselJ0 x - besselJ1 x / x := by
    have := bessel_equation x
    field_simp
    linarith
  have h2 : x = √x ^ 2 := (sq_sqrt hx.le).symm
  rw [h1, besselW]
  generalize √x = q at *
  subst h2
  field_simp
  ring

/-- `J₀` has a zero strictly inside every interval of length `π`. -/
theorem exists_besselJ0_zero {a : ℝ} (ha : 0 < a) : ∃ z ∈ Ioo a (a + π), besselJ0 z = 0 := by
  by_contra hc
  push Not at hc
  have hpi := pi_pos
  -- a constant sign
  obtain ⟨σ, hσ⟩ : ∃ σ : ℝ, ∀ x ∈ Ioo a (a + π), 0 < σ * besselJ0 x := by
    by_cases h : 0 < besselJ0 (a + π / 2)
    · refine ⟨1, fun x hx => ?_⟩
      rw [one_mul]
      by_contra hn
      have hx0 : besselJ0 x < 0 := lt_of_le_of_ne (not_lt.1 hn) (hc x hx)
      obtain ⟨z, hz, h0⟩ := (isPreconnected_Ioo (a := a) (b := a + π)).intermediate_value hx ⟨by linarith, by linarith⟩
        continuous_besselJ0.continuousOn ⟨hx0.le, h.le⟩
      exact hc z hz h0
    · refine ⟨-1, fun x hx => ?_⟩
      have h' : besselJ0 (a + π / 2) < 0 := lt_of_le_of_ne (not_lt.1 h) (hc _ ⟨by linarith, by linarith⟩)
      by_contra hn
      have hx0 : 0 < besselJ0 x := lt_of_le_of_ne (by linarith) (hc x hx).symm
      obtain ⟨z, hz, h0⟩ := (isPreconnected_Ioo (a := a) (b := a + π)).intermediate_value (a := a + π / 2) ⟨by linarith, by linarith⟩ hx
        continuous_besselJ0.continuousOn ⟨h'.le, hx0.le⟩
      exact hc z hz h0
  have hends : ∀ x ∈ Icc a (a + π), 0 ≤ σ * besselJ0 x := fun x hx => by
    have hcl : x ∈ closure (Ioo a (a + π)) := by rwa [closure_Ioo (by linarith)]
    exact closure_minimal (fun y hy => (hσ y hy).le) (isClosed_le continuous_const (continuous_const.mul continuous_besselJ0)) hcl
  set F : ℝ → ℝ := fun x => σ * (besselW' x * sin (x - a) - besselW x * cos (x - a)) with hF
  have hd : ∀ x, 0 < x → HasDerivAt F (- (σ * besselW x * sin (x - a) / (4 * x ^ 2))) x := fun x hx => by
    have hs := ((hasDerivAt_id x).sub_const a).sin
    have hcs := ((hasDerivAt_id x).sub_const a).cos
    refine ((((hasDerivAt_besselW' hx).mul hs).sub ((hasDerivAt_besselW hx).mul hcs)).const_mul σ).congr_deriv ?_
    simp only [id]
    field_simp
    ring
  have hanti : StrictAntiOn F (Icc a (a + π)) := by
    refine strictAntiOn_of_deriv_neg (convex_Icc _ _) (fun x hx => (hd x (lt_of_lt_of_le ha hx.1)).continuousAt.continuousWithinAt) fun x hx => ?_
    rw [interior_Icc] at hx
    have hx0 : 0 < x := ha.trans hx.1
    rw [(hd x hx0).deriv, neg_lt_zero]
    have h1 : 0 < sin (x - a) := sin_pos_of_pos_of_lt_pi (by linarith [hx.1]) (by linarith [hx.2])
    have h2 : 0 < σ * besselW x := by
      rw [besselW, mul_left_comm]
      exact mul_pos (sqrt_pos.2 hx0) (hσ x hx)
    positivity
  have h1 := hanti (left_mem_Icc.2 (by linarith)) (right_mem_Icc.2 (by linarith)) (show a < a + π by linarith)
  simp only [hF, besselW, sub_self, sin_zero, cos_zero, add_sub_cancel_left, sin_pi, cos_pi, mul_zero, mul_one, zero_sub, mul_neg, sub_neg_eq_add,
    zero_add] at h1
  have h2 := mul_nonneg (sqrt_nonneg a) (hends a (left_mem_Icc.2 (by linarith)))
  have h3 := mul_nonneg (sqrt_nonneg (a + π)) (hends (a + π) (right_mem_Icc.2 (by linarith)))
  nlinarith

/-- Near a point no other point is a zero. -/
theorem besselJ0_isolated {a : ℝ} (ha : 0 ≤ a) : ∀ᶠ x in 𝓝[≠] a, besselJ0 x ≠ 0 := by
  by_cases h : besselJ0 a = 0
  · have ha' : 0 < a := lt_of_le_of_ne ha fun h' => by
      rw [← h', besselJ0_zero] at h
      norm_num at h
    exact (hasDerivAt_besselJ0 a).eventually_ne (c := 0) (neg_ne_zero.2 (besselJ1_ne_zero ha' h))
  · exact (continuous_besselJ0.continuousAt.eventually_ne h).filter_mono nhdsWithin_le_nhds

/-- The first zero beyond `a`. -/
noncomputable def nextZero (a : ℝ) : ℝ := sInf {x | a < x ∧ besselJ0 x = 0}

theorem nextZero_spec {a : ℝ} (ha : 0 ≤ a) : a < nextZero a ∧ besselJ0 (nextZero a) = 0 ∧ ∀ x, a < x → besselJ0 x = 0 → nextZero a ≤ x := by
  have hne : {x | a < x ∧ besselJ0 x = 0}.Nonempty := by
    obtain ⟨z, hz, h0⟩ := exists_besselJ0_zero (a := a + 1) (by linarith)
    exact ⟨z, by linarith [hz.1], h0⟩
  obtain ⟨b, hb, hiso⟩ : ∃ b, a < b ∧ ∀ x ∈ Ioo a b, besselJ0 x ≠ 0 := by
    have h1 : ∀ᶠ x in 𝓝[>] a, besselJ0 x ≠ 0 := (besselJ0_isolated ha).filter_mono (nhdsWithin_mono a fun x hx => ne_of_gt hx)
    obtain ⟨b, hb, h2⟩ := (mem_nhdsGT_iff_exists_Ioo_subset).1 h1
    exact ⟨b, hb, fun x hx => h2 hx⟩
  have heq : {x | a < x ∧ besselJ0 x = 0} = {x | b ≤ x ∧ besselJ0 x = 0} := by
    ext x
    refine ⟨fun h => ⟨?_, h.2⟩, fun h => ⟨hb.trans_le h.1, h.2⟩⟩
    by_contra hc
    exact hiso x ⟨h.1, not_le.1 hc⟩ h.2
  have hcl : IsClosed {x | b ≤ x ∧ besselJ0 x = 0} :=
    (isClosed_le continuous_const continuous_id).inter (isClosed_eq continuous_besselJ0 continuous_const)
  have hbd : BddBelow {x | b ≤ x ∧ besselJ0 x = 0} := ⟨b, fun x hx => hx.1⟩
  have hmem := hcl.csInf_mem (heq ▸ hne) hbd
  rw [nextZero, heq]
  exact ⟨hb.trans_le hmem.1, hmem.2, fun x hx h0 => csInf_le hbd ((Set.ext_iff.1 heq x).1 ⟨hx, h0⟩)⟩

/-- The positive zeros of `J₀` in increasing order. -/
noncomputable def besselZero : ℕ → ℝ
  | 0 => nextZero 0
  | i + 1 => nextZero (besselZero i)

theorem besselZero_pos_zero (i : ℕ) : 0 < besselZero i ∧ besselJ0 (besselZero i) = 0 := by
  induction i with
  | zero => exact ⟨(nextZero_spec le_rfl).1, (nextZero_spec le_rfl).2.1⟩
  | succ i ih => exact ⟨ih.1.trans (nextZero_spec ih.1.le).1, (nextZero_spec ih.1.le).2.1⟩

theorem besselZero_strictMono : StrictMono besselZero := strictMono_nat_of_lt_succ fun i => (nextZero_spec (besselZero_pos_zero i).1.le).1

/-- Every positive zero is among them. -/
theorem exists_besselZero {x : ℝ} (hx : 0 < x) (h0 : besselJ0 x = 0) : ∃ i, besselZero i = x := by
  by_contra hc
  push Not at hc
  have hlt : ∀ i, besselZero i < x := fun i => by
    induction i with
    | zero => exact lt_of_le_of_ne ((nextZero_spec le_rfl).2.2 x hx h0) (hc 0)
    | succ i ih => exact lt_of_le_of_ne ((nextZero_spec (besselZero_pos_zero i).1.le).2.2 x ih h0) (hc (i + 1))
  have hbd : BddAbove (range besselZero) := ⟨x, by rintro _ ⟨i, rfl⟩; exact (hlt i).le⟩
  have hlim := tendsto_atTop_ciSup besselZero_strictMono.monotone hbd
  set L := ⨆ i, besselZero i with hL
  have hltL : ∀ i, besselZero i < L := fun i => (besselZero_strictMono (Nat.lt_succ_self i)).trans_le (le_ciSup hbd (i + 1))
  have hL0 : 0 ≤ L := ((besselZero_pos_zero 0).1.trans (hltL 0)).le
  have hw : Tendsto besselZero atTop (𝓝[≠] L) := tendsto_nhdsWithin_iff.2 ⟨hlim, Eventually.of_forall fun i => (hltL i).ne⟩
  obtain ⟨i, hi⟩ := (hw.eventually (besselJ0_isolated hL0)).exists
  exact hi (besselZero_pos_zero i).2

/-- Consecutive zeros are less than `π` apart. -/
theorem besselZero_gap (i : ℕ) : besselZero (i + 1) < besselZero i + π := by
  obtain ⟨z, hz, h0⟩ := exists_besselJ0_zero (besselZero_pos_zero i).1
  exact ((nextZero_spec (besselZero_pos_zero i).1.le).2.2 z hz.1 h0).trans_lt hz.2

end Verif
