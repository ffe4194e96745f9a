import Verif.Lemmas.FloatPsi
import Mathlib.Topology.Algebra.MetricSpace.Lipschitz
import Mathlib.Analysis.Calculus.ContDiff.RCLike
import Mathlib.Analysis.Normed.Algebra.Exponential
import Mathlib.Analysis.Calculus.FDeriv.Analytic
import Mathlib.Analysis.Analytic.Composition
import Mathlib.Analysis.SpecificLimits.Normed
import Mathlib.Analysis.Normed.Algebra.Spectrum
import Mathlib.Analysis.Normed.Module.FiniteDimension

/-!
# Rounding errors of matrix operations
-/

set_option linter.unusedSectionVars false

namespace Verif

open Asymptotics Filter Matrix
open scoped Matrix.Norms.Operator

variable {ι : Type} [Fintype ι] [DecidableEq ι]
variable {T : Type} {l : Filter T} {A : T → CArith} {B : T → LinAlg ι} {ρ g : T → ℝ} {N : T → ℕ}

theorem norm_entry_le (M : Mat ι) (i j : ι) : ‖M i j‖ ≤ ‖M‖ := by
  have h := Matrix.linfty_opNNNorm_def M
  have h1 : ‖M i j‖₊ ≤ ∑ j, ‖M i j‖₊ := Finset.single_le_sum (f := fun j => ‖M i j‖₊) (fun _ _ => zero_le) (Finset.mem_univ j)
  have h2 : ∑ j, ‖M i j‖₊ ≤ ‖M‖₊ := by
    rw [h]
    exact Finset.le_sup (f := fun i => ∑ j, ‖M i j‖₊) (Finset.mem_univ i)
  exact_mod_cast h1.trans h2

theorem norm_le_entries (M : Mat ι) : ‖M‖ ≤ ∑ i, ∑ j, ‖M i j‖ := by
  have h : ‖M‖₊ ≤ ∑ i, ∑ j, ‖M i j‖₊ := by
    rw [Matrix.linfty_opNNNorm_def M]
    refine Finset.sup_le fun i _ => ?_
    exact Finset.single_le_sum (f := fun i => ∑ j, ‖M i j‖₊) (fun _ _ => zero_le) (Finset.mem_univ i)
  have h1 : ((‖M‖₊ : NNReal) : ℝ) ≤ ((∑ i, ∑ j, ‖M i j‖₊ : NNReal) : ℝ) := NNReal.coe_le_coe.2 h
  simpa using h1

theorem isBigO_mat {M : T → Mat ι} {g : T → ℝ} : M =O[l] g ↔ ∀ i j, (fun t => M t i j) =O[l] g := by
  refine ⟨fun h i j => (IsBigO.of_bound 1 (Eventually.of_forall fun t => ?_)).trans h, fun h => ?_⟩
  · rw [one_mul]; exact norm_entry_le (M t) i j
  · have h1 : (fun t => ∑ i, ∑ j, ‖M t i j‖) =O[l] g :=
      IsBigO.fun_sum fun i _ => IsBigO.fun_sum fun j _ => (h i j).norm_left
    refine (IsBigO.of_bound 1 (Eventually.of_forall fun t => ?_)).trans h1
    rw [one_mul]
    exact (norm_le_entries (M t)).trans (le_abs_self _)

/-- `M'` is computed in place of the bounded `M`, up to `O(g)`. -/
structure MatNear (l : Filter T) (g : T → ℝ) (M' M : T → Mat ι) : Prop where
  bdd : M =O[l] (1 : T → ℝ)
  err : (fun t => M' t - M t) =O[l] g

theorem MatNear.of_entries {X' : ∀ t, ι → ι → Fl (A t)} {X : T → Mat ι}
    (h : ∀ i j, FlNear l A g (fun t => X' t i j) (fun t => X t i j)) : MatNear l g (fun t => Fl.mat (X' t)) X :=
  ⟨isBigO_mat.2 fun i j => (h i j).bdd, isBigO_mat.2 fun i j => (h i j).err⟩

/-- Accurate functions for matrices. -/
def FineMat (l : Filter T) (B : T → LinAlg ι) (ρ : T → ℝ) : Prop := ∀ R, ∀ᶠ t in l, (B t).Within (ρ t) R

theorem FineMat.below (h : FineMat l B ρ) : FineMat (Verif.below l N) (fun p => B p.1) (fun p => ρ p.1) :=
  fun R => tendsto_below.eventually (h R)

theorem exists_le_mat {M : T → Mat ι} (h : M =O[l] (1 : T → ℝ)) : ∃ C : ℝ, 0 ≤ C ∧ ∀ᶠ t in l, ‖M t‖ ≤ C := by
  obtain ⟨C, hC, h1⟩ := h.exists_nonneg
  exact ⟨C, hC, h1.bound.mono fun t ht => by simpa using ht⟩

namespace MatNear

variable {M' M : T → Mat ι}

theorem bdd' (hg : g =O[l] (1 : T → ℝ)) (h : MatNear l g M' M) : M' =O[l] (1 : T → ℝ) := by
  have := (h.err.trans hg).add h.bdd
  simpa using this

theorem exp_lip (R : ℝ) : ∃ K : ℝ, ∀ X Y : Mat ι, ‖X‖ ≤ R → ‖Y‖ ≤ R → ‖NormedSpace.exp X - NormedSpace.exp Y‖ ≤ K * ‖X - Y‖ := by
  have h1 : ContDiff ℂ 1 (NormedSpace.exp : Mat ι → Mat ι) :=
    contDiff_iff_contDiffAt.2 fun x => (NormedSpace.exp_analytic (𝕂 := ℂ) x).contDiffAt
  have h2 : LocallyLipschitzOn (Metric.closedBall (0 : Mat ι) R) (NormedSpace.exp : Mat ι → Mat ι) :=
    (h1.locallyLipschitz).locallyLipschitzOn
  have : ProperSpace (Mat ι) := FiniteDimensional.proper ℂ _
  obtain ⟨K, hK⟩ := h2.exists_lipschitzOnWith_of_compact (isCompact_closedBall _ _)
  refine ⟨K, fun X Y hX hY => ?_⟩
  have := hK.dist_le_mul X (by simpa using hX) Y (by simpa using hY)
  rwa [dist_eq_norm, dist_eq_norm] at this

theorem expm (hB : FineMat l B ρ) (h0 : ∀ᶠ t in l, 0 ≤ ρ t) (hle : ρ =O[l] g) (hg : g =O[l] (1 : T → ℝ)) (h : MatNear l g M' M) :
    MatNear l g (fun t => (B t).expm (M' t)) (fun t => NormedSpace.exp (M t)) := by
  obtain ⟨C, hC, h1⟩ := exists_le_mat h.bdd
  obtain ⟨D, hD, h2⟩ := exists_le_mat (h.bdd' hg)
  set R := max C D
  obtain ⟨K, hK⟩ := exp_lip (ι := ι) R
  constructor
  · obtain ⟨K0, hK0⟩ : ∃ K0 : ℝ, ∀ X : Mat ι, ‖X‖ ≤ R → ‖NormedSpace.exp X‖ ≤ K0 := by
      refine ⟨|K| * R + ‖NormedSpace.exp (0 : Mat ι)‖, fun X hX => ?_⟩
      have a1 := hK X 0 hX (by rw [norm_zero]; exact hC.trans (le_max_left _ _))
      rw [sub_zero] at a1
      have a2 := norm_le_norm_sub_add (NormedSpace.exp X) (NormedSpace.exp (0 : Mat ι))
      have a3 : K * ‖X‖ ≤ |K| * R := mul_le_mul (le_abs_self K) hX (norm_nonneg _) (abs_nonneg _)
      linarith
    refine IsBigO.of_bound K0 (h1.mono fun t ht => ?_)
    simpa using hK0 _ (ht.trans (le_max_left _ _))
  · have e1 : (fun t => (B t).expm (M' t) - NormedSpace.exp (M' t)) =O[l] ρ := by
      refine IsBigO.of_bound (1 + Real.exp R) ?_
      filter_upwards [hB R, h2, h0] with t b1 b2 b3
      have b4 : ‖M' t‖ ≤ R := b2.trans (le_max_right _ _)
      refine (b1.expm _ b4).trans ?_
      rw [Real.norm_of_nonneg b3, mul_comm]
      exact mul_le_mul_of_nonneg_right (by have := Real.exp_le_exp.2 b4; linarith) b3
    have e2 : (fun t => NormedSpace.exp (M' t) - NormedSpace.exp (M t)) =O[l] fun t => M' t - M t := by
      refine IsBigO.of_bound K ?_
      filter_upwards [h1, h2] with t b1 b2
      exact hK _ _ (b2.trans (le_max_right _ _)) (b1.trans (le_max_left _ _))
    exact ((e1.trans hle).add (e2.trans h.err)).congr_left fun t => by abel

/-- A matrix near an invertible one. -/
theorem inv_close {X Y : Mat ι} {C : ℝ} (hX : IsUnit X.det) (hC : ‖X⁻¹‖ ≤ C) (h : C * ‖Y - X‖ ≤ 1 / 2) :
    IsUnit Y.det ∧ ‖Y⁻¹‖ ≤ 2 * C ∧ ‖Y⁻¹ - X⁻¹‖ ≤ 2 * C ^ 2 * ‖Y - X‖ := by
  have hC0 : 0 ≤ C := (norm_nonneg _).trans hC
  have h1 : ‖-(X⁻¹ * (Y - X))‖ ≤ 1 / 2 := by
    rw [norm_neg]
    exact (norm_mul_le _ _).trans ((mul_le_mul_of_nonneg_right hC (norm_nonneg _)).trans h)
  have h2 : IsUnit (1 - -(X⁻¹ * (Y - X))) := isUnit_one_sub_of_norm_lt_one (h1.trans_lt (by norm_num))
  have h3 : X * (1 - -(X⁻¹ * (Y - X))) = Y := by
    rw [sub_neg_eq_add, mul_add, mul_one, ← mul_assoc, Matrix.mul_nonsing_inv _ hX, one_mul]
    abel
  have hY : IsUnit Y.det := by
    rw [← Matrix.isUnit_iff_isUnit_det, ← h3]
    exact ((Matrix.isUnit_iff_isUnit_det X).2 hX).mul h2
  have h4 : Y⁻¹ - X⁻¹ = -(X⁻¹ * (Y - X) * Y⁻¹) := by
    rw [mul_sub, sub_mul, Matrix.nonsing_inv_mul _ hX, mul_assoc, Matrix.mul_nonsing_inv _ hY, one_mul, mul_one]
    abel
  have h5 : ‖Y⁻¹ - X⁻¹‖ ≤ C * ‖Y - X‖ * ‖Y⁻¹‖ := by
    rw [h4, norm_neg]
    refine (norm_mul_le _ _).trans (mul_le_mul_of_nonneg_right ?_ (norm_nonneg _))
    exact (norm_mul_le _ _).trans (mul_le_mul_of_nonneg_right hC (norm_nonneg _))
  have h6 : ‖Y⁻¹‖ ≤ 2 * C := by
    have a1 := norm_le_norm_sub_add Y⁻¹ X⁻¹
    have a2 : C * ‖Y - X‖ * ‖Y⁻¹‖ ≤ 1 / 2 * ‖Y⁻¹‖ := mul_le_mul_of_nonneg_right h (norm_nonneg _)
    linarith
  refine ⟨hY, h6, h5.trans ?_⟩
  have := mul_le_mul_of_nonneg_left h6 (show 0 ≤ C * ‖Y - X‖ by positivity)
  calc C * ‖Y - X‖ * ‖Y⁻¹‖ ≤ C * ‖Y - X‖ * (2 * C) := this
    _ = 2 * C ^ 2 * ‖Y - X‖ := by ring

/-- Computed inverses of matrices whose inverses are bounded. -/
theorem inv (hB : FineMat l B ρ) (h0 : ∀ᶠ t in l, 0 ≤ ρ t) (hle : ρ =O[l] g) (hg : Tendsto g l (nhds 0)) (h : MatNear l g M' M)
    (hu : ∀ᶠ t in l, IsUnit (M t).det) (hi : (fun t => (M t)⁻¹) =O[l] (1 : T → ℝ)) :
    ∃ Q : T → Mat ι, (∀ᶠ t in l, (B t).inv (M' t) = .ok (Q t)) ∧ MatNear l g Q (fun t => (M t)⁻¹) := by
  obtain ⟨C, hC, h1⟩ := exists_le_mat hi
  obtain ⟨D, hD, h2⟩ := exists_le_mat (h.bdd' (hg.isBigO_one ℝ))
  have hz : Tendsto (fun t => M' t - M t) l (nhds 0) := h.err.trans_tendsto hg
  have h3 : ∀ᶠ t in l, C * ‖M' t - M t‖ ≤ 1 / 2 := by
    have : Tendsto (fun t => C * ‖M' t - M t‖) l (nhds (C * 0)) := (by simpa using hz.norm : Tendsto (fun t => ‖M' t - M t‖) l (nhds 0)).const_mul C
    rw [mul_zero] at this
    exact (this.eventually (gt_mem_nhds (show (0 : ℝ) < 1 / 2 by norm_num))).mono fun t ht => le_of_lt ht
  set R := max D (2 * C)
  have key : ∀ᶠ t in l, ∃ Q, (B t).inv (M' t) = .ok Q ∧ ‖Q - (M' t)⁻¹‖ ≤ ρ t * (1 + R * R * R) ∧
      ‖(M' t)⁻¹ - (M t)⁻¹‖ ≤ 2 * C ^ 2 * ‖M' t - M t‖ := by
    filter_upwards [h1, h2, h3, hu, hB R, h0] with t b1 b2 b3 b4 b5 b6
    obtain ⟨c1, c2, c3⟩ := inv_close b4 b1 b3
    have d1 : ‖M' t‖ ≤ R := b2.trans (le_max_left _ _)
    have d2 : ‖(M' t)⁻¹‖ ≤ R := c2.trans (le_max_right _ _)
    obtain ⟨Q, e1, e2⟩ := b5.inv _ c1 d1 d2
    refine ⟨Q, e1, e2.trans (mul_le_mul_of_nonneg_left ?_ b6), c3⟩
    gcongr
  refine ⟨fun t => ((B t).inv (M' t)).toOption.getD 0, key.mono ?_, ?_⟩
  · rintro t ⟨Q, h4, -⟩
    simp only [h4]; rfl
  · refine ⟨hi, ?_⟩
    have e1 : (fun t => ((B t).inv (M' t)).toOption.getD 0 - (M' t)⁻¹) =O[l] ρ := by
      refine IsBigO.of_bound (1 + R * R * R) ?_
      filter_upwards [key, h0] with t hk h6
      obtain ⟨Q, h4, h5, -⟩ := hk
      rw [h4, Real.norm_of_nonneg h6, mul_comm]
      exact h5
    have e2 : (fun t => (M' t)⁻¹ - (M t)⁻¹) =O[l] fun t => M' t - M t := by
      refine IsBigO.of_bound (2 * C ^ 2) ?_
      filter_upwards [key] with t hk
      obtain ⟨Q, -, -, h5⟩ := hk
      exact h5
    exact ((e1.trans hle).add (e2.trans h.err)).congr_left fun t => by abel

end MatNear

/-- Inverses on the contour are bounded. -/
theorem resolvent_bdd (L : Mat ι) {r H : ℝ} (hr : 0 < r) (hL : ∀ μ ∈ spectrum ℂ L, H * ‖μ‖ < r) :
    (∀ p : ℂ, ‖p‖ = r → ∀ s : ℝ, 0 ≤ s → s ≤ H → IsUnit (p • (1 : Mat ι) - (s : ℂ) • L).det) ∧
    ∃ C : ℝ, ∀ p : ℂ, ‖p‖ = r → ∀ s : ℝ, 0 ≤ s → s ≤ H → ‖(p • (1 : Mat ι) - (s : ℂ) • L)⁻¹‖ ≤ C := by
  have hu : ∀ p : ℂ, ‖p‖ = r → ∀ s : ℝ, 0 ≤ s → s ≤ H → IsUnit (p • (1 : Mat ι) - (s : ℂ) • L).det := by
    intro p hp s hs hsH
    have hp0 : p ≠ 0 := by rintro rfl; rw [norm_zero] at hp; linarith
    rw [← Matrix.isUnit_iff_isUnit_det]
    rcases hs.eq_or_lt with rfl | hs
    · rw [Complex.ofReal_zero, zero_smul, sub_zero]
      exact (isUnit_one).smul (Units.mk0 p hp0)
    · by_contra hc
      have hs0 : (s : ℂ) ≠ 0 := by exact_mod_cast hs.ne'
      have hmem : p / s ∈ spectrum ℂ L := by
        rw [spectrum.mem_iff]
        intro h
        apply hc
        have : p • (1 : Mat ι) - (s : ℂ) • L = (s : ℂ) • (algebraMap ℂ (Mat ι) (p / s) - L) := by
          rw [smul_sub, Algebra.algebraMap_eq_smul_one, smul_smul, mul_div_cancel₀ _ hs0]
        rw [this]
        exact h.smul (Units.mk0 (s : ℂ) hs0)
      have := hL _ hmem
      rw [norm_div, hp, Complex.norm_real, Real.norm_of_nonneg hs.le, ← mul_div_assoc, div_lt_iff₀ hs] at this
      nlinarith
  refine ⟨hu, ?_⟩
  have hcomp : IsCompact (Metric.sphere (0 : ℂ) r ×ˢ Set.Icc (0 : ℝ) H) := (isCompact_sphere _ _).prod isCompact_Icc
  have hM : Continuous fun q : ℂ × ℝ => q.1 • (1 : Mat ι) - (q.2 : ℂ) • L := by fun_prop
  have hcont : ContinuousOn (fun q : ℂ × ℝ => (q.1 • (1 : Mat ι) - (q.2 : ℂ) • L)⁻¹) (Metric.sphere (0 : ℂ) r ×ˢ Set.Icc (0 : ℝ) H) := by
    simp only [Matrix.inv_def, Ring.inverse_eq_inv']
    refine ContinuousOn.smul (hM.matrix_det.continuousOn.inv₀ fun q hq => ?_) hM.matrix_adjugate.continuousOn
    exact (hu q.1 (by simpa using hq.1) q.2 hq.2.1 hq.2.2).ne_zero
  obtain ⟨C, hC⟩ := hcomp.exists_bound_of_continuousOn hcont
  exact ⟨C, fun p hp s h0 h1 => hC (p, s) ⟨by simpa using hp, h0, h1⟩⟩

end Verif
