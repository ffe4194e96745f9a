import Mathlib.Analysis.Calculus.TaylorIntegral
import Mathlib.Analysis.Calculus.ContDiff.Operations
import Mathlib.Topology.MetricSpace.ProperSpace.Lemmas
import Mathlib.Analysis.Asymptotics.Lemmas
import Mathlib.Analysis.Normed.Module.FiniteDimension

/-!
# Taylor's formula in several variables with a uniform bound of the remainder
-/

set_option linter.unusedSectionVars false

namespace Verif

open Set Filter Topology Asymptotics

variable {E F : Type} [NormedAddCommGroup E] [NormedSpace ℝ E] [ProperSpace E] [NormedAddCommGroup F] [NormedSpace ℝ F]
  [CompleteSpace F]

/-- A continuous function is bounded on the points at distance at most one from a compact set. -/
theorem bounded_near {G : Type} [NormedAddCommGroup G] {g : E → G} (hg : Continuous g) {K : Set E} (hK : IsCompact K) :
    ∃ C, 0 ≤ C ∧ ∀ u ∈ K, ∀ w, ‖w‖ ≤ 1 → ‖g (u + w)‖ ≤ C := by
  have hc : IsCompact (Metric.cthickening 1 K) := hK.cthickening
  obtain ⟨C, hC⟩ := (hc.image hg).isBounded.exists_norm_le
  refine ⟨max C 0, le_max_right _ _, fun u hu w hw => (hC _ ⟨u + w, ?_, rfl⟩).trans (le_max_left _ _)⟩
  refine Metric.mem_cthickening_of_dist_le _ u _ _ hu ?_
  simpa [dist_eq_norm] using hw

theorem taylor_bound {f : E → F} (n : ℕ) (hf : ContDiff ℝ n f) {K : Set E} (hK : IsCompact K) :
    ∃ C, ∀ u ∈ K, ∀ w, ‖w‖ ≤ 1 →
      ‖f (u + w) - ∑ m ∈ Finset.range n, ((m.factorial : ℝ)⁻¹) • iteratedFDeriv ℝ m f u (fun _ => w)‖ ≤ C * ‖w‖ ^ n := by
  cases n with
  | zero =>
    obtain ⟨C, _, hC⟩ := bounded_near hf.continuous hK
    exact ⟨C, fun u hu w hw => by simpa using hC u hu w hw⟩
  | succ n =>
    obtain ⟨C, hC0, hC⟩ := bounded_near (hf.continuous_iteratedFDeriv (m := n + 1) le_rfl) hK
    refine ⟨((n.factorial : ℝ)⁻¹) * C, fun u hu w hw => ?_⟩
    have h := map_add_eq_sum_add_integral_iteratedFDeriv (f := f) (x := u) (y := w) (n := n)
      (fun t _ => by exact_mod_cast hf.contDiffAt)
    rw [h, add_sub_cancel_left, norm_smul, mul_assoc]
    have hfac : ‖((n.factorial : ℝ)⁻¹)‖ = ((n.factorial : ℝ)⁻¹) := Real.norm_of_nonneg (by positivity)
    rw [hfac]
    refine mul_le_mul_of_nonneg_left ?_ (by positivity)
    have := intervalIntegral.norm_integral_le_of_norm_le_const (a := (0 : ℝ)) (b := 1) (C := C * ‖w‖ ^ (n + 1))
      (f := fun t : ℝ => (1 - t) ^ n • iteratedFDeriv ℝ (n + 1) f (u + t • w) (fun _ => w)) (fun t ht => ?_)
    · simpa using this
    · rw [uIoc_of_le zero_le_one] at ht
      rw [norm_smul]
      have h1 : ‖(1 - t) ^ n‖ ≤ 1 := by
        rw [norm_pow]
        refine pow_le_one₀ (norm_nonneg _) ?_
        rw [Real.norm_eq_abs, abs_le]
        constructor <;> linarith [ht.1, ht.2]
      have h2 : ‖iteratedFDeriv ℝ (n + 1) f (u + t • w) (fun _ => w)‖ ≤ C * ‖w‖ ^ (n + 1) := by
        refine (ContinuousMultilinearMap.le_opNorm _ _).trans ?_
        rw [Finset.prod_const, Finset.card_univ, Fintype.card_fin]
        refine mul_le_mul_of_nonneg_right (hC u hu _ ?_) (by positivity)
        rw [norm_smul, Real.norm_of_nonneg ht.1.le]
        exact mul_le_one₀ ht.2 (norm_nonneg _) hw
      calc ‖(1 - t) ^ n‖ * ‖iteratedFDeriv ℝ (n + 1) f (u + t • w) (fun _ => w)‖ ≤ 1 * (C * ‖w‖ ^ (n + 1)) :=
            mul_le_mul h1 h2 (norm_nonneg _) zero_le_one
        _ = _ := one_mul _

end Verif
