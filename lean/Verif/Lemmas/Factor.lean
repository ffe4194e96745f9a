import Verif.Model.ComputeS
import Verif.Spec.Tolerance
import Verif.Spec.Adaptive

/-!
# The error factor `_compute_s`
-/

set_option linter.unusedSectionVars false

namespace Verif

variable {ι : Type} [Fintype ι]

theorem maxAbs_nonneg (v : Vec ι) : 0 ≤ maxAbs v := Real.iSup_nonneg fun _ => norm_nonneg _

theorem norm_le_maxAbs (v : Vec ι) (i : ι) : ‖v i‖ ≤ maxAbs v :=
  le_ciSup (f := fun i => ‖v i‖) (Set.finite_range _).bddAbove i

theorem maxAbs_eq_zero {v : Vec ι} (h : maxAbs v = 0) : v = 0 := by
  funext i
  have := norm_le_maxAbs v i
  rw [h] at this
  exact norm_eq_zero.mp (le_antisymm this (norm_nonneg _))

theorem selNorm_nonneg (c : ℝ) (v w : Vec ι) : 0 ≤ selNorm c v w := Real.sqrt_nonneg _

theorem computeS_eq (q : ℕ) (cfg : SolverConfig ℝ) (v e : Vec ι) :
    computeS q cfg v e = npScale cfg.safety_f (npPower (npDiv (cfg.epsilon * selNorm cfg.adapt_cutoff v v)
      (selNorm cfg.adapt_cutoff v e)) (1 / q)) := by
  classical
  have key : ∀ (i : ι), ((⨆ i, ‖v i‖) ≠ 0 ∧ cfg.adapt_cutoff < ‖v i‖ / (⨆ i, ‖v i‖)) ↔
      cfg.adapt_cutoff * maxAbs v < ‖v i‖ := by
    intro i
    rcases (maxAbs_nonneg v).eq_or_lt with h | h
    · have hv := maxAbs_eq_zero h.symm
      rw [← h]
      simp [hv]
    · rw [← lt_div_iff₀ h]
      exact and_iff_right h.ne'
  have hn : ∀ w : Vec ι, maskedNorm (fun i => (⨆ i, ‖v i‖) ≠ 0 ∧ cfg.adapt_cutoff < ‖v i‖ / (⨆ i, ‖v i‖)) w =
      selNorm cfg.adapt_cutoff v w := by
    intro w
    unfold maskedNorm selNorm
    rw [Finset.sum_filter]
    congr 1
    refine Finset.sum_congr rfl fun i _ => ?_
    by_cases hi : cfg.adapt_cutoff * maxAbs v < ‖v i‖
    · rw [if_pos hi, if_pos ((key i).mpr hi)]
    · rw [if_neg hi, if_neg fun hc => hi ((key i).mp hc)]
  unfold computeS
  simp only
  rw [← hn v, ← hn e]

/-- What an acceptable factor means. -/
theorem accepted_tolerance {q : ℕ} (hq : 0 < q) {cfg : SolverConfig ℝ} (heps : 0 < cfg.epsilon) {v e : Vec ι}
    (h : Acceptable (computeS q cfg v e)) :
    0 < selNorm cfg.adapt_cutoff v e ∧
    selNorm cfg.adapt_cutoff v e ≤ cfg.safety_f ^ q * cfg.epsilon * selNorm cfg.adapt_cutoff v v ∧
    0 < cfg.safety_f := by
  rw [computeS_eq] at h
  obtain ⟨x, hx, h1⟩ := h
  set N := selNorm cfg.adapt_cutoff v v
  set E := selNorm cfg.adapt_cutoff v e
  have hN : 0 ≤ N := selNorm_nonneg _ _ _
  have hE : 0 ≤ E := selNorm_nonneg _ _ _
  unfold npDiv at hx
  by_cases hE0 : E = 0
  · exfalso
    rw [if_pos hE0] at hx
    split_ifs at hx <;> simp only [npPower, npScale] at hx
    · exact absurd hx (by simp)
    · split_ifs at hx
    · split_ifs at hx
  rw [if_neg hE0] at hx
  have hEpos : 0 < E := lt_of_le_of_ne hE (Ne.symm hE0)
  have hquot : 0 ≤ cfg.epsilon * N / E := by positivity
  simp only [npPower, npScale, not_lt.mpr hquot, if_false, Ext.fin.injEq] at hx
  have hp : 0 ≤ (cfg.epsilon * N / E) ^ ((1 : ℝ) / q) := Real.rpow_nonneg hquot _
  have hs : 0 < cfg.safety_f := by
    by_contra hc
    have : cfg.safety_f * (cfg.epsilon * N / E) ^ ((1 : ℝ) / q) ≤ 0 := mul_nonpos_of_nonpos_of_nonneg (not_lt.mp hc) hp
    linarith
  refine ⟨hEpos, ?_, hs⟩
  have h2 : (1 : ℝ) ≤ (cfg.safety_f * (cfg.epsilon * N / E) ^ ((1 : ℝ) / q)) ^ q := by
    rw [hx]; exact one_le_pow₀ h1
  rw [mul_pow, ← Real.rpow_natCast ((cfg.epsilon * N / E) ^ ((1 : ℝ) / q)), ← Real.rpow_mul hquot,
    one_div, inv_mul_cancel₀ (by exact_mod_cast hq.ne'), Real.rpow_one] at h2
  have h3 : cfg.safety_f ^ q * (cfg.epsilon * N / E) * E = cfg.safety_f ^ q * cfg.epsilon * N := by
    field_simp
  nlinarith

/-- Zero error over the selected components: not a finite factor. -/
theorem factor_of_zero_err {q : ℕ} {cfg : SolverConfig ℝ} {v e : Vec ι} (h : selNorm cfg.adapt_cutoff v e = 0) :
    ∀ x, computeS q cfg v e ≠ .fin x := by
  intro x hx
  rw [computeS_eq, h] at hx
  unfold npDiv at hx
  rw [if_pos rfl] at hx
  split_ifs at hx <;> simp only [npPower, npScale] at hx
  · exact absurd hx (by simp)
  · split_ifs at hx
  · split_ifs at hx

theorem selNorm_eq_zero {c : ℝ} {v w : Vec ι} (h : ∀ i, c * maxAbs v < ‖v i‖ → w i = 0) : selNorm c v w = 0 := by
  classical
  unfold selNorm
  rw [Finset.sum_eq_zero, Real.sqrt_zero]
  intro i hi
  rw [h i (Finset.mem_filter.mp hi).2]; simp

theorem maxAbs_zero : maxAbs (0 : Vec ι) = 0 := by
  unfold maxAbs
  rcases isEmpty_or_nonempty ι with h | h
  · simp
  · simp

end Verif
