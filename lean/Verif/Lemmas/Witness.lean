import Verif.Lemmas.ApiAS
import Verif.Lemmas.Factor

/-!
# A concrete run: IF34 on `u' = u`, one mode, treated as nonlinear

Used as a witness that the hypotheses of the theorems about adaptive steps are met.
-/

set_option linter.unusedSectionVars false

namespace Verif

open Matrix

theorem expm_zeroMat {ι : Type} [Fintype ι] [DecidableEq ι] (θ : ℝ) : expm (Matrix.diagonal (0 : Vec ι)) θ = 1 := by
  rw [expm_diagonal]; simp

/-- IF34 with linear operator zero. -/
noncomputable def demo : ASSolver (Fin 1) := .if34 (.diag 0)

/-- Settings that accept everything with a nonzero error estimate not larger than the solution. -/
noncomputable def demoCfg : SolverConfig ℝ := ⟨1, 5 / 4, 17 / 20, 1, 1 / 100, 1 / 10 ^ 16⟩

theorem demo_trial (h : ℝ) (u : Vec (Fin 1)) : demo.oneTrial (fun x => .ok x) h u =
    .ok ((1 + h + h ^ 2 / 2 + h ^ 3 / 6 + h ^ 4 / 24 : ℂ) • u, (h / 6 * (h ^ 3 / 12 - h ^ 4 / 24) : ℂ) • u) := by
  have hc : demo.CoefOk h := trivial
  unfold ASSolver.oneTrial
  rw [if_pos hc]
  simp only [demo, ASSolver.method, ASSolver.op, ASOp.inner, ASOp.emb, ASOp.prj, LinOp.mat, lawson, expm_zeroMat, rk4, ERK.step,
    ERK.stages, ERK.arg, ERK.out, ERK.err, Finset.sum_range_succ, Finset.sum_range_zero, id, Except.map, smul_mulVec, one_mulVec,
    Function.update]
  simp
  constructor
  · module
  · module

theorem selNorm_one (c : ℝ) (hc : c < 1) (v w : Vec (Fin 1)) (hv : v 0 ≠ 0) : selNorm c v w = ‖w 0‖ := by
  classical
  have hm : maxAbs v = ‖v 0‖ := by simp [maxAbs, ciSup_unique]
  have hp : 0 < ‖v 0‖ := norm_pos_iff.mpr hv
  unfold selNorm
  rw [Finset.filter_true_of_mem]
  · simp
  · intro i _
    obtain rfl : i = 0 := Subsingleton.elim _ _
    rw [hm]; nlinarith

/-- The factor of a trial in one dimension. -/
theorem factor_one (q : ℕ) (cfg : SolverConfig ℝ) (hc : cfg.adapt_cutoff < 1) (he : 0 < cfg.epsilon) (v e : Vec (Fin 1))
    (hv : v 0 ≠ 0) (hz : e 0 ≠ 0) :
    computeS q cfg v e = .fin (cfg.safety_f * (cfg.epsilon * ‖v 0‖ / ‖e 0‖) ^ ((1 : ℝ) / q)) := by
  have h1 : ‖e 0‖ ≠ 0 := norm_ne_zero_iff.mpr hz
  have h2 : ¬ (cfg.epsilon * ‖v 0‖ / ‖e 0‖ < 0) := not_lt.mpr (by positivity)
  rw [computeS_eq, selNorm_one _ hc _ _ hv, selNorm_one _ hc _ _ hv]
  simp [npDiv, h1, npPower, npScale, h2]

/-- One step of the concrete run: accepted in the first trial, and the size may grow by the maximal factor. -/
theorem demo_step : (demo.step (fun x => .ok x) id demoCfg 1 1 demo.new).1 =
    .ok ((65 / 24 : ℂ) • 1, 1, 4) := by
  rw [← demo.stepSpec_iff _ _ _ _ _ (by norm_num)]
  have ht := demo_trial 1 1
  have hf : demo.factor (fun x => .ok x) demoCfg ((65 / 24 : ℂ) • 1, (1 / 144 : ℂ) • 1) =
      .fin ((390 : ℝ) ^ ((1 : ℝ) / 4)) := by
    have := factor_one 4 demoCfg (by norm_num [demoCfg]) (by norm_num [demoCfg]) ((65 / 24 : ℂ) • 1)
      ((1 / 144 : ℂ) • 1) (by norm_num) (by norm_num)
    change computeS 4 demoCfg _ _ = _
    rw [this]
    norm_num [demoCfg]
  have h4 : (4 : ℝ) ≤ (390 : ℝ) ^ ((1 : ℝ) / 4) := by
    have : ((4 : ℝ) ^ (4 : ℝ)) ^ ((1 : ℝ) / 4) ≤ (390 : ℝ) ^ ((1 : ℝ) / 4) :=
      Real.rpow_le_rpow (by positivity) (by norm_num) (by norm_num)
    rwa [← Real.rpow_mul (by norm_num), show (4 : ℝ) * (1 / 4) = 1 by norm_num, Real.rpow_one] at this
  have ht' : demo.oneTrial (fun x => .ok x) 1 1 = .ok ((65 / 24 : ℂ) • 1, (1 / 144 : ℂ) • 1) := by
    rw [ht]; norm_num
  have := StepSpec.accept (Φ := demo.oneTrial fun x => .ok x) (S := demo.factor (fun x => .ok x) demoCfg) (cfg := demoCfg)
    (rnd := id) (u := 1) (h := 1) (j := 0) (by norm_num) (.zero 1) ht' hf (by linarith)
  have hg : grow demoCfg.incr_f ((390 : ℝ) ^ ((1 : ℝ) / 4)) 1 = 4 := by
    unfold grow
    rw [min_eq_right h4]; norm_num [demoCfg]
  simp only [id, hg] at this
  exact this

end Verif
