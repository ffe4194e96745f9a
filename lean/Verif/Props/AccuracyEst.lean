import Verif.Props.Accuracy
import Mathlib.Analysis.SpecialFunctions.ExpDeriv
import Mathlib.Analysis.SpecialFunctions.Exp

/-!
# Order of accuracy: error estimates, single solutions, and the fifth order methods (property C35, continued)
-/

set_option linter.unusedSectionVars false

namespace Verif

open Matrix Finset Filter Topology Asymptotics
open scoped ContDiff

variable {ι : Type} [Fintype ι] [DecidableEq ι]
variable {P : Type} {f : Vec ι → Vec ι} {K : Set P} {u : P → Vec ι} {y : P → ℝ → Vec ι} {δ : ℝ} {K0 : Set (Vec ι)}

/-! ### Error estimates -/

theorem err_order (hf : ContDiff ℝ ∞ f) (hK : IsCompact K0) (hu : ∀ q ∈ K, u q ∈ K0) {L : Mat ι} {M : ℝ → ERK ι} {T : ETableau}
    (hM : ERK.Expands M L T) {p : ℕ} (hT : ∀ t : ETree, t.order ≤ p → T.err t = 0) :
    (fun x : ℝ × P => ((M x.1).run f (u x.2)).2) =O[small K] fun x => x.1 ^ (p + 1) := by
  have h1 := ERK.err_expansion hf hK hu hM p
  have h2 := sum_filter_isBigO (L := L) hf hK hu (ETree.trees (p + 1)) T.err (p + 1)
  have h3 : (fun x : ℝ × P => x.1 ^ (p + 2)) =O[small K] fun x => x.1 ^ (p + 1) := by
    have h0 : Tendsto (fun x : ℝ × P => x.1) (small K) (𝓝 0) := tendsto_fst
    refine IsBigO.congr (((h0.isBigO_one ℝ)).mul (isBigO_refl (fun x : ℝ × P => x.1 ^ (p + 1)) _)) (fun x => ?_) fun x => one_mul _
    ring
  refine IsBigO.congr_left ((h1.trans h3).add h2) fun x => ?_
  rw [Finset.sum_eq_zero (s := {t ∈ ETree.trees (p + 1) | t.order < p + 1})]
  · abel
  · intro t ht
    rw [hT t (by have := (Finset.mem_filter.1 ht).2; omega), zero_mul, zero_smul]

theorem ASOp.norm_prj (L : ASOp ι) : ∃ B : ℝ, ∀ w, ‖L.prj w‖ ≤ B * ‖w‖ := by
  rcases L with L | L | ⟨lam, S, Sinv, hS⟩
  · exact ⟨1, fun w => by simp [ASOp.prj]⟩
  · exact ⟨1, fun w => by simp [ASOp.prj]⟩
  · open scoped Matrix.Norms.Operator in
    exact ⟨‖Sinv‖, fun w => Matrix.linfty_opNorm_mulVec Sinv w⟩

/-- **C35.** The error estimate of IF34, ETD34 and ETD35 is of order `h^4`. -/
theorem C35_estimate (m : ASSolver ι) (hm : ∀ L, m ≠ .if45dp L) (hf : ContDiff ℝ ∞ f) (hK : IsCompact K0)
    (hu : ∀ q ∈ K, u q ∈ K0) :
    ∃ C η : ℝ, 0 < η ∧ ∀ h, 0 < h → h < η → ∀ q ∈ K, m.Resolved h →
      ∀ᶠ N in atTop, ∃ u' e, ((m.withPoints N).trial (total f) (u q) h (m.withPoints N).new).1 = .ok (u', e) ∧ ‖e‖ ≤ C * h ^ 4 := by
  have key : (fun x : ℝ × P => ((m.exact x.1).run f (u x.2)).2) =O[small K] fun x => x.1 ^ 4 := by
    rcases m with L | ⟨cfg, L⟩ | ⟨cfg, L⟩ | L
    · exact err_order hf hK hu (rk4_expands L.mat) (QTab.err_zero rk4Q_closed rk4Q_cancels (by norm_num))
    · exact err_order hf hK hu (krogstad_expands L.mat) (QTab.err_zero krogstadQ_closed krogstadQ_cancels (by norm_num))
    · exact err_order hf hK hu (etd5_expands L.mat false) (QTab.err_zero etd5Q_closed etd5Q_cancels (by norm_num))
    · exact absurd rfl (hm L)
  obtain ⟨C, η, hη, hC⟩ := isBigO_small key
  obtain ⟨B, hB⟩ := m.op.norm_prj
  refine ⟨|B| * |C| + 1, η, hη, fun h h0 h1 q hq hr => ?_⟩
  obtain ⟨x, hx, ht⟩ := C22_limit_trial m f hf.continuous (u q) h hr
  have hp := pow_pos h0 4
  have h2 : ∀ᶠ N in atTop, ‖(x N).2‖ < (|B| * |C| + 1) * h ^ 4 := by
    refine (((continuous_snd.tendsto _).comp ht).norm).eventually_lt_const ?_
    refine lt_of_le_of_lt ((hB _).trans ?_) (show |B| * |C| * h ^ 4 < _ by linarith)
    rw [mul_assoc]
    have := hC h h0 h1 q hq
    refine mul_le_mul (le_abs_self B) (this.trans ?_) (norm_nonneg _) (abs_nonneg _)
    exact mul_le_mul_of_nonneg_right (le_abs_self C) hp.le
  filter_upwards [hx, h2] with N h3 h4
  exact ⟨(x N).1, (x N).2, h3, h4.le⟩

/-- **C35.** The error estimate of IF45DP is `-9/320 h f(u)` up to order `h^2`, however smooth `f` (see C54). -/
theorem C35_estimate_if45dp (L : Vec ι) (hf : ContDiff ℝ ∞ f) (hK : IsCompact K0) (hu : ∀ q ∈ K, u q ∈ K0) :
    ∃ C η : ℝ, 0 < η ∧ ∀ h, 0 < h → h < η → ∀ q ∈ K,
      ∃ u' e, ((ASSolver.if45dp L).trial (total f) (u q) h (ASSolver.if45dp L).new).1 = .ok (u', e) ∧
        ‖e + (9 / 320 * h) • f (u q)‖ ≤ C * h ^ 2 := by
  have h1 := dp_expands (17 / 1920) (Matrix.diagonal L)
  push_cast at h1
  have key := ERK.err_expansion hf hK hu h1 0
  have hs : ∀ x : ℝ × P, ∑ t ∈ ETree.trees (0 + 1), ((dpQ (17 / 1920)).real.err t * x.1 ^ t.order) • t.val (Matrix.diagonal L) f (u x.2)
      = (-(9 / 320 : ℝ) * x.1) • f (u x.2) := by
    intro x
    rw [ETree.trees, ETree.sum_grow]
    simp only [ETree.trees, zero_add, Finset.sum_range_one, ETableau.err, zero_mul, zero_smul]
    have hw : (∑ j ∈ range (dpQ (17 / 1920)).s, (dpQ (17 / 1920)).ρ j 0) = -9 / 320 := by decide +kernel
    have hw' : (∑ j ∈ range (dpQ (17 / 1920)).real.s, (dpQ (17 / 1920)).real.ρ j 0) = -(9 / 320 : ℝ) := by
      have := congrArg (fun q : ℚ => (q : ℝ)) hw
      push_cast at this
      rw [← neg_div]
      exact this
    simp [ETree.order, ETree.val, hw']
  obtain ⟨C, η, hη, hC⟩ := isBigO_small key
  refine ⟨C, η, hη, fun h h0 h1 q hq => ?_⟩
  have h2 := hC h h0 h1 q hq
  have h3 := hs (h, q)
  simp only at h2 h3
  rw [h3, neg_mul, neg_smul, sub_neg_eq_add, zero_add] at h2
  exact ⟨_, _, (ASSolver.trial_if45dp L _ _ _).trans (ERK.step_eq_run _ _ _), h2⟩

/-! ### One solution -/

/-- A single solution on an open interval around zero. -/
theorem Flows.single {L : Mat ι} {y : ℝ → Vec ι} (hδ : 0 < δ) (hy : ∀ s, |s| < δ → HasDerivAt y (L *ᵥ y s + f (y s)) s) :
    Flows L f (Set.univ : Set Unit) (fun _ => y) (δ / 2) (y '' Set.Icc (-(δ / 2)) (δ / 2)) := by
  refine ⟨by linarith, ?_, fun _ _ s hs => ⟨s, abs_le.1 hs.le, rfl⟩, fun _ _ s hs => hy s (by linarith)⟩
  refine isCompact_Icc.image_of_continuousOn fun s hs => ?_
  exact (hy s (by have := abs_le.2 hs; linarith)).continuousAt.continuousWithinAt

/-- **C35.** Local order along a single solution, for the constant-step solvers. -/
theorem C35_solution (m : CSSolver ι) (hf : ContDiff ℝ ∞ f) {y : ℝ → Vec ι} (hδ : 0 < δ)
    (hy : ∀ s, |s| < δ → HasDerivAt y (m.op.mat *ᵥ y s + f (y s)) s) :
    ∃ C η : ℝ, 0 < η ∧ ∀ h, 0 < h → h < η → m.Resolved h →
      ∀ᶠ N in atTop, ∃ u', ((m.withPoints N).step (total f) (y 0) h (m.withPoints N).new).1 = .ok u' ∧ ‖u' - y h‖ ≤ C * h ^ 5 := by
  obtain ⟨C, η, hη, hC⟩ := C35_step m hf (Flows.single hδ hy)
  exact ⟨C, η, hη, fun h h0 h1 => hC h h0 h1 () trivial⟩

/-- **C35.** Local order along a single solution, for the adaptive solvers. -/
theorem C35_solution_trial (m : ASSolver ι) (hf : ContDiff ℝ ∞ f) {y : ℝ → Vec ι} (hδ : 0 < δ)
    (hy : ∀ s, |s| < δ → HasDerivAt y (m.op.mat *ᵥ y s + f (y s)) s) :
    ∃ C η : ℝ, 0 < η ∧ ∀ h, 0 < h → h < η → m.Resolved h →
      ∀ᶠ N in atTop, ∃ u' e, ((m.withPoints N).trial (total f) (y 0) h (m.withPoints N).new).1 = .ok (u', e) ∧
        ‖u' - y h‖ ≤ C * h ^ (m.orderOf + 1) := by
  obtain ⟨C, η, hη, hC⟩ := C35_trial m hf (Flows.single hδ hy)
  exact ⟨C, η, hη, fun h h0 h1 => hC h h0 h1 () trivial⟩

/-- The contour encloses the spectrum of `h L` for all small step sizes. -/
theorem LinOp.resolved_small (cfg : ETDConfig ℝ) (L : LinOp ι) (hm : 0 < cfg.modecutoff) (hr : cfg.modecutoff ≤ cfg.contour_radius) :
    ∃ η > 0, ∀ h : ℝ, |h| < η → L.Resolved cfg h := by
  have h0 : 0 < cfg.contour_radius := hm.trans_le hr
  cases L with
  | diag L => exact ⟨1, one_pos, fun _ _ => ⟨hm, hr⟩⟩
  | full L =>
    open scoped Matrix.Norms.Operator in
    refine ⟨cfg.contour_radius / (‖L‖ * ‖(1 : Mat ι)‖ + 1), by positivity, fun h hh => ⟨h0, fun μ hμ => ?_⟩⟩
    have h1 := spectrum.norm_le_norm_mul_of_mem hμ
    rw [lt_div_iff₀ (by positivity)] at hh
    refine h1.trans_lt (lt_of_le_of_lt ?_ hh)
    rw [norm_smul, Complex.norm_real, Real.norm_eq_abs, mul_assoc]
    exact mul_le_mul_of_nonneg_left (by linarith) (abs_nonneg h)

/-! ### ETD5 and ETD35 are not of order five -/

/-- The nonlinear function of the counterexample: `N(u) = (u₁, u₁)`. -/
def badN (u : Vec (Fin 2)) : Vec (Fin 2) := ![u 0, u 0]

/-- Its solution with `L = diag(0, 1)` from `(1, 0)`. -/
noncomputable def badY (t : ℝ) : Vec (Fin 2) := ![Complex.exp t, t * Complex.exp t]

noncomputable def badD : Vec (Fin 2) →L[ℝ] Vec (Fin 2) :=
  LinearMap.toContinuousLinearMap { toFun := badN, map_add' := by intro u v; ext i; fin_cases i <;> simp [badN],
                                    map_smul' := by intro c u; ext i; fin_cases i <;> simp [badN] }

theorem badD_apply (u : Vec (Fin 2)) : badD u = badN u := rfl

theorem badN_smooth : ContDiff ℝ ∞ badN := badD.contDiff

theorem badN_fderiv : fderiv ℝ badN = fun _ => badD := by
  funext u
  exact badD.fderiv

theorem badL_mulVec (w : Vec (Fin 2)) : (LinOp.diag ![0, 1]).mat *ᵥ w = ![0, w 1] := by
  ext i
  rw [LinOp.mat, Matrix.mulVec_diagonal]
  fin_cases i <;> simp

theorem badY_deriv (s : ℝ) : HasDerivAt badY ((LinOp.diag ![0, 1]).mat *ᵥ badY s + badN (badY s)) s := by
  rw [hasDerivAt_pi]
  have h1 : HasDerivAt (fun t : ℝ => Complex.exp t) (Complex.exp s) s := by
    simpa using (Complex.hasDerivAt_exp (s : ℂ)).comp_ofReal
  have h2 : HasDerivAt (fun t : ℝ => (t : ℂ)) 1 s := (hasDerivAt_id s).ofReal_comp
  intro i
  fin_cases i
  · simpa [badY, badN, badL_mulVec] using h1
  · have := h2.fun_mul h1
    simp only [one_mul] at this
    simp only [badY, badN, badL_mulVec]
    simpa [add_comm] using this

theorem bad_lead : etd5Lead (LinOp.diag ![0, 1]).mat badN (badY 0) = ![0, -1 / 11520] := by
  have h : fderiv ℝ (fun _ : Vec (Fin 2) => badD) (badY 0) = 0 := by simp
  simp only [etd5Lead, badN_fderiv, h, badD_apply, badL_mulVec]
  ext i
  fin_cases i
  · simp [badN, badY]
  · simp [badN, badY]
    norm_num

theorem bad_norm : ‖etd5Lead (LinOp.diag ![0, 1]).mat badN (badY 0)‖ = 1 / 11520 := by
  rw [bad_lead, Pi.norm_def]
  simp [Fin.univ_succ]

theorem bad_grows (C C' : ℝ) (η η' : ℝ) (hη : 0 < η) (hη' : 0 < η') : ∃ h, 0 < h ∧ h < η ∧ h < η' ∧ C * h ^ 6 + C' * h ^ 6 < h ^ 5 / 11520 := by
  have hp : 0 < 11520 * (|C| + |C'| + 1) := by positivity
  obtain ⟨h, h0, h1⟩ := exists_between (lt_min (lt_min hη hη') (inv_pos.2 hp))
  rw [lt_min_iff, lt_min_iff] at h1
  refine ⟨h, h0, h1.1.1, h1.1.2, ?_⟩
  have h2 := h1.2
  rw [lt_inv_comm₀ h0 hp, ← one_div, lt_div_iff₀ h0] at h2
  have h3 : (C + C') * h < 1 / 11520 := by nlinarith [le_abs_self C, le_abs_self C']
  nlinarith [pow_pos h0 5]

/-- **C35.** ETD5 is not of order five: for `L = diag(0, 1)` and `N(u) = (u₁, u₁)` no bound `C h^6` on the local error along the solution
`(e^t, t e^t)` holds, however many contour points are used. -/
theorem C35_etd5_not_five (cfg : ETDConfig ℝ) (hm : 0 < cfg.modecutoff) (hr : cfg.modecutoff ≤ cfg.contour_radius) (C η : ℝ) (hη : 0 < η) :
    ∃ h, 0 < h ∧ h < η ∧ ∀ᶠ N in atTop,
      ∃ u', (((CSSolver.etd5 cfg (.diag ![0, 1])).withPoints N).step (total badN) (badY 0) h
          ((CSSolver.etd5 cfg (.diag ![0, 1])).withPoints N).new).1 = .ok u' ∧ C * h ^ 6 < ‖u' - badY h‖ := by
  obtain ⟨C', η', hη', hC⟩ := C35_etd5_leading cfg (.diag ![0, 1]) badN_smooth (Flows.single one_pos fun s _ => badY_deriv s)
  obtain ⟨h, h0, h1, h2, h3⟩ := bad_grows C C' η η' hη hη'
  refine ⟨h, h0, h1, ?_⟩
  filter_upwards [hC h h0 h2 () trivial ⟨hm, hr⟩] with N ⟨u', hu, hl⟩
  refine ⟨u', hu, ?_⟩
  have h4 : ‖h ^ 5 • etd5Lead (LinOp.diag ![0, 1]).mat badN (badY 0)‖ = h ^ 5 / 11520 := by
    rw [norm_smul, bad_norm, Real.norm_eq_abs, abs_of_pos (pow_pos h0 5)]
    ring
  have h5 := norm_sub_norm_le (h ^ 5 • etd5Lead (LinOp.diag ![0, 1]).mat badN (badY 0)) (u' - badY h)
  rw [h4, norm_sub_rev (h ^ 5 • etd5Lead _ _ _), sub_sub] at h5
  linarith

/-- **C35.** Neither is ETD35. -/
theorem C35_etd35_not_five (cfg : ETDConfig ℝ) (hm : 0 < cfg.modecutoff) (hr : cfg.modecutoff ≤ cfg.contour_radius) (C η : ℝ) (hη : 0 < η) :
    ∃ h, 0 < h ∧ h < η ∧ ∀ᶠ N in atTop,
      ∃ u' e, (((ASSolver.etd35 cfg (.diag ![0, 1])).withPoints N).trial (total badN) (badY 0) h
          ((ASSolver.etd35 cfg (.diag ![0, 1])).withPoints N).new).1 = .ok (u', e) ∧ C * h ^ 6 < ‖u' - badY h‖ := by
  obtain ⟨C', η', hη', hC⟩ := C35_etd35_leading cfg (.diag ![0, 1]) badN_smooth (Flows.single one_pos fun s _ => badY_deriv s)
  obtain ⟨h, h0, h1, h2, h3⟩ := bad_grows C C' η η' hη hη'
  refine ⟨h, h0, h1, ?_⟩
  filter_upwards [hC h h0 h2 () trivial ⟨hm, hr⟩] with N ⟨u', e, hu, hl⟩
  refine ⟨u', e, hu, ?_⟩
  have h4 : ‖h ^ 5 • etd5Lead (LinOp.diag ![0, 1]).mat badN (badY 0)‖ = h ^ 5 / 11520 := by
    rw [norm_smul, bad_norm, Real.norm_eq_abs, abs_of_pos (pow_pos h0 5)]
    ring
  have h5 := norm_sub_norm_le (h ^ 5 • etd5Lead (LinOp.diag ![0, 1]).mat badN (badY 0)) (u' - badY h)
  rw [h4, norm_sub_rev (h ^ 5 • etd5Lead _ _ _), sub_sub] at h5
  change ‖u' - (badY h + h ^ 5 • etd5Lead (LinOp.diag ![0, 1]).mat badN (badY 0))‖ ≤ _ at hl
  linarith

/-! ### Examples -/

/-- The solution `(e^t, t e^t)` of the counterexample meets the hypotheses of `C35_step`, for IF4 and ETD4 with the same operator. -/
example (cfg : ETDConfig ℝ) : Flows (CSSolver.etd4 cfg (.diag ![0, 1])).op.mat badN (Set.univ : Set Unit) (fun _ => badY) (1 / 2)
    (badY '' Set.Icc (-(1 / 2)) (1 / 2)) :=
  Flows.single one_pos fun s _ => badY_deriv s

/-- … so one step of IF4 from `(1, 0)` is within `C h^5` of `(e^h, h e^h)`. -/
example : ∃ C η : ℝ, 0 < η ∧ ∀ h, 0 < h → h < η →
    ∃ u', ((CSSolver.if4 (.diag ![0, 1])).step (total badN) ![1, 0] h (CSSolver.if4 (.diag ![0, 1])).new).1 = .ok u' ∧
      ‖u' - ![Complex.exp h, h * Complex.exp h]‖ ≤ C * h ^ 5 := by
  obtain ⟨C, η, hη, hC⟩ := C35_if4 (.diag ![0, 1]) badN_smooth (Flows.single one_pos fun s _ => badY_deriv s)
  refine ⟨C, η, hη, fun h h0 h1 => ?_⟩
  have := hC h h0 h1 () trivial
  simpa [badY] using this

/-- … and one trial of IF45DP within `C h^6`. -/
example : ∃ C η : ℝ, 0 < η ∧ ∀ h, 0 < h → h < η →
    ∃ u' e, ((ASSolver.if45dp ![0, 1]).trial (total badN) ![1, 0] h (ASSolver.if45dp ![0, 1]).new).1 = .ok (u', e) ∧
      ‖u' - ![Complex.exp h, h * Complex.exp h]‖ ≤ C * h ^ 6 := by
  obtain ⟨C, η, hη, hC⟩ := C35_trial_if (.if45dp ![0, 1]) (fun h => h) badN_smooth (Flows.single one_pos fun s _ => badY_deriv s)
  refine ⟨C, η, hη, fun h h0 h1 => ?_⟩
  have := hC h h0 h1 () trivial
  simpa [badY, ASSolver.orderOf] using this

/-- The default configuration and a full matrix are resolved for all small step sizes. -/
example : ∃ η > 0, ∀ h : ℝ, |h| < η → (CSSolver.etd4 ⟨1 / 100, 32, 1⟩ (.full !![0, 1; -4, 0])).Resolved h :=
  LinOp.resolved_small ⟨1 / 100, 32, 1⟩ (.full !![0, 1; -4, 0]) (by norm_num) (by norm_num)

/-- C35 for ETD4 and ETD34: the linear operator and the solution of the example of `C35_etd5_not_five`. -/
example : (∃ C η : ℝ, 0 < η ∧ ∀ h, 0 < h → h < η → ∀ᶠ N in atTop,
      ∃ u', (((CSSolver.etd4 ⟨1 / 100, 32, 1⟩ (.diag ![0, 1])).withPoints N).step (total badN) (badY 0) h
        ((CSSolver.etd4 ⟨1 / 100, 32, 1⟩ (.diag ![0, 1])).withPoints N).new).1 = .ok u' ∧ ‖u' - badY h‖ ≤ C * h ^ 5) ∧
    ∃ C η : ℝ, 0 < η ∧ ∀ h, 0 < h → h < η → ∀ᶠ N in atTop,
      ∃ u' e, (((ASSolver.etd34 ⟨1 / 100, 32, 1⟩ (.diag ![0, 1])).withPoints N).trial (total badN) (badY 0) h
        ((ASSolver.etd34 ⟨1 / 100, 32, 1⟩ (.diag ![0, 1])).withPoints N).new).1 = .ok (u', e) ∧ ‖u' - badY h‖ ≤ C * h ^ 5 := by
  constructor
  · obtain ⟨η', hη', hres⟩ := LinOp.resolved_small ⟨1 / 100, 32, 1⟩ (.diag ![0, 1]) (by norm_num) (by norm_num)
    obtain ⟨C, η, hη, h1⟩ := C35_step (CSSolver.etd4 ⟨1 / 100, 32, 1⟩ (.diag ![0, 1])) badN_smooth
      (Flows.single one_pos fun s _ => badY_deriv s)
    refine ⟨C, min η η', lt_min hη hη', fun h h0 hh => h1 h h0 (hh.trans_le (min_le_left _ _)) () trivial (hres h ?_)⟩
    rw [abs_of_pos h0]; exact hh.trans_le (min_le_right _ _)
  · obtain ⟨η', hη', hres⟩ := LinOp.resolved_small ⟨1 / 100, 32, 1⟩ (.diag ![0, 1]) (by norm_num) (by norm_num)
    obtain ⟨C, η, hη, h1⟩ := C35_trial (ASSolver.etd34 ⟨1 / 100, 32, 1⟩ (.diag ![0, 1])) badN_smooth
      (Flows.single one_pos fun s _ => badY_deriv s)
    refine ⟨C, min η η', lt_min hη hη', fun h h0 hh => h1 h h0 (hh.trans_le (min_le_left _ _)) () trivial (hres h ?_)⟩
    rw [abs_of_pos h0]; exact hh.trans_le (min_le_right _ _)

/-- C35 for ETD5 and ETD35, with the leading term of the error. -/
example : (∃ C η : ℝ, 0 < η ∧ ∀ h, 0 < h → h < η → ∀ᶠ N in atTop,
      ∃ u', (((CSSolver.etd5 ⟨1 / 100, 32, 1⟩ (.diag ![0, 1])).withPoints N).step (total badN) (badY 0) h
        ((CSSolver.etd5 ⟨1 / 100, 32, 1⟩ (.diag ![0, 1])).withPoints N).new).1 = .ok u' ∧
          ‖u' - (badY h + h ^ 5 • etd5Lead (Matrix.diagonal ![0, 1]) badN (badY 0))‖ ≤ C * h ^ 6) ∧
    ∃ C η : ℝ, 0 < η ∧ ∀ h, 0 < h → h < η → ∀ᶠ N in atTop,
      ∃ u' e, (((ASSolver.etd35 ⟨1 / 100, 32, 1⟩ (.diag ![0, 1])).withPoints N).trial (total badN) (badY 0) h
        ((ASSolver.etd35 ⟨1 / 100, 32, 1⟩ (.diag ![0, 1])).withPoints N).new).1 = .ok (u', e) ∧
          ‖u' - (badY h + h ^ 5 • etd5Lead (Matrix.diagonal ![0, 1]) badN (badY 0))‖ ≤ C * h ^ 6 := by
  obtain ⟨η', hη', hres⟩ := LinOp.resolved_small ⟨1 / 100, 32, 1⟩ (.diag ![0, 1]) (by norm_num) (by norm_num)
  constructor
  · obtain ⟨C, η, hη, h1⟩ := C35_etd5_leading ⟨1 / 100, 32, 1⟩ (.diag ![0, 1]) badN_smooth
      (Flows.single one_pos fun s _ => badY_deriv s)
    refine ⟨C, min η η', lt_min hη hη', fun h h0 hh => h1 h h0 (hh.trans_le (min_le_left _ _)) () trivial (hres h ?_)⟩
    rw [abs_of_pos h0]; exact hh.trans_le (min_le_right _ _)
  · obtain ⟨C, η, hη, h1⟩ := C35_etd35_leading ⟨1 / 100, 32, 1⟩ (.diag ![0, 1]) badN_smooth
      (Flows.single one_pos fun s _ => badY_deriv s)
    refine ⟨C, min η η', lt_min hη hη', fun h h0 hh => h1 h h0 (hh.trans_le (min_le_left _ _)) () trivial (hres h ?_)⟩
    rw [abs_of_pos h0]; exact hh.trans_le (min_le_right _ _)

/-- The error estimates of IF34 and IF45DP for starting values in the unit ball. -/
example : (∃ C η : ℝ, 0 < η ∧ ∀ h, 0 < h → h < η → ∀ q ∈ Metric.closedBall (0 : Vec (Fin 2)) 1, ∀ᶠ N in atTop,
      ∃ u' e, (((ASSolver.if34 (.diag ![0, 1])).withPoints N).trial (total badN) q h ((ASSolver.if34 (.diag ![0, 1])).withPoints N).new).1 =
        .ok (u', e) ∧ ‖e‖ ≤ C * h ^ 4) ∧
    ∃ C η : ℝ, 0 < η ∧ ∀ h, 0 < h → h < η → ∀ q ∈ Metric.closedBall (0 : Vec (Fin 2)) 1,
      ∃ u' e, ((ASSolver.if45dp ![0, 1]).trial (total badN) q h (ASSolver.if45dp ![0, 1]).new).1 = .ok (u', e) ∧
        ‖e + (9 / 320 * h) • badN q‖ ≤ C * h ^ 2 := by
  constructor
  · obtain ⟨C, η, hη, h1⟩ := C35_estimate (ASSolver.if34 (.diag ![0, 1])) (by simp) badN_smooth
      (isCompact_closedBall (0 : Vec (Fin 2)) 1) (K := Metric.closedBall (0 : Vec (Fin 2)) 1) (u := id) fun q hq => hq
    exact ⟨C, η, hη, fun h h0 hh q hq => h1 h h0 hh q hq trivial⟩
  · exact C35_estimate_if45dp ![0, 1] badN_smooth
      (isCompact_closedBall (0 : Vec (Fin 2)) 1) (K := Metric.closedBall (0 : Vec (Fin 2)) 1) (u := id) fun q hq => hq

/-- One solution, ETD5 and IF45DP. -/
example : (∃ C η : ℝ, 0 < η ∧ ∀ h, 0 < h → h < η → ∀ᶠ N in atTop,
      ∃ u', (((CSSolver.etd5 ⟨1 / 100, 32, 1⟩ (.diag ![0, 1])).withPoints N).step (total badN) (badY 0) h
        ((CSSolver.etd5 ⟨1 / 100, 32, 1⟩ (.diag ![0, 1])).withPoints N).new).1 = .ok u' ∧ ‖u' - badY h‖ ≤ C * h ^ 5) ∧
    ∃ C η : ℝ, 0 < η ∧ ∀ h, 0 < h → h < η → ∀ᶠ N in atTop,
      ∃ u' e, (((ASSolver.if45dp ![0, 1]).withPoints N).trial (total badN) (badY 0) h ((ASSolver.if45dp ![0, 1]).withPoints N).new).1 =
        .ok (u', e) ∧ ‖u' - badY h‖ ≤ C * h ^ 6 := by
  constructor
  · obtain ⟨η', hη', hres⟩ := LinOp.resolved_small ⟨1 / 100, 32, 1⟩ (.diag ![0, 1]) (by norm_num) (by norm_num)
    obtain ⟨C, η, hη, h1⟩ := C35_solution (CSSolver.etd5 ⟨1 / 100, 32, 1⟩ (.diag ![0, 1])) badN_smooth one_pos fun s _ => badY_deriv s
    refine ⟨C, min η η', lt_min hη hη', fun h h0 hh => h1 h h0 (hh.trans_le (min_le_left _ _)) (hres h ?_)⟩
    rw [abs_of_pos h0]; exact hh.trans_le (min_le_right _ _)
  · obtain ⟨C, η, hη, h1⟩ := C35_solution_trial (ASSolver.if45dp ![0, 1]) badN_smooth one_pos fun s _ => badY_deriv s
    exact ⟨C, η, hη, fun h h0 hh => h1 h h0 hh trivial⟩

/-- No constant `C` makes the local error of ETD5 or ETD35 with the default settings at most `C h ^ 6`. -/
example : (∃ h : ℝ, 0 < h ∧ h < 1 ∧ ∀ᶠ N in atTop,
      ∃ u', (((CSSolver.etd5 ⟨1 / 100, 32, 1⟩ (.diag ![0, 1])).withPoints N).step (total badN) (badY 0) h
        ((CSSolver.etd5 ⟨1 / 100, 32, 1⟩ (.diag ![0, 1])).withPoints N).new).1 = .ok u' ∧ 1000 * h ^ 6 < ‖u' - badY h‖) ∧
    ∃ h : ℝ, 0 < h ∧ h < 1 ∧ ∀ᶠ N in atTop,
      ∃ u' e, (((ASSolver.etd35 ⟨1 / 100, 32, 1⟩ (.diag ![0, 1])).withPoints N).trial (total badN) (badY 0) h
        ((ASSolver.etd35 ⟨1 / 100, 32, 1⟩ (.diag ![0, 1])).withPoints N).new).1 = .ok (u', e) ∧ 1000 * h ^ 6 < ‖u' - badY h‖ :=
  ⟨C35_etd5_not_five ⟨1 / 100, 32, 1⟩ (by norm_num) (by norm_num) 1000 1 one_pos,
    C35_etd35_not_five ⟨1 / 100, 32, 1⟩ (by norm_num) (by norm_num) 1000 1 one_pos⟩

end Verif
