import Verif.Lemmas.Limit
import Verif.Props.Schemes
import Mathlib.LinearAlgebra.Eigenspace.Matrix

/-!
# The ETD solvers and exact φ functions (properties C22, C25, C26, C27)
-/

set_option linter.unusedSectionVars false

namespace Verif

open Matrix Filter Topology

variable {ι : Type} [Fintype ι] [DecidableEq ι]

/-! ### C22 -/

/-- **C22.** When no contour is used, a constant-step solver computes the named scheme with exact φ functions. -/
theorem C22_exact_step (m : CSSolver ι) (nl : NlFunc ι) (u : Vec ι) (h : ℝ) (hh : 0 ≤ h) (hm : m.NoContour h) :
    (m.step nl u h m.new).1 = ((m.exact h).step nl u).map Prod.fst := by
  rcases m with L | ⟨cfg, L | L⟩ | ⟨cfg, L | L⟩
  · rw [CSSolver.step_method _ _ _ _ hh (show (CSSolver.if4 L).CoefOk h from trivial)]; rfl
  · rw [C22_etd4 cfg (.diag L) nl u h hh trivial, krogstad_only _ _ fun k c hc =>
      C22_exact_diag cfg L h hm.1 hm.2 k c (by rintro rfl; norm_num at hc)]
    rfl
  · exact hm.elim
  · rw [C22_etd5 cfg (.diag L) nl u h hh trivial, etd5_only _ _ _ fun k c hc =>
      C22_exact_diag cfg L h hm.1 hm.2 k c (by rintro rfl; norm_num at hc)]
    rfl
  · exact hm.elim

theorem phi_eig (cfg : ETDConfig ℝ) (lam : Vec ι) (S Sinv : Mat ι) (hS : S * Sinv = 1) (h : ℝ) (hcut : 0 < cfg.modecutoff)
    (hL : ∀ i, cfg.modecutoff ≤ ‖(h : ℂ) * lam i‖) (k : ℕ) (c : ℝ) (hc : c ≠ 0) :
    (ASOp.eig lam S Sinv hS).phi cfg h k c = phiExact (S * Matrix.diagonal lam * Sinv) h k c := by
  have h1 := C22_exact_diag cfg lam h hcut hL k c hc
  show S * (LinOp.diag lam).phi cfg h k c * Sinv = _
  rw [h1]
  unfold phiExact
  rw [← phiMat_conj _ _ _ _ hS]
  simp

/-- **C22.** When no contour is used, an adaptive solver computes the named scheme with exact φ functions; the error
estimate is in the coordinates of the solver. -/
theorem C22_exact_trial (m : ASSolver ι) (nl : NlFunc ι) (u : Vec ι) (h : ℝ) (hm : m.NoContour h) :
    (m.trial nl u h m.new).1 = ((m.exact h).step nl u).map fun r => (r.1, m.op.prj r.2) := by
  rcases m with L | ⟨cfg, L | L | ⟨lam, S, Sinv, hS⟩⟩ | ⟨cfg, L | L | ⟨lam, S, Sinv, hS⟩⟩ | L
  · rw [ASSolver.trial_if34]; rfl
  · rw [C22_etd34 cfg (.diag L) nl u h trivial, krogstad_only (φ := (ASOp.diag L).phi cfg h) _ _ fun k c hc =>
      C22_exact_diag cfg L h hm.1 hm.2 k c (by rintro rfl; norm_num at hc)]
    rfl
  · exact hm.elim
  · rw [C22_etd34 cfg (.eig lam S Sinv hS) nl u h trivial, krogstad_only _ _ fun k c hc =>
      phi_eig cfg lam S Sinv hS h hm.1 hm.2 k c (by rintro rfl; norm_num at hc)]
    rfl
  · rw [C22_etd35 cfg (.diag L) nl u h trivial, etd5_only (φ := (ASOp.diag L).phi cfg h) _ _ _ fun k c hc =>
      C22_exact_diag cfg L h hm.1 hm.2 k c (by rintro rfl; norm_num at hc)]
    rfl
  · exact hm.elim
  · rw [C22_etd35 cfg (.eig lam S Sinv hS) nl u h trivial, etd5_only _ _ _ fun k c hc =>
      phi_eig cfg lam S Sinv hS h hm.1 hm.2 k c (by rintro rfl; norm_num at hc)]
    rfl
  · rw [ASSolver.trial_if45dp]; exact (Except.map_id' _).symm

/-- ETD5 and ETD34 with modes -1 and -3 and step size `1/2`, all above the cutoff `1/100`: no contour is used. -/
example (f : Vec (Fin 2) → Vec (Fin 2)) (u : Vec (Fin 2)) :
    (let m := CSSolver.etd5 ⟨1 / 100, 32, 1⟩ (.diag (![-1, -3] : Vec (Fin 2)))
     (m.step (total f) u (1 / 2) m.new).1 = ((m.exact (1 / 2)).step (total f) u).map Prod.fst) ∧
    (let m := ASSolver.etd34 ⟨1 / 100, 32, 1⟩ (.diag (![-1, -3] : Vec (Fin 2)))
     (m.trial (total f) u (1 / 2) m.new).1 = ((m.exact (1 / 2)).step (total f) u).map fun r => (r.1, r.2)) :=
  ⟨C22_exact_step _ _ u _ (by norm_num) ⟨by norm_num, fun i => by fin_cases i <;> norm_num⟩,
   C22_exact_trial _ _ u _ ⟨by norm_num, fun i => by fin_cases i <;> norm_num⟩⟩

/-- **C22.** In general the step of a constant-step solver converges, as the number of contour points grows, to that of
the named scheme with exact φ functions. -/
theorem C22_limit_step (m : CSSolver ι) (f : Vec ι → Vec ι) (hf : Continuous f) (u : Vec ι) (h : ℝ) (hh : 0 ≤ h)
    (hm : m.Resolved h) :
    Approaches (fun N => ((m.withPoints N).step (total f) u h (m.withPoints N).new).1) ((m.exact h).run f u).1 := by
  rcases m with L | ⟨cfg, L⟩ | ⟨cfg, L⟩
  · refine ⟨fun _ => ((lawson rk4 L.mat h).run f u).1, Eventually.of_forall fun N => ?_, tendsto_const_nhds⟩
    show ((CSSolver.if4 L).step (total f) u h (CSSolver.if4 L).new).1 = _
    rw [CSSolver.step_method _ _ _ _ hh (show (CSSolver.if4 L).CoefOk h from trivial)]
    show ((lawson rk4 L.mat h).step (total f) u).map _ = _
    rw [ERK.step_eq_run]; rfl
  · refine ⟨fun N => ((krogstad (L.phi (cfg.withPoints N) h) L.mat h).run f u).1, ?_, ?_⟩
    · filter_upwards [LinOp.coefOk_eventually hm [1 / 2, 1] (by norm_num)] with N hN
      show ((CSSolver.etd4 (cfg.withPoints N) L).step (total f) u h (CSSolver.etd4 (cfg.withPoints N) L).new).1 = _
      rw [C22_etd4 _ L _ u h hh hN, ERK.step_eq_run]; rfl
    · exact (continuous_fst.tendsto _).comp
        (ERK.run_tendsto (krogstad_tends L.mat h fun k c => LinOp.phi_tendsto hm k c) hf u)
  · refine ⟨fun N => ((etd5Method true (L.phi (cfg.withPoints N) h) L.mat h).run f u).1, ?_, ?_⟩
    · filter_upwards [LinOp.coefOk_eventually hm [1 / 4, 1 / 2, 3 / 4, 1] (by norm_num)] with N hN
      show ((CSSolver.etd5 (cfg.withPoints N) L).step (total f) u h (CSSolver.etd5 (cfg.withPoints N) L).new).1 = _
      rw [C22_etd5 _ L _ u h hh hN, ERK.step_eq_run]; rfl
    · exact (continuous_fst.tendsto _).comp
        (ERK.run_tendsto (etd5_tends true L.mat h fun k c => LinOp.phi_tendsto hm k c) hf u)

theorem ASOp.continuous_prj (L : ASOp ι) : Continuous L.prj := by
  rcases L with _ | _ | ⟨lam, S, Sinv, hS⟩
  · exact continuous_id
  · exact continuous_id
  · exact continuous_const.matrix_mulVec continuous_id

/-- **C22.** In general the trial of an adaptive solver converges, as the number of contour points grows, to that of the
named scheme with exact φ functions. -/
theorem C22_limit_trial (m : ASSolver ι) (f : Vec ι → Vec ι) (hf : Continuous f) (u : Vec ι) (h : ℝ)
    (hm : m.Resolved h) :
    Approaches (fun N => ((m.withPoints N).trial (total f) u h (m.withPoints N).new).1)
      (((m.exact h).run f u).1, m.op.prj ((m.exact h).run f u).2) := by
  have hp : Continuous fun r : Vec ι × Vec ι => (r.1, m.op.prj r.2) :=
    continuous_fst.prodMk (m.op.continuous_prj.comp continuous_snd)
  rcases m with L | ⟨cfg, L⟩ | ⟨cfg, L⟩ | L
  · refine ⟨fun _ => _, Eventually.of_forall fun N => ?_, tendsto_const_nhds⟩
    show ((ASSolver.if34 L).trial (total f) u h (ASSolver.if34 L).new).1 = _
    rw [ASSolver.trial_if34, ERK.step_eq_run]; rfl
  · refine ⟨fun N => (fun r : Vec ι × Vec ι => (r.1, L.prj r.2)) ((krogstad (L.phi (cfg.withPoints N) h) L.mat h).run f u),
      ?_, ?_⟩
    · filter_upwards [LinOp.coefOk_eventually hm [1 / 2, 1] (by norm_num)] with N hN
      show ((ASSolver.etd34 (cfg.withPoints N) L).trial (total f) u h (ASSolver.etd34 (cfg.withPoints N) L).new).1 = _
      rw [C22_etd34 _ L _ u h hN, ERK.step_eq_run]; rfl
    · exact (hp.tendsto _).comp
        (ERK.run_tendsto (krogstad_tends L.mat h fun k c => ASOp.phi_tendsto hm k c) hf u)
  · refine ⟨fun N => (fun r : Vec ι × Vec ι => (r.1, L.prj r.2))
      ((etd5Method false (L.phi (cfg.withPoints N) h) L.mat h).run f u), ?_, ?_⟩
    · filter_upwards [LinOp.coefOk_eventually hm [1 / 4, 1 / 2, 3 / 4, 1] (by norm_num)] with N hN
      show ((ASSolver.etd35 (cfg.withPoints N) L).trial (total f) u h (ASSolver.etd35 (cfg.withPoints N) L).new).1 = _
      rw [C22_etd35 _ L _ u h hN, ERK.step_eq_run]; rfl
    · exact (hp.tendsto _).comp
        (ERK.run_tendsto (etd5_tends false L.mat h fun k c => ASOp.phi_tendsto hm k c) hf u)
  · refine ⟨fun _ => _, Eventually.of_forall fun N => ?_, tendsto_const_nhds⟩
    show ((ASSolver.if45dp L).trial (total f) u h (ASSolver.if45dp L).new).1 = _
    rw [ASSolver.trial_if45dp, ERK.step_eq_run]; rfl

/-- The default configuration resolves every diagonal operator, e.g. this one with the eigenvalue zero. -/
example : (CSSolver.etd4 ⟨1 / 100, 32, 1⟩ (.diag (![0, -1] : Vec (Fin 2)))).Resolved (1 / 10) :=
  ⟨by norm_num, by norm_num⟩

/-- A full matrix whose eigenvalues are inside the contour. -/
example : (CSSolver.etd5 ⟨1 / 100, 32, 1⟩ (.full (Matrix.diagonal (![0, -1] : Vec (Fin 2))))).Resolved (1 / 10) := by
  refine ⟨by norm_num, fun μ hμ => ?_⟩
  rw [← Matrix.diagonal_smul, spectrum_diagonal] at hμ
  obtain ⟨i, rfl⟩ := hμ
  fin_cases i <;> norm_num

/-! ### C26, C27 for the ETD solvers -/

/-- **C26.** ETD4 and ETD5 on a diagonal matrix and on its diagonal approach the same step. -/
theorem C26_etd (m m' : CSSolver ι) (hmm : (∃ cfg cfg' d, m = .etd4 cfg (.full (Matrix.diagonal d)) ∧ m' = .etd4 cfg' (.diag d)) ∨
      (∃ cfg cfg' d, m = .etd5 cfg (.full (Matrix.diagonal d)) ∧ m' = .etd5 cfg' (.diag d)))
    (f : Vec ι → Vec ι) (hf : Continuous f) (u : Vec ι) (h : ℝ) (hh : 0 ≤ h) (hm : m.Resolved h) (hm' : m'.Resolved h) :
    ∃ v, Approaches (fun N => ((m.withPoints N).step (total f) u h (m.withPoints N).new).1) v ∧
      Approaches (fun N => ((m'.withPoints N).step (total f) u h (m'.withPoints N).new).1) v := by
  refine ⟨_, C22_limit_step m f hf u h hh hm, ?_⟩
  have := C22_limit_step m' f hf u h hh hm'
  rcases hmm with ⟨cfg, cfg', d, rfl, rfl⟩ | ⟨cfg, cfg', d, rfl, rfl⟩ <;> exact this

/-- **C26.** ETD34 and ETD35 on a diagonal matrix and on its diagonal approach the same solution and error estimate. -/
theorem C26_etd_trial (m m' : ASSolver ι)
    (hmm : (∃ cfg cfg' d, m = .etd34 cfg (.full (Matrix.diagonal d)) ∧ m' = .etd34 cfg' (.diag d)) ∨
      (∃ cfg cfg' d, m = .etd35 cfg (.full (Matrix.diagonal d)) ∧ m' = .etd35 cfg' (.diag d)))
    (f : Vec ι → Vec ι) (hf : Continuous f) (u : Vec ι) (h : ℝ) (hm : m.Resolved h) (hm' : m'.Resolved h) :
    ∃ r, Approaches (fun N => ((m.withPoints N).trial (total f) u h (m.withPoints N).new).1) r ∧
      Approaches (fun N => ((m'.withPoints N).trial (total f) u h (m'.withPoints N).new).1) r := by
  refine ⟨_, C22_limit_trial m f hf u h hm, ?_⟩
  have := C22_limit_trial m' f hf u h hm'
  rcases hmm with ⟨cfg, cfg', d, rfl, rfl⟩ | ⟨cfg, cfg', d, rfl, rfl⟩ <;> exact this

/-- Modes 0 and -1, step size `1/10`, default settings. -/
example (u : Vec (Fin 2)) :
    (let m := CSSolver.etd4 ⟨1 / 100, 32, 1⟩ (.diag (![0, -1] : Vec (Fin 2)))
     Approaches (fun N => ((m.withPoints N).step (total fun v => v * v) u (1 / 10) (m.withPoints N).new).1)
      ((m.exact (1 / 10)).run (fun v => v * v) u).1) ∧
    (let m := ASSolver.etd35 ⟨1 / 100, 32, 1⟩ (.diag (![0, -1] : Vec (Fin 2)))
     Approaches (fun N => ((m.withPoints N).trial (total fun v => v * v) u (1 / 10) (m.withPoints N).new).1)
      (((m.exact (1 / 10)).run (fun v => v * v) u).1, ((m.exact (1 / 10)).run (fun v => v * v) u).2)) :=
  ⟨C22_limit_step _ _ (continuous_id.mul continuous_id) u _ (by norm_num) ⟨by norm_num, by norm_num⟩,
   C22_limit_trial _ _ (continuous_id.mul continuous_id) u _ ⟨by norm_num, by norm_num⟩⟩

theorem resolved_full : LinOp.Resolved ⟨1 / 100, 32, 1⟩ (1 / 10) (.full (Matrix.diagonal (![0, -1] : Vec (Fin 2)))) := by
  refine ⟨by norm_num, fun μ hμ => ?_⟩
  rw [← Matrix.diagonal_smul, spectrum_diagonal] at hμ
  obtain ⟨i, rfl⟩ := hμ
  fin_cases i <;> norm_num

/-- The same operator as a vector and as a diagonal matrix. -/
example (u : Vec (Fin 2)) :
    (let m := CSSolver.etd5 ⟨1 / 100, 32, 1⟩ (.full (Matrix.diagonal (![0, -1] : Vec (Fin 2))))
     let m' := CSSolver.etd5 ⟨1 / 100, 32, 1⟩ (.diag (![0, -1] : Vec (Fin 2)))
     ∃ v, Approaches (fun N => ((m.withPoints N).step (total fun v => v * v) u (1 / 10) (m.withPoints N).new).1) v ∧
      Approaches (fun N => ((m'.withPoints N).step (total fun v => v * v) u (1 / 10) (m'.withPoints N).new).1) v) ∧
    (let m := ASSolver.etd34 ⟨1 / 100, 32, 1⟩ (.full (Matrix.diagonal (![0, -1] : Vec (Fin 2))))
     let m' := ASSolver.etd34 ⟨1 / 100, 32, 1⟩ (.diag (![0, -1] : Vec (Fin 2)))
     ∃ r, Approaches (fun N => ((m.withPoints N).trial (total fun v => v * v) u (1 / 10) (m.withPoints N).new).1) r ∧
      Approaches (fun N => ((m'.withPoints N).trial (total fun v => v * v) u (1 / 10) (m'.withPoints N).new).1) r) :=
  ⟨C26_etd _ _ (Or.inr ⟨_, _, _, rfl, rfl⟩) _ (continuous_id.mul continuous_id) u _ (by norm_num) resolved_full
    ⟨by norm_num, by norm_num⟩,
   C26_etd_trial _ _ (Or.inl ⟨_, _, _, rfl, rfl⟩) _ (continuous_id.mul continuous_id) u _ resolved_full
    ⟨by norm_num, by norm_num⟩⟩

/-- **C27.** The diagonalized ETD34 and ETD35 approach the full-matrix solution, and `S⁻¹` times the full-matrix error
estimate. -/
theorem C27_etd (m m' : ASSolver ι) (Sinv : Mat ι)
    (hmm : (∃ cfg cfg' lam S hS, m = .etd34 cfg (.full (S * Matrix.diagonal lam * Sinv)) ∧ m' = .etd34 cfg' (.eig lam S Sinv hS)) ∨
      (∃ cfg cfg' lam S hS, m = .etd35 cfg (.full (S * Matrix.diagonal lam * Sinv)) ∧ m' = .etd35 cfg' (.eig lam S Sinv hS)))
    (f : Vec ι → Vec ι) (hf : Continuous f) (u : Vec ι) (h : ℝ) (hm : m.Resolved h) (hm' : m'.Resolved h) :
    ∃ v e, Approaches (fun N => ((m.withPoints N).trial (total f) u h (m.withPoints N).new).1) (v, e) ∧
      Approaches (fun N => ((m'.withPoints N).trial (total f) u h (m'.withPoints N).new).1) (v, Sinv *ᵥ e) := by
  refine ⟨((m.exact h).run f u).1, ((m.exact h).run f u).2, ?_, ?_⟩
  · have := C22_limit_trial m f hf u h hm
    rcases hmm with ⟨cfg, cfg', lam, S, hS, rfl, rfl⟩ | ⟨cfg, cfg', lam, S, hS, rfl, rfl⟩ <;> exact this
  · have := C22_limit_trial m' f hf u h hm'
    rcases hmm with ⟨cfg, cfg', lam, S, hS, rfl, rfl⟩ | ⟨cfg, cfg', lam, S, hS, rfl, rfl⟩ <;> exact this

/-- Eigenvalues 0 and -1, the eigenvectors being the unit vectors in the opposite order. -/
example (u : Vec (Fin 2)) (hS : (!![0, 1; 1, 0] : Mat (Fin 2)) * !![0, 1; 1, 0] = 1) :
    let m := ASSolver.etd34 ⟨1 / 100, 32, 1⟩ (.full (!![0, 1; 1, 0] * Matrix.diagonal ![-1, 0] * (!![0, 1; 1, 0] : Mat (Fin 2))))
    let m' := ASSolver.etd34 ⟨1 / 100, 32, 1⟩ (.eig ![-1, 0] !![0, 1; 1, 0] (!![0, 1; 1, 0] : Mat (Fin 2)) hS)
    ∃ v e, Approaches (fun N => ((m.withPoints N).trial (total fun v => v * v) u (1 / 10) (m.withPoints N).new).1) (v, e) ∧
      Approaches (fun N => ((m'.withPoints N).trial (total fun v => v * v) u (1 / 10) (m'.withPoints N).new).1)
        (v, (!![0, 1; 1, 0] : Mat (Fin 2)) *ᵥ e) := by
  refine C27_etd _ _ _ (Or.inl ⟨_, _, _, _, hS, rfl, rfl⟩) _ (continuous_id.mul continuous_id) u _ ?_ ⟨by norm_num, by norm_num⟩
  have h : !![0, 1; 1, 0] * Matrix.diagonal ![-1, 0] * (!![0, 1; 1, 0] : Mat (Fin 2)) = Matrix.diagonal ![0, -1] := by
    ext i j; fin_cases i <;> fin_cases j <;> simp [Matrix.mul_apply, Matrix.diagonal, Matrix.vecHead, Matrix.vecTail]
  show LinOp.Resolved _ _ (.full _)
  rw [h]
  exact resolved_full

/-! A concrete operator for which the full-matrix IF34 accepts a step that the diagonalized one rejects: the eigenvalues are
`0` and `2πi`, the eigenvectors `(1, 0)` and `(4/5, 3/5)`, both of length one. -/

/-- Eigenvalues of the example. -/
noncomputable def exLam : Vec (Fin 2) := ![0, 2 * Real.pi * Complex.I]
/-- Normalized eigenvectors of the example. -/
noncomputable def exS : Mat (Fin 2) := !![1, 4 / 5; 0, 3 / 5]
/-- Inverse of the eigenvector matrix. -/
noncomputable def exSinv : Mat (Fin 2) := !![1, -(4 / 3); 0, 5 / 3]

theorem exS_mul : exS * exSinv = 1 := by
  ext i j
  fin_cases i <;> fin_cases j <;> simp [exS, exSinv, Matrix.mul_apply] <;> norm_num

/-- Settings of the example: tolerance `1/390`, no step below one. -/
noncomputable def exCfg : SolverConfig ℝ := ⟨1 / 390, 5 / 4, 17 / 20, 1, 1 / 100, 1⟩

theorem ex_expm : expm (exS * Matrix.diagonal exLam * exSinv) 1 = 1 := by
  rw [expm_conj _ _ _ exS_mul, expm_diagonal]
  have : (fun i => Complex.exp (((1 : ℝ) : ℂ) * exLam i)) = fun _ => 1 := by
    funext i
    fin_cases i
    · simp [exLam]
    · simp [exLam, Complex.exp_two_pi_mul_I]
  rw [this, Matrix.diagonal_one, mul_one, exS_mul]

theorem ex_trial (L : ASOp (Fin 2)) (hL : L.mat = exS * Matrix.diagonal exLam * exSinv) (u : Vec (Fin 2)) :
    (ASSolver.if34 L).oneTrial (fun x => .ok x) 1 u = .ok ((65 / 24 : ℂ) • u, L.prj ((1 / 144 : ℂ) • u)) := by
  have hi : interaction L.mat (fun x => x) = fun _ v => v := by
    funext t v
    unfold interaction
    have := expm_mulVec_add L.mat (-t) t v
    rw [neg_add_cancel, expm_zero, one_mulVec] at this
    exact this
  have h := C21_if34 L (fun x => x) u 1 ((65 / 24 : ℂ) • u) ((1 / 144 : ℂ) • u) (by
    rw [hi, C21_rk4_textbook]
    refine ⟨_, _, _, _, rfl, rfl, rfl, rfl, ?_, ?_⟩
    · push_cast; module
    · push_cast; module)
  rw [ASSolver.trial_new, hL, ex_expm, one_mulVec, one_mulVec] at h
  exact h

theorem ex_norm (w : Vec (Fin 2)) : selNorm (1 / 100) ((65 / 24 : ℂ) • (1 : Vec (Fin 2))) w =
    Real.sqrt (‖w 0‖ ^ 2 + ‖w 1‖ ^ 2) := by
  classical
  have hn : ‖(65 / 24 : ℂ)‖ = 65 / 24 := by norm_num
  have hm : maxAbs ((65 / 24 : ℂ) • (1 : Vec (Fin 2))) = 65 / 24 := by
    unfold maxAbs
    simp
  unfold selNorm
  rw [Finset.filter_true_of_mem]
  · simp [Fin.sum_univ_two]
  · intro i _
    rw [hm]
    simp
    norm_num

theorem ex_factor (m : ASSolver (Fin 2)) (hm : ∀ v e, m.factor (fun x => .ok x) exCfg (v, e) = computeS 4 exCfg v e)
    (e : Vec (Fin 2)) (he : 0 < ‖e 0‖ ^ 2 + ‖e 1‖ ^ 2) :
    m.factor (fun x => .ok x) exCfg ((65 / 24 : ℂ) • 1, e) =
      .fin ((1 / 390 * Real.sqrt ((65 / 24) ^ 2 + (65 / 24) ^ 2) / Real.sqrt (‖e 0‖ ^ 2 + ‖e 1‖ ^ 2)) ^ ((1 : ℝ) / 4)) := by
  have h1 : Real.sqrt (‖e 0‖ ^ 2 + ‖e 1‖ ^ 2) ≠ 0 := (Real.sqrt_pos.mpr he).ne'
  have hn : ‖(65 / 24 : ℂ)‖ = 65 / 24 := by norm_num
  have hs : selNorm exCfg.adapt_cutoff ((65 / 24 : ℂ) • (1 : Vec (Fin 2))) ((65 / 24 : ℂ) • (1 : Vec (Fin 2))) =
      Real.sqrt ((65 / 24) ^ 2 + (65 / 24) ^ 2) := by
    show selNorm (1 / 100) _ _ = _
    rw [ex_norm]; simp
  have h2 : ¬ (exCfg.epsilon * Real.sqrt ((65 / 24) ^ 2 + (65 / 24) ^ 2) / Real.sqrt (‖e 0‖ ^ 2 + ‖e 1‖ ^ 2) < 0) :=
    not_lt.mpr (by simp only [exCfg]; positivity)
  rw [hm, computeS_eq, hs, show selNorm exCfg.adapt_cutoff ((65 / 24 : ℂ) • (1 : Vec (Fin 2))) e = _ from ex_norm e]
  simp only [npDiv, h1, if_false, npPower, h2, npScale]
  norm_num [exCfg]

/-- **C27.** Hence the strategies may decide differently: here the full-matrix solver accepts the step and the diagonalized
solver, for the same operator and settings, fails. -/
theorem C27_decision :
    ((ASSolver.if34 (.full (exS * Matrix.diagonal exLam * exSinv))).step (fun x => .ok x) id exCfg 1 1
      (ASSolver.if34 (.full (exS * Matrix.diagonal exLam * exSinv))).new).1 = .ok ((65 / 24 : ℂ) • 1, 1, 1) ∧
    ((ASSolver.if34 (.eig exLam exS exSinv exS_mul)).step (fun x => .ok x) id exCfg 1 1
      (ASSolver.if34 (.eig exLam exS exSinv exS_mul)).new).1 = .error .minimumStepReached := by
  have hn : ‖(1 / 144 : ℂ)‖ = 1 / 144 := by norm_num
  constructor
  · rw [← ASSolver.stepSpec_iff _ _ _ _ _ _ (by norm_num)]
    have ht := ex_trial (.full (exS * Matrix.diagonal exLam * exSinv)) rfl 1
    have hf := ex_factor (.if34 (.full (exS * Matrix.diagonal exLam * exSinv))) (fun _ _ => rfl) ((1 / 144 : ℂ) • 1)
      (by simp)
    have hx : (1 / 390 * Real.sqrt ((65 / 24) ^ 2 + (65 / 24) ^ 2) /
        Real.sqrt (‖((1 / 144 : ℂ) • (1 : Vec (Fin 2))) 0‖ ^ 2 + ‖((1 / 144 : ℂ) • (1 : Vec (Fin 2))) 1‖ ^ 2)) ^ ((1 : ℝ) / 4) = 1 := by
      have e0 : ∀ i, ‖((1 / 144 : ℂ) • (1 : Vec (Fin 2))) i‖ = 1 / 144 := fun i => by simp
      rw [e0, e0, show ((65 / 24 : ℝ) ^ 2 + (65 / 24) ^ 2) = 390 ^ 2 * ((1 / 144) ^ 2 + (1 / 144) ^ 2) by norm_num,
        Real.sqrt_mul (by norm_num), Real.sqrt_sq (by norm_num)]
      have : Real.sqrt ((1 / 144) ^ 2 + (1 / 144) ^ 2) ≠ 0 := (Real.sqrt_pos.mpr (by norm_num)).ne'
      rw [show (1 / 390 : ℝ) * (390 * Real.sqrt ((1 / 144) ^ 2 + (1 / 144) ^ 2)) / Real.sqrt ((1 / 144) ^ 2 + (1 / 144) ^ 2) = 1 by
        field_simp, Real.one_rpow]
    rw [hx] at hf
    have := StepSpec.accept (S := (ASSolver.if34 (.full (exS * Matrix.diagonal exLam * exSinv))).factor (fun x => .ok x) exCfg)
      (cfg := exCfg) (rnd := id) (j := 0) (by norm_num) (.zero 1) ht hf le_rfl
    have hg : grow exCfg.incr_f 1 1 = 1 := by norm_num [grow, exCfg]
    simp only [id, hg] at this
    exact this
  · rw [← ASSolver.stepSpec_iff _ _ _ _ _ _ (by norm_num)]
    have ht := ex_trial (.eig exLam exS exSinv exS_mul) rfl 1
    set e : Vec (Fin 2) := (ASOp.eig exLam exS exSinv exS_mul).prj ((1 / 144 : ℂ) • 1) with he
    have he0 : ‖e 0‖ = 1 / 432 := by
      have : e 0 = -(1 / 432 : ℂ) := by
        simp [he, ASOp.prj, exSinv, dotProduct, Fin.sum_univ_two]; norm_num
      rw [this, norm_neg]; norm_num
    have he1 : ‖e 1‖ = 5 / 432 := by
      have : e 1 = (5 / 432 : ℂ) := by
        simp [he, ASOp.prj, exSinv, dotProduct, Fin.sum_univ_two]; norm_num
      rw [this]; norm_num
    have hf := ex_factor (.if34 (.eig exLam exS exSinv exS_mul)) (fun _ _ => rfl) e (by rw [he0]; positivity)
    rw [he0, he1] at hf
    set x : ℝ := (1 / 390 * Real.sqrt ((65 / 24) ^ 2 + (65 / 24) ^ 2) / Real.sqrt ((1 / 432) ^ 2 + (5 / 432) ^ 2)) ^ ((1 : ℝ) / 4)
      with hx
    have hx1 : x < 1 := by
      refine Real.rpow_lt_one (by positivity) ?_ (by norm_num)
      rw [div_lt_one (Real.sqrt_pos.mpr (by norm_num)), show (1 / 390 : ℝ) * Real.sqrt ((65 / 24) ^ 2 + (65 / 24) ^ 2) =
        Real.sqrt ((1 / 390) ^ 2 * ((65 / 24) ^ 2 + (65 / 24) ^ 2)) by
          rw [Real.sqrt_mul (by norm_num), Real.sqrt_sq (by norm_num)]]
      exact Real.sqrt_lt_sqrt (by norm_num) (by norm_num)
    refine StepSpec.minStep (j := 0) (by norm_num) (.zero 1) ht ?_ ?_
    · rintro ⟨y, hy, hy1⟩
      rw [hf] at hy
      injection hy with hy
      linarith
    · rw [hf]
      show min (max x (1 / 4)) exCfg.decr_f * 1 < 1
      rw [mul_one]
      exact (min_le_right _ _).trans_lt (by norm_num [exCfg])

end Verif
