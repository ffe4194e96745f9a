import Verif.Props.History

/-!
# Concrete cases for the call-history properties (C14–C18, C20)

`demo` is IF34 and `demoCS` is IF4, both with linear operator zero on one mode; `nl_func` is the identity.
-/

set_option linter.unusedSectionVars false

namespace Verif

open Matrix

/-- IF4 with linear operator zero. -/
noncomputable def demoCS : CSSolver (Fin 1) := .if4 (.diag 0)

/-- A step of size one in which the first stage value is `n`. -/
theorem rk4_stepFrom (n u : Vec (Fin 1)) : (lawson rk4 (Matrix.diagonal (0 : Vec (Fin 1))) 1).stepFrom (fun x => .ok x) n u =
    .ok ((9 / 4 : ℂ) • u + (11 / 24 : ℂ) • n, (1 / 24 : ℂ) • u - (5 / 144 : ℂ) • n) := by
  simp only [lawson, expm_zeroMat, rk4, ERK.stepFrom,
    ERK.stagesFrom, ERK.arg, ERK.out, ERK.err, Finset.sum_range_succ, Finset.sum_range_zero, smul_mulVec, one_mulVec,
    Function.update]
  simp
  constructor
  · module
  · module

theorem demoCS_E0 : (demoCS.method 1).E 0 = 1 := by
  show expm (Matrix.diagonal 0) _ = 1
  exact expm_zeroMat _

theorem demoCS_step : (demoCS.step (fun x => .ok x) 1 1 demoCS.new).1 = .ok ((65 / 24 : ℂ) • 1) := by
  rw [demoCS.step_new _ _ _ (by norm_num)]
  have hc : demoCS.CoefOk 1 := trivial
  unfold CSSolver.oneStep
  rw [if_pos hc, ERK.step_eq_stepFrom (demoCS.method 1) (fun x => .ok x) 1 1 demoCS_E0 rfl]
  have := rk4_stepFrom 1 1
  change Except.map Prod.fst ((lawson rk4 (Matrix.diagonal 0) 1).stepFrom (fun x => .ok x) 1 1) = _
  rw [this]
  simp only [Except.map, ← add_smul]
  norm_num

/-- C14: `evolve` after a step on another array. -/
example : (demoCS.evolve (fun x => .ok x) id true 10 2 0 3 1 true 1 (demoCS.step (fun x => .ok x) 1 1 demoCS.new).2).2.u =
    (demoCS.evolve (fun x => .ok x) id true 10 2 0 3 1 true 1 demoCS.new).2.u :=
  (C14_evolve_fresh_cs demoCS _ id true 10 2 0 3 1 true 1 _).2.2

/-- C15: the second of two chained steps, with another step size. -/
example : (demoCS.step (fun x => .ok x) ((65 / 24 : ℂ) • 1) 2 (demoCS.step (fun x => .ok x) 1 1 demoCS.new).2).1 =
    (demoCS.step (fun x => .ok x) ((65 / 24 : ℂ) • 1) 2 demoCS.new).1 :=
  C15_step_fresh_cs demoCS _ _ _ ((CSSolver.Follows.new 1).step (h := 1) (Prod.ext demoCS_step rfl)) 2

example : (demo.step (fun x => .ok x) id demoCfg ((65 / 24 : ℂ) • 1) 4 (demo.step (fun x => .ok x) id demoCfg 1 1 demo.new).2).1 =
    (demo.step (fun x => .ok x) id demoCfg ((65 / 24 : ℂ) • 1) 4 demo.new).1 :=
  C15_step_fresh_as demo _ _ _ ((ASSolver.Follows.new 1).step (h := 1) (rnd := id) (cfg := demoCfg) (Prod.ext demo_step rfl))
    id demoCfg 4

/-- C16: after a step from 1, a step from 0 does not give 0 as a new solver does. -/
example : (demoCS.step (fun x => .ok x) 0 1 (demoCS.step (fun x => .ok x) 1 1 demoCS.new).2).1 =
      .ok ((11 / 24 * (65 / 24) : ℂ) • 1) ∧
    (demoCS.step (fun x => .ok x) 0 1 demoCS.new).1 = .ok 0 := by
  constructor
  · obtain ⟨n, h1, h2⟩ := C16_stale_cs demoCS (fun x => .ok x) 1 _ demoCS.new _ (.new 1) 1 (Prod.ext demoCS_step rfl)
    obtain rfl : (65 / 24 : ℂ) • 1 = n := by simpa using h1
    rw [h2 0 1 (by norm_num) trivial]
    have := rk4_stepFrom ((65 / 24 : ℂ) • 1) 0
    change Except.map Prod.fst ((lawson rk4 (Matrix.diagonal 0) 1).stepFrom (fun x => .ok x) _ _) = _
    rw [this]
    simp [Except.map, smul_smul]
  · rw [demoCS.step_new _ _ _ (by norm_num)]
    have hc : demoCS.CoefOk 1 := trivial
    unfold CSSolver.oneStep
    rw [if_pos hc, ERK.step_eq_stepFrom (demoCS.method 1) (fun x => .ok x) 0 0 demoCS_E0 rfl]
    have := rk4_stepFrom 0 0
    change Except.map Prod.fst ((lawson rk4 (Matrix.diagonal 0) 1).stepFrom (fun x => .ok x) 0 0) = _
    rw [this]
    simp [Except.map]

/-- C16 for an adaptive solver: the hypotheses are met by the concrete run. -/
example : ∀ (u' : Vec (Fin 1)) (h' : ℝ), 0 ≤ h' →
    StepSpec (demo.trialFrom (fun x => .ok x) ((65 / 24 : ℂ) • 1)) (demo.factor (fun x => .ok x) demoCfg) demoCfg id u' h'
      (demo.step (fun x => .ok x) id demoCfg u' h' (demo.step (fun x => .ok x) id demoCfg 1 1 demo.new).2).1 := by
  obtain ⟨n, h1, h2⟩ := C16_stale_as demo (by simp [demo]) (fun x => .ok x) id demoCfg 1 _ demo.new _ (.new 1) 1 _ _
    (Prod.ext demo_step rfl)
  obtain rfl : (65 / 24 : ℂ) • 1 = n := by simpa using h1
  exact h2 id demoCfg

/-- A step from zero gives up. -/
theorem demo_gives_up : ∃ e, (e = .minimumStepReached ∨ e = .maxLoopsExceeded) ∧
    (demo.step (fun x => .ok x) id demoCfg 0 1 demo.new).1 = .error e := by
  have h := demo.step_new_spec (fun x => .ok x) id demoCfg 0 1 (by norm_num)
  have hz : ∀ k, demo.oneTrial (fun x => .ok x) k 0 = .ok (0, 0) := by intro k; rw [demo_trial]; simp
  generalize hR : (demo.step (fun x => .ok x) id demoCfg 0 1 demo.new).1 = R at h ⊢
  cases h with
  | accept hj hr hok hx h1 =>
    rw [hz] at hok
    obtain rfl := Except.ok.inj hok
    exact absurd ⟨_, hx, h1⟩ (C10_zero_solution_rejected demo _ demoCfg 0)
  | minStep => exact ⟨_, .inl rfl, rfl⟩
  | maxLoops => exact ⟨_, .inr rfl, rfl⟩
  | raised hj hr hok => rw [hz] at hok; simp at hok

/-- C17: after a step from 0 that gave up, the step from 1 gives `9/4` where a new solver gives `65/24`. -/
example : ((demo.step (fun x => .ok x) id demoCfg 1 1 (demo.step (fun x => .ok x) id demoCfg 0 1 demo.new).2).1.map Prod.fst) =
      .ok ((9 / 4 : ℂ) • 1) ∧
    ((demo.step (fun x => .ok x) id demoCfg 1 1 demo.new).1.map Prod.fst) = .ok ((65 / 24 : ℂ) • 1) := by
  constructor
  swap
  · rw [demo_step]; rfl
  obtain ⟨e, he, hst⟩ := demo_gives_up
  obtain ⟨n, h1, h2⟩ := C17_stale demo (by simp [demo, ASSolver.op]) (fun x => .ok x) id demoCfg 0 demo.new _ (.new 0) 1 e he
    (by simp) (Prod.ext hst rfl)
  obtain rfl : 0 = n := by simpa using h1
  have h3 := h2 id demoCfg 1 1 (by norm_num)
  have ht : demo.trialFrom (fun x => .ok x) 0 1 1 = .ok ((9 / 4 : ℂ) • 1, (1 / 24 : ℂ) • 1) := by
    have hc : demo.CoefOk 1 := trivial
    unfold ASSolver.trialFrom
    rw [if_pos hc]
    have := rk4_stepFrom 0 1
    change Except.map _ ((lawson rk4 (Matrix.diagonal 0) 1).stepFrom (fun x => .ok x) 0 1) = _
    rw [this]
    simp [Except.map, demo, ASSolver.op, ASOp.emb]
  have hf : demo.factor (fun x => .ok x) demoCfg ((9 / 4 : ℂ) • 1, (1 / 24 : ℂ) • 1) =
      .fin ((54 : ℝ) ^ ((1 : ℝ) / 4)) := by
    have := factor_one 4 demoCfg (by norm_num [demoCfg]) (by norm_num [demoCfg]) ((9 / 4 : ℂ) • 1)
      ((1 / 24 : ℂ) • 1) (by norm_num) (by norm_num)
    change computeS 4 demoCfg _ _ = _
    rw [this]
    norm_num [demoCfg]
  have := StepSpec.accept (Φ := demo.trialFrom (fun x => .ok x) 0) (S := demo.factor (fun x => .ok x) demoCfg) (cfg := demoCfg)
    (rnd := id) (u := 1) (h := 1) (j := 0) (by norm_num) (.zero 1) ht hf (Real.one_le_rpow (by norm_num) (by norm_num))
  rw [StepSpec.det h3 this]
  rfl

/-- IF34 diagonalized with linear operator zero. -/
noncomputable def demoEig : ASSolver (Fin 1) := .if34 (.eig 0 1 1 (by simp))

theorem demoEig_trial (h : ℝ) (u : Vec (Fin 1)) :
    demoEig.oneTrial (fun x => .ok x) h u = demo.oneTrial (fun x => .ok x) h u := by
  have hc : demo.CoefOk h := trivial
  have hc' : demoEig.CoefOk h := trivial
  unfold ASSolver.oneTrial
  rw [if_pos hc, if_pos hc']
  simp [demo, demoEig, ASSolver.method, ASSolver.op, ASOp.inner, ASOp.emb, ASOp.prj, LinOp.mat, Except.map]

/-- C17, diagonalized: after a step from 0 that gave up, the step from 1 is again a step from 0, and gives up. -/
example : ∃ e, (demoEig.step (fun x => .ok x) id demoCfg 1 1
      (demoEig.step (fun x => .ok x) id demoCfg 0 1 demoEig.new).2).1 = .error e ∧
    (demoEig.step (fun x => .ok x) id demoCfg 1 1 demoEig.new).1 = .ok ((65 / 24 : ℂ) • 1, 1, 4) := by
  have heq : ∀ u, (demoEig.step (fun x => .ok x) id demoCfg u 1 demoEig.new).1 =
      (demo.step (fun x => .ok x) id demoCfg u 1 demo.new).1 := by
    intro u
    have h1 := demoEig.step_new_spec (fun x => .ok x) id demoCfg u 1 (by norm_num)
    have h2 := demo.step_new_spec (fun x => .ok x) id demoCfg u 1 (by norm_num)
    exact StepSpec.det (StepSpec.congr_at (fun k => demoEig_trial k u) h1) h2
  obtain ⟨e, he, hst⟩ := demo_gives_up
  refine ⟨e, ?_, by rw [heq, demo_step]⟩
  rw [C17_ignored demoEig ⟨_, _, _, _, rfl⟩ (fun x => .ok x) id demoCfg 0 demoEig.new _ (.new 0) 1 e he (by simp)
    (Prod.ext ((heq 0).trans hst) rfl) id demoCfg 1 1, heq, hst]

/-- C18: an exception in the second stage. -/
example : let nl : NlFunc (Fin 1) := fun x => open Classical in if x = 1 then .ok x else .error (.nlFunc 7)
    (demoCS.step nl 1 1 demoCS.new).1 = .error (.nlFunc 7) ∧
    ∀ h', (demoCS.step nl 1 h' (demoCS.step nl 1 1 demoCS.new).2).1 = (demoCS.step nl 1 h' demoCS.new).1 := by
  intro nl
  refine C18_retry_cs demoCS nl 1 demoCS.new (.new 1) 1 (by norm_num) trivial _ ?_
  have h1 : nl 1 = .ok 1 := if_pos rfl
  rw [ERK.step_eq_stepFrom (demoCS.method 1) (nl) 1 1 demoCS_E0 h1]
  have h2 : nl ((1 : Vec (Fin 1)) + (2⁻¹ : ℂ) • 1) = .error (.nlFunc 7) := by
    refine if_neg fun hc => ?_
    have := congrFun hc 0
    norm_num at this
  simp only [demoCS, CSSolver.method, LinOp.mat, lawson, expm_zeroMat, rk4, ERK.stepFrom,
    ERK.stagesFrom, ERK.arg, Finset.sum_range_succ, Finset.sum_range_zero, smul_mulVec, one_mulVec,
    Function.update]
  simp [h2]

/-- C20: the run of C01's example makes four steps and 17 evaluations. -/
example (L u v : Vec (Fin 2)) (nl : NlFunc (Fin 2)) (s : (CSSolver.if4 (.diag L)).State)
    (hret : ((CSSolver.if4 (.diag L)).evolve nl id true 10 u 0 1 (3 / 10) true 2 s).1 = .ok (some v)) :
    CSSolver.evals ((CSSolver.if4 (.diag L)).evolve nl id true 10 u 0 1 (3 / 10) true 2 s).2 = CSSolver.evals s + 17 := by
  obtain ⟨n, h1, h2, h3⟩ := C20_evals_cs (.if4 (.diag L)) nl id true 10 u v 0 1 (3 / 10) true 2 s hret
  simp only [timeAt_id] at h1 h2
  have hn : n = 4 := by
    rcases lt_trichotomy n 4 with h | h | h
    · exfalso; apply h2
      have : (n : ℝ) ≤ 3 := by exact_mod_cast (by omega : n ≤ 3)
      linarith
    · exact h
    · have := h1 4 h; norm_num at this
  subst hn
  simpa using h3

end Verif
