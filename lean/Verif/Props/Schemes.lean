import Verif.Lemmas.User
import Verif.Lemmas.Witness

/-!
# The schemes computed by the solvers (properties C21–C24, C26, C27, C54)
-/

set_option linter.unusedSectionVars false

namespace Verif

open Matrix

variable {ι : Type} [Fintype ι] [DecidableEq ι]

/-! ### C21: integrating factor methods -/

/-- **C21.** A step of the classical tableau `rk4` in textbook form; its error estimate is the difference to the embedded
solution that uses the slope at the new point in place of the fourth slope. -/
theorem C21_rk4_textbook (F : ℝ → Vec ι → Vec ι) (h : ℝ) (v v' e : Vec ι) : IsRKStep rk4 F h v v' e ↔
    ∃ k1 k2 k3 k4 : Vec ι, k1 = F 0 v ∧ k2 = F (h / 2) (v + (h / 2 : ℂ) • k1) ∧ k3 = F (h / 2) (v + (h / 2 : ℂ) • k2) ∧
      k4 = F h (v + (h : ℂ) • k3) ∧ v' = v + (h / 6 : ℂ) • (k1 + (2 : ℂ) • k2 + (2 : ℂ) • k3 + k4) ∧
      e = v' - (v + (h / 6 : ℂ) • (k1 + (2 : ℂ) • k2 + (2 : ℂ) • k3 + F h v')) := by
  constructor
  · rintro ⟨K, hK, h1, h2⟩
    have e0 := hK 0 (by norm_num [rk4])
    have e1 := hK 1 (by norm_num [rk4])
    have e2 := hK 2 (by norm_num [rk4])
    have e3 := hK 3 (by norm_num [rk4])
    have e4 := hK 4 (by norm_num [rk4])
    have hv : v' = v + (h / 6 : ℂ) • (K 0 + (2 : ℂ) • K 1 + (2 : ℂ) • K 2 + K 3) := by
      rw [h1]; simp [rk4, Finset.sum_range_succ]; module
    have e4' : K 4 = F h v' := by
      rw [e4, hv]
      congr 1
      · simp [rk4]
      · simp [rk4, Finset.sum_range_succ]; module
    refine ⟨K 0, K 1, K 2, K 3, ?_, ?_, ?_, ?_, hv, ?_⟩
    · rw [e0]; simp [rk4]
    · rw [e1]
      congr 1
      · simp [rk4]; ring
      · simp [rk4]; module
    · rw [e2]
      congr 1
      · simp [rk4]; ring
      · simp [rk4, Finset.sum_range_succ]; module
    · rw [e3]
      congr 1
      · simp [rk4]
      · simp [rk4, Finset.sum_range_succ]
    · rw [← e4', h2, hv]
      simp [rk4, Finset.sum_range_succ]; module
  · rintro ⟨k1, k2, k3, k4, e1, e2, e3, e4, hv, he⟩
    refine ⟨fun
      | 0 => k1
      | 1 => k2
      | 2 => k3
      | 3 => k4
      | _ => F h v', ?_, ?_, ?_⟩
    · intro i hi
      have hi : i < 5 := hi
      interval_cases i
      · simp [rk4, ← e1]
      · simp only [rk4, Finset.sum_range_succ, Finset.sum_range_zero]
        rw [e2]
        congr 1
        · ring
        · simp; module
      · simp only [rk4, Finset.sum_range_succ, Finset.sum_range_zero]
        rw [e3]
        congr 1
        · ring
        · simp; module
      · simp only [rk4, Finset.sum_range_succ, Finset.sum_range_zero]
        rw [e4]
        congr 1
        · ring
        · simp
      · simp only [rk4, Finset.sum_range_succ, Finset.sum_range_zero]
        rw [hv]
        congr 1
        · ring
        · simp; module
    · rw [hv]; simp [rk4, Finset.sum_range_succ]; module
    · rw [he, hv]; simp [rk4, Finset.sum_range_succ]; module

/-- **C21.** IF4 is the classical Runge–Kutta method in the interaction picture `v(t) = exp(-tL) u(t)`. -/
theorem C21_if4 (L : LinOp ι) (f : Vec ι → Vec ι) (u : Vec ι) (h : ℝ) (hh : 0 ≤ h) (v' e : Vec ι)
    (hv : IsRKStep rk4 (interaction L.mat f) h u v' e) :
    ((CSSolver.if4 L).step (total f) u h (CSSolver.if4 L).new).1 = .ok (expm L.mat h *ᵥ v') := by
  rw [CSSolver.step_method _ _ _ _ hh (show (CSSolver.if4 L).CoefOk h from trivial)]
  show ((lawson rk4 L.mat h).step (total f) u).map Prod.fst = _
  rw [lawson_step_of _ _ _ _ _ hv]
  rfl

/-- **C21.** The solution of a trial of IF34 is that of the classical Runge–Kutta method in the interaction picture, and
its error estimate is the embedded one (in eigen-coordinates for the diagonalized strategy). -/
theorem C21_if34 (L : ASOp ι) (f : Vec ι → Vec ι) (u : Vec ι) (h : ℝ) (v' e : Vec ι)
    (hv : IsRKStep rk4 (interaction L.mat f) h u v' e) :
    ((ASSolver.if34 L).trial (total f) u h (ASSolver.if34 L).new).1 =
      .ok (expm L.mat h *ᵥ v', L.prj (expm L.mat h *ᵥ e)) := by
  rw [ASSolver.trial_if34, lawson_step_of _ _ _ _ _ hv]
  rfl

theorem dpWith_step {r4 : ℝ} {F : ℝ → Vec ι → Vec ι} {h : ℝ} {v v' e : Vec ι} {K : ℕ → Vec ι}
    (hK : ∀ i < 7, K i = F (dormandPrince.c i * h)
      (v + (h : ℂ) • ∑ j ∈ Finset.range i, (dormandPrince.a i j : ℂ) • K j))
    (h1 : v' = v + (h : ℂ) • ∑ j ∈ Finset.range 7, (dormandPrince.b j : ℂ) • K j)
    (h2 : e = (h : ℂ) • ∑ j ∈ Finset.range 7, (dormandPrince.r j : ℂ) • K j) :
    IsRKStep (dpWith r4) F h v v' (e + (h * (r4 - 71 / 1920) : ℂ) • K 3) := by
  refine ⟨K, hK, h1, ?_⟩
  rw [h2]
  simp [dpWith, dormandPrince, Finset.sum_range_succ]
  module

/-- **C21.** The solution of a trial of IF45DP is that of the Dormand–Prince method in the interaction picture. -/
theorem C21_if45dp (L : Vec ι) (f : Vec ι → Vec ι) (u : Vec ι) (h : ℝ) (v' e : Vec ι)
    (hv : IsRKStep dormandPrince (interaction (Matrix.diagonal L) f) h u v' e) :
    (((ASSolver.if45dp L).trial (total f) u h (ASSolver.if45dp L).new).1).map Prod.fst =
      .ok (expm (Matrix.diagonal L) h *ᵥ v') := by
  obtain ⟨K, hK, h1, h2⟩ := hv
  rw [ASSolver.trial_if45dp, lawson_step_of _ _ _ _ _ (dpWith_step hK h1 h2)]
  rfl

/-- The interaction picture: `v(t) = exp(-tL) u(t)` solves `v' = interaction` when `u' = L u + f u`; here for `L = 0`, where
IF4 is the classical method itself. -/
example (f : Vec ι → Vec ι) (u : Vec ι) (h : ℝ) (hh : 0 ≤ h) (v' e : Vec ι) (hv : IsRKStep rk4 (fun _ => f) h u v' e) :
    ((CSSolver.if4 (.diag 0)).step (total f) u h (CSSolver.if4 (.diag (0 : Vec ι))).new).1 = .ok v' := by
  have := C21_if4 (.diag 0) f u h hh v' e (by
    have hi : interaction (LinOp.mat (.diag (0 : Vec ι))) f = fun _ => f := by
      funext t v; simp [interaction, LinOp.mat, expm, Matrix.diagonal_zero']
    rwa [hi])
  simpa [LinOp.mat, expm] using this

/-- Every problem has a Runge–Kutta step, so C21 always applies. -/
example (L : Mat ι) (f : Vec ι → Vec ι) (u : Vec ι) (h : ℝ) : ∃ v' e, IsRKStep rk4 (interaction L f) h u v' e :=
  IsRKStep.exists _ _ _ _

/-! ### C54: the error estimate of IF45DP -/

/-- **C54.** The error estimate of IF45DP differs from the Dormand–Prince one by `-9/320 h` times the fourth slope. -/
theorem C54_error (L : Vec ι) (f : Vec ι → Vec ι) (u : Vec ι) (h : ℝ) (v' e : Vec ι) (K : ℕ → Vec ι)
    (hK : ∀ i < 7, K i = interaction (Matrix.diagonal L) f (dormandPrince.c i * h)
      (u + (h : ℂ) • ∑ j ∈ Finset.range i, (dormandPrince.a i j : ℂ) • K j))
    (h1 : v' = u + (h : ℂ) • ∑ j ∈ Finset.range 7, (dormandPrince.b j : ℂ) • K j)
    (h2 : e = (h : ℂ) • ∑ j ∈ Finset.range 7, (dormandPrince.r j : ℂ) • K j) :
    ((ASSolver.if45dp L).trial (total f) u h (ASSolver.if45dp L).new).1 =
      .ok (expm (Matrix.diagonal L) h *ᵥ v', expm (Matrix.diagonal L) h *ᵥ (e - (9 / 320 * h : ℂ) • K 3)) := by
  rw [ASSolver.trial_if45dp, lawson_step_of _ _ _ _ _ (dpWith_step hK h1 h2)]
  congr 4
  push_cast
  module

/-- **C54.** The true Dormand–Prince error estimate vanishes for constant forcing without linear part; that of IF45DP is
`-9/320 h c`, first order in `h`. -/
theorem C54_not_embedded (c u : Vec ι) (h : ℝ) :
    IsRKStep dormandPrince (interaction (Matrix.diagonal (0 : Vec ι)) fun _ => c) h u (u + (h : ℂ) • c) 0 ∧
    ((ASSolver.if45dp (0 : Vec ι)).trial (total fun _ => c) u h (ASSolver.if45dp (0 : Vec ι)).new).1 =
      .ok (u + (h : ℂ) • c, -(9 / 320 * h : ℂ) • c) := by
  have hi : ∀ t v, interaction (Matrix.diagonal (0 : Vec ι)) (fun _ => c) t v = c := by
    intro t v; simp [interaction, expm]
  have hK : ∀ i < 7, (fun _ : ℕ => c) i = interaction (Matrix.diagonal (0 : Vec ι)) (fun _ => c) (dormandPrince.c i * h)
      (u + (h : ℂ) • ∑ j ∈ Finset.range i, (dormandPrince.a i j : ℂ) • (fun _ : ℕ => c) j) := fun i _ => (hi _ _).symm
  have h1 : u + (h : ℂ) • c = u + (h : ℂ) • ∑ j ∈ Finset.range 7, (dormandPrince.b j : ℂ) • (fun _ : ℕ => c) j := by
    simp [dormandPrince, Finset.sum_range_succ]; module
  have h2 : (0 : Vec ι) = (h : ℂ) • ∑ j ∈ Finset.range 7, (dormandPrince.r j : ℂ) • (fun _ : ℕ => c) j := by
    simp [dormandPrince, Finset.sum_range_succ]
    module
  refine ⟨⟨_, hK, h1, h2⟩, ?_⟩
  rw [C54_error (0 : Vec ι) (fun _ => c) u h _ _ _ hK h1 h2]
  congr 2
  · simp [expm]
  · simp [expm]

/-! ### C22: exponential time differencing methods -/

/-- **C22.** ETD4 is Krogstad's method, for the approximations of the φ functions described in C29, C30. -/
theorem C22_etd4 (cfg : ETDConfig ℝ) (L : LinOp ι) (nl : NlFunc ι) (u : Vec ι) (h : ℝ) (hh : 0 ≤ h)
    (hc : L.CoefOk cfg [1 / 2, 1] h) :
    ((CSSolver.etd4 cfg L).step nl u h (CSSolver.etd4 cfg L).new).1 =
      ((krogstad (L.phi cfg h) L.mat h).step nl u).map Prod.fst := by
  rw [CSSolver.step_method _ _ _ _ hh (show (CSSolver.etd4 cfg L).CoefOk h from hc)]
  rfl

/-- **C22.** ETD34 is Krogstad's method. -/
theorem C22_etd34 (cfg : ETDConfig ℝ) (L : ASOp ι) (nl : NlFunc ι) (u : Vec ι) (h : ℝ)
    (hc : L.inner.CoefOk cfg [1 / 2, 1] h) :
    ((ASSolver.etd34 cfg L).trial nl u h (ASSolver.etd34 cfg L).new).1 =
      ((krogstad (L.phi cfg h) L.mat h).step nl u).map fun r => (r.1, L.prj r.2) :=
  ASSolver.trial_etd34 cfg L nl u h hc

/-- **C22.** ETD5 is the documented fifth order method. -/
theorem C22_etd5 (cfg : ETDConfig ℝ) (L : LinOp ι) (nl : NlFunc ι) (u : Vec ι) (h : ℝ) (hh : 0 ≤ h)
    (hc : L.CoefOk cfg [1 / 4, 1 / 2, 3 / 4, 1] h) :
    ((CSSolver.etd5 cfg L).step nl u h (CSSolver.etd5 cfg L).new).1 =
      ((etd5Method true (L.phi cfg h) L.mat h).step nl u).map Prod.fst := by
  rw [CSSolver.step_method _ _ _ _ hh (show (CSSolver.etd5 cfg L).CoefOk h from hc)]
  rfl

/-- **C22.** ETD35 is the documented fifth order method. -/
theorem C22_etd35 (cfg : ETDConfig ℝ) (L : ASOp ι) (nl : NlFunc ι) (u : Vec ι) (h : ℝ)
    (hc : L.inner.CoefOk cfg [1 / 4, 1 / 2, 3 / 4, 1] h) :
    ((ASSolver.etd35 cfg L).trial nl u h (ASSolver.etd35 cfg L).new).1 =
      ((etd5Method false (L.phi cfg h) L.mat h).step nl u).map fun r => (r.1, L.prj r.2) :=
  ASSolver.trial_etd35 cfg L nl u h hc

/-- **C22.** For a diagonal operator whose modes all reach the cutoff the φ functions are exact. -/
theorem C22_exact_diag (cfg : ETDConfig ℝ) (L : Vec ι) (h : ℝ) (hcut : 0 < cfg.modecutoff)
    (hL : ∀ i, cfg.modecutoff ≤ ‖(h : ℂ) * L i‖) (k : ℕ) (c : ℝ) (hc : c ≠ 0) :
    (LinOp.diag L).phi cfg h k c = phiExact (Matrix.diagonal L) h k c := by
  unfold phiExact
  rw [← Matrix.diagonal_smul, phiMat_diagonal]
  show Matrix.diagonal _ = _
  congr 1
  funext i
  have hz : (c : ℂ) * ((h : ℂ) * L i) ≠ 0 := by
    refine mul_ne_zero (by exact_mod_cast hc) fun h0 => ?_
    have := hL i
    rw [h0, norm_zero] at this
    linarith
  unfold phiMode
  rw [if_neg (not_lt.mpr (hL i)), ← phi_eq_phiDiv k hz]
  congr 1
  simp only [Pi.smul_apply, smul_eq_mul]
  push_cast; ring

example : ∀ i : Fin 2, (1 / 100 : ℝ) ≤ ‖((1 / 10 : ℝ) : ℂ) * (![-1, 2 * Complex.I] : Vec (Fin 2)) i‖ := by
  intro i; fin_cases i <;> norm_num

/-! ### C23: pairs of solvers -/

/-- **C23.** IF34 and IF4 compute the same step, in every strategy. -/
theorem C23_if (L : LinOp ι) (L' : ASOp ι) (hL : L'.mat = L.mat) (nl : NlFunc ι) (u : Vec ι) (h : ℝ) (hh : 0 ≤ h) :
    (((ASSolver.if34 L').trial nl u h (ASSolver.if34 L').new).1).map Prod.fst =
      ((CSSolver.if4 L).step nl u h (CSSolver.if4 L).new).1 := by
  rw [CSSolver.step_method _ _ _ _ hh (show (CSSolver.if4 L).CoefOk h from trivial), ASSolver.trial_if34, hL]
  show _ = ((lawson rk4 L.mat h).step nl u).map Prod.fst
  cases (lawson rk4 L.mat h).step nl u <;> rfl

/-- **C23.** ETD34 and ETD4 compute the same step, with the same approximate coefficients, and fail together. -/
theorem C23_etd4 (cfg : ETDConfig ℝ) (L : LinOp ι) (nl : NlFunc ι) (u : Vec ι) (h : ℝ) (hh : 0 ≤ h) :
    (((ASSolver.etd34 cfg L.adaptive).trial nl u h (ASSolver.etd34 cfg L.adaptive).new).1).map Prod.fst =
      ((CSSolver.etd4 cfg L).step nl u h (CSSolver.etd4 cfg L).new).1 := by
  have hi : L.adaptive.inner = L := by cases L <;> rfl
  have hm : L.adaptive.mat = L.mat := by cases L <;> rfl
  have hp : L.adaptive.phi cfg h = L.phi cfg h := by cases L <;> rfl
  by_cases hc : L.CoefOk cfg [1 / 2, 1] h
  · rw [C22_etd4 cfg L nl u h hh hc, C22_etd34 cfg L.adaptive nl u h (by rwa [hi]), hm, hp]
    cases (krogstad (L.phi cfg h) L.mat h).step nl u <;> rfl
  · rw [CSSolver.step_fail _ _ _ _ hh (show ¬ (CSSolver.etd4 cfg L).CoefOk h from hc), ASSolver.trial_fail]
    · rfl
    · show ¬ L.adaptive.inner.CoefOk cfg [1 / 2, 1] h
      rwa [hi]

theorem etd5_step_fst (φ : ℕ → ℝ → Mat ι) (L : Mat ι) (h : ℝ) (nl : NlFunc ι) (u : Vec ι) :
    ((etd5Method true φ L h).step nl u).map Prod.fst =
      match (etd5Method false φ L h).step nl u with
      | .error e => .error e
      | .ok r => (nl r.1).map fun _ => r.1 := by
  have hst : ∀ k, (etd5Method true φ L h).stages nl u k = (etd5Method false φ L h).stages nl u k := by
    intro k
    induction k with
    | zero => rfl
    | succ k ih => simp only [ERK.stages, ih]; rfl
  unfold ERK.step
  rw [show (etd5Method true φ L h).s = 6 + 1 from rfl, show (etd5Method false φ L h).s = 6 from rfl, ERK.stages, hst]
  cases hs : (etd5Method false φ L h).stages nl u 6 with
  | error e => rfl
  | ok N =>
    have harg : (etd5Method true φ L h).arg u N 6 = (etd5Method false φ L h).out u N := rfl
    simp only [harg]
    cases nl ((etd5Method false φ L h).out u N) with
    | error e => rfl
    | ok n =>
      simp only [Except.map]
      congr 1
      have : (etd5Method true φ L h).out u (Function.update N 6 n) =
          (etd5Method false φ L h).out u N + (etd5Method true φ L h).B 6 *ᵥ n := by
        unfold ERK.out
        rw [show (etd5Method true φ L h).s = 6 + 1 from rfl, show (etd5Method false φ L h).s = 6 from rfl,
          Finset.sum_range_succ, Function.update_self, ← add_assoc]
        refine congrArg₂ (· + ·) (congrArg₂ (· + ·) rfl (Finset.sum_congr rfl fun j hj => ?_)) rfl
        rw [Function.update_of_ne (by have := Finset.mem_range.mp hj; omega)]
        rfl
      rw [this]
      simp [etd5Method]

/-- **C23.** ETD35 and ETD5 compute the same step, with the same approximate coefficients, and fail together, except that
ETD5 also evaluates `nl_func` at the new solution: when that raises, ETD35 still has a trial solution. -/
theorem C23_etd5 (cfg : ETDConfig ℝ) (L : LinOp ι) (nl : NlFunc ι) (u : Vec ι) (h : ℝ) (hh : 0 ≤ h) :
    ((CSSolver.etd5 cfg L).step nl u h (CSSolver.etd5 cfg L).new).1 =
      match ((ASSolver.etd35 cfg L.adaptive).trial nl u h (ASSolver.etd35 cfg L.adaptive).new).1 with
      | .error e => .error e
      | .ok (v, _) => (nl v).map fun _ => v := by
  have hi : L.adaptive.inner = L := by cases L <;> rfl
  have hm : L.adaptive.mat = L.mat := by cases L <;> rfl
  have hp : L.adaptive.phi cfg h = L.phi cfg h := by cases L <;> rfl
  by_cases hc : L.CoefOk cfg [1 / 4, 1 / 2, 3 / 4, 1] h
  · rw [C22_etd5 cfg L nl u h hh hc, C22_etd35 cfg L.adaptive nl u h (by rwa [hi]), hm, hp, etd5_step_fst]
    cases (etd5Method false (L.phi cfg h) L.mat h).step nl u <;> rfl
  · rw [CSSolver.step_fail _ _ _ _ hh (show ¬ (CSSolver.etd5 cfg L).CoefOk h from hc), ASSolver.trial_fail]
    · show ¬ L.adaptive.inner.CoefOk cfg [1 / 4, 1 / 2, 3 / 4, 1] h
      rwa [hi]

/-- In particular, for an `nl_func` that never raises. -/
example (cfg : ETDConfig ℝ) (L : LinOp ι) (f : Vec ι → Vec ι) (u : Vec ι) (h : ℝ) (hh : 0 ≤ h) :
    (((ASSolver.etd35 cfg L.adaptive).trial (total f) u h (ASSolver.etd35 cfg L.adaptive).new).1).map Prod.fst =
      ((CSSolver.etd5 cfg L).step (total f) u h (CSSolver.etd5 cfg L).new).1 := by
  rw [C23_etd5 cfg L (total f) u h hh]
  rcases ((ASSolver.etd35 cfg L.adaptive).trial (total f) u h (ASSolver.etd35 cfg L.adaptive).new).1 with e | ⟨v, e⟩ <;> rfl

/-! ### C24: linear problems -/

/-- **C24.** Without nonlinear term a constant-step solver returns `exp(h L) u`. -/
theorem C24_step (m : CSSolver ι) (u : Vec ι) (h : ℝ) (hh : 0 ≤ h) (hc : m.CoefOk h) :
    (m.step (total fun _ => 0) u h m.new).1 = .ok (expm m.op.mat h *ᵥ u) := by
  rw [CSSolver.step_method _ _ _ _ hh hc, (m.method h).step_of (total fun _ => 0) u (N := 0) fun i _ => rfl]
  have hE : (m.method h).Eout = expm m.op.mat h := by cases m <;> rfl
  simp [Except.map, ERK.out, hE]

/-- **C24.** Without nonlinear term the trial solution of an adaptive solver is `exp(h L) u`, and its error estimate
zero. -/
theorem C24_trial (m : ASSolver ι) (u : Vec ι) (h : ℝ) (hc : m.CoefOk h) :
    (m.trial (total fun _ => 0) u h m.new).1 = .ok (expm m.op.mat h *ᵥ u, 0) := by
  rw [ASSolver.trial_new, ASSolver.oneTrial_user _ _ _ _ hc,
    ERK.step_of _ (total fun _ => 0) u (N := 0) fun i _ => rfl]
  have hE : (m.op.user (m.method h)).Eout = expm m.op.mat h := by
    rcases m with (_ | _ | ⟨_, _, _, hS⟩) | ⟨_, _ | _ | ⟨_, _, _, hS⟩⟩ | ⟨_, _ | _ | ⟨_, _, _, hS⟩⟩ | _ <;>
      first
      | rfl
      | exact (expm_conj _ _ _ hS h).symm
  have hz : m.op.prj 0 = 0 := by cases m.op <;> simp [ASOp.prj]
  simp [Except.map, ERK.out, ERK.err, hE, hz]

theorem expm_iter (L : Mat ι) (h : ℝ) (u : Vec ι) (k : ℕ) :
    expm L h *ᵥ (expm L (k * h) *ᵥ u) = expm L ((k + 1 : ℕ) * h) *ᵥ u := by
  rw [expm_mulVec_add]; congr 2; push_cast; ring

/-- **C24.** Without nonlinear term a constant-step run of `n` steps returns `exp(n h L) u`. -/
theorem C24_evolve (m : CSSolver ι) (u : Vec ι) (t0 tf h : ℝ) (hh : 0 < h) (hspan : t0 + h ≤ tf) (hc : m.CoefOk h)
    (n : ℕ) (hn : IsLeast {n : ℕ | tf ≤ t0 + n * h} n) (s : m.State) (fuel : ℕ) (hfuel : n < fuel) :
    (m.evolve (total fun _ => 0) id false fuel u t0 tf h false 1 s).1 = .ok (some (expm m.op.mat (n * h) *ᵥ u)) := by
  refine (m.evolve_ok (total fun _ => 0) false u t0 tf h false 1 hh hspan (by simp) n hn (by simp)
    (fun k => expm m.op.mat (k * h) *ᵥ u) (by simp) (fun k _ => ?_) s fuel hfuel).1
  rw [← CSSolver.step_new _ _ _ _ hh.le, C24_step m _ h hh.le hc, expm_iter]

/-- For a diagonal operator the coefficients can always be computed and the exponential acts on every mode. -/
example (cfg : ETDConfig ℝ) (L u : Vec ι) (h : ℝ) (hh : 0 ≤ h) :
    ((CSSolver.etd5 cfg (.diag L)).step (total fun _ => 0) u h (CSSolver.etd5 cfg (.diag L)).new).1 =
      .ok fun i => Complex.exp (h * L i) * u i := by
  rw [C24_step (.etd5 cfg (.diag L)) u h hh trivial]
  congr 1
  funext i
  show (expm (Matrix.diagonal L) h *ᵥ u) i = _
  rw [expm_diagonal, mulVec_diagonal]

/-! ### C26, C27: strategies -/

/-- **C26.** IF4 on a diagonal matrix and on its diagonal. -/
theorem C26_if4 (d : Vec ι) (nl : NlFunc ι) (u : Vec ι) (h : ℝ) :
    ((CSSolver.if4 (.full (Matrix.diagonal d))).step nl u h (CSSolver.if4 (.full (Matrix.diagonal d))).new).1 =
      ((CSSolver.if4 (.diag d)).step nl u h (CSSolver.if4 (.diag d)).new).1 := by
  rcases lt_or_ge h 0 with hh | hh
  · rw [CSSolver.step_neg _ _ _ _ hh, CSSolver.step_neg _ _ _ _ hh]
  · rw [CSSolver.step_method _ _ _ _ hh (show (CSSolver.if4 _).CoefOk h from trivial),
      CSSolver.step_method _ _ _ _ hh (show (CSSolver.if4 _).CoefOk h from trivial)]
    rfl

/-- **C26.** IF34 on a diagonal matrix and on its diagonal: the same solution and error estimate. -/
theorem C26_if34 (d : Vec ι) (nl : NlFunc ι) (u : Vec ι) (h : ℝ) :
    ((ASSolver.if34 (.full (Matrix.diagonal d))).trial nl u h (ASSolver.if34 (.full (Matrix.diagonal d))).new).1 =
      ((ASSolver.if34 (.diag d)).trial nl u h (ASSolver.if34 (.diag d)).new).1 := by
  rw [ASSolver.trial_if34, ASSolver.trial_if34]
  rfl

/-- **C27.** The diagonalized IF34 returns the full-matrix solution and `S⁻¹` times the full-matrix error estimate. -/
theorem C27_if34 (lam : Vec ι) (S Sinv : Mat ι) (hS : S * Sinv = 1) (nl : NlFunc ι) (u : Vec ι) (h : ℝ) :
    ((ASSolver.if34 (.eig lam S Sinv hS)).trial nl u h (ASSolver.if34 (.eig lam S Sinv hS)).new).1 =
      (((ASSolver.if34 (.full (S * Matrix.diagonal lam * Sinv))).trial nl u h
        (ASSolver.if34 (.full (S * Matrix.diagonal lam * Sinv))).new).1).map fun r => (r.1, Sinv *ᵥ r.2) := by
  rw [ASSolver.trial_if34, ASSolver.trial_if34]
  show ((lawson rk4 (S * Matrix.diagonal lam * Sinv) h).step nl u).map _ =
    Except.map _ (((lawson rk4 (S * Matrix.diagonal lam * Sinv) h).step nl u).map _)
  cases (lawson rk4 (S * Matrix.diagonal lam * Sinv) h).step nl u <;> rfl

/-- C21, C54: the textbook step exists, so the solvers compute it. -/
example (L : Vec ι) (f : Vec ι → Vec ι) (u : Vec ι) (h : ℝ) :
    (∃ v' e, IsRKStep rk4 (interaction (Matrix.diagonal L) f) h u v' e ∧
      ((ASSolver.if34 (.diag L)).trial (total f) u h (ASSolver.if34 (.diag L)).new).1 =
        .ok (expm (Matrix.diagonal L) h *ᵥ v', expm (Matrix.diagonal L) h *ᵥ e)) ∧
    ∃ v' e, IsRKStep dormandPrince (interaction (Matrix.diagonal L) f) h u v' e ∧
      (((ASSolver.if45dp L).trial (total f) u h (ASSolver.if45dp L).new).1).map Prod.fst = .ok (expm (Matrix.diagonal L) h *ᵥ v') := by
  obtain ⟨v, e, hv⟩ := IsRKStep.exists rk4 (interaction (Matrix.diagonal L) f) h u
  obtain ⟨w, d, hw⟩ := IsRKStep.exists dormandPrince (interaction (Matrix.diagonal L) f) h u
  exact ⟨⟨v, e, hv, C21_if34 (.diag L) f u h v e hv⟩, w, d, hw, C21_if45dp L f u h w d hw⟩

/-- The classical Runge-Kutta step of size 1 for `y' = y` from 1: `1 + 1 + 1/2 + 1/6 + 1/24`. -/
example : IsRKStep rk4 (fun _ v => v) 1 (1 : Vec (Fin 1)) ((65 / 24 : ℂ) • 1) ((1 / 144 : ℂ) • 1) := by
  refine (C21_rk4_textbook _ _ _ _ _).2 ⟨1, (3 / 2 : ℂ) • 1, (7 / 4 : ℂ) • 1, (11 / 4 : ℂ) • 1, rfl, ?_, ?_, ?_, ?_, ?_⟩ <;>
    (ext i; simp; norm_num)

/-- A constant right hand side: the step is exact, but the error estimate of IF45DP is not zero. -/
example (c u : Vec ι) : ((ASSolver.if45dp (0 : Vec ι)).trial (total fun _ => c) u 1 (ASSolver.if45dp (0 : Vec ι)).new).1 =
    .ok (u + (1 : ℂ) • c, -(9 / 320 : ℂ) • c) := by
  have := (C54_not_embedded c u 1).2
  simpa using this

example (c u : Vec ι) : ∃ v, ((ASSolver.if45dp (0 : Vec ι)).trial (total fun _ => c) u 1 (ASSolver.if45dp (0 : Vec ι)).new).1 = .ok v := by
  have hi : interaction (Matrix.diagonal (0 : Vec ι)) (fun _ => c) = fun _ _ => c := by
    funext t v; simp [interaction, expm]
  exact ⟨_, C54_error 0 (fun _ => c) u 1 _ _ (fun _ => c) (fun i _ => by rw [hi]) rfl rfl⟩

/-- C22, C23 at the default settings and the operators `diag(-1, 2i)`, with a step of 1/10. -/
example (nl : NlFunc (Fin 2)) (u : Vec (Fin 2)) :
    ((CSSolver.etd4 ⟨1 / 100, 32, 1⟩ (.diag ![-1, 2 * Complex.I])).step nl u (1 / 10) (CSSolver.etd4 _ (.diag _)).new).1 =
      ((krogstad ((LinOp.diag ![-1, 2 * Complex.I]).phi ⟨1 / 100, 32, 1⟩ (1 / 10)) (Matrix.diagonal ![-1, 2 * Complex.I]) (1 / 10)).step nl u).map
        Prod.fst ∧
    ((ASSolver.etd34 ⟨1 / 100, 32, 1⟩ (.diag ![-1, 2 * Complex.I])).trial nl u (1 / 10) (ASSolver.etd34 _ (.diag _)).new).1 =
      ((krogstad ((LinOp.diag ![-1, 2 * Complex.I]).phi ⟨1 / 100, 32, 1⟩ (1 / 10)) (Matrix.diagonal ![-1, 2 * Complex.I]) (1 / 10)).step nl u).map
        fun r => (r.1, r.2) :=
  ⟨C22_etd4 _ (.diag _) nl u _ (by norm_num) trivial, C22_etd34 _ (.diag _) nl u _ trivial⟩

example (nl : NlFunc (Fin 2)) (u : Vec (Fin 2)) :
    ((CSSolver.etd5 ⟨1 / 100, 32, 1⟩ (.diag ![-1, 2 * Complex.I])).step nl u (1 / 10) (CSSolver.etd5 _ (.diag _)).new).1 =
      ((etd5Method true ((LinOp.diag ![-1, 2 * Complex.I]).phi ⟨1 / 100, 32, 1⟩ (1 / 10)) (Matrix.diagonal ![-1, 2 * Complex.I]) (1 / 10)).step nl u).map
        Prod.fst ∧
    ((ASSolver.etd35 ⟨1 / 100, 32, 1⟩ (.diag ![-1, 2 * Complex.I])).trial nl u (1 / 10) (ASSolver.etd35 _ (.diag _)).new).1 =
      ((etd5Method false ((LinOp.diag ![-1, 2 * Complex.I]).phi ⟨1 / 100, 32, 1⟩ (1 / 10)) (Matrix.diagonal ![-1, 2 * Complex.I]) (1 / 10)).step nl u).map
        fun r => (r.1, r.2) :=
  ⟨C22_etd5 _ (.diag _) nl u _ (by norm_num) trivial, C22_etd35 _ (.diag _) nl u _ trivial⟩

example : (LinOp.diag ![-1, 2 * Complex.I]).phi ⟨1 / 100, 32, 1⟩ (1 / 10) 3 (1 / 2) = phiExact (Matrix.diagonal ![-1, 2 * Complex.I]) (1 / 10) 3 (1 / 2) :=
  C22_exact_diag _ _ _ (by norm_num) (fun i => by fin_cases i <;> norm_num) 3 (1 / 2) (by norm_num)

/-- The matrix with eigenvalues 1, 2 in the eigenbasis and as it stands. -/
example (nl : NlFunc (Fin 2)) (u : Vec (Fin 2)) (hS : !![1, 1; 0, 1] * !![1, -1; 0, 1] = (1 : Mat (Fin 2))) :
    ((ASSolver.if34 (.eig ![1, 2] !![1, 1; 0, 1] !![1, -1; 0, 1] hS)).trial nl u 1 (ASSolver.if34 (.eig ![1, 2] _ _ hS)).new).1.map Prod.fst =
      ((CSSolver.if4 (.full (!![1, 1; 0, 1] * Matrix.diagonal ![1, 2] * !![1, -1; 0, 1]))).step nl u 1 (CSSolver.if4 (.full _)).new).1 :=
  C23_if (.full _) (.eig ![1, 2] _ _ hS) rfl nl u 1 zero_le_one

example (nl : NlFunc (Fin 2)) (u : Vec (Fin 2)) :
    ((ASSolver.etd34 ⟨1 / 100, 32, 1⟩ (.full !![0, 1; -1, 0])).trial nl u 1 (ASSolver.etd34 _ (.full _)).new).1.map Prod.fst =
      ((CSSolver.etd4 ⟨1 / 100, 32, 1⟩ (.full !![0, 1; -1, 0])).step nl u 1 (CSSolver.etd4 _ (.full _)).new).1 :=
  C23_etd4 _ (.full _) nl u 1 zero_le_one

/-- No nonlinear term: the propagator, in one trial and in a run of four steps. -/
example (L u : Vec ι) (s : (CSSolver.if4 (.diag L)).State) :
    ((ASSolver.etd35 ⟨1 / 100, 32, 1⟩ (.diag L)).trial (total fun _ => 0) u 2 (ASSolver.etd35 _ (.diag L)).new).1 =
      .ok (expm (Matrix.diagonal L) 2 *ᵥ u, 0) ∧
    ((CSSolver.if4 (.diag L)).evolve (total fun _ => 0) id false 5 u 0 2 (1 / 2) false 1 s).1 =
      .ok (some (expm (Matrix.diagonal L) ((4 : ℕ) * (1 / 2)) *ᵥ u)) :=
  ⟨C24_trial (.etd35 _ (.diag L)) u 2 trivial, C24_evolve (.if4 (.diag L)) u 0 2 (1 / 2) (by norm_num) (by norm_num) trivial 4
    ⟨by norm_num, fun n hn => by
      have h : (2 : ℝ) ≤ 0 + n * (1 / 2) := hn
      have h' : (4 : ℝ) ≤ n := by linarith
      exact_mod_cast h'⟩ s 5 (by norm_num)⟩

example (nl : NlFunc (Fin 2)) (u : Vec (Fin 2)) :
    ((CSSolver.if4 (.full (Matrix.diagonal ![-1, 3]))).step nl u 1 (CSSolver.if4 (.full _)).new).1 =
      ((CSSolver.if4 (.diag ![-1, 3])).step nl u 1 (CSSolver.if4 (.diag _)).new).1 ∧
    ((ASSolver.if34 (.full (Matrix.diagonal ![-1, 3]))).trial nl u 1 (ASSolver.if34 (.full _)).new).1 =
      ((ASSolver.if34 (.diag ![-1, 3])).trial nl u 1 (ASSolver.if34 (.diag _)).new).1 :=
  ⟨C26_if4 _ nl u 1, C26_if34 _ nl u 1⟩

example (nl : NlFunc (Fin 2)) (u : Vec (Fin 2)) (hS : !![1, 1; 0, 1] * !![1, -1; 0, 1] = (1 : Mat (Fin 2))) :
    ((ASSolver.if34 (.eig ![1, 2] !![1, 1; 0, 1] !![1, -1; 0, 1] hS)).trial nl u 1 (ASSolver.if34 (.eig ![1, 2] _ _ hS)).new).1 =
      (((ASSolver.if34 (.full (!![1, 1; 0, 1] * Matrix.diagonal ![1, 2] * !![1, -1; 0, 1]))).trial nl u 1 (ASSolver.if34 (.full _)).new).1).map
        fun r => (r.1, !![1, -1; 0, 1] *ᵥ r.2) :=
  C27_if34 _ _ _ hS nl u 1

end Verif
