import Verif.Spec.ConstantForcing
import Verif.Props.Damping
import Verif.Props.Adaptive
import Verif.Props.Liveness
import Mathlib.Analysis.SpecialFunctions.Trigonometric.DerivHyp
import Mathlib.Analysis.Calculus.Deriv.MeanValue

/-!
# C93: constant forcing
-/

set_option linter.unusedSectionVars false

namespace Verif

open Matrix Filter Topology

variable {ι : Type} [Fintype ι] [DecidableEq ι]

theorem ERK.stages_const (M : ERK ι) {nl : Vec ι → Except PyErr (Vec ι)} {g : Vec ι} (h0 : ∀ x, nl x = .ok g) (u : Vec ι) (i : ℕ) :
    M.stages nl u i = .ok fun j => if j < i then g else 0 := by
  induction i with
  | zero => simp [ERK.stages]; rfl
  | succ i ih =>
    simp only [ERK.stages, ih, h0]
    congr 1
    funext j
    rcases lt_trichotomy j i with h | rfl | h
    · rw [Function.update_of_ne h.ne, if_pos h, if_pos (by omega)]
    · rw [Function.update_self, if_pos (by omega)]
    · rw [Function.update_of_ne h.ne', if_neg (by omega), if_neg (by omega)]

theorem ERK.step_const (M : ERK ι) {nl : Vec ι → Except PyErr (Vec ι)} {g : Vec ι} (h0 : ∀ x, nl x = .ok g) (u : Vec ι) :
    M.step nl u = .ok (M.Eout *ᵥ u + (∑ j ∈ Finset.range M.s, M.B j) *ᵥ g, (∑ j ∈ Finset.range M.s, M.R j) *ᵥ g) := by
  simp only [ERK.step, ERK.stages_const M h0, ERK.out, ERK.err, sum_mulVec]
  have : ∀ W : ℕ → Mat ι, ∑ j ∈ Finset.range M.s, W j *ᵥ (if j < M.s then g else 0) = ∑ j ∈ Finset.range M.s, W j *ᵥ g := fun W =>
    Finset.sum_congr rfl fun j hj => by rw [if_pos (Finset.mem_range.mp hj)]
  rw [this, this]

/-- The weights of the error estimate add up to zero. -/
theorem ASSolver.sum_R (m : ASSolver ι) (hm : ∀ L, m ≠ .if45dp L) (h : ℝ) : ∑ j ∈ Finset.range (m.method h).s, (m.method h).R j = 0 := by
  rcases m with L | ⟨cfg, L⟩ | ⟨cfg, L⟩ | L
  · show ∑ j ∈ Finset.range 5, (lawson rk4 _ h).R j = 0
    simp [Finset.sum_range_succ, lawson, rk4]
    module
  · show ∑ j ∈ Finset.range 5, (krogstad _ _ h).R j = 0
    simp [Finset.sum_range_succ, krogstad]
  · show ∑ j ∈ Finset.range 6, (etd5Method false _ _ h).R j = 0
    simp only [Finset.sum_range_succ, etd5Method, Finset.sum_range_zero]
    module
  · exact absurd rfl (hm L)

theorem ASSolver.oneTrial_const (m : ASSolver ι) (hm : ∀ L, m ≠ .if45dp L) (g : Vec ι) (h : ℝ) (u : Vec ι) :
    (m.oneTrial (fun _ => .ok g) h u = .error .linAlgError ∧ ¬ m.CoefOk h) ∨ ∃ v, m.oneTrial (fun _ => .ok g) h u = .ok (v, 0) := by
  unfold ASSolver.oneTrial
  split
  · right
    rw [ERK.step_const _ (g := m.op.prj g) (fun x => by simp [Except.map]), m.sum_R hm, zero_mulVec]
    exact ⟨_, rfl⟩
  · next hc => exact .inl ⟨rfl, hc⟩

theorem ASSolver.stepSpec_const (m : ASSolver ι) (hm : ∀ L, m ≠ .if45dp L) (g : Vec ι) (rnd : ℝ → ℝ) (cfg : SolverConfig ℝ) (u : Vec ι) (h : ℝ)
    {r : Except PyErr (Vec ι × ℝ × ℝ)}
    (hs : StepSpec (m.oneTrial fun _ => .ok g) (m.factor (fun _ => .ok g) cfg) cfg rnd u h r) :
    r = .error .minimumStepReached ∨ r = .error .maxLoopsExceeded ∨ (r = .error .linAlgError ∧ ∃ h, ¬ m.CoefOk h) := by
  cases hs with
  | @accept j h' x r hj hrej hok hx h1 =>
    exfalso
    rcases m.oneTrial_const hm g h' u with ⟨he, -⟩ | ⟨v, hv⟩
    · rw [he] at hok; simp at hok
    · rw [hv] at hok
      obtain rfl : (v, 0) = r := by simpa using hok
      exact C10_zero_error_rejected m _ cfg v 0 (fun _ _ => rfl) ⟨x, hx, h1⟩
  | minStep => exact .inl rfl
  | maxLoops => exact .inr (.inl rfl)
  | @raised j h' e hj hrej he =>
    rcases m.oneTrial_const hm g h' u with ⟨he', hc⟩ | ⟨v, hv⟩
    · rw [he'] at he
      obtain rfl : PyErr.linAlgError = e := by simpa using he
      exact .inr (.inr ⟨rfl, h', hc⟩)
    · rw [hv] at he; simp at he

/-- **C93.** With constant `nl_func` IF34, ETD34 and ETD35 cannot make a step: `MinimumStepReached` or `MaxLoopsExceeded`, unless the
coefficients cannot be computed (possible for the full-matrix ETD strategies only). -/
theorem C93_adaptive_step (m : ASSolver ι) (hm : ∀ L, m ≠ .if45dp L) (g : Vec ι) (rnd : ℝ → ℝ) (cfg : SolverConfig ℝ) (u : Vec ι) (h : ℝ)
    (hh : 0 ≤ h) :
    let r := (m.step (fun _ => .ok g) rnd cfg u h m.new).1
    r = .error .minimumStepReached ∨ r = .error .maxLoopsExceeded ∨ (r = .error .linAlgError ∧ ∃ h, ¬ m.CoefOk h) :=
  m.stepSpec_const hm g rnd cfg u h (m.step_new_spec _ rnd cfg u h hh)

/-- **C93.** `evolve` of IF34, ETD34 and ETD35 with constant `nl_func` never succeeds, in whatever state the object is: the object then
holds the initial state only. -/
theorem C93_adaptive_evolve (m : ASSolver ι) (hm : ∀ L, m ≠ .if45dp L) (g : Vec ι) (pyDiv : Bool) (cfg : SolverConfig ℝ) (fuel : ℕ)
    (hfuel : 0 < fuel) (u : Vec ι) (t0 tf : ℝ) (ht : t0 < tf) (hInit : Option ℝ) (storeData : Bool) (freq : ℤ)
    (s : m.State) :
    let r := (m.evolve (fun _ => .ok g) id pyDiv cfg fuel u t0 tf hInit storeData freq s).1
    (∀ v, r ≠ .ok v) ∧
    (r = .error .minimumStepReached ∨ r = .error .maxLoopsExceeded ∨ (r = .error .assertionError ∧ ∃ h, hInit = some h ∧ h < 0) ∨
      (r = .error .linAlgError ∧ ∃ h, ¬ m.CoefOk h)) ∧
    (m.evolve (fun _ => .ok g) id pyDiv cfg fuel u t0 tf hInit storeData freq s).2.t =
      (if storeData then [t0] else []) := by
  intro r
  obtain ⟨n, tm, st, hp, hu, h1, h2, h3, h4, h5, h6, h7, h8⟩ := ASClass.evolve_run (m.lawful fun _ => .ok g) id pyDiv cfg
    fuel u t0 tf hInit storeData freq s
  have hn : n = 0 := by
    rw [← Nat.le_zero]; by_contra hc
    obtain ⟨-, hs, h9, -⟩ := h4.step 0 (by omega)
    rcases m.stepSpec_const hm g id cfg _ _ h9 with h | h | h <;> simp at h
  subst hn
  refine ⟨?_, ?_, ?_⟩
  · intro v hv
    change (m.evolve _ _ _ _ _ _ _ _ _ _ _ _).1 = _ at hv
    unfold ASSolver.evolve at hv
    rw [hv] at h7
    cases h7 with
    | running hf => omega
    | returned _ hf => exact hf (by rw [h1]; exact ht)
  · change ASClass.LoopEnd _ _ _ _ _ _ _ _ _ _ _ _ _ _ r at h7
    clear_value r
    cases h7 with
    | running hf => omega
    | returned _ hf => exact absurd (by rw [h1]; exact ht) hf
    | stepRaised _ _ _ h9 =>
      rcases m.stepSpec_const hm g id cfg _ _ h9 with h | h | h
      · exact .inl (by simpa using h)
      · exact .inr (.inl (by simpa using h))
      · exact .inr (.inr (.inr (by simpa using h)))
    | negative _ _ hneg =>
      refine .inr (.inr (.inl ⟨rfl, ?_⟩))
      rw [h3] at hneg
      unfold ASClass.firstSize limitTo at hneg
      simp only [id] at hneg
      cases hInit with
      | none => split at hneg <;> simp at hneg <;> linarith
      | some h =>
        refine ⟨h, rfl, ?_⟩
        split at hneg
        · linarith
        · exact hneg
    | zeroDiv _ _ _ h9 => rcases m.stepSpec_const hm g id cfg _ _ h9 with h | h | h <;> simp at h
  · unfold ASSolver.evolve
    rw [h5]
    simp [storedUpTo, h1]

/-! ### IF45DP -/

theorem if45dp_free (g u : Vec ι) (h : ℝ) : ((ASSolver.if45dp (0 : Vec ι)).trial (total fun _ => g) u h (ASSolver.if45dp 0).new).1 =
    .ok (u + (h : ℂ) • g, -((9 / 320 * h : ℝ) : ℂ) • g) := by
  have h0 := (ASSolver.if45dp (0 : Vec ι)).withModes_trial 0 (fun _ => g) u h
  refine h0.trans ?_
  have h1 := ERK.step_const ((ASSolver.if45dp (0 : Vec ι)).method h) (nl := total fun _ => g) (g := g) (fun _ => rfl) u
  rw [ERK.step_eq_run, Except.ok.injEq] at h1
  show Except.ok (((ASSolver.if45dp (0 : Vec ι)).method h).run (fun _ => g) u) = _
  rw [h1]
  have hE : ∀ θ, expm (Matrix.diagonal (0 : Vec ι)) θ = 1 := fun θ => by simp [expm]
  have hB : ∑ j ∈ Finset.range 7, (lawson (dpWith (17 / 1920)) (Matrix.diagonal (0 : Vec ι)) h).B j = (h : ℂ) • 1 := by
    simp only [Finset.sum_range_succ, Finset.sum_range_zero, lawson, dpWith, dormandPrince, hE, ← add_smul, zero_add, zero_smul]
    push_cast
    congr 1
    ring
  have hR : ∑ j ∈ Finset.range 7, (lawson (dpWith (17 / 1920)) (Matrix.diagonal (0 : Vec ι)) h).R j = -((9 / 320 * h : ℝ) : ℂ) • 1 := by
    simp only [Finset.sum_range_succ, Finset.sum_range_zero, lawson, dpWith, dormandPrince, hE, ← add_smul, zero_add, zero_smul]
    norm_num
    module
  have hB' : ∑ j ∈ Finset.range ((ASSolver.if45dp (0 : Vec ι)).method h).s, ((ASSolver.if45dp (0 : Vec ι)).method h).B j = (h : ℂ) • 1 := hB
  have hR' : ∑ j ∈ Finset.range ((ASSolver.if45dp (0 : Vec ι)).method h).s, ((ASSolver.if45dp (0 : Vec ι)).method h).R j =
    -((9 / 320 * h : ℝ) : ℂ) • 1 := hR
  have hEo : ((ASSolver.if45dp (0 : Vec ι)).method h).Eout = 1 := hE h
  rw [hB', hR', hEo, smul_mulVec, smul_mulVec, one_mulVec, one_mulVec]

theorem selNorm_smul (c : ℝ) (v w : Vec ι) (a : ℂ) : selNorm c v (a • w) = ‖a‖ * selNorm c v w := by
  unfold selNorm
  simp only [Pi.smul_apply, smul_eq_mul, norm_mul, mul_pow, ← Finset.mul_sum]
  rw [Real.sqrt_mul (by positivity), Real.sqrt_sq (norm_nonneg a)]

/-- **C93.** IF45DP on `u' = g`: a trial finds the exact solution `u + h g`, but its error estimate is `9 h g / 320`, so it is accepted
only if `9 h ‖g‖ / 320` is at most `safety_f^5 epsilon ‖u + h g‖` (norms over the components that count): the size of steps is
proportional to `epsilon` although the result is exact. -/
theorem C93_if45dp (g u : Vec ι) {h : ℝ} (hh : 0 ≤ h) {cfg : SolverConfig ℝ} (heps : 0 < cfg.epsilon) (hs : 0 < cfg.safety_f) :
    ((ASSolver.if45dp (0 : Vec ι)).trial (total fun _ => g) u h (ASSolver.if45dp 0).new).1 =
      .ok (u + (h : ℂ) • g, -((9 / 320 * h : ℝ) : ℂ) • g) ∧
    (Acceptable ((ASSolver.if45dp (0 : Vec ι)).factor (total fun _ => g) cfg (u + (h : ℂ) • g, -((9 / 320 * h : ℝ) : ℂ) • g)) ↔
      0 < h * selNorm cfg.adapt_cutoff (u + (h : ℂ) • g) g ∧ 9 / 320 * h * selNorm cfg.adapt_cutoff (u + (h : ℂ) • g) g ≤
        cfg.safety_f ^ 5 * cfg.epsilon * selNorm cfg.adapt_cutoff (u + (h : ℂ) • g) (u + (h : ℂ) • g)) := by
  refine ⟨if45dp_free g u h, ?_⟩
  rw [ASSolver.factor_eq, acceptable_iff (ASSolver.q_pos _) heps hs]
  have hn : ‖-((9 / 320 * h : ℝ) : ℂ)‖ = 9 / 320 * h := by
    rw [norm_neg, Complex.norm_real, Real.norm_of_nonneg (by positivity)]
  rw [selNorm_smul, hn]
  refine and_congr ?_ Iff.rfl
  rw [mul_assoc, mul_pos_iff_of_pos_left (by norm_num)]

/-- **C93.** The sizes IF45DP's `step` returns for `u' = g`, whatever it is asked for. -/
theorem C93_if45dp_step (g u : Vec ι) {h : ℝ} (hh : 0 < h) {cfg : SolverConfig ℝ} (heps : 0 < cfg.epsilon) (hs : 0 < cfg.safety_f)
    (hd : cfg.decr_f < 1) (hm : 0 < cfg.minh) {v : Vec ι} {h' hn : ℝ}
    (hok : ((ASSolver.if45dp (0 : Vec ι)).step (total fun _ => g) id cfg u h (ASSolver.if45dp 0).new).1 = .ok (v, h', hn)) :
    v = u + (h' : ℂ) • g ∧ 9 / 320 * h' * selNorm cfg.adapt_cutoff v g ≤ cfg.safety_f ^ 5 * cfg.epsilon * selNorm cfg.adapt_cutoff v v := by
  rw [C07_step_iff _ _ _ _ _ _ hh.le] at hok
  generalize hr : (Except.ok (v, h', hn) : Except PyErr (Vec ι × ℝ × ℝ)) = r at hok
  cases hok with
  | @accept j a x w hj hrej hw hx h1 =>
    rw [Except.ok.injEq, Prod.mk.injEq, Prod.mk.injEq] at hr
    obtain ⟨rfl, rfl, -⟩ := hr
    have h0 : 0 < h' := (hrej.size hd hm hh).1
    obtain ⟨t1, t2⟩ := C93_if45dp g u h0.le heps hs
    rw [t1, Except.ok.injEq] at hw
    subst hw
    exact ⟨rfl, (t2.mp ⟨x, hx, h1⟩).2⟩
  | minStep => simp at hr
  | maxLoops => simp at hr
  | raised => simp at hr

/-! ### IF4 -/

/-- The result of IF4, mode by mode. -/
noncomputable def forcedIF4 (L g : Vec ι) (h : ℝ) (u : Vec ι) : Vec ι := fun i =>
  Complex.exp (h * L i) * u i + h / 6 * (Complex.exp (h * L i) + 4 * Complex.exp (h * L i / 2) + 1) * g i

theorem if4_forced (L g : Vec ι) (h : ℝ) (u : Vec ι) : (((CSSolver.if4 (.diag L)).method h).run (fun _ => g) u).1 = forcedIF4 L g h u := by
  have h1 := ERK.step_const ((CSSolver.if4 (.diag L)).method h) (nl := total fun _ => g) (g := g) (fun _ => rfl) u
  rw [ERK.step_eq_run, Except.ok.injEq] at h1
  rw [h1]
  have hB : ∑ j ∈ Finset.range ((CSSolver.if4 (.diag L)).method h).s, ((CSSolver.if4 (.diag L)).method h).B j =
      Matrix.diagonal fun i => h / 6 * (Complex.exp (h * L i) + 4 * Complex.exp (h * L i / 2) + 1) := by
    show ∑ j ∈ Finset.range 5, (lawson rk4 (Matrix.diagonal L) h).B j = _
    simp only [Finset.sum_range_succ, Finset.sum_range_zero, lawson, rk4, expm_diag, zero_add]
    ext i j
    by_cases hij : i = j
    · subst hij
      simp only [Matrix.add_apply, Matrix.smul_apply, Matrix.diagonal_apply_eq, smul_eq_mul]
      have e1 : (((1 - 0) * h : ℝ) : ℂ) * L i = h * L i := by push_cast; ring
      have e2 : (((1 - 1 / 2) * h : ℝ) : ℂ) * L i = h * L i / 2 := by push_cast; ring
      have e3 : (((1 - 1) * h : ℝ) : ℂ) * L i = 0 := by push_cast; ring
      rw [e1, e2, e3, Complex.exp_zero]
      push_cast
      ring
    · simp only [Matrix.add_apply, Matrix.smul_apply, Matrix.diagonal_apply_ne _ hij, smul_zero, add_zero]
  rw [hB]
  show expm (Matrix.diagonal L) h *ᵥ u + _ = _
  rw [expm_diag]
  funext i
  simp only [Pi.add_apply, mulVec_diagonal, forcedIF4]

/-- **C93.** A step of IF4 with constant `nl_func`: Simpson's rule for the integral of the forcing. -/
theorem C93_if4_step (L g u : Vec ι) {h : ℝ} (hh : 0 ≤ h) :
    ((CSSolver.if4 (.diag L)).step (total fun _ => g) u h (CSSolver.if4 (.diag L)).new).1 = .ok fun i =>
      Complex.exp (h * L i) * u i + h / 6 * (Complex.exp (h * L i) + 4 * Complex.exp (h * L i / 2) + 1) * g i := by
  have := (CSSolver.if4 (.diag L)).withModes_step L (fun _ => g) u hh
  refine this.trans ?_
  exact congrArg Except.ok (if4_forced L g h u)

/-- **C93.** Long runs of IF4 with constant `nl_func`: a decaying mode does not tend to its equilibrium `-g / L`, but to that times
`shiftIF4 (h L)`, from every initial array. -/
theorem C93_if4_equilibrium (L g u : Vec ι) {h : ℝ} (hh : 0 < h) (t0 : ℝ) (storeData : Bool) (freq : ℤ) (hq : storeData = true → freq ≠ 0)
    (s : (CSSolver.if4 (.diag L)).State) : ∃ x : ℕ → Vec ι,
      (∀ k fuel : ℕ, 0 < k → k < fuel →
        ((CSSolver.if4 (.diag L)).evolve (total fun _ => g) id false fuel u t0 (t0 + k * h) h storeData freq s).1 = .ok (some (x k))) ∧
      ∀ i, (L i).re < 0 → Tendsto (fun k => x k i) atTop (𝓝 (shiftIF4 (h * L i) * (-g i / L i))) := by
  refine ⟨fun k => (forcedIF4 L g h)^[k] u, fun k fuel hk hf => ?_, fun i hi => ?_⟩
  · have hc : ⌈(t0 + k * h - t0) / h⌉₊ = k := by
      rw [add_sub_cancel_left, mul_div_cancel_right₀ _ hh.ne', Nat.ceil_natCast]
    have hk1 : (1 : ℝ) ≤ k := by exact_mod_cast hk
    have := (CSSolver.if4 (.diag L)).withModes_evolve L (fun _ => g) false u t0 (t0 + k * h) h storeData freq hh (by nlinarith) hq
      (by simp) s fuel (by rw [hc]; exact hf)
    refine this.trans ?_
    rw [hc]
    congr 2
    exact congrArg (fun F : Vec ι → Vec ι => F^[k] u) (funext fun v => if4_forced L g h v)
  · have hL : L i ≠ 0 := fun h0 => by simp [h0] at hi
    have hn : ‖Complex.exp (h * L i)‖ < 1 := by
      rw [Complex.norm_exp, Complex.re_ofReal_mul, Real.exp_lt_one_iff]
      exact mul_neg_of_pos_of_neg hh hi
    have hE : Complex.exp (h * L i) - 1 ≠ 0 := fun h0 => by
      rw [sub_eq_zero.mp h0, norm_one] at hn
      exact lt_irrefl _ hn
    have hfix : ∀ k, ((forcedIF4 L g h)^[k] u) i = shiftIF4 (h * L i) * (-g i / L i) +
        Complex.exp (h * L i) ^ k * (u i - shiftIF4 (h * L i) * (-g i / L i)) := by
      intro k
      induction k with
      | zero => simp
      | succ k ih =>
        rw [Function.iterate_succ_apply']
        simp only [forcedIF4, ih]
        unfold shiftIF4
        field_simp
        ring
    simp only [hfix]
    simpa using ((tendsto_pow_atTop_nhds_zero_of_norm_lt_one hn).mul_const _).const_add (shiftIF4 (h * L i) * (-g i / L i))

theorem pos_of_deriv {F F' : ℝ → ℝ} (h0 : F 0 = 0) (hF : ∀ y, HasDerivAt F (F' y) y) (h' : ∀ y, 0 < y → 0 < F' y) {y : ℝ} (hy : 0 < y) :
    0 < F y := by
  have : StrictMonoOn F (Set.Ici 0) := strictMonoOn_of_deriv_pos (convex_Ici 0) (fun y _ => (hF y).continuousAt.continuousWithinAt)
    fun y hy => by
      rw [interior_Ici] at hy
      rw [(hF y).deriv]
      exact h' y hy
  rw [← h0]
  exact this Set.self_mem_Ici hy.le hy

/-- Simpson's rule overestimates the integral of `cosh`. -/
theorem sinh_lt_simpson {y : ℝ} (hy : 0 < y) : 3 * Real.sinh y < y * (Real.cosh y + 2) := by
  have h3 : ∀ y : ℝ, 0 < y → 0 < y * Real.sinh y := fun y hy => mul_pos hy (Real.sinh_pos_iff.mpr hy)
  have h2 : ∀ y : ℝ, 0 < y → 0 < y * Real.cosh y - Real.sinh y := fun y hy =>
    pos_of_deriv (F := fun y => y * Real.cosh y - Real.sinh y) (F' := fun y => y * Real.sinh y) (by simp)
      (fun y => by
        have := ((hasDerivAt_id y).mul (Real.hasDerivAt_cosh y)).sub (Real.hasDerivAt_sinh y)
        refine this.congr_deriv ?_
        simp) h3 hy
  have h1 : ∀ y : ℝ, 0 < y → 0 < y * Real.sinh y - 2 * Real.cosh y + 2 := fun y hy =>
    pos_of_deriv (F := fun y => y * Real.sinh y - 2 * Real.cosh y + 2) (F' := fun y => y * Real.cosh y - Real.sinh y) (by simp)
      (fun y => by
        have := (((hasDerivAt_id y).mul (Real.hasDerivAt_sinh y)).sub ((Real.hasDerivAt_cosh y).const_mul 2)).add_const 2
        refine this.congr_deriv ?_
        simp; ring) h2 hy
  have h0 := pos_of_deriv (F := fun y => y * Real.cosh y + 2 * y - 3 * Real.sinh y) (F' := fun y => y * Real.sinh y - 2 * Real.cosh y + 2)
    (by simp) (fun y => by
        have := (((hasDerivAt_id y).mul (Real.hasDerivAt_cosh y)).add ((hasDerivAt_id y).const_mul 2)).sub ((Real.hasDerivAt_sinh y).const_mul 3)
        refine this.congr_deriv ?_
        simp; ring) h1 hy
  linarith

/-- **C93.** For real decaying modes the factor is real, greater than 1, and at least `h |L| / 6`: IF4 always overestimates the
equilibrium, without bound for stiff modes. -/
theorem C93_shift {x : ℝ} (hx : 0 < x) : ∃ r : ℝ, shiftIF4 (-x) = r ∧ 1 < r ∧ x / 6 ≤ r := by
  have he : Real.exp (-x) < 1 := Real.exp_lt_one_iff.mpr (by linarith)
  have hd : 0 < 6 * (1 - Real.exp (-x)) := by linarith
  refine ⟨x * (Real.exp (-x) + 4 * Real.exp (-x / 2) + 1) / (6 * (1 - Real.exp (-x))), ?_, ?_, ?_⟩
  · unfold shiftIF4
    push_cast
    have h1 : (6 * (Complex.exp (-x) - 1) : ℂ) = -(6 * (1 - Complex.exp (-x))) := by ring
    rw [h1, div_neg, ← neg_div]
    congr 1
    ring
  · rw [lt_div_iff₀ hd, one_mul]
    have h1 := sinh_lt_simpson (half_pos hx)
    rw [Real.sinh_eq, Real.cosh_eq] at h1
    have e1 : Real.exp (-x) = Real.exp (-(x / 2)) * Real.exp (-(x / 2)) := by rw [← Real.exp_add]; congr 1; ring
    have e2 : Real.exp (-x / 2) = Real.exp (-(x / 2)) := by congr 1; ring
    have e3 : Real.exp (x / 2) * Real.exp (-(x / 2)) = 1 := by rw [← Real.exp_add]; simp
    rw [e1, e2]
    have h2 := mul_lt_mul_of_pos_right h1 (Real.exp_pos (-(x / 2)))
    set a := Real.exp (x / 2)
    set b := Real.exp (-(x / 2))
    have h4 : 3 * ((a - b) / 2) * b = 3 / 2 * (a * b - b * b) := by ring
    have h5 : x / 2 * ((a + b) / 2 + 2) * b = x / 4 * (a * b + b * b + 4 * b) := by ring
    rw [h4, h5, e3] at h2
    linarith
  · rw [le_div_iff₀ hd]
    have h1 := Real.exp_pos (-x)
    have h2 := Real.exp_pos (-x / 2)
    nlinarith [mul_pos hx h1, mul_pos hx h2]

/-- `C93_adaptive_step`, `C93_adaptive_evolve`: the forced decay `u' = -u + 1`. -/
example (cfg : SolverConfig ℝ) (u : Vec (Fin 1)) (s : (ASSolver.etd35 ⟨1, 32, 1⟩ (.diag (-1 : Vec (Fin 1)))).State) :
    (((ASSolver.if34 (.diag (-1 : Vec (Fin 1)))).step (fun _ => .ok 1) id cfg u 1 (ASSolver.if34 (.diag (-1))).new).1 = .error .minimumStepReached ∨
      ((ASSolver.if34 (.diag (-1 : Vec (Fin 1)))).step (fun _ => .ok 1) id cfg u 1 (ASSolver.if34 (.diag (-1))).new).1 = .error .maxLoopsExceeded) ∧
    ∀ v, ((ASSolver.etd35 ⟨1, 32, 1⟩ (.diag (-1 : Vec (Fin 1)))).evolve (fun _ => .ok 1) id true cfg 10 u 0 1 none true 1 s).1 ≠ .ok v := by
  refine ⟨?_, (C93_adaptive_evolve (.etd35 ⟨1, 32, 1⟩ (.diag (-1))) (fun L h => by cases h) 1 true cfg 10 (by norm_num) u 0 1 one_pos none true 1 s).1⟩
  rcases C93_adaptive_step (.if34 (.diag (-1 : Vec (Fin 1)))) (fun L h => by cases h) 1 id cfg u 1 zero_le_one with h | h | ⟨-, h', hc⟩
  · exact .inl h
  · exact .inr h
  · exact absurd trivial hc

/-- `C93_if4_step`, `C93_if4_equilibrium`, `C93_shift`: for `u' = -60 u + 60` and `h = 1` IF4 tends to a value of at least 10, not to 1. -/
example (u : Vec (Fin 1)) (s : (CSSolver.if4 (.diag fun _ : Fin 1 => (-60 : ℂ))).State) :
    ((CSSolver.if4 (.diag fun _ : Fin 1 => (-60 : ℂ))).step (total fun _ _ => 60) u 1 (CSSolver.if4 (.diag fun _ : Fin 1 => (-60 : ℂ))).new).1 =
      .ok (fun i => Complex.exp ((1 : ℝ) * -60) * u i + (1 : ℝ) / 6 * (Complex.exp ((1 : ℝ) * -60) + 4 * Complex.exp ((1 : ℝ) * -60 / 2) + 1) * 60) ∧
    ∃ (x : ℕ → Vec (Fin 1)) (r : ℝ), 10 ≤ r ∧ (∀ k fuel : ℕ, 0 < k → k < fuel →
      ((CSSolver.if4 (.diag fun _ : Fin 1 => (-60 : ℂ))).evolve (total fun _ _ => 60) id false fuel u 0 (0 + k * 1) 1 true 1 s).1 = .ok (some (x k))) ∧
      Tendsto (fun k => x k 0) atTop (𝓝 r) := by
  refine ⟨C93_if4_step _ _ _ zero_le_one, ?_⟩
  obtain ⟨x, h1, h2⟩ := C93_if4_equilibrium (fun _ : Fin 1 => (-60 : ℂ)) (fun _ => 60) u one_pos 0 true 1 (by simp) s
  obtain ⟨r, h3, -, h4⟩ := C93_shift (x := 60) (by norm_num)
  refine ⟨x, r, by linarith, h1, ?_⟩
  have h5 := h2 0 (by norm_num)
  have e : (((1 : ℝ) : ℂ) * -60) = -((60 : ℝ) : ℂ) := by norm_num
  rw [e, h3] at h5
  have e2 : (r : ℂ) * (-60 / -60) = r := by norm_num
  rwa [e2] at h5

/-- `u' = 1` from `u = 1` with the default `epsilon`, `safety_f` and `adapt_cutoff`: IF45DP accepts a trial of size `1/1000`, but never
one above `1/850`, although every trial is exact. -/
example (cfg : SolverConfig ℝ) (he : cfg.epsilon = 1 / 10000) (hs : cfg.safety_f = 4 / 5) (hc : cfg.adapt_cutoff = 1 / 100)
    (hd : cfg.decr_f = 17 / 20) (hm : 0 < cfg.minh) :
    Acceptable ((ASSolver.if45dp (0 : Vec (Fin 1))).factor (total fun _ => 1) cfg (1 + ((1 / 1000 : ℝ) : ℂ) • 1, -((9 / 320 * (1 / 1000) : ℝ) : ℂ) • 1)) ∧
    ∀ h > 0, ∀ v h' hn, ((ASSolver.if45dp (0 : Vec (Fin 1))).step (total fun _ => 1) id cfg 1 h (ASSolver.if45dp 0).new).1 = .ok (v, h', hn) →
      v = 1 + (h' : ℂ) • 1 ∧ h' ≤ 1 / 850 := by
  have key : ∀ a : ℝ, 0 ≤ a → selNorm (1 / 100) (1 + (a : ℂ) • (1 : Vec (Fin 1))) 1 = 1 ∧
      selNorm (1 / 100) (1 + (a : ℂ) • (1 : Vec (Fin 1))) (1 + (a : ℂ) • 1) = 1 + a := by
    intro a ha
    have hv : (1 + (a : ℂ) • (1 : Vec (Fin 1))) 0 = ((1 + a : ℝ) : ℂ) := by simp
    have hv0 : (1 + (a : ℂ) • (1 : Vec (Fin 1))) 0 ≠ 0 := by
      rw [hv, Ne, Complex.ofReal_eq_zero]
      positivity
    rw [selNorm_one _ (by norm_num) _ _ hv0, selNorm_one _ (by norm_num) _ _ hv0, hv, Complex.norm_real, Real.norm_of_nonneg (by positivity)]
    simp
  constructor
  · refine (C93_if45dp 1 1 (by norm_num) (by rw [he]; norm_num) (by rw [hs]; norm_num)).2.mpr ?_
    rw [hc, (key (1 / 1000) (by norm_num)).1, (key (1 / 1000) (by norm_num)).2, he, hs]
    norm_num
  · intro h hh v h' hn hok
    obtain ⟨rfl, h2⟩ := C93_if45dp_step 1 1 hh (by rw [he]; norm_num) (by rw [hs]; norm_num) (by rw [hd]; norm_num) hm hok
    refine ⟨rfl, ?_⟩
    by_contra hlt
    push Not at hlt
    have h0 : 0 ≤ h' := by linarith
    rw [hc, (key h' h0).1, (key h' h0).2, he, hs] at h2
    norm_num at h2
    linarith

end Verif
