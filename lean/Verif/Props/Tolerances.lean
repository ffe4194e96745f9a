import Verif.Props.StepGrowth
import Verif.Lemmas.Relate

/-!
# C101: `epsilon` and `safety_f` are one parameter; what `incr_f` and `decr_f` affect
-/

set_option linter.unusedSectionVars false

namespace Verif

namespace ASClass

variable {K V Sub : Type} [Field K] [LinearOrder K] {C : ASClass K V Sub} {cfg cfg' : SolverConfig K}

theorem stepLoop_settings (hS : ∀ a b, C.computeS cfg' a b = C.computeS cfg a b) (hd : cfg'.decr_f = cfg.decr_f)
    (hi : cfg'.incr_f = cfg.incr_f) (hm : cfg'.minh = cfg.minh) (rnd : K → K) (u : V) :
    ∀ (k n : ℕ) (h : K), MAX_LOOPS + 1 - n = k → C.stepLoop rnd cfg' u n h = C.stepLoop rnd cfg u n h := by
  have hr : (rejectStepSize cfg' : Ext K → K → PyM (ASState K V Sub) K) = rejectStepSize cfg := by
    funext s h; unfold rejectStepSize; rw [hd]
  have ha : (acceptStepSize cfg' : K → K → PyM (ASState K V Sub) K) = acceptStepSize cfg := by
    funext s h; unfold acceptStepSize; rw [hi]
  intro k
  induction k with
  | zero =>
    intro n h hn
    rw [stepLoop, stepLoop]
    have hgt : n + 1 > MAX_LOOPS := by omega
    simp only [hS, hr, ha, hm, if_pos hgt]
  | succ k ih =>
    intro n h hn
    rw [stepLoop, stepLoop]
    simp only [hS, hr, ha, hm, fun h => ih (n + 1) h (by omega)]

theorem step_settings (hS : ∀ a b, C.computeS cfg' a b = C.computeS cfg a b) (hd : cfg'.decr_f = cfg.decr_f)
    (hi : cfg'.incr_f = cfg.incr_f) (hm : cfg'.minh = cfg.minh) (rnd : K → K) (u : V) (h : K) :
    C.step rnd cfg' u h = C.step rnd cfg u h := by
  unfold step
  rw [stepLoop_settings hS hd hi hm rnd u _ 0 h rfl]

theorem loop_settings (hS : ∀ a b, C.computeS cfg' a b = C.computeS cfg a b) (hd : cfg'.decr_f = cfg.decr_f)
    (hi : cfg'.incr_f = cfg.incr_f) (hm : cfg'.minh = cfg.minh) (rnd : K → K) (pyDiv storeData : Bool) (freq : ℤ) :
    ∀ (fuel : ℕ) (u : V) (h : K) (c : ℕ), C.loop rnd pyDiv cfg' storeData freq fuel u h c = C.loop rnd pyDiv cfg storeData freq fuel u h c := by
  intro fuel
  induction fuel with
  | zero => intros; rfl
  | succ fuel ih =>
    intro u h c
    simp only [loop, step_settings hS hd hi hm, ih]

end ASClass

variable {ι : Type} [Fintype ι] [DecidableEq ι]

theorem computeS_trade (q : ℕ) (hq : q ≠ 0) (cfg : SolverConfig ℝ) {c : ℝ} (hc : 0 < c) (v e : Vec ι) :
    computeS q { cfg with epsilon := cfg.epsilon * c ^ q, safety_f := cfg.safety_f / c } v e = computeS q cfg v e := by
  rw [computeS_eq, computeS_eq]
  simp only
  set N := selNorm cfg.adapt_cutoff v v
  set E := selNorm cfg.adapt_cutoff v e
  have hcq : 0 < c ^ q := pow_pos hc q
  have e1 : cfg.epsilon * c ^ q * N = cfg.epsilon * N * c ^ q := by ring
  have hz : cfg.epsilon * N * c ^ q = 0 ↔ cfg.epsilon * N = 0 := by
    rw [mul_eq_zero]; exact ⟨fun h => h.resolve_right hcq.ne', .inl⟩
  have hp : 0 < cfg.epsilon * N * c ^ q ↔ 0 < cfg.epsilon * N := mul_pos_iff_of_pos_right hcq
  have s0 : cfg.safety_f / c = 0 ↔ cfg.safety_f = 0 := by rw [div_eq_zero_iff]; exact ⟨fun h => h.resolve_right hc.ne', .inl⟩
  have s1 : 0 < cfg.safety_f / c ↔ 0 < cfg.safety_f := div_pos_iff_of_pos_right hc
  rw [e1]
  unfold npDiv
  by_cases hE : E = 0
  · simp only [if_pos hE, hz, hp]
    split_ifs <;> simp only [npPower, npScale, s0, s1]
  · rw [if_neg hE, if_neg hE]
    have e2 : cfg.epsilon * N * c ^ q / E = cfg.epsilon * N / E * c ^ q := by ring
    rw [e2]
    by_cases hn : cfg.epsilon * N / E < 0
    · have hn' : cfg.epsilon * N / E * c ^ q < 0 := mul_neg_of_neg_of_pos hn hcq
      simp only [npPower, if_pos hn, if_pos hn', npScale]
    · have hn0 := not_lt.mp hn
      have hn' : ¬ cfg.epsilon * N / E * c ^ q < 0 := not_lt.mpr (mul_nonneg hn0 hcq.le)
      simp only [npPower, if_neg hn, if_neg hn', npScale, Ext.fin.injEq]
      rw [Real.mul_rpow hn0 hcq.le, one_div, Real.pow_rpow_inv_natCast hc.le hq]
      field_simp

/-- **C101.** `epsilon` and `safety_f` are one parameter: multiplying `epsilon` by `c^q` and dividing `safety_f` by `c` changes nothing,
where `q` is 5 for IF45DP and 4 otherwise. Outcomes and the state of the object are the same, for `step` and for `evolve`. -/
theorem C101_trade (m : ASSolver ι) (q : ℕ) (hq : q = match m with | .if45dp _ => 5 | _ => 4) (nl : NlFunc ι) (rnd : ℝ → ℝ)
    (cfg : SolverConfig ℝ) {c : ℝ} (hc : 0 < c) :
    (∀ (u : Vec ι) (h : ℝ) (s : m.State),
      m.step nl rnd { cfg with epsilon := cfg.epsilon * c ^ q, safety_f := cfg.safety_f / c } u h s = m.step nl rnd cfg u h s) ∧
    ∀ (pyDiv : Bool) (fuel : ℕ) (u : Vec ι) (t0 tf : ℝ) (hInit : Option ℝ) (storeData : Bool) (freq : ℤ) (s : m.State),
      m.evolve nl rnd pyDiv { cfg with epsilon := cfg.epsilon * c ^ q, safety_f := cfg.safety_f / c } fuel u t0 tf hInit storeData freq s =
        m.evolve nl rnd pyDiv cfg fuel u t0 tf hInit storeData freq s := by
  have hq' : q = m.q := by rw [hq]; cases m <;> rfl
  have hS : ∀ a b, (m.cls nl).computeS { cfg with epsilon := cfg.epsilon * c ^ q, safety_f := cfg.safety_f / c } a b =
      (m.cls nl).computeS cfg a b := by
    intro a b
    have h1 := m.factor_eq nl { cfg with epsilon := cfg.epsilon * c ^ q, safety_f := cfg.safety_f / c } (a, b)
    have h2 := m.factor_eq nl cfg (a, b)
    have h3 := computeS_trade m.q m.q_pos.ne' cfg hc a b
    rw [← hq'] at h1 h2 h3
    exact (h1.trans h3).trans h2.symm
  constructor
  · intro u h s
    exact congrFun (ASClass.step_settings (C := m.cls nl) hS rfl rfl rfl rnd u h) s
  · intro pyDiv fuel u t0 tf hInit storeData freq s
    unfold ASSolver.evolve
    rw [ASClass.evolve_apply, ASClass.evolve_apply, ASClass.loop_settings (C := m.cls nl) hS rfl rfl rfl]

theorem RejectsTo.incr {Φ : ℝ → Vec ι → Except PyErr (Vec ι × Vec ι)} {S : Vec ι × Vec ι → Ext ℝ} {cfg : SolverConfig ℝ} {rnd : ℝ → ℝ}
    {u : Vec ι} {y : ℝ} {j : ℕ} {h h' : ℝ} (hr : RejectsTo Φ S cfg rnd u j h h') :
    RejectsTo Φ S { cfg with incr_f := y } rnd u j h h' := by
  induction hr with
  | zero h => exact .zero h
  | succ _ h1 h2 h3 ih => exact RejectsTo.succ (cfg := { cfg with incr_f := y }) ih h1 h2 h3

/-- **C101.** `incr_f` affects the suggested size only: `step` returns the same state and uses the same size, or raises the same exception. -/
theorem C101_incr (m : ASSolver ι) (nl : NlFunc ι) (rnd : ℝ → ℝ) (cfg : SolverConfig ℝ) (y : ℝ) (u : Vec ι) (h : ℝ) :
    RelE (fun r r' => r'.1 = r.1 ∧ r'.2.1 = r.2.1) (m.step nl rnd cfg u h m.new).1 (m.step nl rnd { cfg with incr_f := y } u h m.new).1 := by
  by_cases hh : 0 ≤ h
  · have hf : m.factor nl { cfg with incr_f := y } = m.factor nl cfg := by
      funext r; rw [m.factor_eq, m.factor_eq]; rfl
    have key : ∀ r, StepSpec (m.oneTrial nl) (m.factor nl cfg) cfg rnd u h r →
        ∃ r', StepSpec (m.oneTrial nl) (m.factor nl cfg) { cfg with incr_f := y } rnd u h r' ∧ RelE (fun r r' => r'.1 = r.1 ∧ r'.2.1 = r.2.1) r r' := by
      intro r hr
      cases hr with
      | accept hj hrej hok hy h1 => exact ⟨_, StepSpec.accept (cfg := { cfg with incr_f := y }) hj hrej.incr hok hy h1, rfl, rfl⟩
      | minStep hj hrej hok hy h1 => exact ⟨_, StepSpec.minStep (cfg := { cfg with incr_f := y }) hj hrej.incr hok hy h1, rfl⟩
      | maxLoops hrej hok hy => exact ⟨_, StepSpec.maxLoops (cfg := { cfg with incr_f := y }) hrej.incr hok hy, rfl⟩
      | raised hj hrej hok => exact ⟨_, StepSpec.raised (cfg := { cfg with incr_f := y }) hj hrej.incr hok, rfl⟩
    obtain ⟨r', h1, h2⟩ := key _ (m.step_new_spec nl rnd cfg u h hh)
    rw [← hf] at h1
    rw [(m.stepSpec_iff nl rnd _ u h hh r').mp h1]
    exact h2
  · rw [(C06_trials m nl rnd cfg u h m.new).2.2 (not_le.mp hh), (C06_trials m nl rnd { cfg with incr_f := y } u h m.new).2.2 (not_le.mp hh)]
    exact rfl

/-- **C101.** `decr_f` and `minh` have no effect on a step that uses the proposed size. -/
theorem C101_decr (m : ASSolver ι) (nl : NlFunc ι) (rnd : ℝ → ℝ) (cfg : SolverConfig ℝ) (x y : ℝ) (u v : Vec ι) (h hs : ℝ)
    (hret : (m.step nl rnd cfg u h m.new).1 = .ok (v, h, hs)) :
    (m.step nl rnd { cfg with decr_f := y, minh := x } u h m.new).1 = .ok (v, h, hs) := by
  have hh : 0 ≤ h := by
    by_contra hc
    rw [(C06_trials m nl rnd cfg u h m.new).2.2 (not_le.mp hc)] at hret
    simp at hret
  have hf : m.factor nl { cfg with decr_f := y, minh := x } = m.factor nl cfg := by
    funext r; rw [m.factor_eq, m.factor_eq]; rfl
  rw [← m.stepSpec_iff nl rnd _ u h hh] at hret ⊢
  rw [hf]
  generalize hR : (Except.ok (v, h, hs) : Except PyErr (Vec ι × ℝ × ℝ)) = R at hret ⊢
  cases hret with
  | @accept j h' z r hj hrej hok hz h1 =>
    simp only [Except.ok.injEq, Prod.mk.injEq] at hR
    obtain ⟨-, rfl, -⟩ := hR
    exact StepSpec.accept (cfg := { cfg with decr_f := y, minh := x }) (j := 0) (by norm_num) (.zero _) hok hz h1
  | _ => simp at hR

/-! ### Examples -/

/-- The run of C95 with `epsilon = 16`, `safety_f = 1/2` instead of `1`, `1`. -/
example (s : demo.State) :
    (demo.evolve (fun x => .ok x) id true { demoCfg with minh := 1 / 100, epsilon := 16, safety_f := 1 / 2 } 200 1 0 1 none true 1 s).2.t =
      [0, 1 / 100, 5 / 100, 21 / 100, 85 / 100, 1] := by
  rw [← (demo_five_steps s).2, ← (C101_trade demo 4 rfl (fun x => .ok x) id { demoCfg with minh := 1 / 100 } (c := 2) two_pos).2]
  norm_num [demoCfg]

/-- The concrete step of C07 with other settings. -/
example : (∃ hs, (demo.step (fun x => .ok x) id { demoCfg with incr_f := 100 } 1 1 demo.new).1 = .ok ((65 / 24 : ℂ) • 1, 1, hs)) ∧
    ∃ hs, (demo.step (fun x => .ok x) id { demoCfg with decr_f := 1 / 2, minh := 1 / 2 } 1 1 demo.new).1 = .ok ((65 / 24 : ℂ) • 1, 1, hs) := by
  constructor
  · obtain ⟨⟨b, b1, b2⟩, h1, h2⟩ := (C101_incr demo (fun x => .ok x) id demoCfg 100 1 1).ok demo_step
    simp only at h2
    obtain ⟨rfl, rfl⟩ := h2
    exact ⟨_, h1⟩
  · exact ⟨_, C101_decr demo (fun x => .ok x) id demoCfg _ _ 1 _ 1 _ demo_step⟩

end Verif
