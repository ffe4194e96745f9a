import Verif.Lemmas.ApiAS
import Verif.Lemmas.Controller
import Verif.Lemmas.Factor
import Verif.Lemmas.Witness

/-!
# Adaptive solvers: `step` (properties C06–C10)

`m.trial nl u h m.new` is one trial (solution and error estimate) of a newly constructed object, `m.factor nl cfg` the
error factor of the class.
-/

set_option linter.unusedSectionVars false

namespace Verif

variable {ι : Type} [Fintype ι] [DecidableEq ι]

/-! ### C06 -/

/-- **C06.** For every subclass of `BaseSolverAS` whatsoever (arbitrary stages, error estimator and state): `step`
makes at most 51 trials, and at least one unless the size is negative, in which case `AssertionError` is raised. -/
theorem C06_trials_any {K V Sub : Type} [Field K] [LinearOrder K] (C : ASClass K V Sub) (rnd : K → K)
    (cfg : SolverConfig K) (u : V) (h : K) (s : ASState K V Sub) :
    (C.step rnd cfg u h s).2.trials ≤ s.trials + 51 ∧
    (0 ≤ h → s.trials + 1 ≤ (C.step rnd cfg u h s).2.trials) ∧
    (h < 0 → C.step rnd cfg u h s = (.error .assertionError, s)) := by
  by_cases hh : 0 ≤ h
  · rw [ASClass.step_nonneg _ _ _ _ hh]
    obtain ⟨h1, h2⟩ := ASClass.stepLoop_trials (C := C) rnd cfg u MAX_LOOPS 0 h s rfl (Nat.zero_le _)
    exact ⟨h1, fun _ => h2, fun hc => absurd hh (not_le.mpr hc)⟩
  · rw [ASClass.step_neg _ _ _ _ hh]
    exact ⟨by simp, fun hc => absurd hc hh, fun _ => rfl⟩

/-- **C06.** The bound for the public solvers, in any state of the object, with or without rounding. -/
theorem C06_trials (m : ASSolver ι) (nl : NlFunc ι) (rnd : ℝ → ℝ) (cfg : SolverConfig ℝ) (u : Vec ι) (h : ℝ)
    (s : m.State) :
    (m.step nl rnd cfg u h s).2.trials ≤ s.trials + 51 ∧
    (0 ≤ h → s.trials + 1 ≤ (m.step nl rnd cfg u h s).2.trials) ∧
    (h < 0 → m.step nl rnd cfg u h s = (.error .assertionError, s)) :=
  C06_trials_any (m.cls nl) rnd cfg u h s

/-- The accepted step of `demo` needs between 1 and 51 trials. -/
example : 1 ≤ (demo.step (fun x => .ok x) id demoCfg 1 1 demo.new).2.trials ∧
    (demo.step (fun x => .ok x) id demoCfg 1 1 demo.new).2.trials ≤ 51 := by
  have h := C06_trials demo (fun x => .ok x) id demoCfg 1 1 demo.new
  exact ⟨h.2.1 (by norm_num), h.1⟩

/-- 51 trials are needed when none is acceptable and the minimum size is small. -/
theorem ASClass.stepLoop_all_rejected {K V Sub : Type} [Field K] [LinearOrder K] [IsStrictOrderedRing K]
    (C : ASClass K V Sub) (cfg : SolverConfig K) (u : V) (hstages : ∀ h a s, ∃ r, (C.updateStages u h a s).1 = .ok r)
    (hrej : ∀ r, C.factor cfg r = .nan) :
    ∀ (d n : ℕ) (h : K) (s : ASState K V Sub), MAX_LOOPS - n = d → n ≤ MAX_LOOPS → cfg.minh * 4 ^ d ≤ h → 0 < h →
      (C.stepLoop id cfg u n h s).1 = .error .maxLoopsExceeded ∧
      (C.stepLoop id cfg u n h s).2.trials = s.trials + d + 1 := by
  intro d
  have hna : ∀ r, ¬ Acceptable (C.factor cfg r) := by
    rintro r ⟨x, hx, -⟩; rw [hrej] at hx; simp at hx
  induction d with
  | zero =>
    intro n h s hd hn hm h0
    obtain ⟨r, hr⟩ := hstages h s.accept s.sub
    rw [ASClass.stepLoop_reject id cfg u n h s r hr (hna r), if_pos (by omega)]
    exact ⟨rfl, by simp [ASClass.afterTrial]⟩
  | succ d ih =>
    intro n h s hd hn hm h0
    obtain ⟨r, hr⟩ := hstages h s.accept s.sub
    have e : id (shrink cfg.decr_f (C.factor cfg r) * h) = 1 / 4 * h := by simp [hrej, shrink]
    have h4 : cfg.minh * 4 ^ d ≤ 1 / 4 * h := by rw [pow_succ] at hm; linarith
    have h4' : cfg.minh ≤ 1 / 4 * h := by
      rcases le_or_gt cfg.minh 0 with hc | hc
      · exact hc.trans (by positivity)
      · have : (1 : K) ≤ 4 ^ d := one_le_pow₀ (by norm_num)
        nlinarith
    rw [ASClass.stepLoop_reject id cfg u n h s r hr (hna r), if_neg (by omega), e, if_neg (not_lt.mpr h4')]
    obtain ⟨i1, i2⟩ := ih (n + 1) (1 / 4 * h) { C.afterTrial u h s with accept := false } (by omega) (by omega) h4
      (by positivity)
    exact ⟨i1, by rw [i2]; simp only [ASClass.afterTrial]; omega⟩

/-- The bound of C06 is attained: a class whose trials never raise and never get a factor. -/
example (u : ℚ) (cfg : SolverConfig ℚ) (hm : cfg.minh = 1 / 4 ^ 50) (s : ASState ℚ ℚ Unit) :
    let C : ASClass ℚ ℚ Unit := ⟨id, fun u h _ s => (.ok (u, h), s), fun _ _ _ => .nan⟩
    (C.step id cfg u 1 s).1 = .error .maxLoopsExceeded ∧ (C.step id cfg u 1 s).2.trials = s.trials + 51 := by
  intro C
  rw [ASClass.step_nonneg _ _ _ _ (by norm_num)]
  exact ASClass.stepLoop_all_rejected C cfg u (fun h a s => ⟨_, rfl⟩) (fun r => rfl) 50 0 1 s rfl (by simp)
    (by rw [hm]; norm_num) (by norm_num)

/-! ### C07 -/

/-- **C07.** What `step` does, exactly: its outcome `r` is the one and only outcome allowed by the specification
`StepSpec` of the trial sequence. -/
theorem C07_step_iff (m : ASSolver ι) (nl : NlFunc ι) (rnd : ℝ → ℝ) (cfg : SolverConfig ℝ) (u : Vec ι) (h : ℝ)
    (hh : 0 ≤ h) (r : Except PyErr (Vec ι × ℝ × ℝ)) :
    (m.step nl rnd cfg u h m.new).1 = r ↔
      StepSpec (fun h u => (m.trial nl u h m.new).1) (m.factor nl cfg) cfg rnd u h r := by
  rw [m.freshTrial_eq nl]
  exact (m.stepSpec_iff nl rnd cfg u h hh r).symm

/-- **C07.** The sizes of consecutive trials strictly decrease and stay above `minh`. -/
theorem C07_sizes_decrease {V : Type} (Φ : ℝ → V → Except PyErr (V × V)) (S : V × V → Ext ℝ) (cfg : SolverConfig ℝ)
    (hd : cfg.decr_f < 1) (hm : 0 < cfg.minh) (u : V) (h : ℝ) (hh : 0 < h) (j k : ℕ) (a b : ℝ) (hjk : j < k)
    (hj : RejectsTo Φ S cfg id u j h a) (hk : RejectsTo Φ S cfg id u k h b) : b < a ∧ cfg.minh ≤ b := by
  obtain ⟨a', ha', hlt⟩ := hk.decreasing hd hm hh j hjk
  rw [hj.det ha']
  exact ⟨hlt, ((hk.size hd hm hh).2.2.2 (by omega)).1⟩

/-- A trial that is always refused with the factor NaN is shrunk by `1/4`. -/
example : let cfg : SolverConfig ℝ := ⟨1, 5 / 4, 17 / 20, 1 / 2, 1 / 100, 1 / 10 ^ 16⟩
    RejectsTo (fun _ u => .ok (u, u)) (fun _ : ℝ × ℝ => .nan) cfg id 1 1 1 (1 / 4) ∧
    RejectsTo (fun _ u => .ok (u, u)) (fun _ : ℝ × ℝ => .nan) cfg id 1 2 1 (1 / 16) ∧
    (1 / 16 : ℝ) < 1 / 4 ∧ cfg.minh ≤ 1 / 16 := by
  intro cfg
  have h1 : RejectsTo (fun _ u => .ok (u, u)) (fun _ : ℝ × ℝ => Ext.nan) cfg id 1 1 1 (1 / 4) := by
    have := RejectsTo.succ (Φ := fun _ u => .ok (u, u)) (S := fun _ : ℝ × ℝ => Ext.nan) (cfg := cfg) (rnd := id) (u := 1)
      (RejectsTo.zero 1) rfl (by rintro ⟨x, hx, -⟩; simp at hx) (by norm_num [shrink, cfg])
    simpa [shrink] using this
  have h2 : RejectsTo (fun _ u => .ok (u, u)) (fun _ : ℝ × ℝ => Ext.nan) cfg id 1 2 1 (1 / 16) := by
    have := RejectsTo.succ h1 rfl (by rintro ⟨x, hx, -⟩; simp at hx) (by norm_num [shrink, cfg])
    norm_num [shrink] at this
    exact this
  exact ⟨h1, h2, C07_sizes_decrease _ _ cfg (by norm_num [cfg]) (by norm_num [cfg]) 1 1 (by norm_num) 1 2 _ _ (by norm_num) h1 h2⟩

/-- **C07.** `MaxLoopsExceeded` is raised exactly when 51 consecutive trials are rejected (and no reduced size before
was below `minh`), if `nl_func` does not raise it itself. -/
theorem C07_maxLoops_iff (m : ASSolver ι) (nl : NlFunc ι) (hnl : ∀ x, nl x ≠ .error .maxLoopsExceeded) (rnd : ℝ → ℝ)
    (cfg : SolverConfig ℝ) (u : Vec ι) (h : ℝ) (hh : 0 ≤ h) :
    (m.step nl rnd cfg u h m.new).1 = .error .maxLoopsExceeded ↔
      ∃ h' r, RejectsTo (fun h u => (m.trial nl u h m.new).1) (m.factor nl cfg) cfg rnd u 50 h h' ∧
        (m.trial nl u h' m.new).1 = .ok r ∧ ¬ Acceptable (m.factor nl cfg r) := by
  rw [C07_step_iff m nl rnd cfg u h hh]
  constructor
  · intro hs
    generalize hR : (Except.error .maxLoopsExceeded : Except PyErr (Vec ι × ℝ × ℝ)) = R at hs
    cases hs with
    | maxLoops h1 h2 h3 => exact ⟨_, _, h1, h2, h3⟩
    | raised h1 h2 h3 =>
      simp only [Except.error.injEq] at hR; subst hR
      rw [m.trial_new] at h3
      rcases m.oneTrial_error nl _ _ _ h3 with h4 | ⟨x, hx⟩
      · simp at h4
      · exact absurd hx (hnl x)
    | _ => simp at hR
  · rintro ⟨h', r, h1, h2, h3⟩
    exact .maxLoops h1 h2 h3

/-- **C07.** `MinimumStepReached` is raised exactly at a rejected trial (one of the first 50) whose reduced size is below
`minh`, if `nl_func` does not raise it itself. -/
theorem C07_minStep_iff (m : ASSolver ι) (nl : NlFunc ι) (hnl : ∀ x, nl x ≠ .error .minimumStepReached) (rnd : ℝ → ℝ)
    (cfg : SolverConfig ℝ) (u : Vec ι) (h : ℝ) (hh : 0 ≤ h) :
    (m.step nl rnd cfg u h m.new).1 = .error .minimumStepReached ↔
      ∃ j h' r, j < 50 ∧ RejectsTo (fun h u => (m.trial nl u h m.new).1) (m.factor nl cfg) cfg rnd u j h h' ∧
        (m.trial nl u h' m.new).1 = .ok r ∧ ¬ Acceptable (m.factor nl cfg r) ∧
        rnd (shrink cfg.decr_f (m.factor nl cfg r) * h') < cfg.minh := by
  rw [C07_step_iff m nl rnd cfg u h hh]
  constructor
  · intro hs
    generalize hR : (Except.error .minimumStepReached : Except PyErr (Vec ι × ℝ × ℝ)) = R at hs
    cases hs with
    | minStep h1 h2 h3 h4 h5 => exact ⟨_, _, _, h1, h2, h3, h4, h5⟩
    | raised h1 h2 h3 =>
      simp only [Except.error.injEq] at hR; subst hR
      rw [m.trial_new] at h3
      rcases m.oneTrial_error nl _ _ _ h3 with h4 | ⟨x, hx⟩
      · simp at h4
      · exact absurd hx (hnl x)
    | _ => simp at hR
  · rintro ⟨j, h', r, h0, h1, h2, h3, h4⟩
    exact .minStep h0 h1 h2 h3 h4

/-- C07 on a concrete run: IF34 for `u' = u` accepts its first trial with `h = 1` and suggests `4`. -/
example : StepSpec (fun h u => (demo.trial (fun x => .ok x) u h demo.new).1) (demo.factor (fun x => .ok x) demoCfg) demoCfg
    id 1 1 (.ok ((65 / 24 : ℂ) • 1, 1, 4)) :=
  (C07_step_iff demo _ _ _ _ _ (by norm_num) _).mp demo_step

/-! ### C08 -/

/-- **C08.** Sizes of a step that returns, from any state of the object: `sz i` is the size and `f i` the error factor of
trial `i`, trial `j` is the accepted one. -/
theorem C08_step_sizes (m : ASSolver ι) (nl : NlFunc ι) (cfg : SolverConfig ℝ) (hd : cfg.decr_f < 1)
    (hm : 0 < cfg.minh) (u : Vec ι) (h : ℝ) (hh : 0 < h) (s : m.State) (v : Vec ι) (hu hs : ℝ)
    (hret : (m.step nl id cfg u h s).1 = .ok (v, hu, hs)) :
    (0 < hu ∧ hu ≤ h ∧ hu ≤ hs ∧ hs ≤ 4 * hu) ∧
    ∃ (j : ℕ) (sz : ℕ → ℝ) (f : ℕ → Ext ℝ) (x : ℝ),
      j ≤ 50 ∧ (m.step nl id cfg u h s).2.trials = s.trials + j + 1 ∧ sz 0 = h ∧ sz j = hu ∧ f j = .fin x ∧ 1 ≤ x ∧
      (∀ i, i < j → ¬ Acceptable (f i) ∧
        (∃ c, min (1 / 4) cfg.decr_f ≤ c ∧ c ≤ max (1 / 4) cfg.decr_f ∧ sz (i + 1) = c * sz i ∧
          ((∀ y, f i ≠ .fin y) → c = 1 / 4)) ∧ sz (i + 1) < sz i ∧ cfg.minh ≤ sz (i + 1)) ∧
      (hs = if cfg.incr_f < min x 4 then min x 4 * hu else hu) := by
  unfold ASSolver.step at hret ⊢
  rw [ASClass.step_nonneg _ _ _ _ hh.le] at hret ⊢
  obtain ⟨j, sz, f, x, err, i1, i2, i3, i4, i5, i6, -, i8, i9⟩ := ASClass.stepLoop_sizes id cfg u MAX_LOOPS 0 h s v hu hs
    rfl (Nat.zero_le _) hret
  have hpos : ∀ i, i ≤ j → 0 < sz i ∧ sz i ≤ h := by
    intro i
    induction i with
    | zero => intro _; rw [i2]; exact ⟨hh, le_refl _⟩
    | succ i ih =>
      intro hi
      obtain ⟨a1, a2⟩ := ih (by omega)
      obtain ⟨-, b2, b3⟩ := i3 i (by omega)
      have := shrink_lt_one hd (f i)
      simp only [id] at b2
      exact ⟨by linarith, by rw [b2]; nlinarith⟩
  obtain ⟨p1, p2⟩ := hpos j (le_refl _)
  rw [← i4] at p1 p2
  obtain ⟨g1, g2⟩ := grow_bounds (i := cfg.incr_f) i6 p1
  simp only [id] at i8
  rw [← i8] at g1 g2
  refine ⟨⟨p1, p2, g1, g2⟩, j, sz, f, x, by simpa [MAX_LOOPS] using i1, i9, i2, i4.symm, i5, i6, ?_, i8⟩
  intro i hi
  obtain ⟨b1, b2, b3⟩ := i3 i hi
  obtain ⟨c1, c2⟩ := shrink_mem cfg.decr_f (f i)
  simp only [id] at b2
  refine ⟨b1, ⟨shrink cfg.decr_f (f i), c1, c2, b2, ?_⟩, ?_, b3⟩
  · intro hf
    cases hfi : f i with
    | fin y => exact absurd hfi (hf y)
    | _ => rfl
  · have := shrink_lt_one hd (f i)
    have := (hpos i hi.le).1
    rw [b2]; nlinarith

/-- C08 on the concrete run (its hypotheses are met; the growth bound is attained). -/
example : (0 : ℝ) < 1 ∧ (1 : ℝ) ≤ 1 ∧ (1 : ℝ) ≤ 4 ∧ (4 : ℝ) ≤ 4 * 1 :=
  (C08_step_sizes demo (fun x => .ok x) demoCfg (by norm_num [demoCfg]) (by norm_num [demoCfg]) 1 1 (by norm_num) demo.new _
    _ _ demo_step).1

/-! ### C09 -/

namespace ASSolver

/-- Exponent `q` of the class (order used in the step-size formula). -/
def q : ASSolver ι → ℕ
  | if45dp _ => 5
  | _ => 4

theorem factor_eq (m : ASSolver ι) (nl : NlFunc ι) (cfg : SolverConfig ℝ) (r : Vec ι × Vec ι) :
    m.factor nl cfg r = computeS m.q cfg r.1 r.2 := by
  rcases m with (_ | _ | _) | ⟨_, _ | _ | _⟩ | ⟨_, _ | _ | _⟩ | _ <;> rfl

theorem q_pos (m : ASSolver ι) : 0 < m.q := by cases m <;> simp [q]

end ASSolver

/-- **C09.** The error estimate of an accepted trial is positive and meets the tolerance, over the components that count. -/
theorem C09_tolerance (m : ASSolver ι) (nl : NlFunc ι) (rnd : ℝ → ℝ) (cfg : SolverConfig ℝ) (heps : 0 < cfg.epsilon)
    (u : Vec ι) (h : ℝ) (v : Vec ι) (hu hs : ℝ) (hret : (m.step nl rnd cfg u h m.new).1 = .ok (v, hu, hs)) :
    ∃ err, (m.trial nl u hu m.new).1 = .ok (v, err) ∧ 0 < selNorm cfg.adapt_cutoff v err ∧
      selNorm cfg.adapt_cutoff v err ≤
        cfg.safety_f ^ (match m with | .if45dp _ => 5 | _ => 4) * cfg.epsilon * selNorm cfg.adapt_cutoff v v ∧
      (cfg.safety_f ≤ 1 → selNorm cfg.adapt_cutoff v err ≤ cfg.epsilon * selNorm cfg.adapt_cutoff v v) := by
  have hh : 0 ≤ h := by
    by_contra hc
    rw [(C06_trials m nl rnd cfg u h m.new).2.2 (not_le.mp hc)] at hret
    simp at hret
  rw [C07_step_iff m nl rnd cfg u h hh] at hret
  generalize hR : (Except.ok (v, hu, hs) : Except PyErr (Vec ι × ℝ × ℝ)) = R at hret
  cases hret with
  | @accept j h' x r hj hrej hok hx h1 =>
    simp only [Except.ok.injEq, Prod.mk.injEq] at hR
    obtain ⟨rfl, rfl, rfl⟩ := hR
    rw [m.factor_eq] at hx
    obtain ⟨t1, t2, t3⟩ := accepted_tolerance m.q_pos heps ⟨x, hx, h1⟩
    refine ⟨r.2, hok, t1, ?_, ?_⟩
    · cases m <;> exact t2
    · intro hs1
      have : cfg.safety_f ^ m.q ≤ 1 := pow_le_one₀ t3.le hs1
      have := mul_le_mul_of_nonneg_right this (mul_nonneg heps.le (selNorm_nonneg cfg.adapt_cutoff r.1 r.1))
      linarith [mul_assoc (cfg.safety_f ^ m.q) cfg.epsilon (selNorm cfg.adapt_cutoff r.1 r.1)]
  | _ => simp at hR

/-- C09 on the concrete run. -/
example : ∃ err, (demo.trial (fun x => .ok x) 1 1 demo.new).1 = .ok ((65 / 24 : ℂ) • 1, err) ∧
    0 < selNorm (1 / 100) ((65 / 24 : ℂ) • (1 : Vec (Fin 1))) err := by
  obtain ⟨err, h1, h2, -⟩ := C09_tolerance demo (fun x => .ok x) id demoCfg (by norm_num [demoCfg]) 1 1 _ _ _ demo_step
  exact ⟨err, h1, h2⟩

/-! ### C10 -/

/-- **C10.** A trial whose error estimate vanishes over the components that count is rejected. -/
theorem C10_zero_error_rejected (m : ASSolver ι) (nl : NlFunc ι) (cfg : SolverConfig ℝ) (v err : Vec ι)
    (hz : ∀ i, cfg.adapt_cutoff * maxAbs v < ‖v i‖ → err i = 0) : ¬ Acceptable (m.factor nl cfg (v, err)) := by
  rintro ⟨x, hx, -⟩
  rw [m.factor_eq] at hx
  exact factor_of_zero_err (selNorm_eq_zero hz) x hx

/-- An error in a component that is too small to be selected does not count: it is zero where it matters. -/
example (m : ASSolver (Fin 2)) (nl : NlFunc (Fin 2)) :
    ¬ Acceptable (m.factor nl { demoCfg with adapt_cutoff := 1 / 2 } (![1, 1 / 4], ![0, 1])) := by
  refine C10_zero_error_rejected m nl _ _ _ fun i hi => ?_
  have h1 : (1 : ℝ) ≤ maxAbs (![1, 1 / 4] : Vec (Fin 2)) := by
    simpa using norm_le_maxAbs (![1, 1 / 4] : Vec (Fin 2)) 0
  fin_cases i
  · rfl
  · norm_num at hi
    linarith

/-- **C10.** A trial with zero solution is rejected, whatever its error estimate is. -/
theorem C10_zero_solution_rejected (m : ASSolver ι) (nl : NlFunc ι) (cfg : SolverConfig ℝ) (err : Vec ι) :
    ¬ Acceptable (m.factor nl cfg (0, err)) :=
  C10_zero_error_rejected m nl cfg 0 err fun i hi => by simp [maxAbs_zero] at hi

example : ¬ Acceptable (demo.factor (fun x => .ok x) demoCfg (0, 1)) := C10_zero_solution_rejected demo _ _ _

theorem ERK.stages_zero (M : ERK ι) (nl : Vec ι → Except PyErr (Vec ι)) (h0 : ∀ x, nl x = .ok 0) (u : Vec ι) (i : ℕ) :
    M.stages nl u i = .ok 0 := by
  induction i with
  | zero => rfl
  | succ i ih => simp only [ERK.stages, ih, h0]; rw [← Pi.zero_apply (M := fun _ : ℕ => Vec ι) i, Function.update_eq_self]

theorem ERK.step_zero (M : ERK ι) (nl : Vec ι → Except PyErr (Vec ι)) (h0 : ∀ x, nl x = .ok 0) (u : Vec ι) :
    M.step nl u = .ok (Matrix.mulVec M.Eout u, 0) := by
  simp [ERK.step, ERK.stages_zero M nl h0, ERK.out, ERK.err]

theorem ASOp.prj_zero (L : ASOp ι) : L.prj 0 = 0 := by cases L <;> simp [ASOp.prj]

/-- A trial on a linear problem has zero error estimate. -/
theorem ASSolver.oneTrial_linear (m : ASSolver ι) (h : ℝ) (u : Vec ι) :
    m.oneTrial (fun _ => .ok 0) h u = .error .linAlgError ∨ ∃ v, m.oneTrial (fun _ => .ok 0) h u = .ok (v, 0) := by
  unfold ASSolver.oneTrial
  split
  · right
    rw [ERK.step_zero _ _ (fun x => by simp [Except.map, ASOp.prj_zero])]
    exact ⟨_, rfl⟩
  · exact .inl rfl

/-- No outcome of a step on a linear problem other than failure. -/
theorem ASSolver.stepSpec_linear (m : ASSolver ι) (rnd : ℝ → ℝ) (cfg : SolverConfig ℝ) (u : Vec ι) (h : ℝ)
    {r : Except PyErr (Vec ι × ℝ × ℝ)}
    (hs : StepSpec (m.oneTrial fun _ => .ok 0) (m.factor (fun _ => .ok 0) cfg) cfg rnd u h r) :
    r = .error .minimumStepReached ∨ r = .error .maxLoopsExceeded ∨ (r = .error .linAlgError ∧ ∃ h, ¬ m.CoefOk h) := by
  cases hs with
  | @accept j h' x r hj hrej hok hx h1 =>
    exfalso
    rcases m.oneTrial_linear h' u with he | ⟨v, hv⟩
    · rw [he] at hok; simp at hok
    · rw [hv] at hok
      obtain rfl : (v, 0) = r := by simpa using hok
      exact C10_zero_error_rejected m _ cfg v 0 (fun _ _ => rfl) ⟨x, hx, h1⟩
  | minStep => exact .inl rfl
  | maxLoops => exact .inr (.inl rfl)
  | @raised j h' e hj hrej he =>
    rcases m.oneTrial_linear h' u with he' | ⟨v, hv⟩
    · rw [he'] at he
      obtain rfl : PyErr.linAlgError = e := by simpa using he
      refine .inr (.inr ⟨rfl, h', fun hc => ?_⟩)
      unfold ASSolver.oneTrial at he'
      rw [if_pos hc, ERK.step_zero _ _ (fun x => by simp [Except.map, ASOp.prj_zero])] at he'
      simp [Except.map] at he'
    · rw [hv] at he; simp at he

/-- **C10.** On a linear problem (`nl_func` identically zero) no adaptive solver can make a step: `MinimumStepReached` or
`MaxLoopsExceeded`, unless the coefficients cannot be computed (possible for the full-matrix ETD strategies only). -/
theorem C10_linear_step (m : ASSolver ι) (rnd : ℝ → ℝ) (cfg : SolverConfig ℝ) (u : Vec ι) (h : ℝ) (hh : 0 ≤ h) :
    let r := (m.step (fun _ => .ok 0) rnd cfg u h m.new).1
    r = .error .minimumStepReached ∨ r = .error .maxLoopsExceeded ∨ (r = .error .linAlgError ∧ ∃ h, ¬ m.CoefOk h) :=
  m.stepSpec_linear rnd cfg u h (m.step_new_spec _ rnd cfg u h hh)

/-- Linear decay with IF34. -/
example (cfg : SolverConfig ℝ) :
    ((ASSolver.if34 (.diag ![-1, -2])).step (fun _ => .ok 0) id cfg 1 (1 / 10) (ASSolver.if34 (.diag ![-1, -2])).new).1 =
      .error .minimumStepReached ∨
    ((ASSolver.if34 (.diag ![-1, -2])).step (fun _ => .ok 0) id cfg 1 (1 / 10) (ASSolver.if34 (.diag ![-1, -2])).new).1 =
      .error .maxLoopsExceeded := by
  rcases C10_linear_step (.if34 (.diag ![-1, -2])) id cfg 1 (1 / 10) (by norm_num) with h | h | ⟨-, h', hc⟩
  · exact .inl h
  · exact .inr h
  · exact absurd trivial hc

/-- Without a nonlinear term every trial of `demo` is rejected, and the size is divided by four each time. -/
theorem demo_quarters (cfg : SolverConfig ℝ) (u : Vec (Fin 1)) (j : ℕ) (hm : cfg.minh ≤ (1 / 4) ^ j) :
    RejectsTo (fun h u => (demo.trial (fun _ => .ok 0) u h demo.new).1) (demo.factor (fun _ => .ok 0) cfg) cfg id u j 1 ((1 / 4) ^ j) ∧
    ∃ r, (demo.trial (fun _ => .ok 0) u ((1 / 4) ^ j) demo.new).1 = .ok r ∧ ¬ Acceptable (demo.factor (fun _ => .ok 0) cfg r) ∧
      shrink cfg.decr_f (demo.factor (fun _ => .ok 0) cfg r) = 1 / 4 := by
  have hr : ∀ h, ∃ r, (demo.trial (fun _ => .ok 0) u h demo.new).1 = .ok r ∧ ¬ Acceptable (demo.factor (fun _ => .ok 0) cfg r) ∧
      shrink cfg.decr_f (demo.factor (fun _ => .ok 0) cfg r) = 1 / 4 := by
    intro h
    rcases demo.oneTrial_linear h u with h1 | ⟨v, h1⟩
    · simp [ASSolver.oneTrial, demo, ASSolver.CoefOk, ERK.step_zero, Except.map, ASOp.prj_zero] at h1
    · refine ⟨(v, 0), by rw [← h1]; exact demo.trial_new _ _ _, C10_zero_error_rejected _ _ _ _ _ fun _ _ => rfl, ?_⟩
      rw [demo.factor_eq]
      have := factor_of_zero_err (q := demo.q) (cfg := cfg) (v := v) (e := 0) (selNorm_eq_zero fun _ _ => rfl)
      cases hx : computeS demo.q cfg v 0 with
      | fin x => exact absurd hx (this x)
      | _ => rfl
  refine ⟨?_, hr _⟩
  induction j with
  | zero => simpa using RejectsTo.zero 1
  | succ j ih =>
    obtain ⟨r, h1, h2, h3⟩ := hr ((1 / 4) ^ j)
    have hle : ((1 / 4 : ℝ)) ^ (j + 1) ≤ (1 / 4) ^ j := pow_le_pow_of_le_one (by norm_num) (by norm_num) (by omega)
    have := (ih (hm.trans hle)).succ h1 h2 (by rw [h3]; simpa [pow_succ, mul_comm] using hm)
    rw [h3] at this
    simpa [pow_succ, mul_comm] using this


/-- C07: 50 rejections with a minimal step below `(1/4)^50`, and the minimal step of `demoCfg` reached after 26. -/
example : (demo.step (fun _ => .ok 0) id { demoCfg with minh := (1 / 4) ^ 50 } 1 1 demo.new).1 = .error .maxLoopsExceeded ∧
    (demo.step (fun _ => .ok 0) id demoCfg 1 1 demo.new).1 = .error .minimumStepReached := by
  constructor
  · rw [C07_maxLoops_iff demo _ (by simp) id _ _ _ (by norm_num)]
    obtain ⟨h1, r, h2, h3, -⟩ := demo_quarters { demoCfg with minh := (1 / 4) ^ 50 } 1 50 le_rfl
    exact ⟨_, r, h1, h2, h3⟩
  · rw [C07_minStep_iff demo _ (by simp) id _ _ _ (by norm_num)]
    obtain ⟨h1, r, h2, h3, h4⟩ := demo_quarters demoCfg 1 26 (by norm_num [demoCfg])
    exact ⟨26, _, r, by norm_num, h1, h2, h3, by rw [h4]; norm_num [demoCfg]⟩

/-- **C10.** `evolve` on a linear problem fails in its first step, in whatever state the object is: the object then
holds the initial state only. -/
theorem C10_linear_evolve (m : ASSolver ι) (pyDiv : Bool) (cfg : SolverConfig ℝ) (fuel : ℕ)
    (hfuel : 0 < fuel) (u : Vec ι) (t0 tf : ℝ) (ht : t0 < tf) (hInit : Option ℝ) (storeData : Bool) (freq : ℤ)
    (s : m.State) :
    let r := (m.evolve (fun _ => .ok 0) id pyDiv cfg fuel u t0 tf hInit storeData freq s).1
    (∀ v, r ≠ .ok v) ∧
    (r = .error .minimumStepReached ∨ r = .error .maxLoopsExceeded ∨ (r = .error .assertionError ∧ ∃ h, hInit = some h ∧ h < 0) ∨
      (r = .error .linAlgError ∧ ∃ h, ¬ m.CoefOk h)) ∧
    (m.evolve (fun _ => .ok 0) id pyDiv cfg fuel u t0 tf hInit storeData freq s).2.t =
      (if storeData then [t0] else []) := by
  intro r
  obtain ⟨n, tm, st, hp, hu, h1, h2, h3, h4, h5, h6, h7, h8⟩ := ASClass.evolve_run (m.lawful fun _ => .ok 0) id pyDiv cfg
    fuel u t0 tf hInit storeData freq s
  have hn : n = 0 := by
    rw [← Nat.le_zero]; by_contra hc
    obtain ⟨-, hs, h9, -⟩ := h4.step 0 (by omega)
    rcases m.stepSpec_linear id cfg _ _ h9 with h | h | h <;> simp at h
  subst hn
  refine ⟨?_, ?_, ?_⟩
  · intro v hv
    change (m.evolve _ _ _ _ _ _ _ _ _ _ _ _).1 = _ at hv
    unfold ASSolver.evolve at hv
    rw [hv] at h7
    cases h7 with
    | running hf => omega
    | returned _ hf => exact hf (by rw [h1]; exact ht)
  · change ASClass.LoopEnd _ _ _ _ _ _ _ _ _ _ _ _ _ _ r at h7
    clear_value r
    cases h7 with
    | running hf => omega
    | returned _ hf => exact absurd (by rw [h1]; exact ht) hf
    | stepRaised _ _ _ h9 =>
      rcases m.stepSpec_linear id cfg _ _ h9 with h | h | h
      · exact .inl (by simpa using h)
      · exact .inr (.inl (by simpa using h))
      · exact .inr (.inr (.inr (by simpa using h)))
    | negative _ _ hneg =>
      refine .inr (.inr (.inl ⟨rfl, ?_⟩))
      rw [h3] at hneg
      unfold ASClass.firstSize limitTo at hneg
      simp only [id] at hneg
      cases hInit with
      | none => split at hneg <;> simp at hneg <;> linarith
      | some h =>
        refine ⟨h, rfl, ?_⟩
        split at hneg
        · linarith
        · exact hneg
    | zeroDiv _ _ _ h9 => rcases m.stepSpec_linear id cfg _ _ h9 with h | h | h <;> simp at h
  · unfold ASSolver.evolve
    rw [h5]
    simp [storedUpTo, h1]

/-- C10 for a diagonal operator, where nothing but the two adaptivity errors can occur. -/
example (L u : Vec (Fin 3)) (cfg : SolverConfig ℝ) (s : (ASSolver.if34 (.diag L)).State) :
    ((ASSolver.if34 (.diag L)).evolve (fun _ => .ok 0) id true cfg 10 u 0 1 none true 1 s).1 = .error .minimumStepReached ∨
    ((ASSolver.if34 (.diag L)).evolve (fun _ => .ok 0) id true cfg 10 u 0 1 none true 1 s).1 = .error .maxLoopsExceeded := by
  rcases (C10_linear_evolve (.if34 (.diag L)) true cfg 10 (by norm_num) u 0 1 (by norm_num) none true 1 s).2.1 with
    h | h | ⟨-, h, hh, -⟩ | ⟨-, h', hc⟩
  · exact .inl h
  · exact .inr h
  · simp at hh
  · exact absurd trivial hc

end Verif
