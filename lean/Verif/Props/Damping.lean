import Verif.Lemmas.Damping
import Verif.Props.Convergence

/-!
# C91: strongly damped modes
-/

set_option linter.unusedSectionVars false

namespace Verif

open Matrix Filter Topology

variable {ι : Type} [Fintype ι] [DecidableEq ι] {D : Set ι} {L : ℕ → Vec ι} {L0 : Vec ι}

theorem without_eq_self {D : Set ι} {u : Vec ι} (h : ∀ i ∈ D, u i = 0) : without D u = u := by
  funext i
  unfold without
  split
  · next hi => exact (h i hi).symm
  · rfl

theorem ERK.mask_zero (M : ERK ι) (f : Vec ι → Vec ι) (u : Vec ι) {i : ι} (hi : i ∈ D) :
    ((M.mask (dropMat D)).run f u).1 i = 0 ∧ ((M.mask (dropMat D)).run f u).2 i = 0 := by
  have key : ∀ (X : Mat ι) (w : Vec ι), ((dropMat D * X) *ᵥ w) i = 0 := fun X w => by
    rw [← mulVec_mulVec, dropMat_mulVec, without, if_pos hi]
  constructor
  · simp only [ERK.run, ERK.out, ERK.mask, Pi.add_apply, Finset.sum_apply, key, Finset.sum_const_zero, add_zero]
  · simp only [ERK.run, ERK.err, ERK.mask, Finset.sum_apply, key, Finset.sum_const_zero]

theorem CSSolver.withModes_step (m : CSSolver ι) (L : Vec ι) (f : Vec ι → Vec ι) (u : Vec ι) {h : ℝ} (hh : 0 ≤ h) :
    ((m.withModes L).step (total f) u h (m.withModes L).new).1 = .ok (((m.withModes L).method h).run f u).1 := by
  have hc : (m.withModes L).CoefOk h := by cases m <;> trivial
  rw [CSSolver.step_method _ _ _ _ hh hc, ERK.step_eq_run]
  rfl

theorem ASSolver.withModes_trial (m : ASSolver ι) (L : Vec ι) (f : Vec ι → Vec ι) (u : Vec ι) (h : ℝ) :
    ((m.withModes L).trial (total f) u h (m.withModes L).new).1 = .ok (((m.withModes L).method h).run f u) := by
  have hc : (m.withModes L).CoefOk h := by cases m <;> trivial
  rw [ASSolver.trial_new, ASSolver.oneTrial, if_pos hc]
  have h1 : (m.withModes L).op.emb = id := by cases m <;> rfl
  have h2 : (m.withModes L).op.prj = id := by cases m <;> rfl
  rw [h1, h2]
  show Except.map _ (((m.withModes L).method h).step (total f) u) = _
  rw [ERK.step_eq_run]
  rfl

theorem commute_phiDiag (D : Set ι) (cut R : ℝ) (N : ℕ) (L : Vec ι) (h : ℝ) (k : ℕ) (c : ℝ) :
    Commute (dropMat D) (phiDiag cut R N L h k c) := commute_dropMat D _

theorem CSSolver.near_etd (m : CSSolver ι) (hm : m.IsETD) (hd : Damped D L L0) {h : ℝ} (hh : 0 < h) :
    ERK.Near (fun n => (m.withModes (L n)).method h) (((m.withModes L0).method h).mask (dropMat D)) := by
  rcases m with _ | ⟨cfg, _⟩ | ⟨cfg, _⟩
  · exact hm.elim
  · exact krogstad_near hh (fun k c hc _ => hd.phiDiag _ _ _ hh k hc) fun θ hθ => hd.expm hθ
  · exact etd5_near true hh (fun k c hc _ => hd.phiDiag _ _ _ hh k hc) fun θ hθ => hd.expm hθ

theorem CSSolver.drop_etd (m : CSSolver ι) (hm : m.IsETD) (L0 : Vec ι) (h : ℝ) (f : Vec ι → Vec ι) {u : Vec ι} (hu : without D u = u) :
    (((m.withModes L0).method h).mask (dropMat D)).run f u = ((m.withModes L0).method h).run (fun x => without D (f x)) u := by
  rcases m with _ | ⟨cfg, _⟩ | ⟨cfg, _⟩
  · exact hm.elim
  · exact krogstad_drop (fun k c => commute_phiDiag D _ _ _ L0 h k c) L0 h f hu
  · exact etd5_drop true (fun k c => commute_phiDiag D _ _ _ L0 h k c) L0 h f hu

theorem ASSolver.near_etd (m : ASSolver ι) (hm : m.IsETD) (hd : Damped D L L0) {h : ℝ} (hh : 0 < h) :
    ERK.Near (fun n => (m.withModes (L n)).method h) (((m.withModes L0).method h).mask (dropMat D)) := by
  rcases m with _ | ⟨cfg, _⟩ | ⟨cfg, _⟩ | _
  · exact hm.elim
  · exact krogstad_near hh (fun k c hc _ => hd.phiDiag _ _ _ hh k hc) fun θ hθ => hd.expm hθ
  · exact etd5_near false hh (fun k c hc _ => hd.phiDiag _ _ _ hh k hc) fun θ hθ => hd.expm hθ
  · exact hm.elim

theorem ASSolver.drop_etd (m : ASSolver ι) (hm : m.IsETD) (L0 : Vec ι) (h : ℝ) (f : Vec ι → Vec ι) {u : Vec ι} (hu : without D u = u) :
    (((m.withModes L0).method h).mask (dropMat D)).run f u = ((m.withModes L0).method h).run (fun x => without D (f x)) u := by
  rcases m with _ | ⟨cfg, _⟩ | ⟨cfg, _⟩ | _
  · exact hm.elim
  · exact krogstad_drop (fun k c => commute_phiDiag D _ _ _ L0 h k c) L0 h f hu
  · exact etd5_drop false (fun k c => commute_phiDiag D _ _ _ L0 h k c) L0 h f hu
  · exact hm.elim

/-- **C91.** ETD4 and ETD5 when some modes are damped more and more strongly: the step converges, to an array in which these modes
are zero.  If they are zero in the initial array, the limit is the step for the problem without these modes. -/
theorem C91_etd_step (m : CSSolver ι) (hm : m.IsETD) (hd : Damped D L L0) {f : Vec ι → Vec ι} (hf : Continuous f) (u : Vec ι)
    {h : ℝ} (hh : 0 < h) : ∃ (x : ℕ → Vec ι) (v : Vec ι),
      (∀ n, ((m.withModes (L n)).step (total f) u h (m.withModes (L n)).new).1 = .ok (x n)) ∧ Tendsto x atTop (𝓝 v) ∧ (∀ i ∈ D, v i = 0) ∧
      ((∀ i ∈ D, u i = 0) → ((m.withModes L0).step (total fun w => without D (f w)) u h (m.withModes L0).new).1 = .ok v) := by
  refine ⟨_, _, fun n => m.withModes_step _ f u hh.le,
    (continuous_fst.tendsto _).comp (ERK.run_near (m.near_etd hm hd hh) hf (tendsto_const_nhds (x := u))),
    fun i hi => (ERK.mask_zero _ f u hi).1, fun hu => ?_⟩
  rw [m.withModes_step _ _ u hh.le, m.drop_etd hm L0 h f (without_eq_self hu)]

/-- **C91.** The same for trials of ETD34 and ETD35. -/
theorem C91_etd_trial (m : ASSolver ι) (hm : m.IsETD) (hd : Damped D L L0) {f : Vec ι → Vec ι} (hf : Continuous f) (u : Vec ι)
    {h : ℝ} (hh : 0 < h) : ∃ (x : ℕ → Vec ι × Vec ι) (v : Vec ι × Vec ι),
      (∀ n, ((m.withModes (L n)).trial (total f) u h (m.withModes (L n)).new).1 = .ok (x n)) ∧ Tendsto x atTop (𝓝 v) ∧
      (∀ i ∈ D, v.1 i = 0 ∧ v.2 i = 0) ∧
      ((∀ i ∈ D, u i = 0) → ((m.withModes L0).trial (total fun w => without D (f w)) u h (m.withModes L0).new).1 = .ok v) := by
  refine ⟨_, _, fun n => m.withModes_trial _ f u h, ERK.run_near (m.near_etd hm hd hh) hf (tendsto_const_nhds (x := u)),
    fun i hi => ERK.mask_zero _ f u hi, fun hu => ?_⟩
  rw [m.withModes_trial _ _ u h, m.drop_etd hm L0 h f (without_eq_self hu)]

theorem iterate_near {M : ℕ → ERK ι} {M0 : ERK ι} (hM : ERK.Near M M0) {f : Vec ι → Vec ι} (hf : Continuous f) (u : Vec ι) (k : ℕ) :
    Tendsto (fun n => (fun v => ((M n).run f v).1)^[k] u) atTop (𝓝 ((fun v => (M0.run f v).1)^[k] u)) := by
  induction k with
  | zero => exact tendsto_const_nhds
  | succ k ih =>
    simp only [Function.iterate_succ_apply']
    exact (continuous_fst.tendsto _).comp (ERK.run_near hM hf ih)

theorem CSSolver.withModes_evolve (m : CSSolver ι) (L : Vec ι) (f : Vec ι → Vec ι) (pyDiv : Bool) (u : Vec ι) (t0 tf h : ℝ) (storeData : Bool)
    (freq : ℤ) (hh : 0 < h) (hspan : t0 + h ≤ tf) (hq : storeData = true → freq ≠ 0)
    (hp : pyDiv = true → tf = 0 → ⌈(tf - t0) / h⌉₊ < 100) (s : (m.withModes L).State) (fuel : ℕ) (hfuel : ⌈(tf - t0) / h⌉₊ < fuel) :
    ((m.withModes L).evolve (total f) id pyDiv fuel u t0 tf h storeData freq s).1 =
      .ok (some ((fun v => (((m.withModes L).method h).run f v).1)^[⌈(tf - t0) / h⌉₊] u)) := by
  rw [C01_evolve_iterates _ _ pyDiv u t0 tf h storeData freq hh hspan hq hp s fuel hfuel,
    iterE_ok (fun v => m.withModes_step L f v hh.le)]
  rfl

/-- **C91.** The same for whole runs of ETD4 and ETD5. -/
theorem C91_etd_evolve (m : CSSolver ι) (hm : m.IsETD) (hd : Damped D L L0) {f : Vec ι → Vec ι} (hf : Continuous f) (pyDiv : Bool)
    (u : Vec ι) (t0 tf h : ℝ) (storeData : Bool) (freq : ℤ) (hh : 0 < h) (hspan : t0 + h ≤ tf) (hq : storeData = true → freq ≠ 0)
    (hp : pyDiv = true → tf = 0 → ⌈(tf - t0) / h⌉₊ < 100) (fuel : ℕ) (hfuel : ⌈(tf - t0) / h⌉₊ < fuel)
    (s : ∀ n, (m.withModes (L n)).State) (s0 : (m.withModes L0).State) : ∃ (x : ℕ → Vec ι) (v : Vec ι),
      (∀ n, ((m.withModes (L n)).evolve (total f) id pyDiv fuel u t0 tf h storeData freq (s n)).1 = .ok (some (x n))) ∧
      Tendsto x atTop (𝓝 v) ∧ (∀ i ∈ D, v i = 0) ∧
      ((∀ i ∈ D, u i = 0) →
        ((m.withModes L0).evolve (total fun w => without D (f w)) id pyDiv fuel u t0 tf h storeData freq s0).1 = .ok (some v)) := by
  have hn : 0 < ⌈(tf - t0) / h⌉₊ := Nat.ceil_pos.mpr (div_pos (by linarith) hh)
  refine ⟨_, _, fun n => m.withModes_evolve _ f pyDiv u t0 tf h storeData freq hh hspan hq hp _ fuel hfuel,
    iterate_near (m.near_etd hm hd hh) hf u _, fun i hi => ?_, fun hu => ?_⟩
  · obtain ⟨k, hk⟩ := Nat.exists_eq_succ_of_ne_zero hn.ne'
    rw [hk, Function.iterate_succ_apply']
    exact (ERK.mask_zero _ f _ hi).1
  · rw [m.withModes_evolve _ _ pyDiv u t0 tf h storeData freq hh hspan hq hp s0 fuel hfuel]
    congr 2
    have key : ∀ k, (∀ i ∈ D, ((fun v => ((((m.withModes L0).method h).mask (dropMat D)).run f v).1)^[k] u) i = 0) ∧
        (fun v => (((m.withModes L0).method h).run (fun w => without D (f w)) v).1)^[k] u =
        (fun v => ((((m.withModes L0).method h).mask (dropMat D)).run f v).1)^[k] u := by
      intro k
      induction k with
      | zero => exact ⟨hu, rfl⟩
      | succ k ih =>
        simp only [Function.iterate_succ_apply']
        refine ⟨fun i hi => (ERK.mask_zero _ f _ hi).1, ?_⟩
        rw [ih.2, m.drop_etd hm L0 h f (without_eq_self ih.1)]
    exact (key _).2

/-! ### Integrating factor solvers -/

theorem frozen_rk4 (f : Vec ι → Vec ι) (h : ℝ) (u : Vec ι) : (frozen rk4 h).run f u =
    (((h / 6 : ℝ) : ℂ) • f 0, ((h / 6 : ℝ) : ℂ) • (f 0 - f (((h / 6 : ℝ) : ℂ) • f 0))) := by
  simp only [ERK.run, ERK.out, ERK.err, frozen, rk4, Finset.sum_range_succ, Finset.sum_range_zero, ERK.values, ERK.arg]
  norm_num [Function.update_apply, smul_mulVec, mul_one_div]
  rw [smul_sub, sub_eq_add_neg, neg_mulVec, smul_mulVec, one_mulVec]

theorem rk4_near (hd : Damped Set.univ L L0) {h : ℝ} (hh : 0 < h) :
    ERK.Near (fun n => lawson rk4 (Matrix.diagonal (L n)) h) (frozen rk4 h) := by
  refine lawson_near ?_ ?_ ?_ hd hh
  · intro i
    simp only [rk4]
    split <;> norm_num
  · intro i _
    simp only [rk4]
    split <;> norm_num
  · intro i hi j hj
    have hi : i < 5 := hi
    interval_cases i <;> interval_cases j <;> norm_num [rk4]

theorem dp_near (r : ℝ) (hd : Damped Set.univ L L0) {h : ℝ} (hh : 0 < h) :
    ERK.Near (fun n => lawson (dpWith r) (Matrix.diagonal (L n)) h) (frozen (dpWith r) h) := by
  refine lawson_near ?_ ?_ ?_ hd hh
  · intro i
    simp only [dpWith, dormandPrince]
    split <;> norm_num
  · intro i _
    simp only [dpWith, dormandPrince]
    split <;> norm_num
  · intro i hi j hj
    have hi : i < 7 := hi
    interval_cases i <;> interval_cases j <;> norm_num [dpWith, dormandPrince]

theorem frozen_dp (r : ℝ) (f : Vec ι → Vec ι) (h : ℝ) (u : Vec ι) : (frozen (dpWith r) h).run f u =
    (((11 * h / 84 : ℝ) : ℂ) • f 0, ((22 * h / 525 : ℝ) : ℂ) • f 0 - ((h / 40 : ℝ) : ℂ) • f (((11 * h / 84 : ℝ) : ℂ) • f 0)) := by
  simp only [ERK.run, ERK.out, ERK.err, frozen, dpWith, dormandPrince, Finset.sum_range_succ, Finset.sum_range_zero, ERK.values, ERK.arg]
  norm_num [Function.update_apply, smul_mulVec]
  have h1 : (h : ℂ) * (11 / 84) = 11 * h / 84 := by ring
  have h2 : (h : ℂ) * (22 / 525) = 22 * h / 525 := by ring
  have h3 : (h : ℂ) * (1 / 40) = h / 40 := by ring
  rw [h1, h2, h3, neg_mulVec, smul_mulVec, one_mulVec, sub_eq_add_neg]
  exact ⟨rfl, rfl⟩

/-- **C91.** IF4 when all modes are damped more and more strongly: whatever the initial array is, the step converges to
`h * nl_func(0) / 6`. -/
theorem C91_if4_step (hd : Damped Set.univ L L0) {f : Vec ι → Vec ι} (hf : Continuous f) (u : Vec ι) {h : ℝ} (hh : 0 < h) :
    ∃ x : ℕ → Vec ι, (∀ n, ((CSSolver.if4 (.diag (L n))).step (total f) u h (CSSolver.if4 (.diag (L n))).new).1 = .ok (x n)) ∧
      Tendsto x atTop (𝓝 (((h / 6 : ℝ) : ℂ) • f 0)) := by
  refine ⟨_, fun n => (CSSolver.if4 (.diag L0)).withModes_step (L n) f u hh.le, ?_⟩
  have := (continuous_fst.tendsto _).comp (ERK.run_near (rk4_near hd hh) hf (tendsto_const_nhds (x := u)))
  rwa [frozen_rk4] at this

/-- **C91.** A run of IF4 converges to the same array. -/
theorem C91_if4_evolve (hd : Damped Set.univ L L0) {f : Vec ι → Vec ι} (hf : Continuous f) (pyDiv : Bool)
    (u : Vec ι) (t0 tf h : ℝ) (storeData : Bool) (freq : ℤ) (hh : 0 < h) (hspan : t0 + h ≤ tf) (hq : storeData = true → freq ≠ 0)
    (hp : pyDiv = true → tf = 0 → ⌈(tf - t0) / h⌉₊ < 100) (fuel : ℕ) (hfuel : ⌈(tf - t0) / h⌉₊ < fuel)
    (s : ∀ n, (CSSolver.if4 (.diag (L n))).State) : ∃ x : ℕ → Vec ι,
      (∀ n, ((CSSolver.if4 (.diag (L n))).evolve (total f) id pyDiv fuel u t0 tf h storeData freq (s n)).1 = .ok (some (x n))) ∧
      Tendsto x atTop (𝓝 (((h / 6 : ℝ) : ℂ) • f 0)) := by
  refine ⟨_, fun n => (CSSolver.if4 (.diag L0)).withModes_evolve (L n) f pyDiv u t0 tf h storeData freq hh hspan hq hp _ fuel hfuel, ?_⟩
  have hn : 0 < ⌈(tf - t0) / h⌉₊ := Nat.ceil_pos.mpr (div_pos (by linarith) hh)
  have := iterate_near (rk4_near hd hh) hf u ⌈(tf - t0) / h⌉₊
  obtain ⟨k, hk⟩ := Nat.exists_eq_succ_of_ne_zero hn.ne'
  rw [hk, Function.iterate_succ_apply', frozen_rk4] at this
  rw [hk]
  exact this

/-- **C91.** Trials of IF34: new array and error estimate. -/
theorem C91_if34_trial (hd : Damped Set.univ L L0) {f : Vec ι → Vec ι} (hf : Continuous f) (u : Vec ι) {h : ℝ} (hh : 0 < h) :
    ∃ x : ℕ → Vec ι × Vec ι, (∀ n, ((ASSolver.if34 (.diag (L n))).trial (total f) u h (ASSolver.if34 (.diag (L n))).new).1 = .ok (x n)) ∧
      Tendsto x atTop (𝓝 (((h / 6 : ℝ) : ℂ) • f 0, ((h / 6 : ℝ) : ℂ) • (f 0 - f (((h / 6 : ℝ) : ℂ) • f 0)))) := by
  refine ⟨_, fun n => (ASSolver.if34 (.diag L0)).withModes_trial (L n) f u h, ?_⟩
  have := ERK.run_near (rk4_near hd hh) hf (tendsto_const_nhds (x := u))
  rwa [frozen_rk4] at this

/-- **C91.** Trials of IF45DP. -/
theorem C91_if45dp_trial (hd : Damped Set.univ L L0) {f : Vec ι → Vec ι} (hf : Continuous f) (u : Vec ι) {h : ℝ} (hh : 0 < h) :
    ∃ x : ℕ → Vec ι × Vec ι, (∀ n, ((ASSolver.if45dp (L n)).trial (total f) u h (ASSolver.if45dp (L n)).new).1 = .ok (x n)) ∧
      Tendsto x atTop (𝓝 (((11 * h / 84 : ℝ) : ℂ) • f 0,
        ((22 * h / 525 : ℝ) : ℂ) • f 0 - ((h / 40 : ℝ) : ℂ) • f (((11 * h / 84 : ℝ) : ℂ) • f 0))) := by
  refine ⟨_, fun n => (ASSolver.if45dp L0).withModes_trial (L n) f u h, ?_⟩
  have := ERK.run_near (dp_near (17 / 1920) hd hh) hf (tendsto_const_nhds (x := u))
  rwa [frozen_dp] at this

/-! ### The exact solution -/

/-- A damped mode of an exact solution. -/
theorem damped_mode {l : ℂ} (hl : l.re < 0) {y g : ℝ → ℂ} {h M : ℝ} (hh : 0 ≤ h)
    (hy : ∀ t ∈ Set.Icc 0 h, HasDerivWithinAt y (l * y t + g t) (Set.Icc 0 h) t) (hg : ∀ t ∈ Set.Icc 0 h, ‖g t‖ ≤ M) :
    ‖y h‖ ≤ Real.exp (l.re * h) * ‖y 0‖ + M / -l.re := by
  have hM : 0 ≤ M := (norm_nonneg _).trans (hg 0 ⟨le_rfl, hh⟩)
  have he : ∀ t : ℝ, HasDerivAt (fun t : ℝ => Complex.exp (-(t : ℂ) * l)) (Complex.exp (-(t : ℂ) * l) * (-1 * l)) t := fun t =>
    (((Complex.ofRealCLM.hasDerivAt (x := t)).neg.mul_const l).cexp)
  have hw : ∀ t ∈ Set.Icc 0 h, HasDerivWithinAt (fun t : ℝ => Complex.exp (-(t : ℂ) * l) * y t) (Complex.exp (-(t : ℂ) * l) * g t)
      (Set.Icc 0 h) t := fun t ht => by
    refine ((he t).hasDerivWithinAt.mul (hy t ht)).congr_deriv ?_
    ring
  have hB : ∀ t : ℝ, HasDerivAt (fun t : ℝ => ‖y 0‖ + M / -l.re * (Real.exp (-(t * l.re)) - 1)) (M * Real.exp (-(t * l.re))) t := fun t => by
    have := ((((hasDerivAt_id t).mul_const l.re).neg.exp.sub_const 1).const_mul (M / -l.re)).const_add ‖y 0‖
    refine this.congr_deriv ?_
    have : l.re ≠ 0 := hl.ne
    simp only [id]
    field_simp
    rfl
  have key := image_norm_le_of_norm_deriv_right_le_deriv_boundary (a := 0) (b := h)
    (f := fun t : ℝ => Complex.exp (-(t : ℂ) * l) * y t) (f' := fun t => Complex.exp (-(t : ℂ) * l) * g t)
    (fun t ht => (hw t ht).continuousWithinAt)
    (fun t ht => (hw t ⟨ht.1, ht.2.le⟩).mono_of_mem_nhdsWithin (Icc_mem_nhdsGE_of_mem ht))
    (B := fun t : ℝ => ‖y 0‖ + M / -l.re * (Real.exp (-(t * l.re)) - 1)) (B' := fun t => M * Real.exp (-(t * l.re)))
    (by simp) hB
    (fun t ht => by
      rw [norm_mul, Complex.norm_exp, mul_comm]
      refine mul_le_mul (hg t ⟨ht.1, ht.2.le⟩) (le_of_eq ?_) (Real.exp_pos _).le hM
      simp)
    (Set.right_mem_Icc.mpr hh)
  have h1 : y h = Complex.exp ((h : ℂ) * l) * (Complex.exp (-(h : ℂ) * l) * y h) := by
    rw [← mul_assoc, ← Complex.exp_add]; simp
  rw [h1, norm_mul, Complex.norm_exp, Complex.re_ofReal_mul]
  have h2 : Real.exp (h * l.re) * Real.exp (-(h * l.re)) = 1 := by rw [← Real.exp_add]; simp
  have h3 : 0 ≤ M / -l.re := div_nonneg hM (by linarith)
  calc _ ≤ Real.exp (h * l.re) * (‖y 0‖ + M / -l.re * (Real.exp (-(h * l.re)) - 1)) :=
        mul_le_mul_of_nonneg_left key (Real.exp_pos _).le
    _ = Real.exp (h * l.re) * ‖y 0‖ + M / -l.re * (Real.exp (h * l.re) * Real.exp (-(h * l.re))) - M / -l.re * Real.exp (h * l.re) := by ring
    _ ≤ Real.exp (l.re * h) * ‖y 0‖ + M / -l.re := by
        rw [h2, mul_comm h]
        have := mul_nonneg h3 (Real.exp_pos (l.re * h)).le
        linarith

/-- **C91.** In exact solutions with bounded values of the nonlinear function the damped modes tend to zero: the limits of the
ETD solvers are right in these modes, those of the integrating factor solvers are wrong unless `nl_func(0)` is zero. -/
theorem C91_exact (hd : Damped D L L0) {f : Vec ι → Vec ι} {h M : ℝ} (hh : 0 < h) {u : Vec ι} {Y : ℕ → ℝ → Vec ι} (h0 : ∀ n, Y n 0 = u)
    (hY : ∀ n, ∀ t ∈ Set.Icc 0 h, HasDerivWithinAt (Y n) (L n * Y n t + f (Y n t)) (Set.Icc 0 h) t)
    (hM : ∀ n, ∀ t ∈ Set.Icc 0 h, ‖f (Y n t)‖ ≤ M) {i : ι} (hi : i ∈ D) : Tendsto (fun n => Y n h i) atTop (𝓝 0) := by
  rw [tendsto_zero_iff_norm_tendsto_zero]
  have hre := hd.1 i hi
  have h1 : Tendsto (fun n => Real.exp ((L n i).re * h) * ‖u i‖ + M / -(L n i).re) atTop (𝓝 (0 * ‖u i‖ + 0)) := by
    refine Tendsto.add (Tendsto.mul_const _ (Real.tendsto_exp_atBot.comp (hre.atBot_mul_const hh))) ?_
    exact (tendsto_neg_atBot_atTop.comp hre).const_div_atTop M
  rw [zero_mul, add_zero] at h1
  refine squeeze_zero' (Eventually.of_forall fun _ => norm_nonneg _) ?_ h1
  filter_upwards [hre.eventually_lt_atBot 0] with n hn
  have := damped_mode hn (y := fun t => Y n t i) (g := fun t => f (Y n t) i) hh.le
    (fun t ht => (hasDerivWithinAt_pi.mp (hY n t ht)) i) fun t ht => (norm_le_pi_norm _ i).trans (hM n t ht)
  simpa only [h0] using this

/-! ### Examples -/

/-- Modes -1 and -n: the second one is damped. -/
theorem damped_two : Damped {1} (fun n => (![-1, -(n : ℂ)] : Vec (Fin 2))) ![-1, 0] := by
  refine ⟨fun i hi => ?_, fun i hi n => ?_⟩
  · obtain rfl : i = 1 := hi
    simpa using tendsto_natCast_atTop_atTop (R := ℝ)
  · fin_cases i
    · rfl
    · exact (hi rfl).elim

/-- One mode -n. -/
theorem damped_one : Damped Set.univ (fun n => (fun _ => -(n : ℂ) : Vec (Fin 1))) 0 := by
  refine ⟨fun i _ => ?_, fun i hi n => (hi trivial).elim⟩
  simpa using tendsto_natCast_atTop_atTop (R := ℝ)

/-- `C91_etd_step`, `C91_etd_trial`, `C91_etd_evolve`: ETD4 and ETD35 with default settings for modes -1 and -n and the forcing 1. -/
example (u : Vec (Fin 2)) :
    (∃ x v, (∀ n : ℕ, ((CSSolver.etd4 ⟨1 / 100, 32, 1⟩ (.diag ![-1, -(n : ℂ)])).step (total fun _ => 1) u (1 / 10)
      (CSSolver.etd4 ⟨1 / 100, 32, 1⟩ (.diag ![-1, -(n : ℂ)])).new).1 = .ok (x n)) ∧ Tendsto x atTop (𝓝 v) ∧ v 1 = 0) ∧
    (∃ x v, (∀ n : ℕ, ((ASSolver.etd35 ⟨1 / 100, 32, 1⟩ (.diag ![-1, -(n : ℂ)])).trial (total fun _ => 1) u (1 / 10)
      (ASSolver.etd35 ⟨1 / 100, 32, 1⟩ (.diag ![-1, -(n : ℂ)])).new).1 = .ok (x n)) ∧ Tendsto x atTop (𝓝 v) ∧ v.1 1 = 0 ∧ v.2 1 = 0) ∧
    ∃ x v, (∀ n : ℕ, ((CSSolver.etd5 ⟨1 / 100, 32, 1⟩ (.diag ![-1, -(n : ℂ)])).evolve (total fun _ => 1) id false 20 u 0 1 (1 / 10) true 1
      (CSSolver.etd5 ⟨1 / 100, 32, 1⟩ (.diag ![-1, -(n : ℂ)])).new).1 = .ok (some (x n))) ∧ Tendsto x atTop (𝓝 v) ∧ v 1 = 0 := by
  refine ⟨?_, ?_, ?_⟩
  · obtain ⟨x, v, h1, h2, h3, -⟩ := C91_etd_step (.etd4 ⟨1 / 100, 32, 1⟩ (.diag 0)) trivial damped_two (f := fun _ => 1) continuous_const u
      (h := 1 / 10) (by norm_num)
    exact ⟨x, v, h1, h2, h3 1 rfl⟩
  · obtain ⟨x, v, h1, h2, h3, -⟩ := C91_etd_trial (.etd35 ⟨1 / 100, 32, 1⟩ (.diag 0)) trivial damped_two (f := fun _ => 1) continuous_const u
      (h := 1 / 10) (by norm_num)
    exact ⟨x, v, h1, h2, h3 1 rfl⟩
  · obtain ⟨x, v, h1, h2, h3, -⟩ := C91_etd_evolve (.etd5 ⟨1 / 100, 32, 1⟩ (.diag 0)) trivial damped_two (f := fun _ => 1) continuous_const
      false u 0 1 (1 / 10) true 1 (by norm_num) (by norm_num) (by simp) (by simp) 20
      (by norm_num) (fun n => CSSolver.new _) (CSSolver.new _)
    exact ⟨x, v, h1, h2, h3 1 rfl⟩

/-- `C91_if4_step`, `C91_if4_evolve`, `C91_if34_trial`, `C91_if45dp_trial`: one mode -n and the forcing 1. -/
example (u : Vec (Fin 1)) :
    (∃ x, (∀ n : ℕ, ((CSSolver.if4 (.diag fun _ : Fin 1 => -(n : ℂ))).step (total fun _ => 1) u (6 / 10)
      (CSSolver.if4 (.diag fun _ : Fin 1 => -(n : ℂ))).new).1 = .ok (x n)) ∧ Tendsto x atTop (𝓝 fun _ => 1 / 10)) ∧
    (∃ x, (∀ n : ℕ, ((CSSolver.if4 (.diag fun _ : Fin 1 => -(n : ℂ))).evolve (total fun _ => 1) id false 20 u 0 6 (6 / 10) true 1
      (CSSolver.if4 (.diag fun _ : Fin 1 => -(n : ℂ))).new).1 = .ok (some (x n))) ∧ Tendsto x atTop (𝓝 fun _ => 1 / 10)) ∧
    (∃ x, (∀ n : ℕ, ((ASSolver.if34 (.diag fun _ : Fin 1 => -(n : ℂ))).trial (total fun _ => 1) u (6 / 10)
      (ASSolver.if34 (.diag fun _ : Fin 1 => -(n : ℂ))).new).1 = .ok (x n)) ∧ Tendsto x atTop (𝓝 (fun _ => 1 / 10, fun _ => 0))) ∧
    ∃ x : ℕ → Vec (Fin 1) × Vec (Fin 1), (∀ n : ℕ, ((ASSolver.if45dp fun _ : Fin 1 => -(n : ℂ)).trial (total fun _ => 1) u (84 / 11)
      (ASSolver.if45dp fun _ : Fin 1 => -(n : ℂ)).new).1 = .ok (x n)) ∧ Tendsto (fun n => (x n).1) atTop (𝓝 fun _ => 1) := by
  have hv : (((6 / 10 / 6 : ℝ) : ℂ) • (1 : Vec (Fin 1))) = fun _ => 1 / 10 := by funext i; norm_num
  refine ⟨?_, ?_, ?_, ?_⟩
  · obtain ⟨x, h1, h2⟩ := C91_if4_step damped_one (f := fun _ => 1) continuous_const u (h := 6 / 10) (by norm_num)
    exact ⟨x, h1, hv ▸ h2⟩
  · obtain ⟨x, h1, h2⟩ := C91_if4_evolve damped_one (f := fun _ => 1) continuous_const false u 0 6 (6 / 10) true 1 (by norm_num)
      (by norm_num) (by simp) (by simp) 20 (by norm_num) (fun n => CSSolver.new _)
    exact ⟨x, h1, hv ▸ h2⟩
  · obtain ⟨x, h1, h2⟩ := C91_if34_trial damped_one (f := fun _ => 1) continuous_const u (h := 6 / 10) (by norm_num)
    refine ⟨x, h1, ?_⟩
    rw [sub_self, smul_zero, hv] at h2
    exact h2
  · obtain ⟨x, h1, h2⟩ := C91_if45dp_trial damped_one (f := fun _ => 1) continuous_const u (h := 84 / 11) (by norm_num)
    refine ⟨x, h1, ?_⟩
    have := (continuous_fst.tendsto _).comp h2
    have hw : (((11 * (84 / 11) / 84 : ℝ) : ℂ) • (1 : Vec (Fin 1))) = fun _ => 1 := by funext i; norm_num
    simp only [hw] at this
    exact this

/-- `C91_exact` for the equations `y' = -n y + 1`, started in zero. -/
example : ∃ Y : ℕ → ℝ → Vec (Fin 1), (∀ n, Y n 0 = 0) ∧
    (∀ n, ∀ t ∈ Set.Icc (0 : ℝ) 1, HasDerivWithinAt (Y n) ((fun _ => -(n : ℂ)) * Y n t + 1) (Set.Icc 0 1) t) ∧
    Tendsto (fun n => Y n 1 0) atTop (𝓝 0) := by
  obtain ⟨Y, h0, hY⟩ : ∃ Y : ℕ → ℝ → Vec (Fin 1), (∀ n, Y n 0 = 0) ∧
      ∀ n, ∀ t ∈ Set.Icc (0 : ℝ) 1, HasDerivWithinAt (Y n) ((fun _ => -(n : ℂ)) * Y n t + 1) (Set.Icc 0 1) t := by
    have : ∀ n : ℕ, ∃ y : ℝ → Vec (Fin 1), y 0 = 0 ∧ ∀ t ∈ Set.Icc (0 : ℝ) 1,
        HasDerivWithinAt y ((fun _ => -(n : ℂ)) * y t + 1) (Set.Icc 0 1) t := by
      intro n
      rcases Nat.eq_zero_or_pos n with rfl | hn
      · refine ⟨fun t _ => t, by funext i; simp, fun t _ => hasDerivWithinAt_pi.mpr fun i => ?_⟩
        refine (Complex.ofRealCLM.hasDerivAt (x := t)).hasDerivWithinAt.congr_deriv ?_
        simp
      · have hn' : (n : ℂ) ≠ 0 := by exact_mod_cast hn.ne'
        refine ⟨fun t _ => (1 - Complex.exp ((t : ℂ) * -(n : ℂ))) / n, by funext i; simp, fun t _ => hasDerivWithinAt_pi.mpr fun i => ?_⟩
        have := ((((Complex.ofRealCLM.hasDerivAt (x := t)).mul_const (-(n : ℂ))).cexp.const_sub 1).div_const (n : ℂ)).hasDerivWithinAt
          (s := Set.Icc 0 1)
        refine this.congr_deriv ?_
        simp only [Complex.ofRealCLM_apply, Pi.add_apply, Pi.mul_apply, Pi.one_apply, Complex.ofReal_one]
        field_simp
        ring
    choose Y h1 h2 using this
    exact ⟨Y, h1, h2⟩
  exact ⟨Y, h0, hY, C91_exact damped_one (f := fun _ => 1) one_pos h0 hY (M := 1) (fun n t _ => by simp) (i := 0) trivial⟩

end Verif
