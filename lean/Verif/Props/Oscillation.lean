import Verif.Lemmas.Oscillation
import Verif.Props.Damping
import Verif.Props.Liveness
import Verif.Props.TestEquation
import Mathlib.Analysis.Calculus.MeanValue

/-!
# C92: rapid oscillations
-/

set_option linter.unusedSectionVars false

namespace Verif

open Matrix Filter Topology

variable {ι : Type} [Fintype ι] [DecidableEq ι] {L : ℕ → Vec ι}

theorem expm_propagate (L : Vec ι) (t : ℝ) (u : Vec ι) : expm (Matrix.diagonal L) t *ᵥ u = propagate L t u := by
  rw [expm_diag]
  funext i
  rw [mulVec_diagonal, propagate]

theorem propagate_add (L : Vec ι) (s t : ℝ) (u : Vec ι) : propagate L (s + t) u = propagate L s (propagate L t u) := by
  funext i
  simp only [propagate]
  rw [← mul_assoc, ← Complex.exp_add]
  congr 2
  push_cast
  ring

theorem propagate_sub (L : Vec ι) (t : ℝ) (u v : Vec ι) : propagate L t (u - v) = propagate L t u - propagate L t v := by
  funext i
  simp only [propagate, Pi.sub_apply, mul_sub]

theorem norm_propagate {L : Vec ι} (hL : ∀ i, (L i).re = 0) (t : ℝ) (u : Vec ι) : ‖propagate L t u‖ = ‖u‖ := by
  have h : ∀ i, ‖propagate L t u i‖ = ‖u i‖ := fun i => by
    rw [propagate, norm_mul, Complex.norm_exp, Complex.re_ofReal_mul, hL, mul_zero, Real.exp_zero, one_mul]
  simp only [Pi.norm_def]
  congr 2
  funext i
  exact NNReal.eq (h i)

theorem CSSolver.fade_etd (m : CSSolver ι) (hm : m.IsETD) (hL : Rapid L) {h : ℝ} (hh : 0 < h) :
    (∃ s, ERK.Fade s fun n => (m.withModes (L n)).method h) ∧
      ∀ n v, ((m.withModes (L n)).method h).Eout *ᵥ v = propagate (L n) h v := by
  rcases m with _ | ⟨cfg, _⟩ | ⟨cfg, _⟩
  · exact hm.elim
  · exact ⟨⟨_, krogstad_fade hL (fun k c hc => hL.phiDiag _ _ _ hh k hc) hh⟩, fun n v => expm_propagate _ _ _⟩
  · exact ⟨⟨_, etd5_fade true hL (fun k c hc => hL.phiDiag _ _ _ hh k hc) hh⟩, fun n v => expm_propagate _ _ _⟩

theorem ASSolver.fade_etd (m : ASSolver ι) (hm : m.IsETD) (hL : Rapid L) {h : ℝ} (hh : 0 < h) :
    (∃ s, ERK.Fade s fun n => (m.withModes (L n)).method h) ∧
      ∀ n v, ((m.withModes (L n)).method h).Eout *ᵥ v = propagate (L n) h v := by
  rcases m with _ | ⟨cfg, _⟩ | ⟨cfg, _⟩ | _
  · exact hm.elim
  · exact ⟨⟨_, krogstad_fade hL (fun k c hc => hL.phiDiag _ _ _ hh k hc) hh⟩, fun n v => expm_propagate _ _ _⟩
  · exact ⟨⟨_, etd5_fade false hL (fun k c hc => hL.phiDiag _ _ _ hh k hc) hh⟩, fun n v => expm_propagate _ _ _⟩
  · exact hm.elim

/-- **C92.** For rapid modes a step of ETD4 or ETD5 loses the nonlinear function, whatever it is: the result approaches the solution
of `y' = L y`. -/
theorem C92_step (m : CSSolver ι) (hm : m.IsETD) (hL : Rapid L) {f : Vec ι → Vec ι} (hf : Continuous f) (u : Vec ι) {h : ℝ} (hh : 0 < h) :
    ∃ x : ℕ → Vec ι, (∀ n, ((m.withModes (L n)).step (total f) u h (m.withModes (L n)).new).1 = .ok (x n)) ∧
      Tendsto (fun n => x n - propagate (L n) h u) atTop (𝓝 0) := by
  obtain ⟨⟨s, hs⟩, hE⟩ := m.fade_etd hm hL hh
  have := (ERK.run_fade hs hf (u := fun _ => u) ⟨‖u‖, fun _ => le_rfl⟩).1
  simp only [hE] at this
  exact ⟨_, fun n => m.withModes_step _ f u hh.le, this⟩

/-- **C92.** The same for trials of ETD34 and ETD35; moreover the error estimate tends to zero, so it does not notice the loss. -/
theorem C92_trial (m : ASSolver ι) (hm : m.IsETD) (hL : Rapid L) {f : Vec ι → Vec ι} (hf : Continuous f) (u : Vec ι) {h : ℝ} (hh : 0 < h) :
    ∃ x e : ℕ → Vec ι, (∀ n, ((m.withModes (L n)).trial (total f) u h (m.withModes (L n)).new).1 = .ok (x n, e n)) ∧
      Tendsto (fun n => x n - propagate (L n) h u) atTop (𝓝 0) ∧ Tendsto e atTop (𝓝 0) := by
  obtain ⟨⟨s, hs⟩, hE⟩ := m.fade_etd hm hL hh
  have := ERK.run_fade hs hf (u := fun _ => u) ⟨‖u‖, fun _ => le_rfl⟩
  simp only [hE] at this
  exact ⟨_, _, fun n => m.withModes_trial _ f u h, this.1, this.2⟩

/-- **C92.** The same for whole runs of ETD4 and ETD5. -/
theorem C92_evolve (m : CSSolver ι) (hm : m.IsETD) (hL : Rapid L) {f : Vec ι → Vec ι} (hf : Continuous f) (pyDiv : Bool)
    (u : Vec ι) (t0 tf h : ℝ) (storeData : Bool) (freq : ℤ) (hh : 0 < h) (hspan : t0 + h ≤ tf) (hq : storeData = true → freq ≠ 0)
    (hp : pyDiv = true → tf = 0 → ⌈(tf - t0) / h⌉₊ < 100) (fuel : ℕ) (hfuel : ⌈(tf - t0) / h⌉₊ < fuel)
    (s : ∀ n, (m.withModes (L n)).State) : ∃ x : ℕ → Vec ι,
      (∀ n, ((m.withModes (L n)).evolve (total f) id pyDiv fuel u t0 tf h storeData freq (s n)).1 = .ok (some (x n))) ∧
      Tendsto (fun n => x n - propagate (L n) (⌈(tf - t0) / h⌉₊ * h) u) atTop (𝓝 0) := by
  refine ⟨_, fun n => m.withModes_evolve _ f pyDiv u t0 tf h storeData freq hh hspan hq hp _ fuel hfuel, ?_⟩
  obtain ⟨⟨s, hs⟩, hE⟩ := m.fade_etd hm hL hh
  generalize ⌈(tf - t0) / h⌉₊ = k
  suffices H : (∃ b, ∀ n, ‖(fun v => (((m.withModes (L n)).method h).run f v).1)^[k] u‖ ≤ b) ∧
      Tendsto (fun n => (fun v => (((m.withModes (L n)).method h).run f v).1)^[k] u - propagate (L n) (k * h) u) atTop (𝓝 0) from H.2
  induction k with
  | zero =>
    refine ⟨⟨‖u‖, fun n => le_rfl⟩, ?_⟩
    have : ∀ n, u - propagate (L n) ((0 : ℕ) * h) u = 0 := fun n => by
      funext i; simp [propagate]
    simp only [Function.iterate_zero, id, this]
    exact tendsto_const_nhds
  | succ k ih =>
    obtain ⟨hb, hlim⟩ := ih
    have h1 := (ERK.run_fade hs hf hb).1
    simp only [hE] at h1
    obtain ⟨C, hC1, hC⟩ := hL.expm h
    have hP : ∀ n v, ‖propagate (L n) h v‖ ≤ C * ‖v‖ := fun n v => by
      rw [← expm_propagate]
      exact hC n h hh.le le_rfl v
    constructor
    · obtain ⟨b, hb⟩ := hb
      obtain ⟨b', hb'⟩ := bdd_of_tendsto h1
      refine ⟨b' + C * b, fun n => ?_⟩
      rw [Function.iterate_succ_apply']
      refine (norm_le_norm_sub_add _ (propagate (L n) h ((fun v => (((m.withModes (L n)).method h).run f v).1)^[k] u))).trans ?_
      exact add_le_add (hb' n) ((hP n _).trans (mul_le_mul_of_nonneg_left (hb n) (by linarith)))
    · have h2 : Tendsto (fun n => propagate (L n) h ((fun v => (((m.withModes (L n)).method h).run f v).1)^[k] u -
          propagate (L n) (k * h) u)) atTop (𝓝 0) := by
        rw [tendsto_zero_iff_norm_tendsto_zero] at hlim ⊢
        refine squeeze_zero (fun _ => norm_nonneg _) (fun n => hP n _) ?_
        simpa using hlim.const_mul C
      have h3 := h1.add h2
      rw [add_zero] at h3
      refine h3.congr fun n => ?_
      rw [Function.iterate_succ_apply', propagate_sub, ← propagate_add]
      have : ((k + 1 : ℕ) : ℝ) * h = h + k * h := by push_cast; ring
      rw [this]
      abel

/-- **C92.** For rapid undamped oscillations the first trial of ETD34 and ETD35 is eventually accepted, at the size proposed, however
strict `epsilon` is, unless its error estimate vanishes where it counts. -/
theorem C92_accept (m : ASSolver ι) (hm : m.IsETD) (hL : Rapid L) (hre : ∀ n i, (L n i).re = 0) {f : Vec ι → Vec ι}
    (hf : Continuous f) {u : Vec ι} (hu : u ≠ 0) {h : ℝ} (hh : 0 < h) {cfg : SolverConfig ℝ} (heps : 0 < cfg.epsilon)
    (hs : 0 < cfg.safety_f) (hc : cfg.adapt_cutoff < 1) :
    ∀ᶠ n in atTop, ¬ (m.withModes (L n)).Blind (total f) cfg h u →
      ∃ v h', ((m.withModes (L n)).step (total f) id cfg u h (m.withModes (L n)).new).1 = .ok (v, h, h') := by
  obtain ⟨x, e, hx, hlim, he⟩ := C92_trial m hm hL hf u hh
  have hu' : 0 < ‖u‖ := norm_pos_iff.mpr hu
  have hq : ∀ n, (m.withModes (L n)).q = m.q := fun n => by cases m <;> rfl
  set K := cfg.safety_f ^ m.q * cfg.epsilon * (‖u‖ / 2) with hK
  have K0 : 0 < K := by positivity
  set B := K / (Real.sqrt (Fintype.card ι) + 1) with hB
  have B0 : 0 < B := by positivity
  filter_upwards [(tendsto_zero_iff_norm_tendsto_zero.mp hlim).eventually_lt_const (half_pos hu'),
    (tendsto_zero_iff_norm_tendsto_zero.mp he).eventually_lt_const B0] with n h1 h2 hbl
  have hv : ‖u‖ / 2 ≤ ‖x n‖ := by
    have h3 := norm_sub_norm_le (propagate (L n) h u) (x n)
    rw [norm_sub_rev, norm_propagate (hre n)] at h3
    linarith
  have hBK : Real.sqrt (Fintype.card ι) * B ≤ cfg.safety_f ^ (m.withModes (L n)).q * cfg.epsilon * (‖u‖ / 2) := by
    rw [hq, ← hK, hB, mul_div_assoc', div_le_iff₀ (by positivity)]
    nlinarith [Real.sqrt_nonneg (Fintype.card ι : ℝ)]
  have hacc := ((m.withModes (L n)).accepts_of_bound heps hs hc hv h2.le hBK (total f)).mpr
    fun hz => hbl ⟨_, _, hx n, hz⟩
  obtain ⟨y, hy, hy1⟩ := hacc
  exact ⟨_, _, (C07_step_iff _ _ _ _ _ _ hh.le _).mpr (.accept (j := 0) (by omega) (.zero _) (hx n) hy hy1)⟩

theorem linear_solution {L : Vec ι} {μ : ℂ} {u : Vec ι} {h : ℝ} (hh : 0 < h) {Y : ℝ → Vec ι} (hY0 : Y 0 = u)
    (hY : ∀ t ∈ Set.Icc 0 h, HasDerivWithinAt Y (fun i => L i * Y t i + μ * Y t i) (Set.Icc 0 h) t) :
    Y h = Complex.exp (h * μ) • propagate L h u := by
  funext i
  have hd : ∀ t ∈ Set.Icc 0 h, HasDerivWithinAt (fun t : ℝ => Complex.exp (t * -(L i + μ)) * Y t i) 0 (Set.Icc 0 h) t := by
    intro t ht
    have h1 := (hasDerivWithinAt_pi.mp (hY t ht)) i
    have h2 : HasDerivAt (fun t : ℝ => Complex.exp (t * -(L i + μ))) (Complex.exp (t * -(L i + μ)) * -(L i + μ)) t := by
      have := ((hasDerivAt_id t).ofReal_comp.mul_const (-(L i + μ))).cexp
      simpa using this
    have h3 := h2.hasDerivWithinAt (s := Set.Icc 0 h) |>.mul h1
    refine h3.congr_deriv ?_
    ring
  have hcst := constant_of_has_deriv_right_zero (fun t ht => (hd t ht).continuousWithinAt)
    (fun t ht => ((hd t (Set.Ico_subset_Icc_self ht)).mono_of_mem_nhdsWithin (Icc_mem_nhdsGE_of_mem ht))) h ⟨hh.le, le_rfl⟩
  simp only [hY0, Complex.ofReal_zero, zero_mul, Complex.exp_zero, one_mul] at hcst
  simp only [Pi.smul_apply, smul_eq_mul, propagate]
  rw [← hcst, ← mul_assoc, ← mul_assoc, ← Complex.exp_add, ← Complex.exp_add]
  have : (h : ℂ) * μ + h * L i + h * -(L i + μ) = 0 := by ring
  rw [this, Complex.exp_zero, one_mul]

/-- **C92.** The loss for `f u = μ u`: against the solution of `y' = L y + μ y`, the error of a step tends to
`|exp(h μ) - 1| ‖u‖` when the oscillations become rapid. -/
theorem C92_loss (m : CSSolver ι) (hm : m.IsETD) (hL : Rapid L) (hre : ∀ n i, (L n i).re = 0) (μ : ℂ) (u : Vec ι) {h : ℝ} (hh : 0 < h)
    {Y : ℕ → ℝ → Vec ι} (hY0 : ∀ n, Y n 0 = u)
    (hY : ∀ n, ∀ t ∈ Set.Icc 0 h, HasDerivWithinAt (Y n) (fun i => L n i * Y n t i + μ * Y n t i) (Set.Icc 0 h) t) :
    ∃ x : ℕ → Vec ι, (∀ n, ((m.withModes (L n)).step (total fun v => μ • v) u h (m.withModes (L n)).new).1 = .ok (x n)) ∧
      Tendsto (fun n => ‖x n - Y n h‖) atTop (𝓝 (‖Complex.exp (h * μ) - 1‖ * ‖u‖)) := by
  obtain ⟨x, hx, hlim⟩ := C92_step m hm hL (f := fun v => μ • v) (by fun_prop) u hh
  refine ⟨x, hx, ?_⟩
  have hsol : ∀ n, Y n h = Complex.exp (h * μ) • propagate (L n) h u := fun n => linear_solution hh (hY0 n) (hY n)
  have hn : ∀ n, ‖Complex.exp (h * μ) - 1‖ * ‖u‖ = ‖propagate (L n) h u - Y n h‖ := fun n => by
    rw [hsol, ← norm_propagate (hre n) h u, ← norm_smul, ← norm_neg, sub_smul, one_smul, neg_sub]
  rw [tendsto_iff_norm_sub_tendsto_zero]
  refine squeeze_zero (fun _ => norm_nonneg _) (fun n => ?_) (tendsto_zero_iff_norm_tendsto_zero.mp hlim)
  rw [hn n, Real.norm_eq_abs]
  refine (abs_norm_sub_norm_le _ _).trans (le_of_eq ?_)
  congr 1
  abel

/-- **C92.** IF4 does not suffer the loss: for undamped oscillations of any frequency its error is that of the Taylor polynomial of degree 4
of `exp(h μ)`. -/
theorem C92_if4 {L : Vec ι} (hre : ∀ i, (L i).re = 0) (μ : ℂ) (u : Vec ι) {h : ℝ} (hh : 0 < h) {Y : ℝ → Vec ι} (hY0 : Y 0 = u)
    (hY : ∀ t ∈ Set.Icc 0 h, HasDerivWithinAt Y (fun i => L i * Y t i + μ * Y t i) (Set.Icc 0 h) t) :
    ∃ x, ((CSSolver.if4 (.diag L)).step (total fun v => μ • v) u h (CSSolver.if4 (.diag L)).new).1 = .ok x ∧
      ‖x - Y h‖ = ‖1 + h * μ + (h * μ) ^ 2 / 2 + (h * μ) ^ 3 / 6 + (h * μ) ^ 4 / 24 - Complex.exp (h * μ)‖ * ‖u‖ := by
  have h1 := C89_if4_step (.diag L) (μ • (1 : Mat ι)) (by simp) u h hh.le
  simp only [smul_mulVec, one_mulVec] at h1
  refine ⟨_, h1, ?_⟩
  rw [linear_solution hh hY0 hY]
  show ‖expm (Matrix.diagonal L) h *ᵥ _ - _‖ = _
  rw [expm_propagate, ← norm_propagate hre h u, ← norm_smul]
  congr 1
  funext i
  simp only [propagate, smul_smul, smul_pow, one_pow, add_mulVec, smul_mulVec, one_mulVec, Pi.sub_apply, Pi.add_apply, Pi.smul_apply,
    smul_eq_mul]
  ring

/-! ### Some rapid modes -/

variable {D : Set ι} {L0 : Vec ι}

theorem CSSolver.rapid_etd (m : CSSolver ι) (hm : m.IsETD) (hL : RapidIn D L L0) {h : ℝ} (hh : 0 < h) {f : Vec ι → Vec ι} (hf : Continuous f)
    {u : ℕ → Vec ι} {u0 : Vec ι} (hu : Tendsto u atTop (𝓝 u0)) (h0 : ∀ i ∈ D, u0 i = 0) :
    Tendsto (fun n => ((m.withModes (L n)).method h).run f (u n)) atTop
      (𝓝 ((((m.withModes L0).method h).mask (dropMat D)).run f u0)) := by
  rcases m with _ | ⟨cfg, _⟩ | ⟨cfg, _⟩
  · exact hm.elim
  · exact krogstad_rapid hL (fun k c hc => hL.phiDiag _ _ _ hh k hc) hh hf hu h0
  · exact etd5_rapid true hL (fun k c hc => hL.phiDiag _ _ _ hh k hc) hh hf hu h0

theorem ASSolver.rapid_etd (m : ASSolver ι) (hm : m.IsETD) (hL : RapidIn D L L0) {h : ℝ} (hh : 0 < h) {f : Vec ι → Vec ι} (hf : Continuous f)
    {u : ℕ → Vec ι} {u0 : Vec ι} (hu : Tendsto u atTop (𝓝 u0)) (h0 : ∀ i ∈ D, u0 i = 0) :
    Tendsto (fun n => ((m.withModes (L n)).method h).run f (u n)) atTop
      (𝓝 ((((m.withModes L0).method h).mask (dropMat D)).run f u0)) := by
  rcases m with _ | ⟨cfg, _⟩ | ⟨cfg, _⟩ | _
  · exact hm.elim
  · exact krogstad_rapid hL (fun k c hc => hL.phiDiag _ _ _ hh k hc) hh hf hu h0
  · exact etd5_rapid false hL (fun k c hc => hL.phiDiag _ _ _ hh k hc) hh hf hu h0
  · exact hm.elim

/-- **C92.** Some modes are rapid, and zero in the initial array: the steps of ETD4 and ETD5 converge to the step for the problem without
these modes. -/
theorem C92_mixed_step (m : CSSolver ι) (hm : m.IsETD) (hL : RapidIn D L L0) {f : Vec ι → Vec ι} (hf : Continuous f) {u : Vec ι}
    (hu : ∀ i ∈ D, u i = 0) {h : ℝ} (hh : 0 < h) : ∃ (x : ℕ → Vec ι) (v : Vec ι),
      (∀ n, ((m.withModes (L n)).step (total f) u h (m.withModes (L n)).new).1 = .ok (x n)) ∧ Tendsto x atTop (𝓝 v) ∧ (∀ i ∈ D, v i = 0) ∧
      ((m.withModes L0).step (total fun w => without D (f w)) u h (m.withModes L0).new).1 = .ok v := by
  refine ⟨_, _, fun n => m.withModes_step _ f u hh.le,
    (continuous_fst.tendsto _).comp (m.rapid_etd hm hL hh hf (tendsto_const_nhds (x := u)) hu),
    fun i hi => (ERK.mask_zero _ f u hi).1, ?_⟩
  rw [m.withModes_step _ _ u hh.le, m.drop_etd hm L0 h f (without_eq_self hu)]

/-- **C92.** The same for trials of ETD34 and ETD35, including the error estimate. -/
theorem C92_mixed_trial (m : ASSolver ι) (hm : m.IsETD) (hL : RapidIn D L L0) {f : Vec ι → Vec ι} (hf : Continuous f) {u : Vec ι}
    (hu : ∀ i ∈ D, u i = 0) {h : ℝ} (hh : 0 < h) : ∃ (x : ℕ → Vec ι × Vec ι) (v : Vec ι × Vec ι),
      (∀ n, ((m.withModes (L n)).trial (total f) u h (m.withModes (L n)).new).1 = .ok (x n)) ∧ Tendsto x atTop (𝓝 v) ∧
      (∀ i ∈ D, v.1 i = 0 ∧ v.2 i = 0) ∧
      ((m.withModes L0).trial (total fun w => without D (f w)) u h (m.withModes L0).new).1 = .ok v := by
  refine ⟨_, _, fun n => m.withModes_trial _ f u h, m.rapid_etd hm hL hh hf (tendsto_const_nhds (x := u)) hu,
    fun i hi => ERK.mask_zero _ f u hi, ?_⟩
  rw [m.withModes_trial _ _ u h, m.drop_etd hm L0 h f (without_eq_self hu)]

/-- **C92.** The same for whole runs of ETD4 and ETD5: rapid modes that are not excited at first are not excited later. -/
theorem C92_mixed_evolve (m : CSSolver ι) (hm : m.IsETD) (hL : RapidIn D L L0) {f : Vec ι → Vec ι} (hf : Continuous f) (pyDiv : Bool)
    {u : Vec ι} (hu : ∀ i ∈ D, u i = 0) (t0 tf h : ℝ) (storeData : Bool) (freq : ℤ) (hh : 0 < h) (hspan : t0 + h ≤ tf)
    (hq : storeData = true → freq ≠ 0) (hp : pyDiv = true → tf = 0 → ⌈(tf - t0) / h⌉₊ < 100) (fuel : ℕ) (hfuel : ⌈(tf - t0) / h⌉₊ < fuel)
    (s : ∀ n, (m.withModes (L n)).State) (s0 : (m.withModes L0).State) : ∃ (x : ℕ → Vec ι) (v : Vec ι),
      (∀ n, ((m.withModes (L n)).evolve (total f) id pyDiv fuel u t0 tf h storeData freq (s n)).1 = .ok (some (x n))) ∧
      Tendsto x atTop (𝓝 v) ∧ (∀ i ∈ D, v i = 0) ∧
      ((m.withModes L0).evolve (total fun w => without D (f w)) id pyDiv fuel u t0 tf h storeData freq s0).1 = .ok (some v) := by
  have key : ∀ k, (∀ i ∈ D, ((fun v => (((m.withModes L0).method h).run (fun w => without D (f w)) v).1)^[k] u) i = 0) ∧
      Tendsto (fun n => (fun v => (((m.withModes (L n)).method h).run f v).1)^[k] u) atTop
        (𝓝 ((fun v => (((m.withModes L0).method h).run (fun w => without D (f w)) v).1)^[k] u)) := by
    intro k
    induction k with
    | zero => exact ⟨hu, tendsto_const_nhds⟩
    | succ k ih =>
      simp only [Function.iterate_succ_apply']
      rw [← m.drop_etd hm L0 h f (without_eq_self ih.1)]
      exact ⟨fun i hi => (ERK.mask_zero _ f _ hi).1, (continuous_fst.tendsto _).comp (m.rapid_etd hm hL hh hf ih.2 ih.1)⟩
  exact ⟨_, _, fun n => m.withModes_evolve _ f pyDiv u t0 tf h storeData freq hh hspan hq hp _ fuel hfuel, (key _).2, (key _).1,
    m.withModes_evolve _ _ pyDiv u t0 tf h storeData freq hh hspan hq hp s0 fuel hfuel⟩

theorem rapid_one : Rapid fun (n : ℕ) (_ : Fin 1) => (n : ℂ) * Complex.I := by
  refine ⟨⟨0, fun n i => by simp⟩, fun i => ?_⟩
  simpa using tendsto_natCast_atTop_atTop (R := ℝ)

/-- `C92_step`, `C92_trial`, `C92_evolve`: one mode `i n` and the nonlinear function `u^2`. -/
example (u : Vec (Fin 1)) :
    (∃ x : ℕ → Vec (Fin 1), (∀ n : ℕ, ((CSSolver.etd4 ⟨1, 32, 1⟩ (.diag fun _ : Fin 1 => (n : ℂ) * Complex.I)).step (total fun v => v * v) u 1
      (CSSolver.etd4 ⟨1, 32, 1⟩ (.diag fun _ : Fin 1 => (n : ℂ) * Complex.I)).new).1 = .ok (x n)) ∧
      Tendsto (fun n : ℕ => x n - propagate (fun _ => (n : ℂ) * Complex.I) 1 u) atTop (𝓝 0)) ∧
    (∃ x e : ℕ → Vec (Fin 1), (∀ n : ℕ, ((ASSolver.etd35 ⟨1, 32, 1⟩ (.diag fun _ : Fin 1 => (n : ℂ) * Complex.I)).trial (total fun v => v * v) u 1
      (ASSolver.etd35 ⟨1, 32, 1⟩ (.diag fun _ : Fin 1 => (n : ℂ) * Complex.I)).new).1 = .ok (x n, e n)) ∧ Tendsto e atTop (𝓝 0)) ∧
    ∃ x : ℕ → Vec (Fin 1), (∀ n : ℕ, ((CSSolver.etd5 ⟨1, 32, 1⟩ (.diag fun _ : Fin 1 => (n : ℂ) * Complex.I)).evolve (total fun v => v * v) id false 20 u 0 1 (1 / 10)
      true 1 (CSSolver.etd5 ⟨1, 32, 1⟩ (.diag fun _ : Fin 1 => (n : ℂ) * Complex.I)).new).1 = .ok (some (x n))) ∧
      Tendsto (fun n : ℕ => x n - propagate (fun _ => (n : ℂ) * Complex.I) 1 u) atTop (𝓝 0) := by
  refine ⟨?_, ?_, ?_⟩
  · exact C92_step (.etd4 ⟨1, 32, 1⟩ (.diag 0)) trivial rapid_one (f := fun v => v * v) (by fun_prop) u one_pos
  · obtain ⟨x, e, h1, -, h2⟩ := C92_trial (.etd35 ⟨1, 32, 1⟩ (.diag 0)) trivial rapid_one (f := fun v => v * v) (by fun_prop) u one_pos
    exact ⟨x, e, h1, h2⟩
  · obtain ⟨x, h1, h2⟩ := C92_evolve (.etd5 ⟨1, 32, 1⟩ (.diag 0)) trivial rapid_one (f := fun v => v * v) (by fun_prop) false u 0 1 (1 / 10) true 1
      (by norm_num) (by norm_num) (by simp) (by simp) 20 (by norm_num) (fun n => CSSolver.new _)
    refine ⟨x, h1, ?_⟩
    have hc : (⌈((1 : ℝ) - 0) / (1 / 10)⌉₊ : ℝ) * (1 / 10) = 1 := by norm_num
    rw [hc] at h2
    exact h2

/-- `C92_accept`: `epsilon = 10^-4`, one mode `i n` and the nonlinear function `u^2`. -/
example : ∀ᶠ n : ℕ in atTop,
    ¬ (ASSolver.etd34 ⟨1, 32, 1⟩ (.diag fun _ : Fin 1 => (n : ℂ) * Complex.I)).Blind (total fun v => v * v)
      { epsilon := 1 / 10000, incr_f := 1.25, decr_f := 0.85, safety_f := 0.8, adapt_cutoff := 0.01, minh := 1e-16 } 1 1 →
    ∃ v h', ((ASSolver.etd34 ⟨1, 32, 1⟩ (.diag fun _ : Fin 1 => (n : ℂ) * Complex.I)).step (total fun v => v * v) id
      { epsilon := 1 / 10000, incr_f := 1.25, decr_f := 0.85, safety_f := 0.8, adapt_cutoff := 0.01, minh := 1e-16 } 1 1
      (ASSolver.etd34 ⟨1, 32, 1⟩ (.diag fun _ : Fin 1 => (n : ℂ) * Complex.I)).new).1 = .ok (v, 1, h') :=
  C92_accept (.etd34 ⟨1, 32, 1⟩ (.diag 0)) trivial rapid_one (fun n i => by simp) (f := fun v => v * v) (by fun_prop) one_ne_zero one_pos
    (by norm_num) (by norm_num) (by norm_num)

/-- `C92_loss`, `C92_if4`: the equations `y' = i n y + y`, started in one. -/
example : ∃ Y : ℕ → ℝ → Vec (Fin 1), (∀ n, Y n 0 = 1) ∧
    (∃ x : ℕ → Vec (Fin 1), (∀ n : ℕ, ((CSSolver.etd4 ⟨1, 32, 1⟩ (.diag fun _ : Fin 1 => (n : ℂ) * Complex.I)).step (total fun v => (1 : ℂ) • v) 1 1
      (CSSolver.etd4 ⟨1, 32, 1⟩ (.diag fun _ : Fin 1 => (n : ℂ) * Complex.I)).new).1 = .ok (x n)) ∧
      Tendsto (fun n : ℕ => ‖x n - Y n 1‖) atTop (𝓝 (‖Complex.exp ((1 : ℝ) * 1) - 1‖ * ‖(1 : Vec (Fin 1))‖))) ∧
    ∀ n : ℕ, ∃ x, ((CSSolver.if4 (.diag fun _ : Fin 1 => (n : ℂ) * Complex.I)).step (total fun v => (1 : ℂ) • v) 1 1
      (CSSolver.if4 (.diag fun _ : Fin 1 => (n : ℂ) * Complex.I)).new).1 = .ok x ∧
      ‖x - Y n 1‖ = ‖1 + ((1 : ℝ) : ℂ) * 1 + ((1 : ℝ) * 1) ^ 2 / 2 + ((1 : ℝ) * 1) ^ 3 / 6 + ((1 : ℝ) * 1) ^ 4 / 24 -
        Complex.exp ((1 : ℝ) * 1)‖ * ‖(1 : Vec (Fin 1))‖ := by
  let Y : ℕ → ℝ → Vec (Fin 1) := fun n t _ => Complex.exp (t * ((n : ℂ) * Complex.I + 1))
  have h0 : ∀ n, Y n 0 = 1 := fun n => by funext i; simp [Y]
  have hY : ∀ n, ∀ t ∈ Set.Icc (0 : ℝ) 1,
      HasDerivWithinAt (Y n) (fun i => (n : ℂ) * Complex.I * Y n t i + 1 * Y n t i) (Set.Icc 0 1) t := by
    intro n t _
    refine hasDerivWithinAt_pi.mpr fun i => ?_
    have := ((Complex.ofRealCLM.hasDerivAt (x := t)).mul_const ((n : ℂ) * Complex.I + 1)).cexp.hasDerivWithinAt (s := Set.Icc 0 1)
    refine this.congr_deriv ?_
    simp only [Y, Complex.ofRealCLM_apply, Complex.ofReal_one]
    ring
  exact ⟨Y, h0, C92_loss (.etd4 ⟨1, 32, 1⟩ (.diag 0)) trivial rapid_one (fun n i => by simp) 1 1 one_pos h0 hY,
    fun n => C92_if4 (fun i => by simp) 1 1 one_pos (h0 n) (hY n)⟩

/-- A trial of ETD34 with `h = 1`, for one mode `z` with `exp(z/2) = -1` and `f u = u`, in terms of `w = 1/z`. -/
theorem krogstad_run_one (φ : ℕ → ℝ → Mat (Fin 1)) (L : Mat (Fin 1)) {w : ℂ} (hE : expm L 1 0 0 = 1) (hE2 : expm L (1 / 2) 0 0 = -1)
    (h1 : φ 1 (1 / 2) 0 0 = -4 * w) (h2 : φ 2 (1 / 2) 0 0 = -8 * w ^ 2 - 2 * w) (h3 : φ 1 1 0 0 = 0) (h4 : φ 2 1 0 0 = -w)
    (h5 : φ 3 1 0 0 = -w ^ 2 - w / 2) :
    let a2 := -1 + 2 * w + 20 * w ^ 2 + 16 * w ^ 3
    let a3 := 1 + 2 * w - 2 * w * a2
    let a4 := 1 + (w - 4 * w ^ 2) + 4 * w ^ 2 * (-1 - 2 * w + a2) + (-w - 4 * w ^ 2) * a3
    ((krogstad φ L 1).run (fun v => v) 1).1 0 = a4 ∧
    ((krogstad φ L 1).run (fun v => v) 1).2 0 = (-w - 4 * w ^ 2) * (a3 - a4) := by
  simp [ERK.run, ERK.out, ERK.err, krogstad, Finset.sum_range_succ, ERK.values, ERK.arg, Function.update_apply, mulVec, dotProduct,
    -one_div, hE, hE2, h1, h2, h3, h4, h5]
  constructor <;> ring

/-- Frequencies `(4 n + 2) π`. -/
noncomputable def halfTurns (n : ℕ) : ℂ := (4 * n + 2 : ℝ) * (Real.pi * Complex.I)

theorem halfTurns_exp (n : ℕ) : Complex.exp (halfTurns n) = 1 ∧ Complex.exp (halfTurns n / 2) = -1 := by
  have h1 : Complex.exp (halfTurns n / 2) = -1 := by
    have : halfTurns n / 2 = Real.pi * Complex.I + n * (2 * Real.pi * Complex.I) := by
      simp only [halfTurns]; push_cast; ring
    rw [this, Complex.exp_add, Complex.exp_pi_mul_I, Complex.exp_nat_mul_two_pi_mul_I, mul_one]
  refine ⟨?_, h1⟩
  have : halfTurns n = halfTurns n / 2 + halfTurns n / 2 := by ring
  rw [this, Complex.exp_add, h1]
  norm_num

theorem norm_halfTurns (n : ℕ) : ‖halfTurns n‖ = (4 * n + 2) * Real.pi := by
  rw [halfTurns, norm_mul, norm_mul, Complex.norm_I, mul_one, Complex.norm_real, Complex.norm_real, Real.norm_of_nonneg Real.pi_pos.le,
    Real.norm_of_nonneg (by positivity)]

theorem halfTurns_rapid : Rapid fun (n : ℕ) (_ : Fin 1) => halfTurns n := by
  refine ⟨⟨0, fun n i => by simp [halfTurns]⟩, fun i => ?_⟩
  simp only [norm_halfTurns]
  refine Tendsto.atTop_mul_const Real.pi_pos (tendsto_atTop_add_const_right _ _ ?_)
  exact tendsto_natCast_atTop_atTop.const_mul_atTop (by norm_num)

theorem halfTurns_trial (n : ℕ) : ∃ v e, ((ASSolver.etd34 ⟨1, 32, 1⟩ (.diag fun _ : Fin 1 => halfTurns n)).trial (total fun v => v) 1 1
      (ASSolver.etd34 ⟨1, 32, 1⟩ (.diag fun _ : Fin 1 => halfTurns n)).new).1 = .ok (v, e) ∧
    let w := (halfTurns n)⁻¹
    let a2 := -1 + 2 * w + 20 * w ^ 2 + 16 * w ^ 3
    let a3 := 1 + 2 * w - 2 * w * a2
    let a4 := 1 + (w - 4 * w ^ 2) + 4 * w ^ 2 * (-1 - 2 * w + a2) + (-w - 4 * w ^ 2) * a3
    v 0 = a4 ∧ e 0 = (-w - 4 * w ^ 2) * (a3 - a4) := by
  refine ⟨_, _, (ASSolver.etd34 ⟨1, 32, 1⟩ (.diag 0)).withModes_trial (fun _ : Fin 1 => halfTurns n) (fun v => v) 1 1, ?_⟩
  obtain ⟨e1, e2⟩ := halfTurns_exp n
  have hn : 1 ≤ ‖halfTurns n‖ := by
    rw [norm_halfTurns]
    nlinarith [Real.two_le_pi, (Nat.cast_nonneg n : (0 : ℝ) ≤ n)]
  have hz : halfTurns n ≠ 0 := norm_pos_iff.mp (by linarith)
  have e3 : Complex.exp (2⁻¹ * halfTurns n) = -1 := by rw [← e2]; congr 1; ring
  have hφ : ∀ k c, phiDiag 1 1 32 (fun _ : Fin 1 => halfTurns n) 1 k c 0 0 = phiDiv k (c * halfTurns n) := fun k c => by
    simp [phiDiag, phiMode, not_lt.mpr hn]
  refine krogstad_run_one (phiDiag 1 1 32 (fun _ : Fin 1 => halfTurns n) 1) (Matrix.diagonal fun _ : Fin 1 => halfTurns n) ?_ ?_ ?_ ?_ ?_ ?_ ?_
  · simp [expm_diag, e1]
  · simp [expm_diag, e3]
  · rw [hφ]; simp [phiDiv, e3]; field_simp; norm_num
  · rw [hφ]; simp [phiDiv, e3, Finset.sum_range_succ]; field_simp; ring
  · rw [hφ]; simp [phiDiv, e1]
  · rw [hφ]; simp [phiDiv, e1, Finset.sum_range_succ]; field_simp
  · rw [hφ]; simp [phiDiv, e1, Finset.sum_range_succ, Nat.factorial]; field_simp; ring

/-- `C92_accept` for the frequencies `(4 n + 2) π` and `f u = u`: the error estimate does not vanish, so ETD34 accepts the first trial
with `h = 1`, for every `epsilon`. -/
example {cfg : SolverConfig ℝ} (heps : 0 < cfg.epsilon) (hs : 0 < cfg.safety_f) (hc : cfg.adapt_cutoff < 1) :
    ∀ᶠ n in atTop, ∃ v h', ((ASSolver.etd34 ⟨1, 32, 1⟩ (.diag fun _ : Fin 1 => halfTurns n)).step (total fun v => v) id cfg 1 1
      (ASSolver.etd34 ⟨1, 32, 1⟩ (.diag fun _ : Fin 1 => halfTurns n)).new).1 = .ok (v, 1, h') := by
  have h1 := C92_accept (.etd34 ⟨1, 32, 1⟩ (.diag 0)) trivial halfTurns_rapid (fun n i => by simp [halfTurns]) (f := fun v => v) continuous_id
    (u := 1) one_ne_zero one_pos heps hs hc
  have hw : Tendsto (fun n => (halfTurns n)⁻¹) atTop (𝓝 0) :=
    tendsto_inv₀_cobounded.comp (tendsto_norm_atTop_iff_cobounded.mp (halfTurns_rapid.2 0))
  have hv : Tendsto (fun w : ℂ => 1 + (w - 4 * w ^ 2) + 4 * w ^ 2 * (-1 - 2 * w + (-1 + 2 * w + 20 * w ^ 2 + 16 * w ^ 3)) +
      (-w - 4 * w ^ 2) * (1 + 2 * w - 2 * w * (-1 + 2 * w + 20 * w ^ 2 + 16 * w ^ 3))) (𝓝 0) (𝓝 1) := by
    refine Continuous.tendsto' (by fun_prop) _ _ (by norm_num)
  have hg : Tendsto (fun w : ℂ => (-1 - 4 * w) * (4 + 16 * w - 28 * w ^ 2 - 168 * w ^ 3 - 256 * w ^ 4 - 128 * w ^ 5)) (𝓝 0) (𝓝 (-4)) := by
    refine Continuous.tendsto' (by fun_prop) _ _ (by norm_num)
  filter_upwards [h1, (hv.comp hw).eventually_ne one_ne_zero, (hg.comp hw).eventually_ne (b₂ := 0) (by norm_num)] with n h2 h3 h4
  refine h2 fun ⟨v, e, hve, hz⟩ => ?_
  obtain ⟨v', e', hve', a, b⟩ := halfTurns_trial n
  have := hve.symm.trans hve'
  rw [Except.ok.injEq, Prod.mk.injEq] at this
  obtain ⟨rfl, rfl⟩ := this
  have hw0 : (halfTurns n)⁻¹ ≠ 0 := by
    refine inv_ne_zero (norm_pos_iff.mp ?_)
    rw [norm_halfTurns]
    positivity
  have hv0 : v 0 ≠ 0 := by rw [a]; exact h3
  have hm : maxAbs v = ‖v 0‖ := by simp [maxAbs]
  have he := hz 0 (by rw [hm]; nlinarith [norm_pos_iff.mpr hv0])
  rw [b] at he
  refine h4 ?_
  have : ((halfTurns n)⁻¹) ^ 2 * ((fun w : ℂ => (-1 - 4 * w) * (4 + 16 * w - 28 * w ^ 2 - 168 * w ^ 3 - 256 * w ^ 4 - 128 * w ^ 5)) (halfTurns n)⁻¹) = 0 := by
    rw [← he]; ring
  exact (mul_eq_zero.mp this).resolve_left (pow_ne_zero 2 hw0)

theorem rapid_two : RapidIn {1} (fun (n : ℕ) => ![Complex.I, (n : ℂ) * Complex.I]) ![Complex.I, 0] := by
  refine ⟨⟨0, fun n i hi => ?_⟩, fun i hi => ?_, fun i hi n => ?_⟩
  · rw [Set.mem_singleton_iff.mp hi]; simp
  · rw [Set.mem_singleton_iff.mp hi]; simpa using tendsto_natCast_atTop_atTop (R := ℝ)
  · fin_cases i
    · rfl
    · exact absurd rfl hi

/-- `C92_mixed_step`, `C92_mixed_trial`, `C92_mixed_evolve`: the modes `i` and `i n`, the second one zero at first, and a nonlinear function that
couples them. -/
example : (∃ (x : ℕ → Vec (Fin 2)) (v : Vec (Fin 2)),
      (∀ n : ℕ, ((CSSolver.etd4 ⟨1, 32, 1⟩ (.diag ![Complex.I, (n : ℂ) * Complex.I])).step (total fun v => ![v 1 + 1, v 0]) ![1, 0] 1
        (CSSolver.etd4 ⟨1, 32, 1⟩ (.diag ![Complex.I, (n : ℂ) * Complex.I])).new).1 = .ok (x n)) ∧ Tendsto x atTop (𝓝 v) ∧ v 1 = 0) ∧
    (∃ (x : ℕ → Vec (Fin 2) × Vec (Fin 2)) (v : Vec (Fin 2) × Vec (Fin 2)),
      (∀ n : ℕ, ((ASSolver.etd35 ⟨1, 32, 1⟩ (.diag ![Complex.I, (n : ℂ) * Complex.I])).trial (total fun v => ![v 1 + 1, v 0]) ![1, 0] 1
        (ASSolver.etd35 ⟨1, 32, 1⟩ (.diag ![Complex.I, (n : ℂ) * Complex.I])).new).1 = .ok (x n)) ∧ Tendsto x atTop (𝓝 v) ∧ v.2 1 = 0) ∧
    ∃ (x : ℕ → Vec (Fin 2)) (v : Vec (Fin 2)),
      (∀ n : ℕ, ((CSSolver.etd5 ⟨1, 32, 1⟩ (.diag ![Complex.I, (n : ℂ) * Complex.I])).evolve (total fun v => ![v 1 + 1, v 0]) id false 20 ![1, 0]
        0 1 (1 / 10) true 1 (CSSolver.etd5 ⟨1, 32, 1⟩ (.diag ![Complex.I, (n : ℂ) * Complex.I])).new).1 = .ok (some (x n))) ∧
      Tendsto x atTop (𝓝 v) ∧ v 1 = 0 := by
  have hf : Continuous fun v : Vec (Fin 2) => (![v 1 + 1, v 0] : Vec (Fin 2)) := by
    refine continuous_pi fun i => ?_
    fin_cases i
    · exact (continuous_apply 1).add continuous_const
    · exact continuous_apply 0
  have hu : ∀ i ∈ ({1} : Set (Fin 2)), (![1, 0] : Vec (Fin 2)) i = 0 := fun i hi => by rw [Set.mem_singleton_iff.mp hi]; rfl
  refine ⟨?_, ?_, ?_⟩
  · obtain ⟨x, v, h1, h2, h3, -⟩ := C92_mixed_step (.etd4 ⟨1, 32, 1⟩ (.diag 0)) trivial rapid_two hf hu one_pos
    exact ⟨x, v, h1, h2, h3 1 rfl⟩
  · obtain ⟨x, v, h1, h2, h3, -⟩ := C92_mixed_trial (.etd35 ⟨1, 32, 1⟩ (.diag 0)) trivial rapid_two hf hu one_pos
    exact ⟨x, v, h1, h2, (h3 1 rfl).2⟩
  · obtain ⟨x, v, h1, h2, h3, -⟩ := C92_mixed_evolve (.etd5 ⟨1, 32, 1⟩ (.diag 0)) trivial rapid_two hf false hu 0 1 (1 / 10) true 1
      (by norm_num) (by norm_num) (by simp) (by simp) 20 (by norm_num) (fun n => CSSolver.new _) (CSSolver.new _)
    exact ⟨x, v, h1, h2, h3 1 rfl⟩

end Verif
