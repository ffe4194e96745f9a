import Verif.Lemmas.Estimate

/-!
# When adaptive stepping succeeds (property C61)

Small trials are accepted, unless their error estimate vanishes in all components that count.  So an adaptive step or run on a problem whose
`nl_func` is Lipschitz on balls can only fail because the state leaves the range considered, because an estimate vanishes, or because
`minh` or the limit of 51 trials are out of proportion.
-/

set_option linter.unusedSectionVars false

namespace Verif

open Matrix Finset Asymptotics
open scoped ContDiff

variable {ι : Type} [Fintype ι] [DecidableEq ι] {f : Vec ι → Vec ι}

/-! ### The criterion -/

/-- What makes a factor acceptable. -/
theorem acceptable_iff {q : ℕ} (hq : 0 < q) {cfg : SolverConfig ℝ} (heps : 0 < cfg.epsilon) (hs : 0 < cfg.safety_f) {v e : Vec ι} :
    Acceptable (computeS q cfg v e) ↔ 0 < selNorm cfg.adapt_cutoff v e ∧
      selNorm cfg.adapt_cutoff v e ≤ cfg.safety_f ^ q * cfg.epsilon * selNorm cfg.adapt_cutoff v v := by
  refine ⟨fun h => ⟨(accepted_tolerance hq heps h).1, (accepted_tolerance hq heps h).2.1⟩, fun ⟨hE, hle⟩ => ?_⟩
  rw [computeS_eq]
  set N := selNorm cfg.adapt_cutoff v v
  set E := selNorm cfg.adapt_cutoff v e
  have hN : 0 ≤ N := selNorm_nonneg _ _ _
  have hquot : 0 ≤ cfg.epsilon * N / E := by positivity
  refine ⟨cfg.safety_f * (cfg.epsilon * N / E) ^ ((1 : ℝ) / q), ?_, ?_⟩
  · unfold npDiv
    rw [if_neg hE.ne']
    simp only [npPower, npScale, not_lt.mpr hquot, if_false]
  · have h1 : (1 : ℝ) ≤ cfg.safety_f ^ q * (cfg.epsilon * N / E) := by
      rw [mul_div_assoc', le_div_iff₀ hE]; linarith
    have h2 : (cfg.safety_f * (cfg.epsilon * N / E) ^ ((1 : ℝ) / q)) ^ q = cfg.safety_f ^ q * (cfg.epsilon * N / E) := by
      rw [mul_pow, ← Real.rpow_natCast ((cfg.epsilon * N / E) ^ ((1 : ℝ) / q)), ← Real.rpow_mul hquot,
        one_div, inv_mul_cancel₀ (by exact_mod_cast hq.ne'), Real.rpow_one]
    have hp : 0 ≤ cfg.safety_f * (cfg.epsilon * N / E) ^ ((1 : ℝ) / q) := mul_nonneg hs.le (Real.rpow_nonneg hquot _)
    by_contra hc
    have := pow_lt_one₀ hp (not_le.mp hc) hq.ne'
    rw [h2] at this
    linarith

theorem maxAbs_eq_norm (v : Vec ι) : maxAbs v = ‖v‖ := by
  refine le_antisymm (Real.iSup_le (fun i => norm_le_pi_norm v i) (norm_nonneg _)) ?_
  exact (pi_norm_le_iff_of_nonneg (maxAbs_nonneg v)).mpr fun i => norm_le_maxAbs v i

theorem selNorm_ge {c : ℝ} {v w : Vec ι} {i : ι} (h : c * maxAbs v < ‖v i‖) : ‖w i‖ ≤ selNorm c v w := by
  classical
  unfold selNorm
  refine Real.le_sqrt_of_sq_le ?_
  exact single_le_sum (f := fun i => ‖w i‖ ^ 2) (fun _ _ => by positivity) (mem_filter.mpr ⟨mem_univ _, h⟩)

theorem selNorm_self {c : ℝ} (hc : c < 1) (v : Vec ι) : ‖v‖ ≤ selNorm c v v := by
  rcases eq_or_ne v 0 with rfl | hv
  · rw [norm_zero]; exact selNorm_nonneg _ _ _
  have hpos : 0 < ‖v‖ := norm_pos_iff.mpr hv
  have : Nonempty ι := by
    by_contra hn
    exact hv (funext fun i => absurd ⟨i⟩ hn)
  obtain ⟨i, -, hi⟩ := univ.exists_max_image (fun i => ‖v i‖) univ_nonempty
  have hi' : ‖v‖ = ‖v i‖ := le_antisymm ((pi_norm_le_iff_of_nonneg (norm_nonneg _)).mpr fun j => hi j (mem_univ _)) (norm_le_pi_norm v i)
  rw [hi']
  refine selNorm_ge ?_
  rw [maxAbs_eq_norm, ← hi']
  nlinarith

theorem selNorm_le (c : ℝ) (v w : Vec ι) : selNorm c v w ≤ Real.sqrt (Fintype.card ι) * ‖w‖ := by
  classical
  unfold selNorm
  rw [← Real.sqrt_sq (norm_nonneg w), ← Real.sqrt_mul (by positivity)]
  refine Real.sqrt_le_sqrt ((sum_le_sum_of_subset_of_nonneg (filter_subset _ _) fun _ _ _ => by positivity).trans ?_)
  refine (sum_le_sum (g := fun _ => ‖w‖ ^ 2) fun i _ => pow_le_pow_left₀ (norm_nonneg _) (norm_le_pi_norm w i) 2).trans (le_of_eq ?_)
  simp

theorem selNorm_pos_iff {c : ℝ} {v w : Vec ι} : 0 < selNorm c v w ↔ ¬ ∀ i, c * maxAbs v < ‖v i‖ → w i = 0 := by
  constructor
  · intro h hz
    rw [selNorm_eq_zero hz] at h; exact lt_irrefl _ h
  · intro h
    push Not at h
    obtain ⟨i, h1, h2⟩ := h
    exact lt_of_lt_of_le (norm_pos_iff.mpr h2) (selNorm_ge h1)

/-! ### Trials -/

namespace ASSolver

/-- The trial of size `h` from `u` succeeds, but its error estimate vanishes in every component that counts. -/
def Blind (m : ASSolver ι) (nl : NlFunc ι) (cfg : SolverConfig ℝ) (h : ℝ) (u : Vec ι) : Prop :=
  ∃ v e, (m.trial nl u h m.new).1 = .ok (v, e) ∧ ∀ i, cfg.adapt_cutoff * maxAbs v < ‖v i‖ → e i = 0

theorem q_withPoints (m : ASSolver ι) (N : ℕ) : (m.withPoints N).q = m.q := by cases m <;> rfl

theorem prj_withPoints (m : ASSolver ι) (N : ℕ) : (m.withPoints N).op.prj = m.op.prj := by cases m <;> rfl

/-- A bound on the error estimate decides acceptance. -/
theorem accepts_of_bound (m : ASSolver ι) {cfg : SolverConfig ℝ} (heps : 0 < cfg.epsilon) (hs : 0 < cfg.safety_f)
    (hc : cfg.adapt_cutoff < 1) {v e : Vec ι} {ρ B : ℝ} (hv : ρ ≤ ‖v‖) (he : ‖e‖ ≤ B)
    (hB : Real.sqrt (Fintype.card ι) * B ≤ cfg.safety_f ^ m.q * cfg.epsilon * ρ) (nl : NlFunc ι) :
    Acceptable (m.factor nl cfg (v, e)) ↔ ¬ ∀ i, cfg.adapt_cutoff * maxAbs v < ‖v i‖ → e i = 0 := by
  rw [m.factor_eq, acceptable_iff m.q_pos heps hs, ← selNorm_pos_iff, and_iff_left]
  calc selNorm cfg.adapt_cutoff v e ≤ Real.sqrt (Fintype.card ι) * ‖e‖ := selNorm_le _ _ _
    _ ≤ Real.sqrt (Fintype.card ι) * B := mul_le_mul_of_nonneg_left he (Real.sqrt_nonneg _)
    _ ≤ cfg.safety_f ^ m.q * cfg.epsilon * ρ := hB
    _ ≤ cfg.safety_f ^ m.q * cfg.epsilon * selNorm cfg.adapt_cutoff v v :=
      mul_le_mul_of_nonneg_left (hv.trans (selNorm_self hc v)) (by positivity)

end ASSolver

/-- **C61.** From states with `ρ ≤ ‖u‖ ≤ r` (largest entry), a trial whose size is below a constant and below a constant times
`safety_f^q epsilon` succeeds, and is accepted unless its error estimate vanishes where it counts.  The constants do not depend on the
configuration or the number of contour points. -/
theorem C61_small_accepted (m : ASSolver ι) (hm : m.GoodContour) (hf : LipOnBalls f) {ρ : ℝ} (hρ : 0 < ρ) (r : ℝ) :
    ∃ c η : ℝ, 0 < c ∧ 0 < η ∧ ∀ (N : ℕ) (cfg : SolverConfig ℝ) (h : ℝ), 0 < N → 0 < cfg.epsilon → 0 < cfg.safety_f →
      cfg.adapt_cutoff < 1 → 0 < h → h ≤ η → h ≤ c * (cfg.safety_f ^ m.q * cfg.epsilon) → ∀ u, ρ ≤ ‖u‖ → ‖u‖ ≤ r →
        ∃ x, ((m.withPoints N).trial (total f) u h (m.withPoints N).new).1 = .ok x ∧
          (Acceptable ((m.withPoints N).factor (total f) cfg x) ↔ ¬ (m.withPoints N).Blind (total f) cfg h u) := by
  obtain ⟨C, η, hC, hη, hη1, hst⟩ := m.small_step hm hf r
  obtain ⟨B, hB⟩ := m.op.norm_prj
  set D := Real.sqrt (Fintype.card ι) * (|B| * C) with hD
  have D0 : 0 ≤ D := by positivity
  refine ⟨ρ / 2 / (D + 1), min η (ρ / 2 / (C + 1)), by positivity, by positivity, fun N cfg h hN heps hs hc h0 h1 h2 u hu1 hu2 => ?_⟩
  obtain ⟨hco, hst⟩ := hst N h hN h0.le (h1.trans (min_le_left _ _))
  obtain ⟨a1, a2, -⟩ := hst u hu2
  have htr := ((m.withPoints N).trial_new (total f) u h).trans ((m.withPoints N).oneTrial_run u hco)
  refine ⟨_, htr, ?_⟩
  rw [(m.withPoints N).accepts_of_bound heps hs hc (ρ := ρ / 2) (B := |B| * C * h), not_iff_not]
  · constructor
    · exact fun hz => ⟨_, _, htr, hz⟩
    · rintro ⟨v, e, hve, hz⟩
      rw [htr, Except.ok.injEq, Prod.mk.injEq] at hve
      obtain ⟨rfl, rfl⟩ := hve
      exact hz
  · have h3 : C * h ≤ ρ / 2 := by
      have := h1.trans (min_le_right _ _)
      rw [le_div_iff₀ (by positivity)] at this
      nlinarith
    have h4 := norm_sub_norm_le u (((m.withPoints N).userMethod h).run f u).1
    rw [norm_sub_rev] at h4
    linarith
  · rw [m.prj_withPoints]
    refine (hB _).trans ?_
    rw [mul_assoc]
    exact mul_le_mul (le_abs_self B) a2 (norm_nonneg _) (abs_nonneg _)
  · rw [m.q_withPoints]
    rw [div_mul_eq_mul_div, le_div_iff₀ (by positivity)] at h2
    have : Real.sqrt (Fintype.card ι) * (|B| * C * h) = D * h := by rw [hD]; ring
    rw [this]
    nlinarith

theorem ASSolver.exact_err (m : ASSolver ι) (hm : ∀ L, m ≠ .if45dp L) (hf : ContDiff ℝ ∞ f) (r : ℝ) :
    ∃ C η : ℝ, 0 < η ∧ ∀ h, 0 < h → h < η → ∀ u, ‖u‖ ≤ r → ‖((m.exact h).run f u).2‖ ≤ C * h ^ 4 := by
  have hK := isCompact_closedBall (0 : Vec ι) r
  have hu : ∀ q ∈ Metric.closedBall (0 : Vec ι) r, id q ∈ Metric.closedBall (0 : Vec ι) r := fun _ h => h
  have key : (fun x : ℝ × Vec ι => ((m.exact x.1).run f (id x.2)).2) =O[small (Metric.closedBall 0 r)] fun x => x.1 ^ 4 := by
    rcases m with L | ⟨cfg, L⟩ | ⟨cfg, L⟩ | L
    · exact err_order hf hK hu (rk4_expands L.mat) (QTab.err_zero rk4Q_closed rk4Q_cancels (by norm_num))
    · exact err_order hf hK hu (krogstad_expands L.mat) (QTab.err_zero krogstadQ_closed krogstadQ_cancels (by norm_num))
    · exact err_order hf hK hu (etd5_expands L.mat false) (QTab.err_zero etd5Q_closed etd5Q_cancels (by norm_num))
    · exact absurd rfl (hm L)
  obtain ⟨C, η, hη, hC⟩ := isBigO_small key
  exact ⟨C, η, hη, fun h h0 h1 u hu' => hC h h0 h1 u (mem_closedBall_zero_iff.mpr hu')⟩

/-- **C61.** For IF34, ETD34 and ETD35 and smooth `f`, trials are accepted already when `h^4 + h 2^-N` is below a constant times
`safety_f^4 epsilon`. -/
theorem C61_rate (m : ASSolver ι) (hm : m.GoodContour) (hdp : ∀ L, m ≠ .if45dp L) (hf : ContDiff ℝ ∞ f) {ρ : ℝ} (hρ : 0 < ρ) (r : ℝ) :
    ∃ c η : ℝ, 0 < c ∧ 0 < η ∧ ∀ (N : ℕ) (cfg : SolverConfig ℝ) (h : ℝ), 0 < N → 0 < cfg.epsilon → 0 < cfg.safety_f →
      cfg.adapt_cutoff < 1 → 0 < h → h ≤ η → h ^ 4 + h * (1 / 2) ^ N ≤ c * (cfg.safety_f ^ 4 * cfg.epsilon) → ∀ u, ρ ≤ ‖u‖ → ‖u‖ ≤ r →
        ∃ x, ((m.withPoints N).trial (total f) u h (m.withPoints N).new).1 = .ok x ∧
          (Acceptable ((m.withPoints N).factor (total f) cfg x) ↔ ¬ (m.withPoints N).Blind (total f) cfg h u) := by
  have hq : m.q = 4 := by
    rcases m with L | ⟨cfg, L⟩ | ⟨cfg, L⟩ | L
    · rfl
    · rfl
    · rfl
    · exact absurd rfl (hdp L)
  obtain ⟨C, η, hC, hη, hη1, hst⟩ := m.small_step hm (LipOnBalls.of_contDiff (hf.of_le (by exact_mod_cast le_top))) r
  obtain ⟨C', η', hη', hex⟩ := m.exact_err hdp hf r
  obtain ⟨B, hB⟩ := m.op.norm_prj
  set D := Real.sqrt (Fintype.card ι) * (|B| * (C + |C'|)) with hD
  have D0 : 0 ≤ D := by positivity
  refine ⟨ρ / 2 / (D + 1), min (min η (η' / 2)) (ρ / 2 / (C + 1)), by positivity, by positivity,
    fun N cfg h hN heps hs hc h0 h1 h2 u hu1 hu2 => ?_⟩
  obtain ⟨hco, hst⟩ := hst N h hN h0.le (h1.trans ((min_le_left _ _).trans (min_le_left _ _)))
  obtain ⟨a1, -, a3⟩ := hst u hu2
  have a4 := hex h h0 (by have := h1.trans ((min_le_left _ _).trans (min_le_right _ _)); linarith) u hu2
  have a5 : ‖(((m.withPoints N).userMethod h).run f u).2‖ ≤ (C + |C'|) * (h ^ 4 + h * (1 / 2) ^ N) := by
    have b1 := norm_add_le ((((m.withPoints N).userMethod h).run f u).2 - ((m.exact h).run f u).2) ((m.exact h).run f u).2
    rw [sub_add_cancel] at b1
    have b2 : 0 ≤ h * (1 / 2 : ℝ) ^ N := by positivity
    have b3 : 0 ≤ h ^ 4 := by positivity
    have b4 : C' * h ^ 4 ≤ |C'| * h ^ 4 := mul_le_mul_of_nonneg_right (le_abs_self _) b3
    have b5 : 0 ≤ |C'| * (h * (1 / 2 : ℝ) ^ N) := by positivity
    have b6 : 0 ≤ C * h ^ 4 := by positivity
    nlinarith
  have htr := ((m.withPoints N).trial_new (total f) u h).trans ((m.withPoints N).oneTrial_run u hco)
  refine ⟨_, htr, ?_⟩
  rw [(m.withPoints N).accepts_of_bound heps hs hc (ρ := ρ / 2) (B := |B| * ((C + |C'|) * (h ^ 4 + h * (1 / 2) ^ N))), not_iff_not]
  · constructor
    · exact fun hz => ⟨_, _, htr, hz⟩
    · rintro ⟨v, e, hve, hz⟩
      rw [htr, Except.ok.injEq, Prod.mk.injEq] at hve
      obtain ⟨rfl, rfl⟩ := hve
      exact hz
  · have h3 : C * h ≤ ρ / 2 := by
      have := h1.trans (min_le_right _ _)
      rw [le_div_iff₀ (by positivity)] at this
      nlinarith
    have h4 := norm_sub_norm_le u (((m.withPoints N).userMethod h).run f u).1
    rw [norm_sub_rev] at h4
    linarith
  · rw [m.prj_withPoints]
    refine (hB _).trans ?_
    exact mul_le_mul (le_abs_self B) a5 (norm_nonneg _) (abs_nonneg _)
  · rw [m.q_withPoints, hq]
    rw [div_mul_eq_mul_div, le_div_iff₀ (by positivity)] at h2
    have b2 : 0 ≤ h ^ 4 + h * (1 / 2 : ℝ) ^ N := by positivity
    have : Real.sqrt (Fintype.card ι) * (|B| * ((C + |C'|) * (h ^ 4 + h * (1 / 2) ^ N))) = D * (h ^ 4 + h * (1 / 2) ^ N) := by rw [hD]; ring
    rw [this]
    nlinarith

/-- **C61.** IF45DP is different: wherever `N(u)` is at least `ρ` in a component which is larger than `κ` times the largest entry (with
`κ` above `adapt_cutoff`), a small trial is accepted only if its size is below a constant times `safety_f^5 epsilon`. -/
theorem C61_if45dp (L : Vec ι) (hf : ContDiff ℝ ∞ f) {ρ κ₀ κ : ℝ} (hρ : 0 < ρ) (hκ0 : 0 ≤ κ₀) (hκ : κ₀ < κ) (r : ℝ) :
    ∃ C η : ℝ, 0 < η ∧ ∀ (cfg : SolverConfig ℝ) (h : ℝ), 0 < cfg.epsilon → 0 < cfg.safety_f → cfg.adapt_cutoff ≤ κ₀ → 0 < h → h < η →
      ∀ u i, ρ ≤ ‖u‖ → ‖u‖ ≤ r → κ * ‖u‖ ≤ ‖u i‖ → ρ ≤ ‖f u i‖ →
        ∃ x, ((ASSolver.if45dp L).trial (total f) u h (ASSolver.if45dp L).new).1 = .ok x ∧
          (Acceptable ((ASSolver.if45dp L).factor (total f) cfg x) → h ≤ C * (cfg.safety_f ^ 5 * cfg.epsilon)) := by
  obtain ⟨C, η, hη, hest⟩ := C35_estimate_if45dp L hf (isCompact_closedBall (0 : Vec ι) r) (K := Metric.closedBall (0 : Vec ι) r) (u := id)
    fun _ h => h
  obtain ⟨C1, η1, hC1, hη1, hη2, hst⟩ := (ASSolver.if45dp L).small_step trivial
    (LipOnBalls.of_contDiff (hf.of_le (by exact_mod_cast le_top))) r
  have hkk : 0 < κ - κ₀ := by linarith
  set S := Real.sqrt (Fintype.card ι) with hS
  have S0 : 0 ≤ S := Real.sqrt_nonneg _
  refine ⟨S * (|r| + C1) / (9 / 640 * ρ), min (min η η1) (min (9 / 640 * ρ / (|C| + 1)) ((κ - κ₀) * ρ / ((1 + κ₀) * (C1 + 1)))),
    by positivity, fun cfg h heps hs hc h0 h1 u i hu1 hu2 hui hfu => ?_⟩
  simp only [lt_min_iff] at h1
  obtain ⟨⟨h1, h2⟩, h3, h4⟩ := h1
  obtain ⟨v, e, htr, he⟩ := hest h h0 h1 u (mem_closedBall_zero_iff.mpr hu2)
  refine ⟨(v, e), htr, fun hacc => ?_⟩
  obtain ⟨hco, hst⟩ := hst 1 h one_pos h0.le h2.le
  have hv : ‖v - u‖ ≤ C1 * h := by
    have e1 := ((ASSolver.if45dp L).trial_new (total f) u h).trans ((ASSolver.if45dp L).oneTrial_run u hco)
    rw [id, e1, Except.ok.injEq, Prod.mk.injEq] at htr
    rw [← htr.1]
    exact (hst u hu2).1
  -- the component counts
  have hsel : cfg.adapt_cutoff * maxAbs v < ‖v i‖ := by
    rw [maxAbs_eq_norm]
    have b1 : ‖v‖ ≤ ‖u‖ + C1 * h := by
      have := norm_add_le (v - u) u; rw [sub_add_cancel] at this; linarith
    have b2 : ‖u i‖ - C1 * h ≤ ‖v i‖ := by
      have b3 := norm_sub_norm_le (u i) (v i)
      have b4 := norm_le_pi_norm (v - u) i
      rw [Pi.sub_apply, norm_sub_rev] at b4
      linarith
    rw [lt_div_iff₀ (by positivity)] at h4
    have b5 : cfg.adapt_cutoff * ‖v‖ ≤ κ₀ * (‖u‖ + C1 * h) :=
      (mul_le_mul_of_nonneg_right hc (norm_nonneg _)).trans (mul_le_mul_of_nonneg_left b1 hκ0)
    have b6 : (κ - κ₀) * ρ ≤ (κ - κ₀) * ‖u‖ := mul_le_mul_of_nonneg_left hu1 hkk.le
    nlinarith
  -- the estimate there
  have he1 : 9 / 640 * ρ * h ≤ ‖e i‖ := by
    have b1 := norm_le_pi_norm (e + (9 / 320 * h) • f (id u)) i
    have b2 := norm_sub_norm_le ((9 / 320 * h) • f (id u) i) (-(e i))
    rw [sub_neg_eq_add, norm_neg, norm_smul, Real.norm_of_nonneg (by positivity)] at b2
    rw [Pi.add_apply, Pi.smul_apply, add_comm] at b1
    rw [lt_div_iff₀ (by positivity)] at h3
    have b3 : C * h ^ 2 ≤ 9 / 640 * ρ * h := by
      have b4 : C * h ^ 2 ≤ |C| * h ^ 2 := mul_le_mul_of_nonneg_right (le_abs_self _) (by positivity)
      have b5 : h * (|C| + 1) * h ≤ 9 / 640 * ρ * h := mul_le_mul_of_nonneg_right h3.le h0.le
      nlinarith [sq_nonneg h]
    have b4 : 9 / 320 * h * ρ ≤ 9 / 320 * h * ‖f (id u) i‖ := mul_le_mul_of_nonneg_left hfu (by positivity)
    simp only [id] at *
    linarith
  rw [ASSolver.factor_eq, acceptable_iff (ASSolver.q_pos _) heps hs] at hacc
  have b1 := (he1.trans (selNorm_ge hsel)).trans hacc.2
  have b2 : selNorm cfg.adapt_cutoff v v ≤ S * (|r| + C1) := by
    refine (selNorm_le _ _ _).trans (mul_le_mul_of_nonneg_left ?_ S0)
    have := norm_add_le (v - u) u; rw [sub_add_cancel] at this
    have := mul_le_of_le_one_right hC1 (h2.le.trans hη2)
    linarith [le_abs_self r]
  have b3 := b1.trans (mul_le_mul_of_nonneg_left b2 (by positivity))
  rw [div_mul_eq_mul_div, le_div_iff₀ (by positivity)]
  have b4 : (ASSolver.if45dp L).q = 5 := rfl
  rw [b4] at b3
  linarith

/-! ### Steps -/

/-- **C61.** A step from a state with `ρ ≤ ‖u‖ ≤ r`: with `b = min(η, c safety_f^q epsilon)`, if `minh` is at most one reduction below `b`,
if 50 reductions bring the proposed size to `b`, and if the coefficients can be computed, then the step returns, with a size that is
the proposed one or not much smaller than `b`; unless the error estimate vanishes for some size up to `b` and `h`. -/
theorem C61_step (m : ASSolver ι) (hm : m.GoodContour) (hf : LipOnBalls f) {ρ : ℝ} (hρ : 0 < ρ) (r : ℝ) :
    ∃ c η : ℝ, 0 < c ∧ 0 < η ∧ ∀ (N : ℕ) (cfg : SolverConfig ℝ), 0 < N → 0 < cfg.epsilon → 0 < cfg.safety_f →
      cfg.adapt_cutoff < 1 → 0 < cfg.decr_f → cfg.decr_f < 1 → let b := min η (c * (cfg.safety_f ^ m.q * cfg.epsilon))
      cfg.minh ≤ min (1 / 4) cfg.decr_f * b → ∀ h, 0 < h → max (1 / 4) cfg.decr_f ^ 50 * h ≤ b →
        (∀ h', b < h' → h' ≤ h → (m.withPoints N).CoefOk h') → ∀ u, ρ ≤ ‖u‖ → ‖u‖ ≤ r →
          (∃ v hu hs, ((m.withPoints N).step (total f) id cfg u h (m.withPoints N).new).1 = .ok (v, hu, hs) ∧
            (hu = h ∨ min (1 / 4) cfg.decr_f * b ≤ hu)) ∨
          ∃ h', 0 < h' ∧ h' ≤ h ∧ h' ≤ b ∧ (m.withPoints N).Blind (total f) cfg h' u := by
  obtain ⟨c, η, hc, hη, hsm⟩ := C61_small_accepted m hm hf hρ r
  refine ⟨c, η, hc, hη, ?_⟩
  intro N cfg hN heps hs hcut hd0 hd1 b hmin h h0 hpow hco u hu1 hu2
  have hb : 0 < b := lt_min hη (by positivity)
  rw [or_iff_not_imp_right]
  intro hbl
  refine StepSpec.live (Φ := fun h u => ((m.withPoints N).trial (total f) u h (m.withPoints N).new).1)
    (S := (m.withPoints N).factor (total f) cfg) hd0 hd1 h0 hb hmin hpow (fun h' a1 a2 => ?_) (fun h' x a1 a2 a3 a4 => ?_)
    ((C07_step_iff (m.withPoints N) (total f) id cfg u h h0.le _).mp rfl)
  · rcases le_or_gt h' b with a3 | a3
    · obtain ⟨x, hx, -⟩ := hsm N cfg h' hN heps hs hcut a1 (a3.trans (min_le_left _ _)) (a3.trans (min_le_right _ _)) u hu1 hu2
      exact ⟨x, hx⟩
    · exact ⟨_, ((m.withPoints N).trial_new (total f) u h').trans ((m.withPoints N).oneTrial_run u (hco h' a3 a2))⟩
  · obtain ⟨y, hy, hiff⟩ := hsm N cfg h' hN heps hs hcut a1 (a3.trans (min_le_left _ _)) (a3.trans (min_le_right _ _)) u hu1 hu2
    rw [a4, Except.ok.injEq] at hy
    rw [hy]
    exact hiff.mpr fun hc => hbl ⟨h', a1, a2, a3, hc⟩

/-- The linear problem from the state 1: one adaptive step with a short enough proposal returns, or the accuracy check is blind. -/
example : ∃ b > 0, ∀ h, 0 < h → h ≤ b →
    (∃ v hu hs, (demo.step (total id) id { demoCfg with minh := 1 / 4 * b } 1 h demo.new).1 = .ok (v, hu, hs) ∧
      (hu = h ∨ 1 / 4 * b ≤ hu)) ∨
    ∃ h', 0 < h' ∧ h' ≤ h ∧ h' ≤ b ∧ demo.Blind (total id) { demoCfg with minh := 1 / 4 * b } h' 1 := by
  obtain ⟨c, η, hc, hη, hev⟩ := C61_step (f := id) demo trivial (fun r => ⟨1, zero_le_one, fun u v _ _ => by simp⟩)
    (ρ := 1) one_pos 1
  have hq : demo.q = 4 := rfl
  set b := min η c with hb
  have hb0 : 0 < b := lt_min hη hc
  refine ⟨b, hb0, fun h h0 hle => ?_⟩
  have h1 := hev 1 { demoCfg with minh := 1 / 4 * b } one_pos (by norm_num [demoCfg]) (by norm_num [demoCfg]) (by norm_num [demoCfg])
    (by norm_num [demoCfg]) (by norm_num [demoCfg])
  simp only [hq, demoCfg, one_pow, mul_one] at h1
  rw [← hb, show max (1 / 4 : ℝ) (17 / 20) = 17 / 20 by norm_num, show min (1 / 4 : ℝ) (17 / 20) = 1 / 4 by norm_num] at h1
  exact h1 le_rfl h h0 (by
      have : (17 / 20 : ℝ) ^ 50 * h ≤ 1 * h := mul_le_mul_of_nonneg_right (by norm_num) h0.le
      linarith) (fun _ _ _ => trivial) 1 (by simp) (by simp)

/-! ### Runs -/

/-- **C61.** A call of `evolve` under the same conditions returns, with a number of steps that does not depend on `minh`; unless the run
reaches a state that is too small or too large, or from which the error estimate vanishes for some size up to `b`. -/
theorem C61_evolve (m : ASSolver ι) (hm : m.GoodContour) (hf : LipOnBalls f) {ρ : ℝ} (hρ : 0 < ρ) (r : ℝ) :
    ∃ c η : ℝ, 0 < c ∧ 0 < η ∧ ∀ (N : ℕ) (cfg : SolverConfig ℝ), 0 < N → 0 < cfg.epsilon → 0 < cfg.safety_f →
      cfg.adapt_cutoff < 1 → 0 < cfg.decr_f → cfg.decr_f < 1 → 0 < cfg.minh →
      let b := min η (c * (cfg.safety_f ^ m.q * cfg.epsilon))
      cfg.minh ≤ min (1 / 4) cfg.decr_f * b → ∀ (t0 tf : ℝ), t0 < tf → max (1 / 4) cfg.decr_f ^ 50 * (tf - t0) ≤ b →
        (∀ h', b < h' → h' ≤ tf - t0 → (m.withPoints N).CoefOk h') →
        ∀ (u : Vec ι) (hInit : Option ℝ) (pyDiv storeData : Bool) (freq : ℤ) (s : (m.withPoints N).State) (fuel : ℕ),
          (∀ h, hInit = some h → 0 < h) → (pyDiv = true → tf ≠ 0) → freq ≠ 0 →
          (tf - t0) / min (hInit.getD ((tf - t0) / 100)) (min (1 / 4) cfg.decr_f * b) + 1 < fuel →
            (∃ v, ((m.withPoints N).evolve (total f) id pyDiv cfg fuel u t0 tf hInit storeData freq s).1 = .ok (some v)) ∨
            ∃ (n : ℕ) (tm : ℕ → ℝ) (st : ℕ → Vec ι) (hp hu hs : ℕ → ℝ),
              tm 0 = t0 ∧ st 0 = u ∧ hp 0 = firstProposal t0 tf hInit ∧
              FreshRun (m.withPoints N) (total f) cfg tf n tm st hp hu hs ∧ tm n < tf ∧
              (‖st n‖ < ρ ∨ r < ‖st n‖ ∨ ∃ h', 0 < h' ∧ h' ≤ tf - tm n ∧ h' ≤ b ∧ (m.withPoints N).Blind (total f) cfg h' (st n)) := by
  obtain ⟨c, η, hc, hη, hstep⟩ := C61_step m hm hf hρ r
  refine ⟨c, η, hc, hη, ?_⟩
  intro N cfg hN heps hs hcut hd0 hd1 hm0 b hmin t0 tf ht hpow hco u hInit pyDiv storeData freq s fuel hpos hdiv hfreq hfuel
  have hb : 0 < b := lt_min hη (by positivity)
  rw [or_iff_not_imp_right]
  intro hno
  obtain ⟨n, tm, st, hp, hu, hsg, h1, h2, h3, h4, h5, -, -, h8, -⟩ := (m.withPoints N).evolve_freshRun (total f) pyDiv cfg fuel u t0 tf
    hInit storeData freq s
  set hi := hInit.getD ((tf - t0) / 100) with hhi
  have hi0 : 0 < hi := by
    rw [hhi]
    cases hInit with
    | none => simp; linarith
    | some h => exact hpos h rfl
  have hp0 : tm 0 < tf → 0 < hp 0 ∧ tm 0 + hp 0 ≤ tf := by
    rw [h1, h3]
    intro hlt
    unfold firstProposal
    refine ⟨lt_min hi0 (by linarith), ?_⟩
    have := min_le_right hi (tf - t0); linarith
  have T := h4.times hd1 hm0 (by rw [h1]; exact ht.le) hp0
  have hT0 : ∀ k, k ≤ n → t0 ≤ tm k := by
    intro k
    induction k with
    | zero => intro _; rw [h1]
    | succ k ih =>
      intro hk
      have := ih (by omega)
      obtain ⟨u1, u2, u3⟩ := (T k (by omega)).2.2 (by omega)
      linarith
  -- every state of the run is good
  have hgood : ∀ k, k ≤ n → tm k < tf → ∃ v hu' hs', ((m.withPoints N).step (total f) id cfg (st k) (hp k) (m.withPoints N).new).1 =
      .ok (v, hu', hs') ∧ (hu' = hp k ∨ min (1 / 4) cfg.decr_f * b ≤ hu') := by
    intro k hk hlt
    have hnk : ¬ (‖st k‖ < ρ ∨ r < ‖st k‖ ∨ ∃ h', 0 < h' ∧ h' ≤ tf - tm k ∧ h' ≤ b ∧
        (m.withPoints N).Blind (total f) cfg h' (st k)) := fun hcon =>
      hno ⟨k, tm, st, hp, hu, hsg, h1, h2, h3, ⟨fun j hj => h5.before_end j (by omega), fun j hj => h5.step j (by omega),
        fun j hj => h5.time j (by omega), fun j hj => h5.next j (by omega)⟩, hlt, hcon⟩
    push Not at hnk
    obtain ⟨p1, p2⟩ := (T k hk).2.1 hlt
    have hle : hp k ≤ tf - t0 := by linarith [hT0 k hk]
    rcases hstep N cfg hN heps hs hcut hd0 hd1 hmin (hp k) p1 ((mul_le_mul_of_nonneg_left hle (by positivity)).trans hpow)
      (fun h' a1 a2 => hco h' a1 (a2.trans hle)) (st k) hnk.1 hnk.2.1 with h | ⟨h', a1, a0, a2, a3⟩
    · exact h
    · exact absurd a3 (hnk.2.2 h' a1 (by linarith) a2)
  have hκ : 0 < min (1 / 4) cfg.decr_f := lt_min (by norm_num) hd0
  have hδ : 0 < min hi (min (1 / 4) cfg.decr_f * b) := lt_min hi0 (mul_pos hκ hb)
  have hcount := h4.count_of (δ := min hi (min (1 / 4) cfg.decr_f * b)) hd1 hm0 (by rw [h1]; exact ht.le) hp0 (by
    intro k hk
    obtain ⟨v, hu', hs', e1, e2⟩ := hgood k hk.le (h5.before_end k hk)
    rw [h5.step k hk, Except.ok.injEq, Prod.mk.injEq, Prod.mk.injEq] at e1
    rw [e1.2.1]
    exact e2.imp_right fun h => (min_le_right _ _).trans h) (by
    rw [h3, h1]; unfold firstProposal
    rcases le_total hi (tf - t0) with hc | hc
    · left; rw [← hhi, min_eq_left hc]; exact min_le_left _ _
    · right; rw [← hhi, min_eq_right hc])
  have hcount := hcount.resolve_right (not_lt.mpr hδ.le)
  generalize hr : ((m.withPoints N).evolve (total f) id pyDiv cfg fuel u t0 tf hInit storeData freq s).1 = res at h8
  cases h8 with
  | running hn =>
    exfalso
    rw [h1, hn] at hcount
    have h10 : (tf - t0) / min hi (min (1 / 4) cfg.decr_f * b) < fuel - 1 := by linarith
    rw [div_lt_iff₀ hδ] at h10
    linarith
  | returned hn hlt => exact ⟨_, rfl⟩
  | stepRaised hn hlt hh hsp =>
    exfalso
    obtain ⟨v, hu', hs', e1, -⟩ := hgood n le_rfl hlt
    rw [((m.withPoints N).stepSpec_iff (total f) id cfg _ _ hh _).mp hsp] at e1
    exact absurd e1 (by simp)
  | negative hn hlt hh => exact absurd ((T n le_rfl).2.1 hlt).1 (not_lt.mpr hh.le)
  | zeroDiv hn hlt hh hsp hz =>
    exfalso
    rcases hz with hz | hz
    · exact hdiv hz.2.1 hz.2.2
    · exact hfreq hz.2

/-! ### Examples -/

/-- The trials of `u' = u` with IF34 are not blind. -/
theorem demo_not_blind (cfg : SolverConfig ℝ) (hc : cfg.adapt_cutoff < 1) {h : ℝ} (h0 : 0 < h) (h2 : h < 2) {u : Vec (Fin 1)} (hu : u ≠ 0) :
    ¬ demo.Blind (total id) cfg h u := by
  rintro ⟨v, e, htr, hz⟩
  rw [demo.trial_new] at htr
  have h1 := demo_trial h u
  rw [show (total id : NlFunc (Fin 1)) = fun x => .ok x from rfl, h1, Except.ok.injEq, Prod.mk.injEq] at htr
  have hu0 : u 0 ≠ 0 := fun hc => hu (funext fun i => by rw [Subsingleton.elim i 0, hc]; rfl)
  have e1 : v 0 = ((1 + h + h ^ 2 / 2 + h ^ 3 / 6 + h ^ 4 / 24 : ℝ) : ℂ) * u 0 := by
    rw [← htr.1]; simp
  have e2 : e 0 = ((h / 6 * (h ^ 3 / 12 - h ^ 4 / 24) : ℝ) : ℂ) * u 0 := by
    rw [← htr.2]; simp
  have hp : (0 : ℝ) < 1 + h + h ^ 2 / 2 + h ^ 3 / 6 + h ^ 4 / 24 := by positivity
  have hv : 0 < ‖v 0‖ := by rw [e1, norm_mul, Complex.norm_real, Real.norm_of_nonneg hp.le]; exact mul_pos hp (norm_pos_iff.mpr hu0)
  have hm : maxAbs v = ‖v 0‖ := by
    unfold maxAbs
    rw [ciSup_unique]; rfl
  have := hz 0 (by rw [hm]; nlinarith)
  rw [e2, mul_eq_zero, Complex.ofReal_eq_zero] at this
  have h3 : 0 < h / 6 * (h ^ 3 / 12 - h ^ 4 / 24) := by
    have : h ^ 3 / 12 - h ^ 4 / 24 = h ^ 3 / 24 * (2 - h) := by ring
    rw [this]
    have : 0 < 2 - h := by linarith
    positivity
  rcases this with h | h
  · exact h3.ne' h
  · exact hu0 h

/-- One step of `u' = u` with IF34 multiplies by a number between 1 and `exp h`. -/
theorem demo_step_norm (cfg : SolverConfig ℝ) {h : ℝ} (h0 : 0 < h) (hd : cfg.decr_f < 1) (hm : 0 < cfg.minh) {u v : Vec (Fin 1)} {hu hs : ℝ}
    (hst : (demo.step (total id) id cfg u h demo.new).1 = .ok (v, hu, hs)) : ‖u‖ ≤ ‖v‖ ∧ ‖v‖ ≤ Real.exp hu * ‖u‖ := by
  have hu0 := (C08_step_sizes demo (total id) cfg hd hm u h h0 demo.new v hu hs hst).1.1
  rw [C07_step_iff _ _ _ _ _ _ h0.le] at hst
  generalize hR : (Except.ok (v, hu, hs) : Except PyErr (Vec (Fin 1) × ℝ × ℝ)) = R at hst
  cases hst with
  | @accept j h' x r hj hrej hok hx h1 =>
    simp only [Except.ok.injEq, Prod.mk.injEq] at hR
    obtain ⟨rfl, rfl, -⟩ := hR
    have h2 := demo_trial hu u
    rw [demo.trial_new, show (total id : NlFunc (Fin 1)) = fun x => .ok x from rfl, h2, Except.ok.injEq] at hok
    have e1 : r.1 = ((1 + hu + hu ^ 2 / 2 + hu ^ 3 / 6 + hu ^ 4 / 24 : ℝ) : ℂ) • u := by rw [← hok]; push_cast; rfl
    have hp : (1 : ℝ) ≤ 1 + hu + hu ^ 2 / 2 + hu ^ 3 / 6 + hu ^ 4 / 24 := by
      have : 0 ≤ hu + hu ^ 2 / 2 + hu ^ 3 / 6 + hu ^ 4 / 24 := by positivity
      linarith
    rw [e1, norm_smul, Complex.norm_real, Real.norm_of_nonneg (by linarith)]
    refine ⟨le_mul_of_one_le_left (norm_nonneg _) hp, mul_le_mul_of_nonneg_right ?_ (norm_nonneg _)⟩
    have := Real.sum_le_exp_of_nonneg hu0.le 5
    simp only [Finset.sum_range_succ, Finset.sum_range_zero, Nat.factorial] at this
    norm_num at this
    linarith
  | _ => simp at hR

/-- `u' = u` from 1 is solved by IF34 on a short interval, if `minh` is small enough. -/
example (s : demo.State) : ∃ T > 0, ∃ minh > 0, ∃ fuel v,
    (demo.evolve (total id) id false { demoCfg with minh := minh } fuel 1 0 T none true 1 s).1 = .ok (some v) := by
  obtain ⟨c, η, hc, hη, hev⟩ := C61_evolve (f := id) demo trivial (fun r => ⟨1, zero_le_one, fun u v _ _ => by simp⟩)
    (ρ := 1) one_pos (Real.exp 1)
  have hq : demo.q = 4 := rfl
  set b := min η c with hb
  have hb0 : 0 < b := lt_min hη hc
  set T := min 1 b with hT
  have T0 : 0 < T := lt_min one_pos hb0
  obtain ⟨fuel, hfuel⟩ := exists_nat_gt ((T - 0) / min ((none : Option ℝ).getD ((T - 0) / 100)) (min (1 / 4) (17 / 20) * b) + 1)
  refine ⟨T, T0, 1 / 4 * b, by positivity, fuel, ?_⟩
  have h1 := hev 1 { demoCfg with minh := 1 / 4 * b } one_pos (by norm_num [demoCfg]) (by norm_num [demoCfg]) (by norm_num [demoCfg])
    (by norm_num [demoCfg]) (by norm_num [demoCfg]) (by positivity)
  simp only [hq, demoCfg, one_pow, mul_one] at h1
  rw [← hb, show max (1 / 4 : ℝ) (17 / 20) = 17 / 20 by norm_num, show min (1 / 4 : ℝ) (17 / 20) = 1 / 4 by norm_num] at h1
  rw [show min (1 / 4 : ℝ) (17 / 20) = 1 / 4 by norm_num] at hfuel
  rcases h1 le_rfl 0 T T0 (by
      have : T ≤ b := min_le_right _ _
      have : (17 / 20 : ℝ) ^ 50 * (T - 0) ≤ 1 * (T - 0) := mul_le_mul_of_nonneg_right (by norm_num) (by linarith)
      linarith) (fun _ _ _ => trivial) 1 none false true 1 s fuel (by simp) (by simp) (by norm_num) hfuel with h | h
  · exact h
  · exfalso
    obtain ⟨n, tm, st, hp, hu, hs, a1, a2, a3, a4, a5, a6⟩ := h
    have hT1 : T ≤ 1 := min_le_left _ _
    have key : ∀ k, k ≤ n → 0 ≤ tm k ∧ (tm k < T → 0 < hp k) ∧ 1 ≤ ‖st k‖ ∧ ‖st k‖ ≤ Real.exp (tm k) := by
      intro k
      induction k with
      | zero =>
        intro _
        rw [a1, a2, a3]
        refine ⟨le_rfl, fun _ => ?_, by simp, by simp⟩
        unfold firstProposal
        simp; exact T0
      | succ k ih =>
        intro hk
        obtain ⟨i1, i2, i3, i4⟩ := ih (by omega)
        have hst := a4.step k (by omega)
        have hlt := a4.before_end k (by omega)
        have hsz := (C08_step_sizes demo (total id) _ (by norm_num) (show 0 < 1 / 4 * b by positivity) _ _ (i2 hlt) demo.new _ _ _ hst).1
        obtain ⟨n1, n2⟩ := demo_step_norm _ (i2 hlt) (by norm_num) (show 0 < 1 / 4 * b by positivity) hst
        have ht := a4.time k (by omega)
        refine ⟨by linarith [hsz.1], fun hlt' => ?_, i3.trans n1, ?_⟩
        · rw [a4.next k (by omega)]
          exact lt_min (by linarith [hsz.1]) (by linarith)
        · rw [ht, add_comm (tm k), Real.exp_add]
          exact n2.trans (mul_le_mul_of_nonneg_left i4 (Real.exp_pos _).le)
    obtain ⟨k1, -, k2, k3⟩ := key n le_rfl
    rcases a6 with h | h | ⟨h', b1, b2, -, b3⟩
    · linarith
    · have := Real.exp_le_exp.mpr (show tm n ≤ 1 by linarith)
      linarith
    · refine demo_not_blind _ (by norm_num) b1 (by linarith) (fun hc => ?_) b3
      rw [hc, norm_zero] at k2; linarith

/-- Small trials of `u' = u` are accepted: all hypotheses of `C61_small_accepted` are met and the trials are not blind. -/
example : ∃ b > 0, ∀ h, 0 < h → h ≤ b → ∃ x, (demo.trial (total id) 1 h demo.new).1 = .ok x ∧ Acceptable (demo.factor (total id) demoCfg x) := by
  obtain ⟨c, η, hc, hη, hsm⟩ := C61_small_accepted (f := id) demo trivial (fun r => ⟨1, zero_le_one, fun u v _ _ => by simp⟩) one_pos 1
  refine ⟨min 1 (min η c), by positivity, fun h h0 h1 => ?_⟩
  simp only [le_min_iff] at h1
  obtain ⟨x, hx, hacc⟩ := hsm 1 demoCfg h one_pos (by norm_num [demoCfg]) (by norm_num [demoCfg]) (by norm_num [demoCfg]) h0 h1.2.1
    (by simpa [demoCfg] using h1.2.2) 1 (by simp) (by simp)
  exact ⟨x, hx, hacc.mpr (demo_not_blind _ (by norm_num [demoCfg]) h0 (by linarith) one_ne_zero)⟩

/-- Trials of `u' = u` are accepted for `h^4` below a constant times `epsilon`, with any `epsilon` (the number of contour points does
not matter for IF34, so it may be taken as large as needed). -/
example : ∃ c > 0, ∀ eps > 0, ∀ h, 0 < h → h ≤ c → h ^ 4 ≤ c * eps →
    ∃ x, (demo.trial (total id) 1 h demo.new).1 = .ok x ∧ Acceptable (demo.factor (total id) { demoCfg with epsilon := eps } x) := by
  obtain ⟨c, η, hc, hη, hsm⟩ := C61_rate (f := id) demo trivial (fun L h => by cases h) contDiff_id one_pos 1
  refine ⟨min 1 (min η (c / 2)), by positivity, fun eps heps h h0 h1 h2 => ?_⟩
  have h3 : h ^ 4 ≤ c / 2 * eps := h2.trans (mul_le_mul_of_nonneg_right ((min_le_right _ _).trans (min_le_right _ _)) heps.le)
  simp only [le_min_iff] at h1
  obtain ⟨N, hN⟩ := exists_pow_lt_of_lt_one (show 0 < c / 2 * eps by positivity) (show (1 / 2 : ℝ) < 1 by norm_num)
  obtain ⟨x, hx, hacc⟩ := hsm (N + 1) { demoCfg with epsilon := eps } h (by omega) heps (by norm_num [demoCfg]) (by norm_num [demoCfg]) h0
    h1.2.1 (by
      have : h * (1 / 2 : ℝ) ^ (N + 1) ≤ 1 * (1 / 2) ^ N := mul_le_mul h1.1
        (pow_le_pow_of_le_one (by norm_num) (by norm_num) (by omega)) (by positivity) zero_le_one
      simp only [demoCfg]
      linarith) 1 (by simp) (by simp)
  exact ⟨x, hx, hacc.mpr (demo_not_blind _ (by norm_num [demoCfg]) h0 (by linarith) one_ne_zero)⟩

/-- For `u' = u` with IF45DP, trials that are accepted are smaller than a constant times `epsilon`. -/
example : ∃ C η : ℝ, 0 < η ∧ ∀ eps > 0, ∀ h, 0 < h → h < η →
    ∃ x, ((ASSolver.if45dp (0 : Vec (Fin 1))).trial (total id) 1 h (ASSolver.if45dp 0).new).1 = .ok x ∧
      (Acceptable ((ASSolver.if45dp 0).factor (total id) { demoCfg with epsilon := eps } x) → h ≤ C * eps) := by
  obtain ⟨C, η, hη, hd⟩ := C61_if45dp (f := id) (0 : Vec (Fin 1)) contDiff_id (ρ := 1) (κ₀ := 1 / 100) (κ := 1) one_pos (by norm_num)
    (by norm_num) 1
  refine ⟨C, η, hη, fun eps heps h h0 h1 => ?_⟩
  obtain ⟨x, hx, hb⟩ := hd { demoCfg with epsilon := eps } h heps (by norm_num [demoCfg]) (by norm_num [demoCfg]) h0 h1 1 0 (by simp) (by simp)
    (by simp) (by simp)
  exact ⟨x, hx, fun h => by simpa [demoCfg] using hb h⟩

end Verif
