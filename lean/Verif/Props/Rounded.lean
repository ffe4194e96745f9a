import Verif.Lemmas.RoundedGlobal
import Verif.Lemmas.RoundedArith
import Verif.Lemmas.RelLoop
import Verif.Lemmas.Binary64

/-!
# Rounding errors of whole runs (property C67)

`fpStep`, `fpEvolve` are `step` and `evolve` with an arbitrary implementation of the array operations, of the coefficients and of the
error factor, and with an arbitrary rounding of the clock.
-/

set_option linter.unusedSectionVars false

namespace Verif

open Matrix
open scoped Matrix.Norms.Operator ContDiff

variable {ι : Type} [Fintype ι] [DecidableEq ι] {f : Vec ι → Vec ι}

/-! ### Exact arithmetic -/

theorem relE_eq {α : Type} {a b : Except PyErr α} : RelE Eq a b ↔ a = b := by
  cases a <;> cases b <;> simp [RelE]

theorem relO_eq {α : Type} {a b : Option α} : RelO Eq a b ↔ a = b := by
  cases a <;> cases b <;> simp [RelO]

theorem relE_relO_eq {α : Type} {a b : Except PyErr (Option α)} : RelE (RelO Eq) a b ↔ a = b := by
  cases a <;> cases b <;> simp [RelE, relO_eq]

theorem CSSolver.fp_lawful (m : CSSolver ι) (F : FPEnv m.Coef ι) (nl : NlFunc ι) :
    Nonempty (LawfulCS (m.fpCls F nl) (m.rprog.oneStep F nl)) := ⟨RCSProg.lawful m.rprog_ok F nl⟩

theorem CSSolver.env_step (m : CSSolver ι) (nl : NlFunc ι) (h : ℝ) (w : Vec ι) :
    m.rprog.oneStep (m.env Arith.exact) nl h w = m.oneStep nl h w := by
  by_cases hc : m.CoefOk h
  · rw [m.exact_step nl rfl hc (by simp [env, hc]), CSSolver.oneStep, if_pos hc]
  · rw [CSSolver.oneStep, if_neg hc, RCSProg.oneStep]
    simp only [env, hc, if_false]
    rfl

theorem ASSolver.env_trial (m : ASSolver ι) (nl : NlFunc ι) (h : ℝ) (w : Vec ι) :
    m.rprog.oneTrial (m.env Arith.exact) nl h w = m.oneTrial nl h w := by
  by_cases hc : m.CoefOk h
  · exact m.exact_trial nl rfl hc (by simp [env, hc]) w
  · rw [ASSolver.oneTrial, if_neg hc, RASProg.oneTrial]
    simp only [env, hc, if_false]
    rfl

/-- **C67.** With exact arithmetic the model with inexact arithmetic is the model of the other properties: `evolve` of a constant-step
solver gives the same result and stores the same. -/
theorem C67_exact_cs (m : CSSolver ι) (nl : NlFunc ι) (rnd : ℝ → ℝ) (pyDiv : Bool) (fuel : ℕ) (u : Vec ι) (t0 tf h : ℝ)
    (storeData : Bool) (freq : ℤ) (s : m.RSt) (s' : m.State) :
    (m.fpEvolve (m.env Arith.exact) nl rnd pyDiv fuel u t0 tf h storeData freq s).1 =
      (m.evolve nl rnd pyDiv fuel u t0 tf h storeData freq s').1 ∧
    (m.fpEvolve (m.env Arith.exact) nl rnd pyDiv fuel u t0 tf h storeData freq s).2.t =
      (m.evolve nl rnd pyDiv fuel u t0 tf h storeData freq s').2.t ∧
    (m.fpEvolve (m.env Arith.exact) nl rnd pyDiv fuel u t0 tf h storeData freq s).2.u =
      (m.evolve nl rnd pyDiv fuel u t0 tf h storeData freq s').2.u := by
  have := CSClass.evolve_rel (RCSProg.lawful m.rprog_ok (m.env Arith.exact) nl) (m.lawful nl) Eq rnd pyDiv fuel u u t0 tf h
    (by rintro v _ rfl; rw [relE_eq]; exact m.env_step nl h v) storeData freq s s' rfl
  rwa [relE_relO_eq, List.forall₂_eq_eq_eq] at this

/-- **C67.** The same for adaptive solvers with the exact error factor. -/
theorem C67_exact_as (m : ASSolver ι) (nl : NlFunc ι) (rnd : ℝ → ℝ) (pyDiv : Bool) (cfg : SolverConfig ℝ) (fuel : ℕ) (u : Vec ι)
    (t0 tf : ℝ) (hInit : Option ℝ) (storeData : Bool) (freq : ℤ) (s : m.RSt) (s' : m.State) :
    (m.fpEvolve (m.env Arith.exact) (fun cfg v e => m.factor nl cfg (v, e)) nl rnd pyDiv cfg fuel u t0 tf hInit storeData freq s).1 =
      (m.evolve nl rnd pyDiv cfg fuel u t0 tf hInit storeData freq s').1 ∧
    (m.fpEvolve (m.env Arith.exact) (fun cfg v e => m.factor nl cfg (v, e)) nl rnd pyDiv cfg fuel u t0 tf hInit storeData freq s).2.t =
      (m.evolve nl rnd pyDiv cfg fuel u t0 tf hInit storeData freq s').2.t ∧
    (m.fpEvolve (m.env Arith.exact) (fun cfg v e => m.factor nl cfg (v, e)) nl rnd pyDiv cfg fuel u t0 tf hInit storeData freq s).2.u =
      (m.evolve nl rnd pyDiv cfg fuel u t0 tf hInit storeData freq s').2.u := by
  have := ASClass.evolve_rel (RASProg.lawful m.rprog_ok m.isDP (m.env Arith.exact) (fun cfg v e => m.factor nl cfg (v, e)) nl)
    (m.lawful nl) Eq Eq (by rintro r _ rfl; rfl) (by rintro h v _ rfl; rw [relE_eq]; exact m.env_trial nl h v) rnd pyDiv cfg
    (by rintro r _ rfl; rfl) fuel u u t0 tf hInit storeData freq s s' rfl
  rwa [relE_relO_eq, List.forall₂_eq_eq_eq] at this

/-! ### One step -/

theorem CSSolver.fpStep_new (m : CSSolver ι) (F : FPEnv m.Coef ι) (nl : NlFunc ι) (w : Vec ι) {h : ℝ} (hh : 0 ≤ h) :
    (m.fpStep F nl w h m.fpNew).1 = m.rprog.oneStep F nl h w := by
  unfold fpStep
  rw [CSClass.step_apply _ _ hh]
  exact (RCSProg.lawful m.rprog_ok F nl).result _ _ _ ((RCSProg.lawful m.rprog_ok F nl).reset_inv m.fpNew.sub w)

theorem ASSolver.fpTrial_new (m : ASSolver ι) (F : FPEnv m.Coef ι) (fac : SolverConfig ℝ → Vec ι → Vec ι → Ext ℝ) (nl : NlFunc ι)
    (w : Vec ι) (h : ℝ) : ((m.fpCls F fac nl).trial w h m.fpNew).1 = m.rprog.oneTrial F nl h w := by
  rw [ASClass.trial_apply]
  exact (RASProg.lawful m.rprog_ok m.isDP F fac nl).result _ _ _ _
    ((RASProg.lawful m.rprog_ok m.isDP F fac nl).reset_ready m.fpNew.sub w)

/-- **C67.** One step of a constant-step solver, computed with operations, coefficients and a nonlinear part that are exact up to `ε`,
differs from the exact step by at most `C ε`.  `C` depends on the problem, the settings of the contour, `H0` and the bound `r` on the
argument, but not on the step size, the number of contour points or the arithmetic.  Only steps up to
`H0` need accurate coefficients. -/
theorem C67_step (m : CSSolver ι) (hm : m.GoodContour) (hf : ContDiff ℝ 1 f) (r : ℝ) {H0 : ℝ} (hH0 : 0 < H0) :
    ∃ C η R : ℝ, 0 < η ∧ ∀ (N : ℕ) (F : FPEnv (m.withPoints N).Coef ι) (nl : NlFunc ι) (ε h : ℝ) (w : Vec ι), 0 < N → 0 ≤ ε → ε ≤ 1 →
      (m.withPoints N).Accurate F nl f ε R H0 → 0 < h → h ≤ η → ‖w‖ ≤ r →
      ∃ v v', ((m.withPoints N).step (total f) w h (m.withPoints N).new).1 = .ok v ∧
        ((m.withPoints N).fpStep F nl w h (m.withPoints N).fpNew).1 = .ok v' ∧ ‖v' - v‖ ≤ C * ε := by
  obtain ⟨C, η, R, hC, hη, hη1, h1⟩ := m.step_near hm (LipOnBalls.of_contDiff hf) r hH0
  refine ⟨C, η, R, hη, fun N F nl ε h w hN hε hε1 hA h0 hh hw => ?_⟩
  obtain ⟨hc, v, v', h2, h3, h4⟩ := h1 N F nl ε h w hN hε hε1 hA h0 hh hw
  refine ⟨v, v', ?_, by rw [CSSolver.fpStep_new _ _ _ _ h0.le]; exact h3, h4⟩
  rw [CSSolver.oneStep, if_pos hc] at h2
  rw [(m.withPoints N).step_method _ _ _ h0.le hc]
  exact h2

/-- **C67.** The same for one trial of an adaptive solver: trial solution and error estimate. -/
theorem C67_trial (m : ASSolver ι) (hm : m.GoodContour) (hf : ContDiff ℝ 1 f) (r : ℝ) {H0 : ℝ} (hH0 : 0 < H0) :
    ∃ C η R : ℝ, 0 < η ∧ ∀ (N : ℕ) (F : FPEnv (m.withPoints N).Coef ι) (fac : SolverConfig ℝ → Vec ι → Vec ι → Ext ℝ) (nl : NlFunc ι)
      (ε h : ℝ) (w : Vec ι), 0 < N → 0 ≤ ε → ε ≤ 1 → (m.withPoints N).Accurate F nl f ε R H0 → 0 < h → h ≤ η → ‖w‖ ≤ r →
      ∃ v v' : Vec ι × Vec ι, ((m.withPoints N).trial (total f) w h (m.withPoints N).new).1 = .ok v ∧
        (((m.withPoints N).fpCls F fac nl).trial w h (m.withPoints N).fpNew).1 = .ok v' ∧
        ‖v'.1 - v.1‖ ≤ C * ε ∧ ‖v'.2 - v.2‖ ≤ C * ε := by
  obtain ⟨C, η, R, hC, hη, hη1, h1⟩ := m.trial_near hm (LipOnBalls.of_contDiff hf) r hH0
  refine ⟨C, η, R, hη, fun N F fac nl ε h w hN hε hε1 hA h0 hh hw => ?_⟩
  obtain ⟨hc, v, v', h2, h3, h4⟩ := h1 N F nl ε h w hN hε hε1 hA h0 hh hw
  exact ⟨v, v', by rw [ASSolver.trial_new]; exact h2, by rw [ASSolver.fpTrial_new]; exact h3, h4⟩

/-! ### Constant steps -/

/-- The rounded clock reaches the end in time. -/
theorem clock_steps {rnd : ℝ → ℝ} {ε h t0 tf : ℝ} (hr : ∀ x, |rnd x - x| ≤ ε * |x|) (h0 : 0 < h) (hε : 0 ≤ ε) (ht : t0 < tf)
    (hT : ε * (|t0| + |tf| + h) ≤ h / 2) :
    ∃ n : ℕ, (∀ k < n, t0 ≤ timeAt rnd h t0 k ∧ timeAt rnd h t0 k < tf) ∧ tf ≤ timeAt rnd h t0 n ∧
      timeAt rnd h t0 n < tf + 2 * h ∧ n * h ≤ 2 * (tf - t0) + h := by
  have hstep : ∀ t, t0 ≤ t → t < tf → |rnd (t + h) - (t + h)| ≤ h / 2 := by
    intro t h1 h2
    refine (hr _).trans ((mul_le_mul_of_nonneg_left ?_ hε).trans hT)
    rw [abs_le]
    constructor
    · linarith [neg_abs_le t0, abs_nonneg tf]
    · linarith [le_abs_self tf, abs_nonneg t0]
  have hup : ∀ n : ℕ, (∀ k < n, timeAt rnd h t0 k < tf) → ∀ k ≤ n, t0 + k * (h / 2) ≤ timeAt rnd h t0 k := by
    intro n hn k
    induction k with
    | zero => intro _; simp [timeAt]
    | succ k ih =>
      intro hk
      have i := ih (by omega)
      have hk0 : 0 ≤ (k : ℝ) * (h / 2) := by positivity
      have := (abs_le.mp (hstep _ (by linarith) (hn k (by omega)))).1
      rw [timeAt]
      push_cast
      linarith
  have hex : ∃ n, tf ≤ timeAt rnd h t0 n := by
    by_contra hc
    push Not at hc
    obtain ⟨k, hk⟩ := exists_nat_gt ((tf - t0) / (h / 2))
    have := hup k (fun j _ => hc j) k le_rfl
    rw [div_lt_iff₀ (by positivity)] at hk
    linarith [hc k]
  classical
  have hmin : ∀ k < Nat.find hex, timeAt rnd h t0 k < tf := fun k hk => not_le.mp (Nat.find_min hex hk)
  have hlow : ∀ k < Nat.find hex, t0 ≤ timeAt rnd h t0 k ∧ timeAt rnd h t0 k < tf := fun k hk => by
    have := hup _ hmin k hk.le
    have hk0 : 0 ≤ (k : ℝ) * (h / 2) := by positivity
    exact ⟨by linarith, hmin k hk⟩
  refine ⟨Nat.find hex, hlow, Nat.find_spec hex, ?_, ?_⟩
  all_goals
    rcases hn : Nat.find hex with _ | k
  · rw [timeAt]; linarith
  · have hk := hlow k (by omega)
    have := (abs_le.mp (hstep _ hk.1 hk.2)).2
    rw [timeAt]
    linarith
  · have : (0 : ℝ) ≤ 2 * (tf - t0) + h := by linarith
    simpa using this
  · have hk := hmin k (by omega)
    have := hup _ hmin k (by omega)
    push_cast
    linarith

variable {t0 tf : ℝ} {Y : ℝ → Vec ι}

/-- **C67.** `evolve` of a constant-step solver with operations, coefficients and a nonlinear part that are exact up to `ε` and a clock
with relative rounding error `ε`: it returns, and the returned array and every snapshot are within
`C (‖u - Y(t0)‖ + h^4 + 2^-N + ε/h)` of the exact solution at the recorded time. -/
theorem C67_evolve (m : CSSolver ι) (hm : m.GoodContour) (hf : ContDiff ℝ ∞ f) (ht : t0 < tf) (hY : Solves m.op.mat f t0 tf Y)
    {H0 : ℝ} (hH0 : 0 < H0) :
    ∃ (C η R : ℝ) (N0 : ℕ), 0 < η ∧ ∀ (N : ℕ) (F : FPEnv (m.withPoints N).Coef ι) (nl : NlFunc ι) (rnd : ℝ → ℝ) (ε h : ℝ) (u : Vec ι),
      N0 ≤ N → 0 ≤ ε → (m.withPoints N).Accurate F nl f ε R H0 → (∀ x, |rnd x - x| ≤ ε * |x|) → 0 < h → h < η → ε ≤ η * h →
      ‖u - Y t0‖ ≤ η → ∀ (pyDiv storeData : Bool) (freq : ℤ) (s : (m.withPoints N).RSt) (fuel : ℕ), (pyDiv = true → tf ≠ 0) →
        freq ≠ 0 → 2 * (tf - t0) / h + 1 < fuel →
        (∃ v, ((m.withPoints N).fpEvolve F nl rnd pyDiv fuel u t0 tf h storeData freq s).1 = .ok (some v) ∧
          ‖v - Y ((m.withPoints N).fpEvolve F nl rnd pyDiv fuel u t0 tf h storeData freq s).2.tc‖ ≤
            C * (‖u - Y t0‖ + h ^ 4 + (1 / 2) ^ N + ε / h)) ∧
        (tf ≤ ((m.withPoints N).fpEvolve F nl rnd pyDiv fuel u t0 tf h storeData freq s).2.tc ∧
          ((m.withPoints N).fpEvolve F nl rnd pyDiv fuel u t0 tf h storeData freq s).2.tc < tf + 2 * h) ∧
        ((m.withPoints N).fpEvolve F nl rnd pyDiv fuel u t0 tf h storeData freq s).2.u.length =
          ((m.withPoints N).fpEvolve F nl rnd pyDiv fuel u t0 tf h storeData freq s).2.t.length ∧
        ∀ p ∈ ((m.withPoints N).fpEvolve F nl rnd pyDiv fuel u t0 tf h storeData freq s).2.t.zip
          ((m.withPoints N).fpEvolve F nl rnd pyDiv fuel u t0 tf h storeData freq s).2.u,
          ‖p.2 - Y p.1‖ ≤ C * (‖u - Y t0‖ + h ^ 4 + (1 / 2) ^ N + ε / h) := by
  obtain ⟨C, η, R, N0, hC, hη, hη1, h1⟩ := m.rounded_runs hm hf ht.le hY hH0
  set T := |t0| + |tf| + 1 with hT
  have T0 : 0 < T := by positivity
  set D := 2 * (tf - t0) + 1 with hD
  have D1 : 1 ≤ D := by linarith
  set η' := min (min (min η 1) ((tf - t0) / 2)) (min (1 / (2 * T)) (η / D)) with hη'
  have e1 : η' ≤ η := (min_le_left _ _).trans ((min_le_left _ _).trans (min_le_left _ _))
  have e2 : η' ≤ 1 := (min_le_left _ _).trans ((min_le_left _ _).trans (min_le_right _ _))
  have e3 : η' ≤ (tf - t0) / 2 := (min_le_left _ _).trans (min_le_right _ _)
  have e4 : η' * T ≤ 1 / 2 := by
    have : η' ≤ 1 / (2 * T) := (min_le_right _ _).trans (min_le_left _ _)
    rw [le_div_iff₀ (by positivity)] at this
    linarith
  have e5 : D * η' ≤ η := by
    have : η' ≤ η / D := (min_le_right _ _).trans (min_le_right _ _)
    rw [le_div_iff₀ (by linarith)] at this
    linarith
  have hη0 : 0 < η' := lt_min (lt_min (lt_min hη one_pos) (by linarith)) (lt_min (by positivity) (by positivity))
  refine ⟨C * D, η', R, N0, hη0, fun N F nl rnd ε h u hN hε hA hr h0 hh hεh hu pyDiv storeData freq s fuel hp hfr hfu => ?_⟩
  have hεT : ε * T ≤ h / 2 := by
    have := mul_le_mul_of_nonneg_right hεh T0.le
    have : η' * h * T = η' * T * h := by ring
    have := mul_le_mul_of_nonneg_right e4 h0.le
    linarith
  have hTh : ε * (|t0| + |tf| + h) ≤ h / 2 := (mul_le_mul_of_nonneg_left (by rw [hT]; linarith) hε).trans hεT
  obtain ⟨n, n1, n2, n3, n4⟩ := clock_steps hr h0 hε ht hTh
  have hε1 : ε ≤ 1 := hεh.trans (by nlinarith)
  have hnε : n * ε ≤ D * (ε / h) := by
    have : (n : ℝ) ≤ D / h := by
      rw [le_div_iff₀ h0]; linarith
    calc n * ε ≤ D / h * ε := mul_le_mul_of_nonneg_right this hε
      _ = D * (ε / h) := by ring
  have hεh' : ε / h ≤ η' := by rwa [div_le_iff₀ h0]
  obtain ⟨st, s0, hst, herr⟩ := h1 N F nl ε hN hε hε1 hA h n (timeAt rnd h t0) u (fun _ => h) h0 (hh.trans_le e1)
    (hnε.trans ((mul_le_mul_of_nonneg_left hεh' (by linarith)).trans e5)) rfl
    (fun k hk => ⟨(n1 k hk).2.le, h0, le_rfl, hr _⟩) (hu.trans e1)
  have hb : ∀ k ≤ n, ‖st k - Y (timeAt rnd h t0 k)‖ ≤ C * D * (‖u - Y t0‖ + h ^ 4 + (1 / 2) ^ N + ε / h) := by
    intro k hk
    refine (herr k hk).trans ?_
    rw [mul_assoc]
    refine mul_le_mul_of_nonneg_left ?_ hC
    have a1 : 0 ≤ ‖u - Y t0‖ + h ^ 4 + (1 / 2) ^ N := by positivity
    have := mul_le_mul_of_nonneg_right D1 a1
    linarith
  have hspan : rnd (t0 + h) ≤ tf := by
    have := (abs_le.mp ((hr (t0 + h)).trans ((mul_le_mul_of_nonneg_left (by
      rw [abs_le]
      constructor
      · linarith [neg_abs_le t0, abs_nonneg tf]
      · linarith [le_abs_self t0, abs_nonneg tf]) hε).trans hTh))).2
    linarith
  have hfu' : n < fuel := by
    have : (n : ℝ) < fuel := by
      refine lt_of_le_of_lt ?_ hfu
      rw [← sub_le_iff_le_add, le_div_iff₀ h0, sub_mul, one_mul]
      linarith
    exact_mod_cast this
  obtain ⟨r1, r2, r3, r4, -⟩ := CSClass.evolve_complete (RCSProg.lawful (m.withPoints N).rprog_ok F nl) rnd pyDiv u t0 tf h storeData
    freq h0.le hspan (fun _ => hfr) st s0 n (fun k hk => (n1 k hk).2) n2 hst
    (fun k _ _ => by rintro ⟨-, a, b⟩; exact hp a b) s fuel hfu'
  refine ⟨⟨st n, r1, ?_⟩, ?_, ?_, ?_⟩
  · unfold CSSolver.fpEvolve CSSolver.fpCls
    rw [r4]; exact hb n le_rfl
  · unfold CSSolver.fpEvolve CSSolver.fpCls
    rw [r4]; exact ⟨n2, n3⟩
  · unfold CSSolver.fpEvolve CSSolver.fpCls
    rw [r2, r3]; split <;> simp
  · unfold CSSolver.fpEvolve CSSolver.fpCls
    rw [r2, r3]
    cases storeData with
    | false => simp
    | true =>
      intro p hp'
      rw [if_pos rfl, if_pos rfl, List.zip_map', List.mem_map] at hp'
      obtain ⟨j, hj, rfl⟩ := hp'
      refine hb j ?_
      have := (List.mem_filter.mp hj).1
      exact Nat.lt_succ_iff.mp (List.mem_range.mp this)

/-! ### Adaptive steps -/

/-- All sizes in a run with a rounded clock are positive. -/
theorem AdaptiveRun.sizes_pos {V : Type} {Φ : ℝ → V → Except PyErr (V × V)} {S : V × V → Ext ℝ} {cfg : SolverConfig ℝ} {rnd : ℝ → ℝ}
    {n : ℕ} {tm : ℕ → ℝ} {st : ℕ → V} {hp hu : ℕ → ℝ} (R : AdaptiveRun Φ S cfg rnd tf n tm st hp hu)
    (hr : ∀ x, 0 < x → 0 < rnd x) (hmin : 0 < cfg.minh) (h0 : 0 < n → 0 < hp 0) : ∀ k < n, 0 < hp k ∧ 0 < hu k := by
  have hused : ∀ k < n, 0 < hp k → 0 < hu k ∧ ∃ hs, 0 < hs ∧ hp (k + 1) = limitTo rnd (tm (k + 1)) tf hs := by
    intro k hk hpos
    obtain ⟨-, hs, c1, -, c3⟩ := R.step k hk
    generalize hR : (Except.ok (st (k + 1), hu k, hs) : Except PyErr (V × ℝ × ℝ)) = r at c1
    cases c1 with
    | accept d1 d2 d3 d4 d5 =>
      simp only [Except.ok.injEq, Prod.mk.injEq] at hR
      obtain ⟨-, e2, e3⟩ := hR
      have hu0 : 0 < hu k := by
        rw [e2]
        cases d2 with
        | zero => exact hpos
        | succ _ _ _ hle => exact hmin.trans_le hle
      refine ⟨hu0, hs, ?_, c3⟩
      rw [e3, ← e2]
      refine hr _ ?_
      unfold grow
      split
      · exact mul_pos (lt_min (by linarith) (by norm_num)) hu0
      · exact hu0
    | _ => simp at hR
  intro k
  induction k with
  | zero => intro hk; exact ⟨h0 hk, (hused 0 hk (h0 hk)).1⟩
  | succ k ih =>
    intro hk
    obtain ⟨-, hs, h1, h2⟩ := hused k (by omega) (ih (by omega)).1
    have hpk : 0 < hp (k + 1) := by
      rw [h2]
      unfold limitTo
      split
      · exact hr _ (by linarith [R.before_end (k + 1) hk])
      · exact h1
    exact ⟨hpk, (hused (k + 1) hk hpk).1⟩

/-- The accepted steps of a run are trials. -/
theorem AdaptiveRun.trial_ok {V : Type} {Φ : ℝ → V → Except PyErr (V × V)} {S : V × V → Ext ℝ} {cfg : SolverConfig ℝ} {rnd : ℝ → ℝ}
    {n : ℕ} {tm : ℕ → ℝ} {st : ℕ → V} {hp hu : ℕ → ℝ} (R : AdaptiveRun Φ S cfg rnd tf n tm st hp hu) :
    ∀ k < n, (Φ (hu k) (st k)).map Prod.fst = .ok (st (k + 1)) := by
  intro k hk
  obtain ⟨-, hs, c1, -⟩ := R.step k hk
  generalize hR : (Except.ok (st (k + 1), hu k, hs) : Except PyErr (V × ℝ × ℝ)) = r at c1
  cases c1 with
  | accept d1 d2 d3 d4 d5 =>
    simp only [Except.ok.injEq, Prod.mk.injEq] at hR
    obtain ⟨e1, e2, -⟩ := hR
    rw [e2, d3, e1]; rfl
  | _ => simp at hR

theorem rnd_pos {rnd : ℝ → ℝ} {ε : ℝ} (hr : ∀ x, |rnd x - x| ≤ ε * |x|) (hε : ε < 1) (x : ℝ) (hx : 0 < x) : 0 < rnd x := by
  have := (abs_le.mp (hr x)).1
  rw [abs_of_pos hx] at this
  nlinarith

/-- **C67.** Adaptive solvers, whatever the controller does and however the error factor is computed: with operations, coefficients and
a nonlinear part that are exact up to `ε` and a clock with relative rounding error `ε`, the error along the trajectory behind a call of
`evolve` stays within `C (‖u - Y(t0)‖ + H^p + 2^-N + n ε)`, where `H` is the longest accepted step, `p` the order of the solver and `n`
the number of steps. -/
theorem C67_trajectory (m : ASSolver ι) (hm : m.GoodContour) (hf : ContDiff ℝ ∞ f) (ht : t0 ≤ tf) (hY : Solves m.op.mat f t0 tf Y)
    {H0 : ℝ} (hH0 : 0 < H0) :
    ∃ (C η R : ℝ) (N0 : ℕ), 0 ≤ C ∧ 0 < η ∧ ∀ (N : ℕ) (F : FPEnv (m.withPoints N).Coef ι)
      (fac : SolverConfig ℝ → Vec ι → Vec ι → Ext ℝ) (nl : NlFunc ι) (rnd : ℝ → ℝ) (ε : ℝ) (u : Vec ι),
      N0 ≤ N → 0 ≤ ε → ε < 1 → (m.withPoints N).Accurate F nl f ε R H0 → (∀ x, |rnd x - x| ≤ ε * |x|) → ‖u - Y t0‖ ≤ η →
      ∀ (cfg : SolverConfig ℝ) (hInit : Option ℝ) (pyDiv storeData : Bool) (freq : ℤ) (s : (m.withPoints N).RSt) (fuel : ℕ),
        0 < cfg.minh → (∀ h, hInit = some h → 0 < h) → freq ≠ 0 →
        ∃ (n : ℕ) (tm : ℕ → ℝ) (st : ℕ → Vec ι) (hp hu : ℕ → ℝ),
          tm 0 = t0 ∧ st 0 = u ∧
          AdaptiveRun (fun h w => (((m.withPoints N).fpCls F fac nl).trial w h (m.withPoints N).fpNew).1) (fun r => fac cfg r.1 r.2)
            cfg rnd tf n tm st hp hu ∧
          ((m.withPoints N).fpEvolve F fac nl rnd pyDiv cfg fuel u t0 tf hInit storeData freq s).2.t =
            (if storeData then (List.range (n / freq.natAbs + 1)).map (fun j => tm (j * freq.natAbs)) else []) ∧
          ((m.withPoints N).fpEvolve F fac nl rnd pyDiv cfg fuel u t0 tf hInit storeData freq s).2.u =
            (if storeData then (List.range (n / freq.natAbs + 1)).map (fun j => st (j * freq.natAbs)) else []) ∧
          (∀ v, ((m.withPoints N).fpEvolve F fac nl rnd pyDiv cfg fuel u t0 tf hInit storeData freq s).1 = .ok (some v) →
            v = st n ∧ ((m.withPoints N).fpEvolve F fac nl rnd pyDiv cfg fuel u t0 tf hInit storeData freq s).2.tc = tm n ∧ tf ≤ tm n) ∧
          (∀ k < n, 0 < hu k) ∧
          ∀ H, 0 < H → H < η → (∀ k < n, hu k ≤ H) → n * ε ≤ η →
            ∀ k ≤ n, ‖st k - Y (tm k)‖ ≤ C * (‖u - Y t0‖ + H ^ m.orderOf + (1 / 2) ^ N + n * ε) := by
  obtain ⟨C, η, R, N0, hC, hη, hη1, h1⟩ := m.rounded_runs hm hf ht hY hH0
  refine ⟨C, η, R, N0, hC, hη, fun N F fac nl rnd ε u hN hε hε1 hA hr hu cfg hInit pyDiv storeData freq s fuel hmin hpos hfr => ?_⟩
  have hΦ : (fun h w => (((m.withPoints N).fpCls F fac nl).trial w h (m.withPoints N).fpNew).1) = (m.withPoints N).rprog.oneTrial F nl :=
    funext fun h => funext fun w => ASSolver.fpTrial_new _ _ _ _ _ _
  rw [hΦ]
  obtain ⟨n, tm, st, hp, hu', a1, a2, a3, a4, a5, a6, a7, a8⟩ :=
    ASClass.evolve_run (RASProg.lawful (m.withPoints N).rprog_ok (m.withPoints N).isDP F fac nl) rnd pyDiv cfg fuel u t0 tf hInit
      storeData freq s
  have hpo : ∀ k < n, 0 < hp k ∧ 0 < hu' k := a4.sizes_pos (rnd_pos hr hε1) hmin (fun hn => by
    have hlt := a4.before_end 0 hn
    rw [a1] at hlt
    rw [a3]
    unfold ASClass.firstSize limitTo
    split
    · exact rnd_pos hr hε1 _ (by linarith)
    · cases hInit with
      | none => exact rnd_pos hr hε1 _ (div_pos (rnd_pos hr hε1 _ (by linarith)) (by norm_num))
      | some h => exact hpos h rfl)
  refine ⟨n, tm, st, hp, hu', a1, a2, a4, ?_, ?_, ?_, fun k hk => (hpo k hk).2, fun H H0 H1 hH hnε => ?_⟩
  · rw [storedUpTo_closed _ hfr, List.map_map] at a5; exact a5
  · rw [storedUpTo_closed _ hfr, List.map_map] at a6; exact a6
  · intro v hv
    have hv' := hv
    unfold ASSolver.fpEvolve ASSolver.fpCls at hv'
    rw [hv'] at a7
    refine ⟨?_, a8 v hv', ?_⟩
    · cases a7; rfl
    · cases a7 with
      | returned _ hge => exact not_lt.mp hge
  · obtain ⟨st', b1, b2, b3⟩ := h1 N F nl ε hN hε hε1.le hA H n tm u hu' H0 H1 hnε a1 (fun k hk => by
      obtain ⟨-, hs, -, c2, -⟩ := a4.step k hk
      rw [c2]
      exact ⟨(a4.before_end k hk).le, (hpo k hk).2, hH k hk, hr _⟩) hu
    have hsame : ∀ k ≤ n, st k = st' k := by
      intro k
      induction k with
      | zero => intro _; rw [a2, b1]
      | succ k ih =>
        intro hk
        have i := ih (by omega)
        have c1 := a4.trial_ok k (by omega)
        have c2 := b2 k (by omega)
        rw [i] at c1
        exact Except.ok.inj (c1.symm.trans c2)
    intro k hk
    rw [hsame k hk]
    exact b3 k hk

/-- The sizes of the steps from the differences of the rounded times. -/
theorem size_le_of_times {rnd : ℝ → ℝ} {ε H T : ℝ} {n : ℕ} {tm hu : ℕ → ℝ} (hT : T = 2 * (|t0| + |tf| + 2)) (hr : ∀ x, |rnd x - x| ≤ ε * |x|)
    (hε : 0 ≤ ε) (hε1 : ε ≤ 1 / 2) (hH : H ≤ 1) (hnε : n * ε * T ≤ 1) (h0 : tm 0 = t0)
    (hs : ∀ k < n, tm k ≤ tf ∧ 0 < hu k ∧ tm (k + 1) = rnd (tm k + hu k) ∧ tm (k + 1) - tm k ≤ H) :
    ∀ k < n, hu k ≤ H + ε * T := by
  have T0 : 0 < T := by rw [hT]; positivity
  have hkT : ∀ k ≤ n, (k : ℝ) * ε * T ≤ 1 := fun k hk =>
    le_trans (mul_le_mul_of_nonneg_right (mul_le_mul_of_nonneg_right (by exact_mod_cast hk) hε) T0.le) hnε
  have key : ∀ k < n, t0 - k * ε * T ≤ tm k → |tm (k + 1) - (tm k + hu k)| ≤ ε * T := by
    intro k hk hl
    obtain ⟨a1, a2, a3, a4⟩ := hs k hk
    have b1 := hkT k hk.le
    rw [a3]
    refine (hr _).trans (mul_le_mul_of_nonneg_left ?_ hε)
    have c1 := (abs_le.mp (hr (tm k + hu k))).1
    rw [← a3] at c1
    rcases le_or_gt 0 (tm k + hu k) with hx | hx
    · rw [abs_of_nonneg hx] at c1 ⊢
      have : ε * (tm k + hu k) ≤ 1 / 2 * (tm k + hu k) := mul_le_mul_of_nonneg_right hε1 hx
      rw [hT]
      linarith [le_abs_self tf, abs_nonneg t0]
    · rw [abs_of_neg hx, hT]
      linarith [neg_abs_le t0, abs_nonneg tf, abs_nonneg t0]
  have low : ∀ k ≤ n, t0 - k * ε * T ≤ tm k := by
    intro k
    induction k with
    | zero => intro _; simp [h0]
    | succ k ih =>
      intro hk
      have i := ih (by omega)
      have := (abs_le.mp (key k (by omega) i)).1
      have := (hs k (by omega)).2.1
      push_cast
      linarith
  intro k hk
  have := (abs_le.mp (key k hk (low k hk.le))).1
  linarith [(hs k hk).2.2.2]

/-- **C67.** The same in terms of `solver.t` and `solver.u` of a run that stores every step: if consecutive stored times are at most `H`
apart, where `H` is not below the rounding unit, every snapshot is accurate, and so is the returned array. -/
theorem C67_stored (m : ASSolver ι) (hm : m.GoodContour) (hf : ContDiff ℝ ∞ f) (ht : t0 ≤ tf) (hY : Solves m.op.mat f t0 tf Y)
    {H0 : ℝ} (hH0 : 0 < H0) :
    ∃ (C η R : ℝ) (N0 : ℕ), 0 < η ∧ ∀ (N : ℕ) (F : FPEnv (m.withPoints N).Coef ι)
      (fac : SolverConfig ℝ → Vec ι → Vec ι → Ext ℝ) (nl : NlFunc ι) (rnd : ℝ → ℝ) (ε : ℝ) (u : Vec ι),
      N0 ≤ N → 0 ≤ ε → (m.withPoints N).Accurate F nl f ε R H0 → (∀ x, |rnd x - x| ≤ ε * |x|) → ‖u - Y t0‖ ≤ η →
      ∀ (cfg : SolverConfig ℝ) (hInit : Option ℝ) (pyDiv : Bool) (s : (m.withPoints N).RSt) (fuel : ℕ),
        0 < cfg.minh → (∀ h, hInit = some h → 0 < h) → ∀ H, ε ≤ H → 0 < H → H < η →
        ((m.withPoints N).fpEvolve F fac nl rnd pyDiv cfg fuel u t0 tf hInit true 1 s).2.t.IsChain (fun a b => b - a ≤ H) →
        ((m.withPoints N).fpEvolve F fac nl rnd pyDiv cfg fuel u t0 tf hInit true 1 s).2.t.length * ε ≤ η →
        (∀ p ∈ ((m.withPoints N).fpEvolve F fac nl rnd pyDiv cfg fuel u t0 tf hInit true 1 s).2.t.zip
            ((m.withPoints N).fpEvolve F fac nl rnd pyDiv cfg fuel u t0 tf hInit true 1 s).2.u,
          ‖p.2 - Y p.1‖ ≤ C * (‖u - Y t0‖ + H ^ m.orderOf + (1 / 2) ^ N +
            ((m.withPoints N).fpEvolve F fac nl rnd pyDiv cfg fuel u t0 tf hInit true 1 s).2.t.length * ε)) ∧
        ∀ v, ((m.withPoints N).fpEvolve F fac nl rnd pyDiv cfg fuel u t0 tf hInit true 1 s).1 = .ok (some v) →
          tf ≤ ((m.withPoints N).fpEvolve F fac nl rnd pyDiv cfg fuel u t0 tf hInit true 1 s).2.tc ∧
          ‖v - Y ((m.withPoints N).fpEvolve F fac nl rnd pyDiv cfg fuel u t0 tf hInit true 1 s).2.tc‖ ≤
            C * (‖u - Y t0‖ + H ^ m.orderOf + (1 / 2) ^ N +
              ((m.withPoints N).fpEvolve F fac nl rnd pyDiv cfg fuel u t0 tf hInit true 1 s).2.t.length * ε) := by
  obtain ⟨C, η, R, N0, hC, hη, h1⟩ := C67_trajectory m hm hf ht hY hH0
  obtain ⟨T, hT⟩ : ∃ T, T = 2 * (|t0| + |tf| + 2) := ⟨_, rfl⟩
  have T0 : 0 < T := by rw [hT]; positivity
  set η' := min (min (1 / 2) (1 / T)) (η / (1 + T)) with hη'
  have e1 : η' ≤ 1 / 2 := (min_le_left _ _).trans (min_le_left _ _)
  have e2 : η' * T ≤ 1 := (le_div_iff₀ T0).mp ((min_le_left _ _).trans (min_le_right _ _))
  have e3 : η' * (1 + T) ≤ η := (le_div_iff₀ (by linarith)).mp (min_le_right _ _)
  have hη0 : 0 < η' := lt_min (lt_min (by norm_num) (by positivity)) (by positivity)
  have e4 : η' ≤ η := by nlinarith
  refine ⟨C * (1 + T) ^ m.orderOf, η', R, N0, hη0, fun N F fac nl rnd ε u hN hε hA hr hu cfg hInit pyDiv s fuel hmin hpos H hεH H0 H1
    hch hlen => ?_⟩
  obtain ⟨n, tm, st, hp, hu', t1, t2, t3, t4, t5, t6, t7, t8⟩ := h1 N F fac nl rnd ε u hN hε (by linarith) hA hr (hu.trans e4) cfg hInit
    pyDiv true 1 s fuel hmin hpos one_ne_zero
  simp only [if_true, Int.natAbs_one, mul_one, Nat.div_one] at t4 t5
  have hl : (((m.withPoints N).fpEvolve F fac nl rnd pyDiv cfg fuel u t0 tf hInit true 1 s).2.t.length : ℝ) = n + 1 := by
    rw [t4]; simp
  rw [hl] at hlen ⊢
  have hn1 : (n : ℝ) * ε ≤ (n + 1) * ε := mul_le_mul_of_nonneg_right (by linarith) hε
  have hsz : ∀ k < n, hu' k ≤ H + ε * T := by
    refine size_le_of_times hT hr hε (by linarith) (by linarith) ?_ t1 fun k hk => ?_
    · exact (mul_le_mul_of_nonneg_right (hn1.trans hlen) T0.le).trans e2
    · obtain ⟨-, hs, -, c2, -⟩ := t3.step k hk
      refine ⟨(t3.before_end k hk).le, t7 k hk, c2, ?_⟩
      rw [t4, List.isChain_iff_getElem] at hch
      have := hch k (by simpa using hk)
      simpa only [List.getElem_map, List.getElem_range] using this
  have hH' : ∀ k < n, hu' k ≤ (1 + T) * H := fun k hk => (hsz k hk).trans (by
    have := mul_le_mul_of_nonneg_right hεH T0.le
    linarith)
  have herr := t8 ((1 + T) * H) (by positivity)
    (lt_of_lt_of_le (mul_lt_mul_of_pos_left H1 (by linarith)) (by linarith)) hH' ((hn1.trans hlen).trans e4)
  have hb : ∀ k ≤ n, ‖st k - Y (tm k)‖ ≤ C * (1 + T) ^ m.orderOf * (‖u - Y t0‖ + H ^ m.orderOf + (1 / 2) ^ N + (n + 1) * ε) := by
    intro k hk
    refine (herr k hk).trans ?_
    rw [mul_assoc, mul_pow]
    refine mul_le_mul_of_nonneg_left ?_ hC
    have d1 : 1 ≤ (1 + T) ^ m.orderOf := one_le_pow₀ (by linarith)
    have d2 : 0 ≤ ‖u - Y t0‖ + (1 / 2) ^ N + (n + 1) * ε := by positivity
    have := mul_le_mul_of_nonneg_right d1 d2
    linarith
  refine ⟨?_, fun v hv => ?_⟩
  · rw [t4, t5]
    intro p hp'
    rw [List.zip_map', List.mem_map] at hp'
    obtain ⟨j, hj, rfl⟩ := hp'
    exact hb j (Nat.lt_succ_iff.mp (List.mem_range.mp hj))
  · obtain ⟨rfl, e, hge⟩ := t6 v hv
    rw [e]
    exact ⟨hge, hb n le_rfl⟩

/-! ### NumPy's arithmetic -/

theorem Arith.Within.of_le {ar : Arith ι} {ε ε' R : ℝ} (h : ar.Within ε R) (hε : ε ≤ ε') : ar.Within ε' R :=
  ⟨fun v w hv hw => (h.add v w hv hw).trans (mul_le_mul_of_nonneg_right hε (by positivity)),
    fun v w hv hw => (h.sub v w hv hw).trans (mul_le_mul_of_nonneg_right hε (by positivity)),
    fun v w hv hw => (h.mul v w hv hw).trans (mul_le_mul_of_nonneg_right hε (by positivity)),
    fun v n hv hn => (h.quot v n hv hn).trans (mul_le_mul_of_nonneg_right hε (by positivity)),
    fun A v hA hv => (h.dot A v hA hv).trans (mul_le_mul_of_nonneg_right hε (by positivity))⟩

theorem NlNear.of_le {nl : NlFunc ι} {ε ε' R : ℝ} (h : NlNear nl f ε R) (hε : ε ≤ ε') : NlNear nl f ε' R := fun v hv => by
  obtain ⟨w, h1, h2⟩ := h v hv
  exact ⟨w, h1, h2.trans hε⟩

/-- A nonlinear part whose values are rounded. -/
noncomputable def roundedNl (rnd : ℝ → ℝ) (f : Vec ι → Vec ι) : NlFunc ι := fun v => .ok fun i => cround rnd (f v i)

/-- NumPy's arithmetic, with exact coefficients and a nonlinear part whose values are rounded, is accurate. -/
theorem numpy_accurate (hf : ContDiff ℝ 1 f) (R : ℝ) : ∃ K : ℝ, 0 < K ∧ ∀ (rnd : ℝ → ℝ) (u : ℝ), 0 ≤ u → u ≤ 1 →
    (∀ x, |rnd x - x| ≤ u * |x|) → (Arith.numpy (ι := ι) rnd).Within (K * u) R ∧ NlNear (roundedNl rnd f) f (K * u) R := by
  obtain ⟨B, hB, hb⟩ := (LipOnBalls.of_contDiff hf).bounded R
  have hd := dotFactor_nonneg (Fintype.card ι)
  refine ⟨12 + dotFactor (Fintype.card ι) + 2 * B, by linarith, fun rnd u hu hu1 hr => ⟨?_, fun v hv => ⟨_, rfl, ?_⟩⟩⟩
  · refine (Arith.numpy_within hr hu hu1 R).of_le (mul_le_mul_of_nonneg_right (by linarith) hu)
  · refine (pi_norm_le_iff_of_nonneg (by positivity)).mpr fun i => (cround_error hr hu _).trans ?_
    have h1 := (norm_le_pi_norm (f v) i).trans (hb v hv)
    have h2 := mul_le_mul_of_nonneg_left h1 hu
    have h3 : 0 ≤ dotFactor (Fintype.card ι) * u := by positivity
    linarith

/-- With exact coefficients only the operations and the nonlinear part matter. -/
theorem CSSolver.env_accurate (m : CSSolver ι) {ar : Arith ι} {nl : NlFunc ι} {ε R H : ℝ} (hε : 0 ≤ ε) (h1 : ar.Within ε R)
    (h2 : NlNear nl f ε R) : m.Accurate (m.env ar) nl f ε R H :=
  ⟨h1, fun h _ _ hc => ⟨m.coefsAt h, if_pos hc, fun _ _ =>
    ⟨fun _ _ => by rw [sub_self, norm_zero]; exact hε, fun _ _ => by rw [sub_self, norm_zero]; exact hε⟩⟩, h2⟩

theorem ASSolver.env_accurate (m : ASSolver ι) {ar : Arith ι} {nl : NlFunc ι} {ε R H : ℝ} (hε : 0 ≤ ε) (h1 : ar.Within ε R)
    (h2 : NlNear nl f ε R) : m.Accurate (m.env ar) nl f ε R H :=
  ⟨h1, fun h _ _ hc => ⟨m.coefsAt h, if_pos hc, fun _ _ =>
    ⟨fun _ _ => by rw [sub_self, norm_zero]; exact hε, fun _ _ => by rw [sub_self, norm_zero]; exact hε⟩⟩, h2⟩

/-- **C67.** `evolve` of a constant-step solver with NumPy's arithmetic on complex arrays, a clock in the same arithmetic, a nonlinear part
whose values are rounded, and exact coefficients: with a relative rounding error `ρ` of real operations the error is of order
`h^4 + 2^-N + ρ/h`. -/
theorem C67_numpy (m : CSSolver ι) (hm : m.GoodContour) (hf : ContDiff ℝ ∞ f) (ht : t0 < tf) (hY : Solves m.op.mat f t0 tf Y) :
    ∃ (C η : ℝ) (N0 : ℕ), 0 < η ∧ ∀ (N : ℕ) (rnd : ℝ → ℝ) (ρ h : ℝ), N0 ≤ N → 0 ≤ ρ → (∀ x, |rnd x - x| ≤ ρ * |x|) → 0 < h → h < η →
      ρ ≤ η * h → ∀ (pyDiv storeData : Bool) (freq : ℤ) (s : (m.withPoints N).RSt) (fuel : ℕ), (pyDiv = true → tf ≠ 0) →
        freq ≠ 0 → 2 * (tf - t0) / h + 1 < fuel →
        ∃ v, ((m.withPoints N).fpEvolve ((m.withPoints N).env (Arith.numpy rnd)) (roundedNl rnd f) rnd pyDiv fuel (Y t0) t0 tf h storeData
            freq s).1 = .ok (some v) ∧
          ‖v - Y ((m.withPoints N).fpEvolve ((m.withPoints N).env (Arith.numpy rnd)) (roundedNl rnd f) rnd pyDiv fuel (Y t0) t0 tf h
            storeData freq s).2.tc‖ ≤ C * (h ^ 4 + (1 / 2) ^ N + ρ / h) := by
  obtain ⟨C, η, R, N0, hη, h1⟩ := C67_evolve m hm hf ht hY one_pos
  obtain ⟨K, hK, hacc⟩ := numpy_accurate (f := f) (hf.of_le (by exact_mod_cast le_top)) R
  have hK1 : 1 ≤ max K 1 := le_max_right _ _
  refine ⟨|C| * max K 1, min (min η 1) (η / max K 1), N0, lt_min (lt_min hη one_pos) (by positivity),
    fun N rnd ρ h hN hρ hr h0 hh hρh pyDiv storeData freq s fuel hp hfr hfu => ?_⟩
  have e1 : h < η := hh.trans_le ((min_le_left _ _).trans (min_le_left _ _))
  have e2 : h < 1 := hh.trans_le ((min_le_left _ _).trans (min_le_right _ _))
  have e3 : max K 1 * ρ ≤ η * h := by
    have : ρ ≤ η / max K 1 * h := hρh.trans (mul_le_mul_of_nonneg_right (min_le_right _ _) h0.le)
    rw [div_mul_eq_mul_div, le_div_iff₀ (by linarith)] at this
    linarith
  have hρ1 : ρ ≤ 1 := hρh.trans (by
    have : min (min η 1) (η / max K 1) ≤ 1 := (min_le_left _ _).trans (min_le_right _ _)
    nlinarith)
  obtain ⟨a1, a2⟩ := hacc rnd ρ hρ hρ1 hr
  have hle : K * ρ ≤ max K 1 * ρ := mul_le_mul_of_nonneg_right (le_max_left _ _) hρ
  have hA : (m.withPoints N).Accurate ((m.withPoints N).env (Arith.numpy rnd)) (roundedNl rnd f) f (max K 1 * ρ) R 1 :=
    (m.withPoints N).env_accurate (by positivity) (a1.of_le hle) (a2.of_le hle)
  obtain ⟨⟨v, hv, he⟩, -⟩ := h1 N _ _ rnd (max K 1 * ρ) h (Y t0) hN (by positivity) hA
    (fun x => (hr x).trans (mul_le_mul_of_nonneg_right (by nlinarith) (abs_nonneg x))) h0 e1 e3
    (by rw [sub_self, norm_zero]; exact hη.le) pyDiv storeData freq s fuel hp hfr hfu
  refine ⟨v, hv, he.trans ?_⟩
  rw [sub_self, norm_zero, zero_add]
  have d0 : 0 ≤ h ^ 4 + (1 / 2) ^ N := by positivity
  have d1 : h ^ 4 + (1 / 2) ^ N + max K 1 * ρ / h ≤ max K 1 * (h ^ 4 + (1 / 2) ^ N + ρ / h) := by
    have := mul_le_mul_of_nonneg_right hK1 d0
    rw [mul_div_assoc]
    linarith
  have d2 : 0 ≤ h ^ 4 + (1 / 2) ^ N + max K 1 * ρ / h := by positivity
  calc C * (h ^ 4 + (1 / 2) ^ N + max K 1 * ρ / h) ≤ |C| * (h ^ 4 + (1 / 2) ^ N + max K 1 * ρ / h) :=
        mul_le_mul_of_nonneg_right (le_abs_self C) d2
    _ ≤ |C| * (max K 1 * (h ^ 4 + (1 / 2) ^ N + ρ / h)) := mul_le_mul_of_nonneg_left d1 (abs_nonneg C)
    _ = |C| * max K 1 * (h ^ 4 + (1 / 2) ^ N + ρ / h) := by ring

/-! ### Concrete cases -/

/-- NumPy's arithmetic with rounding to 53 bits on arrays with three entries. -/
example : (Arith.numpy (ι := Fin 3) rnd64).Within ((12 + dotFactor 3) * (1 / 2 ^ 53)) 10 := by
  have := Arith.numpy_within (ι := Fin 3) rnd64_error (by positivity) (by norm_num) 10
  rwa [Fintype.card_fin] at this

/-- Such arithmetic is not exact: with rounding to integers, `1/2 + 1/4` is `0`. -/
example : (Arith.numpy (ι := Fin 1) fun x => ⌊x⌋).add ![1 / 2] ![1 / 4] ≠ (Arith.exact (ι := Fin 1)).add ![1 / 2] ![1 / 4] := by
  intro h
  have := congrArg Complex.re (congrFun h 0)
  simp only [Arith.numpy, Arith.exact, cround, Pi.add_apply, Matrix.cons_val_zero] at this
  norm_num at this

/-- C67 for ETD4 and the logistic equation, when every real operation has the relative error `ρ > 0`. -/
example : ∃ (C η : ℝ) (N0 : ℕ), 0 < η ∧ ∀ (N : ℕ) (ρ h : ℝ), N0 ≤ N → 0 < ρ → 0 < h → h < η → ρ ≤ η * h →
    ∃ v, (((CSSolver.etd4 ⟨1 / 100, 32, 1⟩ (.diag ![-1])).withPoints N).fpEvolve
      (((CSSolver.etd4 ⟨1 / 100, 32, 1⟩ (.diag ![-1])).withPoints N).env (Arith.numpy fun x => (1 + ρ) * x))
      (roundedNl (fun x => (1 + ρ) * x) logisticN) (fun x => (1 + ρ) * x) true (⌈2 * (2 - 0) / h + 1⌉₊ + 1) (logisticY 0) 0 2 h true 1
      ((CSSolver.etd4 ⟨1 / 100, 32, 1⟩ (.diag ![-1])).withPoints N).fpNew).1 = .ok (some v) := by
  obtain ⟨C, η, N0, hη, h1⟩ := C67_numpy (.etd4 ⟨1 / 100, 32, 1⟩ (.diag ![-1])) (by constructor <;> norm_num) logisticN_smooth
    (show (0 : ℝ) < 2 by norm_num) (logistic_solves 0 2)
  refine ⟨C, η, N0, hη, fun N ρ h hN hρ h0 hh hρh => ?_⟩
  obtain ⟨v, hv, -⟩ := h1 N (fun x => (1 + ρ) * x) ρ h hN hρ.le (fun x => le_of_eq (by
    rw [show (1 + ρ) * x - x = ρ * x by ring, abs_mul, abs_of_pos hρ])) h0 hh hρh true true 1 _ (⌈2 * (2 - 0) / h + 1⌉₊ + 1) (by norm_num)
    one_ne_zero (by push_cast; linarith [Nat.le_ceil (2 * (2 - 0) / h + 1)])
  exact ⟨v, hv⟩

/-- C67 for IF45DP with the default settings of the controller and NumPy's arithmetic: the settings are those of C57, and the hypothesis on
the arithmetic is met by every rounding with small relative error. -/
example : ∃ (C η K : ℝ) (N0 : ℕ), 0 < η ∧ 0 < K ∧ ∀ (rnd : ℝ → ℝ) (ρ : ℝ) (fuel : ℕ) (H : ℝ), 0 ≤ ρ → (∀ x, |rnd x - x| ≤ ρ * |x|) →
    ρ ≤ 1 → K * ρ ≤ H → 0 < H → H < η → ∀ fac,
    ((ASSolver.if45dp ![-1]).fpEvolve ((ASSolver.if45dp ![-1]).env (Arith.numpy rnd)) fac (roundedNl rnd logisticN) rnd true
      ⟨1 / 10000, 5 / 4, 17 / 20, 4 / 5, 1 / 100, 1 / 10 ^ 16⟩ fuel (logisticY 0) 0 2 none true 1
      (ASSolver.if45dp ![-1]).fpNew).2.t.IsChain (fun a b => b - a ≤ H) →
    ((ASSolver.if45dp ![-1]).fpEvolve ((ASSolver.if45dp ![-1]).env (Arith.numpy rnd)) fac (roundedNl rnd logisticN) rnd true
      ⟨1 / 10000, 5 / 4, 17 / 20, 4 / 5, 1 / 100, 1 / 10 ^ 16⟩ fuel (logisticY 0) 0 2 none true 1
      (ASSolver.if45dp ![-1]).fpNew).2.t.length * (K * ρ) ≤ η →
    ∀ v, ((ASSolver.if45dp ![-1]).fpEvolve ((ASSolver.if45dp ![-1]).env (Arith.numpy rnd)) fac (roundedNl rnd logisticN) rnd true
      ⟨1 / 10000, 5 / 4, 17 / 20, 4 / 5, 1 / 100, 1 / 10 ^ 16⟩ fuel (logisticY 0) 0 2 none true 1
      (ASSolver.if45dp ![-1]).fpNew).1 = .ok (some v) →
      ∃ t, 2 ≤ t ∧ ‖v - logisticY t‖ ≤ C * (‖logisticY 0 - logisticY 0‖ + H ^ 5 + (1 / 2) ^ N0 +
        ((ASSolver.if45dp ![-1]).fpEvolve ((ASSolver.if45dp ![-1]).env (Arith.numpy rnd)) fac (roundedNl rnd logisticN) rnd true
          ⟨1 / 10000, 5 / 4, 17 / 20, 4 / 5, 1 / 100, 1 / 10 ^ 16⟩ fuel (logisticY 0) 0 2 none true 1
          (ASSolver.if45dp ![-1]).fpNew).2.t.length * (K * ρ)) := by
  obtain ⟨C, η, R, N0, hη, h1⟩ := C67_stored (.if45dp ![-1]) trivial logisticN_smooth (show (0 : ℝ) ≤ 2 by norm_num) (logistic_solves 0 2) one_pos
  obtain ⟨K, hK, hacc⟩ := numpy_accurate (f := logisticN) (logisticN_smooth.of_le (by exact_mod_cast le_top)) R
  refine ⟨C, η, max K 1, N0, hη, by positivity, fun rnd ρ fuel H hρ hr hρ1 hKH H0 H1 fac hch hlen v hv => ?_⟩
  obtain ⟨a1, a2⟩ := hacc rnd ρ hρ hρ1 hr
  have hle : K * ρ ≤ max K 1 * ρ := mul_le_mul_of_nonneg_right (le_max_left _ _) hρ
  have hle' : ρ ≤ max K 1 * ρ := by nlinarith [le_max_right K 1]
  obtain ⟨b1, b2⟩ := (h1 N0 ((ASSolver.if45dp ![-1]).env (Arith.numpy rnd)) fac (roundedNl rnd logisticN) rnd (max K 1 * ρ) (logisticY 0) le_rfl
    (by positivity) ((ASSolver.if45dp ![-1]).env_accurate (by positivity) (a1.of_le hle) (a2.of_le hle))
    (fun x => (hr x).trans (mul_le_mul_of_nonneg_right hle' (abs_nonneg x))) (by rw [sub_self, norm_zero]; exact hη.le)
    ⟨1 / 10000, 5 / 4, 17 / 20, 4 / 5, 1 / 100, 1 / 10 ^ 16⟩ none true (ASSolver.if45dp ![-1]).fpNew fuel (by norm_num) (by simp) H hKH H0 H1 hch
    hlen).2 v hv
  exact ⟨_, b1, b2⟩

end Verif
