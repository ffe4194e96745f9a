import Verif.Lemmas.OneStep
import Verif.Props.ConstStep
import Verif.Props.AdaptiveEvolve
import Verif.Props.AccuracyEst

/-!
# Convergence of whole runs (properties C56, C57), and a bound on the effect of the contour (C35)

`f` is smooth and `Y` solves `y' = L y + f(y)` on an open interval containing `[t0, tf]`.  The constants depend on the problem and on the
settings of the contour, but not on the step size, the number of contour points, the starting value or the state of the solver object.
-/

set_option linter.unusedSectionVars false

namespace Verif

open Matrix
open scoped ContDiff

variable {ι : Type} [Fintype ι] [DecidableEq ι] {f : Vec ι → Vec ι}

/-! ### C35: one step, with a bound that is uniform in the step size -/

theorem CSSolver.step_run (m : CSSolver ι) (u : Vec ι) {h : ℝ} (hh : 0 ≤ h) (hc : m.CoefOk h) :
    (m.step (total f) u h m.new).1 = .ok ((m.method h).run f u).1 := by
  rw [m.step_method _ _ _ hh hc, ERK.step_eq_run]; rfl

theorem ASSolver.oneTrial_run (m : ASSolver ι) (u : Vec ι) {h : ℝ} (hc : m.CoefOk h) :
    m.oneTrial (total f) h u = .ok (((m.userMethod h).run f u).1, m.op.prj ((m.userMethod h).run f u).2) := by
  rw [m.oneTrial_user _ _ _ hc]
  show ((m.userMethod h).step (total f) u).map _ = _
  rw [ERK.step_eq_run]; rfl

variable {P : Type} {K : Set P} {y : P → ℝ → Vec ι} {δ : ℝ} {K0 : Set (Vec ι)}

/-- **C35.** The local error of a constant-step solver with `N` contour points is at most `C (h^5 + h 2^-N)`; the contour term is absent
for IF4, where `N` has no meaning. -/
theorem C35_uniform (m : CSSolver ι) (hm : m.GoodContour) (hf : ContDiff ℝ ∞ f) (hy : Flows m.op.mat f K y δ K0) :
    ∃ C η : ℝ, 0 < η ∧ ∀ (N : ℕ) (h : ℝ), 0 < N → 0 < h → h < η → ∀ q ∈ K,
      ∃ u', ((m.withPoints N).step (total f) (y q 0) h (m.withPoints N).new).1 = .ok u' ∧
        ‖u' - y q h‖ ≤ C * (h ^ 5 + h * (1 / 2) ^ N) := by
  obtain ⟨C, η, hC, hη, h1⟩ := m.one_step hm hf hy
  refine ⟨C, η, hη, fun N h hN h0 h2 q hq => ?_⟩
  obtain ⟨hc, h3⟩ := h1 N h hN h0 h2
  refine ⟨_, (m.withPoints N).step_run _ h0.le hc, (h3 q hq (y q 0) (by simp)).trans (le_of_eq ?_)⟩
  rw [sub_self, norm_zero]; ring

/-- **C35.** The same for a trial of an adaptive solver, with the order of the solver. -/
theorem C35_uniform_trial (m : ASSolver ι) (hm : m.GoodContour) (hf : ContDiff ℝ ∞ f) (hy : Flows m.op.mat f K y δ K0) :
    ∃ C η : ℝ, 0 < η ∧ ∀ (N : ℕ) (h : ℝ), 0 < N → 0 < h → h < η → ∀ q ∈ K,
      ∃ u' e, ((m.withPoints N).trial (total f) (y q 0) h (m.withPoints N).new).1 = .ok (u', e) ∧
        ‖u' - y q h‖ ≤ C * (h ^ (m.orderOf + 1) + h * (1 / 2) ^ N) := by
  obtain ⟨C, η, hC, hη, h1⟩ := m.one_step hm hf hy
  refine ⟨C, η, hη, fun N h hN h0 h2 q hq => ?_⟩
  obtain ⟨hc, h3⟩ := h1 N h hN h0 h2
  refine ⟨_, _, (ASSolver.trial_new _ _ _ _).trans ((m.withPoints N).oneTrial_run _ hc),
    (h3 q hq (y q 0) (by simp)).trans (le_of_eq ?_)⟩
  rw [sub_self, norm_zero]; ring

/-! ### C56: constant steps -/

theorem iterE_ok {V : Type} {g : V → Except PyErr V} {r : V → V} (hg : ∀ v, g v = .ok (r v)) (n : ℕ) (u : V) :
    iterE g n u = .ok (r^[n] u) := by
  induction n with
  | zero => rfl
  | succ n ih => rw [iterE, ih, Function.iterate_succ_apply']; exact hg _

variable {t0 tf : ℝ} {Y : ℝ → Vec ι}

/-- What a run of a constant-step solver returns and stores, when the states of the trajectory are known to be accurate. -/
theorem CSSolver.evolve_error (m : CSSolver ι) (u : Vec ι) {h b : ℝ} (h0 : 0 < h) (hspan : t0 + h ≤ tf) (hc : m.CoefOk h)
    (hb : ∀ st : ℕ → Vec ι, st 0 = u → (∀ k < ⌈(tf - t0) / h⌉₊, t0 + k * h ≤ tf ∧ st (k + 1) = ((m.method h).run f (st k)).1) →
      ∀ k ≤ ⌈(tf - t0) / h⌉₊, ‖st k - Y (t0 + k * h)‖ ≤ b)
    (pyDiv storeData : Bool) (freq : ℤ) (s : m.State) (fuel : ℕ) (hp : pyDiv = true → tf ≠ 0) (hfr : freq ≠ 0)
    (hfu : ⌈(tf - t0) / h⌉₊ < fuel) :
    (∃ v, (m.evolve (total f) id pyDiv fuel u t0 tf h storeData freq s).1 = .ok (some v) ∧
      ‖v - Y (m.evolve (total f) id pyDiv fuel u t0 tf h storeData freq s).2.tc‖ ≤ b) ∧
    (m.evolve (total f) id pyDiv fuel u t0 tf h storeData freq s).2.u.length =
      (m.evolve (total f) id pyDiv fuel u t0 tf h storeData freq s).2.t.length ∧
    ∀ p ∈ (m.evolve (total f) id pyDiv fuel u t0 tf h storeData freq s).2.t.zip
      (m.evolve (total f) id pyDiv fuel u t0 tf h storeData freq s).2.u, ‖p.2 - Y p.1‖ ≤ b := by
  have hstep : ∀ v, (m.step (total f) v h m.new).1 = .ok ((m.method h).run f v).1 := fun v => m.step_run v h0.le hc
  have hpy : pyDiv = true → tf = 0 → ⌈(tf - t0) / h⌉₊ < 100 := fun a b => absurd b (hp a)
  obtain ⟨v, hret⟩ : ∃ v, (m.evolve (total f) id pyDiv fuel u t0 tf h storeData freq s).1 = .ok (some v) := by
    rw [C01_evolve_iterates _ _ _ _ _ _ _ _ _ h0 hspan (fun _ => hfr) hpy s fuel hfu, iterE_ok hstep]
    exact ⟨_, rfl⟩
  obtain ⟨st, s0, sn, hst, htl, hul⟩ := C02_stored m (total f) pyDiv u v t0 tf h storeData freq h0 hspan hfr hpy s fuel hfu hret
  have htc := (C01_time_reached m (total f) pyDiv u v t0 tf h storeData freq h0 hspan (fun _ => hfr) hpy s fuel hfu hret).1
  have herr := hb st s0 (by
    intro k hk
    have hk' : t0 + k * h < tf := by
      have := (isLeast_ceil t0 tf h h0)
      by_contra hc
      exact absurd (this.2 (show k ∈ {j : ℕ | tf ≤ t0 + j * h} from not_lt.mp hc)) (not_le.mpr hk)
    have := hst k hk
    rw [hstep] at this
    exact ⟨hk'.le, (Except.ok.inj this).symm⟩)
  refine ⟨⟨v, hret, ?_⟩, ?_, ?_⟩
  · rw [htc, ← sn]; exact herr _ le_rfl
  · rw [htl, hul]; split <;> simp
  · rw [htl, hul]
    cases storeData with
    | false => simp
    | true =>
      intro p hp'
      rw [if_pos rfl, if_pos rfl, List.zip_map', List.mem_map] at hp'
      obtain ⟨j, hj, rfl⟩ := hp'
      refine herr _ ?_
      rwa [List.mem_range, Nat.lt_succ_iff, Nat.le_div_iff_mul_le (Int.natAbs_pos.mpr hfr)] at hj

/-- **C56.** `evolve` of a constant-step solver returns, and the returned array and every snapshot are within
`C (‖u - Y(t0)‖ + h^4 + 2^-N)` of the exact solution at the time they belong to. -/
theorem C56_evolve (m : CSSolver ι) (hm : m.GoodContour) (hf : ContDiff ℝ ∞ f) (ht : t0 < tf) (hY : Solves m.op.mat f t0 tf Y) :
    ∃ (C η : ℝ) (N0 : ℕ), 0 < η ∧ ∀ (N : ℕ) (h : ℝ) (u : Vec ι), N0 ≤ N → 0 < h → h < η → ‖u - Y t0‖ ≤ η →
      ∀ (pyDiv storeData : Bool) (freq : ℤ) (s : (m.withPoints N).State) (fuel : ℕ), (pyDiv = true → tf ≠ 0) → freq ≠ 0 →
        ⌈(tf - t0) / h⌉₊ < fuel →
        (∃ v, ((m.withPoints N).evolve (total f) id pyDiv fuel u t0 tf h storeData freq s).1 = .ok (some v) ∧
          ‖v - Y ((m.withPoints N).evolve (total f) id pyDiv fuel u t0 tf h storeData freq s).2.tc‖ ≤
            C * (‖u - Y t0‖ + h ^ 4 + (1 / 2) ^ N)) ∧
        ((m.withPoints N).evolve (total f) id pyDiv fuel u t0 tf h storeData freq s).2.u.length =
          ((m.withPoints N).evolve (total f) id pyDiv fuel u t0 tf h storeData freq s).2.t.length ∧
        ∀ p ∈ ((m.withPoints N).evolve (total f) id pyDiv fuel u t0 tf h storeData freq s).2.t.zip
          ((m.withPoints N).evolve (total f) id pyDiv fuel u t0 tf h storeData freq s).2.u,
          ‖p.2 - Y p.1‖ ≤ C * (‖u - Y t0‖ + h ^ 4 + (1 / 2) ^ N) := by
  obtain ⟨δ, K0, hfl⟩ := hY.flows
  have h0 := m.one_step hm hf hfl
  obtain ⟨C, η, N0, hC, hη, h1⟩ := run_error (p := 4) (me := fun N h => (m.withPoints N).method h)
    (G := fun N h => (m.withPoints N).CoefOk h) (by norm_num) ht.le h0
  refine ⟨C, min η (tf - t0), N0, lt_min hη (by linarith), fun N h u hN h0 h2 hu pyDiv storeData freq s fuel hp hfr hfu => ?_⟩
  obtain ⟨h3, h4⟩ := h1 N hN
  refine (m.withPoints N).evolve_error u h0 (by linarith [h2.trans_le (min_le_right η (tf - t0))])
    (h3 h h0 (h2.trans_le (min_le_left _ _))) (fun st s0 hst k hk => ?_) pyDiv storeData freq s fuel hp hfr hfu
  rw [← s0]
  refine h4 h _ (fun k => t0 + k * h) st h0 (h2.trans_le (min_le_left _ _)) (by simp) (fun k hk => ?_)
    (by rw [s0]; exact hu.trans (min_le_left _ _)) k hk
  have e : (t0 + ((k + 1 : ℕ) : ℝ) * h) - (t0 + (k : ℝ) * h) = h := by push_cast; ring
  rw [e]
  exact ⟨(hst k hk).1, by linarith, le_rfl, (hst k hk).2⟩

/-- **C56.** If the interval is a whole number of steps, the returned array approximates the solution at `tf`. -/
theorem C56_at_tf (m : CSSolver ι) (hm : m.GoodContour) (hf : ContDiff ℝ ∞ f) (ht : t0 < tf) (hY : Solves m.op.mat f t0 tf Y) :
    ∃ (C η : ℝ) (N0 : ℕ), 0 < η ∧ ∀ (N n : ℕ), N0 ≤ N → (tf - t0) / n < η →
      ∀ (pyDiv storeData : Bool) (freq : ℤ) (s : (m.withPoints N).State) (fuel : ℕ), (pyDiv = true → tf ≠ 0) → freq ≠ 0 → 0 < n → n < fuel →
        ∃ v, ((m.withPoints N).evolve (total f) id pyDiv fuel (Y t0) t0 tf ((tf - t0) / n) storeData freq s).1 = .ok (some v) ∧
          ‖v - Y tf‖ ≤ C * (((tf - t0) / n) ^ 4 + (1 / 2) ^ N) := by
  obtain ⟨C, η, N0, hη, h1⟩ := C56_evolve m hm hf ht hY
  refine ⟨C, min η (tf - t0), N0, lt_min hη (by linarith), fun N n hN h2 pyDiv storeData freq s fuel hp hfr hn hfu => ?_⟩
  have hn' : (0 : ℝ) < n := by exact_mod_cast hn
  have h0 : 0 < (tf - t0) / n := div_pos (by linarith) hn'
  have hne : tf - t0 ≠ 0 := by linarith
  have hc : ⌈(tf - t0) / ((tf - t0) / n)⌉₊ = n := by
    rw [div_div_cancel₀ hne, Nat.ceil_natCast]
  have hfu' : ⌈(tf - t0) / ((tf - t0) / n)⌉₊ < fuel := by rw [hc]; exact hfu
  obtain ⟨⟨v, hv, he⟩, -⟩ := h1 N _ (Y t0) hN h0 (h2.trans_le (min_le_left _ _)) (by simpa using hη.le) pyDiv storeData freq s fuel hp hfr hfu'
  refine ⟨v, hv, ?_⟩
  have htc := (C01_time_reached (m.withPoints N) (total f) pyDiv (Y t0) v t0 tf _ storeData freq h0
    (by linarith [h2.trans_le (min_le_right η (tf - t0))]) (fun _ => hfr) (fun a b => absurd b (hp a)) s fuel hfu' hv).1
  rw [hc, mul_div_cancel₀ _ hn'.ne', add_sub_cancel] at htc
  rw [htc] at he
  rwa [sub_self, norm_zero, zero_add] at he

/-- Bounds with every sufficiently small extra term. -/
theorem le_of_forall_points {a b C : ℝ} {N0 : ℕ} (h : ∀ N, N0 ≤ N → a ≤ C * (b + (1 / 2) ^ N)) : a ≤ C * b := by
  have h1 : Filter.Tendsto (fun N : ℕ => C * (b + (1 / 2 : ℝ) ^ N)) Filter.atTop (nhds (C * (b + 0))) :=
    ((tendsto_pow_atTop_nhds_zero_of_lt_one (by norm_num) (by norm_num)).const_add b).const_mul C
  rw [add_zero] at h1
  exact ge_of_tendsto h1 (Filter.eventually_atTop.mpr ⟨N0, h⟩)

/-- **C56.** For IF4, which has no contour, the error is of order `h^4`. -/
theorem C56_if4 (L : LinOp ι) (hf : ContDiff ℝ ∞ f) (ht : t0 < tf) (hY : Solves L.mat f t0 tf Y) :
    ∃ C η : ℝ, 0 < η ∧ ∀ n : ℕ, (tf - t0) / n < η →
      ∀ (pyDiv storeData : Bool) (freq : ℤ) (s : (CSSolver.if4 L).State) (fuel : ℕ), (pyDiv = true → tf ≠ 0) → freq ≠ 0 → 0 < n → n < fuel →
        ∃ v, ((CSSolver.if4 L).evolve (total f) id pyDiv fuel (Y t0) t0 tf ((tf - t0) / n) storeData freq s).1 = .ok (some v) ∧
          ‖v - Y tf‖ ≤ C * ((tf - t0) / n) ^ 4 := by
  obtain ⟨C, η, N0, hη, h⟩ := C56_at_tf (.if4 L) trivial hf ht hY
  refine ⟨C, η, hη, fun n hn pyDiv storeData freq s fuel hp hfr hn0 hfu => ?_⟩
  obtain ⟨v, hv, -⟩ := h N0 n le_rfl hn pyDiv storeData freq s fuel hp hfr hn0 hfu
  refine ⟨v, hv, le_of_forall_points (N0 := N0) fun N hN => ?_⟩
  obtain ⟨v', hv', he⟩ := h N n hN hn pyDiv storeData freq s fuel hp hfr hn0 hfu
  rw [show v = v' from Option.some.inj (Except.ok.inj (hv.symm.trans hv'))]
  exact he

/-! ### C57: adaptive steps -/

theorem ASSolver.orderOf_ne (m : ASSolver ι) : m.orderOf ≠ 0 := by
  rcases m with L | ⟨cfg, L⟩ | ⟨cfg, L⟩ | L <;> simp [orderOf]

/-- The trajectory behind a run of an adaptive solver, as steps of its method. -/
theorem ASSolver.evolve_method (m : ASSolver ι) (u : Vec ι) {η : ℝ} (ht : t0 ≤ tf) (hc : ∀ h, 0 < h → h < η → m.CoefOk h)
    (cfg : SolverConfig ℝ) (hInit : Option ℝ) (pyDiv storeData : Bool) (freq : ℤ) (s : m.State) (fuel : ℕ)
    (hd : cfg.decr_f < 1) (hmin : 0 < cfg.minh) (hpos : ∀ h, hInit = some h → 0 < h) (hfr : freq ≠ 0) :
    ∃ (n : ℕ) (tm : ℕ → ℝ) (st : ℕ → Vec ι) (hp hu hs : ℕ → ℝ),
      tm 0 = t0 ∧ st 0 = u ∧ FreshRun m (total f) cfg tf n tm st hp hu hs ∧
      (m.evolve (total f) id pyDiv cfg fuel u t0 tf hInit storeData freq s).2.t =
        (if storeData then (List.range (n / freq.natAbs + 1)).map (fun j => tm (j * freq.natAbs)) else []) ∧
      (m.evolve (total f) id pyDiv cfg fuel u t0 tf hInit storeData freq s).2.u =
        (if storeData then (List.range (n / freq.natAbs + 1)).map (fun j => st (j * freq.natAbs)) else []) ∧
      (∀ v, (m.evolve (total f) id pyDiv cfg fuel u t0 tf hInit storeData freq s).1 = .ok (some v) → v = st n ∧ tm n = tf) ∧
      ∀ k < n, tm k ≤ tf ∧ tm k < tm (k + 1) ∧ tm (k + 1) - tm k = hu k ∧
        (hu k < η → st (k + 1) = ((m.userMethod (hu k)).run f (st k)).1) ∧ tm (k + 1) ≤ tf := by
  obtain ⟨n, tm, st, hp, hu', hs, t1, t2, t3, t4, t5, t6, t7, t8, t9⟩ :=
    m.evolve_freshRun (total f) pyDiv cfg fuel u t0 tf hInit storeData freq s
  have T := t4.times hd hmin (by rw [t1]; exact ht) (by
    rw [t1, t3]
    intro hlt
    unfold firstProposal
    refine ⟨lt_min ?_ (by linarith), ?_⟩
    · cases hInit with
      | none => simp; linarith
      | some h => exact hpos h rfl
    · have := min_le_right (hInit.getD ((tf - t0) / 100)) (tf - t0); linarith)
  refine ⟨n, tm, st, hp, hu', hs, t1, t2, t5, ?_, ?_, ?_, ?_⟩
  · rw [t6, storedUpTo_closed _ hfr, List.map_map]; rfl
  · rw [t7, storedUpTo_closed _ hfr, List.map_map]; rfl
  · intro v hv
    rw [hv] at t8
    cases t8 with
    | returned _ hge => exact ⟨rfl, le_antisymm (T n le_rfl).1 (not_lt.mp hge)⟩
  · intro k hk
    obtain ⟨a1, a2, a3⟩ := T k hk.le
    obtain ⟨b1, b2, b3⟩ := a3 hk
    refine ⟨a1, by linarith, by rw [b3]; ring, fun hη => ?_, (T (k + 1) hk).1⟩
    obtain ⟨-, hs', c1, -⟩ := t4.step k hk
    generalize hR : (Except.ok (st (k + 1), hu' k, hs') : Except PyErr (Vec ι × ℝ × ℝ)) = R at c1
    cases c1 with
    | accept d1 d2 d3 d4 d5 =>
      simp only [Except.ok.injEq, Prod.mk.injEq] at hR
      obtain ⟨e1, e2, -⟩ := hR
      rw [← e2, m.oneTrial_run _ (hc _ b1 hη)] at d3
      rw [e1, ← Except.ok.inj d3]
    | _ => simp at hR

/-- **C57.** Whatever the controller does: along the trajectory behind a call of `evolve` of an adaptive solver, the error stays within
`C (‖u - Y(t0)‖ + H^p + 2^-N)` where `H` is the longest accepted step and `p` the order of the solver. -/
theorem C57_trajectory (m : ASSolver ι) (hm : m.GoodContour) (hf : ContDiff ℝ ∞ f) (ht : t0 ≤ tf) (hY : Solves m.op.mat f t0 tf Y) :
    ∃ (C η : ℝ) (N0 : ℕ), 0 < η ∧ ∀ (N : ℕ) (u : Vec ι), N0 ≤ N → ‖u - Y t0‖ ≤ η →
      ∀ (cfg : SolverConfig ℝ) (hInit : Option ℝ) (pyDiv storeData : Bool) (freq : ℤ) (s : (m.withPoints N).State) (fuel : ℕ),
        cfg.decr_f < 1 → 0 < cfg.minh → (∀ h, hInit = some h → 0 < h) → freq ≠ 0 →
        ∃ (n : ℕ) (tm : ℕ → ℝ) (st : ℕ → Vec ι) (hp hu hs : ℕ → ℝ),
          tm 0 = t0 ∧ st 0 = u ∧ FreshRun (m.withPoints N) (total f) cfg tf n tm st hp hu hs ∧
          ((m.withPoints N).evolve (total f) id pyDiv cfg fuel u t0 tf hInit storeData freq s).2.t =
            (if storeData then (List.range (n / freq.natAbs + 1)).map (fun j => tm (j * freq.natAbs)) else []) ∧
          ((m.withPoints N).evolve (total f) id pyDiv cfg fuel u t0 tf hInit storeData freq s).2.u =
            (if storeData then (List.range (n / freq.natAbs + 1)).map (fun j => st (j * freq.natAbs)) else []) ∧
          (∀ v, ((m.withPoints N).evolve (total f) id pyDiv cfg fuel u t0 tf hInit storeData freq s).1 = .ok (some v) →
            v = st n ∧ tm n = tf) ∧
          ∀ H, 0 < H → H < η → (∀ k < n, hu k ≤ H) → ∀ k ≤ n, ‖st k - Y (tm k)‖ ≤ C * (‖u - Y t0‖ + H ^ m.orderOf + (1 / 2) ^ N) := by
  obtain ⟨δ, K0, hfl⟩ := hY.flows
  have h0 := m.one_step hm hf hfl
  obtain ⟨C, η, N0, hC, hη, h1⟩ := run_error (me := fun N h => (m.withPoints N).userMethod h)
    (G := fun N h => (m.withPoints N).CoefOk h) m.orderOf_ne ht h0
  refine ⟨C, η, N0, hη, fun N u hN hu cfg hInit pyDiv storeData freq s fuel hd hmin hpos hfr => ?_⟩
  obtain ⟨h3, h4⟩ := h1 N hN
  obtain ⟨n, tm, st, hp, hu', hs, t1, t2, t3, t4, t5, t6, t7⟩ :=
    (m.withPoints N).evolve_method (f := f) u ht h3 cfg hInit pyDiv storeData freq s fuel hd hmin hpos hfr
  refine ⟨n, tm, st, hp, hu', hs, t1, t2, t3, t4, t5, t6, fun H H0 H1 hH => ?_⟩
  rw [← t2]
  refine h4 H n tm st H0 H1 t1 (fun k hk => ?_) (by rw [t2]; exact hu)
  obtain ⟨a1, a2, a3, a4, -⟩ := t7 k hk
  rw [a3]
  exact ⟨a1, a2, hH k hk, a4 ((hH k hk).trans_lt H1)⟩

/-- **C57.** The same in terms of `solver.t` and `solver.u` of a run that stores every step: if consecutive stored times are at most `H`
apart, every snapshot is accurate, and so is the returned array. -/
theorem C57_stored (m : ASSolver ι) (hm : m.GoodContour) (hf : ContDiff ℝ ∞ f) (ht : t0 ≤ tf) (hY : Solves m.op.mat f t0 tf Y) :
    ∃ (C η : ℝ) (N0 : ℕ), 0 < η ∧ ∀ (N : ℕ) (u : Vec ι), N0 ≤ N → ‖u - Y t0‖ ≤ η →
      ∀ (cfg : SolverConfig ℝ) (hInit : Option ℝ) (pyDiv : Bool) (s : (m.withPoints N).State) (fuel : ℕ),
        cfg.decr_f < 1 → 0 < cfg.minh → (∀ h, hInit = some h → 0 < h) → ∀ H, 0 < H → H < η →
        ((m.withPoints N).evolve (total f) id pyDiv cfg fuel u t0 tf hInit true 1 s).2.t.IsChain (fun a b => b - a ≤ H) →
        (∀ p ∈ ((m.withPoints N).evolve (total f) id pyDiv cfg fuel u t0 tf hInit true 1 s).2.t.zip
            ((m.withPoints N).evolve (total f) id pyDiv cfg fuel u t0 tf hInit true 1 s).2.u,
          ‖p.2 - Y p.1‖ ≤ C * (‖u - Y t0‖ + H ^ m.orderOf + (1 / 2) ^ N)) ∧
        ∀ v, ((m.withPoints N).evolve (total f) id pyDiv cfg fuel u t0 tf hInit true 1 s).1 = .ok (some v) →
          ‖v - Y tf‖ ≤ C * (‖u - Y t0‖ + H ^ m.orderOf + (1 / 2) ^ N) := by
  obtain ⟨C, η, N0, hη, h1⟩ := C57_trajectory m hm hf ht hY
  refine ⟨C, η, N0, hη, fun N u hN hu cfg hInit pyDiv s fuel hd hmin hpos H H0 H1 hch => ?_⟩
  obtain ⟨n, tm, st, hp, hu', hs, t1, t2, t3, t4, t5, t6, t7⟩ := h1 N u hN hu cfg hInit pyDiv true 1 s fuel hd hmin hpos one_ne_zero
  simp only [if_true, Int.natAbs_one, mul_one, Nat.div_one] at t4 t5
  have herr := t7 H H0 H1 (by
    intro k hk
    rw [t4, List.isChain_iff_getElem] at hch
    have := hch k (by simpa using hk)
    simp only [List.getElem_map, List.getElem_range] at this
    rw [t3.time k hk] at this
    linarith)
  refine ⟨?_, fun v hv => ?_⟩
  · rw [t4, t5]
    intro p hp'
    rw [List.zip_map', List.mem_map] at hp'
    obtain ⟨j, hj, rfl⟩ := hp'
    exact herr j (Nat.lt_succ_iff.mp (List.mem_range.mp hj))
  · obtain ⟨rfl, e⟩ := t6 v hv
    rw [← e]; exact herr n le_rfl

/-- **C57.** For IF34 and IF45DP, which have no contour, the error is of order `H^4` and `H^5`. -/
theorem C57_if (m : ASSolver ι) (hm : ¬ m.IsETD) (hf : ContDiff ℝ ∞ f) (ht : t0 ≤ tf) (hY : Solves m.op.mat f t0 tf Y) :
    ∃ C η : ℝ, 0 < η ∧ ∀ (cfg : SolverConfig ℝ) (hInit : Option ℝ) (pyDiv : Bool) (s : m.State) (fuel : ℕ),
        cfg.decr_f < 1 → 0 < cfg.minh → (∀ h, hInit = some h → 0 < h) → ∀ H, 0 < H → H < η →
        (m.evolve (total f) id pyDiv cfg fuel (Y t0) t0 tf hInit true 1 s).2.t.IsChain (fun a b => b - a ≤ H) →
        (∀ p ∈ (m.evolve (total f) id pyDiv cfg fuel (Y t0) t0 tf hInit true 1 s).2.t.zip
            (m.evolve (total f) id pyDiv cfg fuel (Y t0) t0 tf hInit true 1 s).2.u, ‖p.2 - Y p.1‖ ≤ C * H ^ m.orderOf) ∧
        ∀ v, (m.evolve (total f) id pyDiv cfg fuel (Y t0) t0 tf hInit true 1 s).1 = .ok (some v) → ‖v - Y tf‖ ≤ C * H ^ m.orderOf := by
  have hg : m.GoodContour := by
    rcases m with L | ⟨cfg, L⟩ | ⟨cfg, L⟩ | L
    · trivial
    · exact absurd trivial hm
    · exact absurd trivial hm
    · trivial
  have hw : ∀ N, m.withPoints N = m := by
    intro N
    rcases m with L | ⟨cfg, L⟩ | ⟨cfg, L⟩ | L
    · rfl
    · exact absurd trivial hm
    · exact absurd trivial hm
    · rfl
  obtain ⟨C, η, N0, hη, h⟩ := C57_stored m hg hf ht hY
  refine ⟨C, η, hη, fun cfg hInit pyDiv s fuel hd hmin hpos H H0 H1 hc => ⟨fun p hp => ?_, fun v hv => ?_⟩⟩
  · refine le_of_forall_points (N0 := N0) fun N hN => ?_
    have h2 := h N (Y t0) hN (by simpa using hη.le) cfg hInit pyDiv
    rw [hw N] at h2
    have := (h2 s fuel hd hmin hpos H H0 H1 hc).1 p hp
    rwa [sub_self, norm_zero, zero_add] at this
  · refine le_of_forall_points (N0 := N0) fun N hN => ?_
    have h2 := h N (Y t0) hN (by simpa using hη.le) cfg hInit pyDiv
    rw [hw N] at h2
    have := (h2 s fuel hd hmin hpos H H0 H1 hc).2 v hv
    rwa [sub_self, norm_zero, zero_add] at this

/-! ### A concrete problem: the logistic equation `y' = -y + y^2` with solution `1/(1 + e^t)` -/

/-- The nonlinear term `y^2` of the logistic equation. -/
def logisticN : Vec (Fin 1) → Vec (Fin 1) := fun u i => u i ^ 2

/-- A solution of the logistic equation. -/
noncomputable def logisticY : ℝ → Vec (Fin 1) := fun t _ => (((1 + Real.exp t)⁻¹ : ℝ) : ℂ)

theorem logisticN_smooth : ContDiff ℝ ∞ logisticN := by
  refine contDiff_pi.mpr fun i => ?_
  exact (contDiff_apply ℝ ℂ i).pow 2

theorem logistic_solves (t0 tf : ℝ) : Solves (Matrix.diagonal ![-1]) logisticN t0 tf logisticY := by
  refine ⟨1, one_pos, fun t _ _ => hasDerivAt_pi.mpr fun i => ?_⟩
  have h0 : 1 + Real.exp t ≠ 0 := by positivity
  have h1 : HasDerivAt (fun t => (1 + Real.exp t)⁻¹) (-Real.exp t / (1 + Real.exp t) ^ 2) t :=
    ((Real.hasDerivAt_exp t).const_add 1).inv h0
  have h2 := h1.ofReal_comp
  have h3 : (-(1 + Real.exp t)⁻¹ + ((1 + Real.exp t)⁻¹) ^ 2 : ℝ) = -Real.exp t / (1 + Real.exp t) ^ 2 := by
    field_simp; ring
  rw [← h3] at h2
  have h4 : (Matrix.diagonal ![-1] *ᵥ logisticY t + logisticN (logisticY t)) i =
      ((-(1 + Real.exp t)⁻¹ + ((1 + Real.exp t)⁻¹) ^ 2 : ℝ) : ℂ) := by
    fin_cases i
    simp [logisticN, logisticY, mulVec_diagonal]
  rw [h4]
  exact h2

/-- The solutions `1/(1 + e^(q + s))` for `q` between -1 and 1. -/
theorem logistic_flows : Flows (Matrix.diagonal ![-1]) logisticN (Set.Icc (-1 : ℝ) 1) (fun q s => logisticY (q + s)) 1
    (logisticY '' Set.Icc (-2) 2) where
  pos := one_pos
  compact := by
    refine isCompact_Icc.image (continuous_pi fun _ => Complex.continuous_ofReal.comp ?_)
    exact (continuous_const.add Real.continuous_exp).inv₀ fun t => (by have := Real.exp_pos t; linarith : (0 : ℝ) < 1 + Real.exp t).ne'
  mem := by
    intro q hq s hs
    rw [abs_lt] at hs
    exact ⟨q + s, ⟨by linarith [hq.1], by linarith [hq.2]⟩, rfl⟩
  deriv := by
    intro q _ s _
    obtain ⟨δ, hδ, h⟩ := (logistic_solves (q + s) (q + s)).deriv
    exact (h (q + s) (by linarith) (by linarith)).comp_const_add q s

/-- In one dimension every operator commutes with the derivative, so ETD5 and ETD35 are of order five. -/
example : (∃ C η : ℝ, 0 < η ∧ ∀ h, 0 < h → h < η → ∀ q ∈ Set.Icc (-1 : ℝ) 1, ∀ᶠ N in Filter.atTop,
      ∃ u', (((CSSolver.etd5 ⟨1 / 100, 32, 1⟩ (.diag ![-1])).withPoints N).step (total logisticN) (logisticY (q + 0)) h
        ((CSSolver.etd5 ⟨1 / 100, 32, 1⟩ (.diag ![-1])).withPoints N).new).1 = .ok u' ∧ ‖u' - logisticY (q + h)‖ ≤ C * h ^ 6) ∧
    ∃ C η : ℝ, 0 < η ∧ ∀ h, 0 < h → h < η → ∀ q ∈ Set.Icc (-1 : ℝ) 1, ∀ᶠ N in Filter.atTop,
      ∃ u' e, (((ASSolver.etd35 ⟨1 / 100, 32, 1⟩ (.diag ![-1])).withPoints N).trial (total logisticN) (logisticY (q + 0)) h
        ((ASSolver.etd35 ⟨1 / 100, 32, 1⟩ (.diag ![-1])).withPoints N).new).1 = .ok (u', e) ∧ ‖u' - logisticY (q + h)‖ ≤ C * h ^ 6 := by
  have hneg : ∀ w : Vec (Fin 1), Matrix.diagonal ![-1] *ᵥ w = -w := fun w => by
    funext i; rw [Matrix.mulVec_diagonal, Fin.fin_one_eq_zero i]; simp
  obtain ⟨η', hη', hres⟩ := LinOp.resolved_small ⟨1 / 100, 32, 1⟩ (.diag (![-1] : Vec (Fin 1))) (by norm_num) (by norm_num)
  constructor
  · obtain ⟨C, η, hη, h1⟩ := C35_etd5_commuting (y := fun q s => logisticY (q + s)) ⟨1 / 100, 32, 1⟩ (.diag ![-1]) logisticN_smooth
      logistic_flows (fun q _ w => by simp only [LinOp.mat]; rw [hneg, hneg, map_neg])
    refine ⟨C, min η η', lt_min hη hη', fun h h0 hh q hq => h1 h h0 (hh.trans_le (min_le_left _ _)) q hq (hres h ?_)⟩
    rw [abs_of_pos h0]; exact hh.trans_le (min_le_right _ _)
  · obtain ⟨C, η, hη, h1⟩ := C35_etd35_commuting (y := fun q s => logisticY (q + s)) ⟨1 / 100, 32, 1⟩ (.diag ![-1]) logisticN_smooth
      logistic_flows (fun q _ w => by show fderiv ℝ _ _ (Matrix.diagonal ![-1] *ᵥ w) = Matrix.diagonal ![-1] *ᵥ _; rw [hneg, hneg, map_neg])
    refine ⟨C, min η η', lt_min hη hη', fun h h0 hh q hq => h1 h h0 (hh.trans_le (min_le_left _ _)) q hq (hres h ?_)⟩
    rw [abs_of_pos h0]; exact hh.trans_le (min_le_right _ _)

/-- C35 for ETD5 and ETD35. -/
example : (∃ C η : ℝ, 0 < η ∧ ∀ (N : ℕ) (h : ℝ), 0 < N → 0 < h → h < η → ∀ q ∈ Set.Icc (-1 : ℝ) 1,
      ∃ u', (((CSSolver.etd5 ⟨1 / 100, 32, 1⟩ (.diag ![-1])).withPoints N).step (total logisticN) (logisticY (q + 0)) h
        ((CSSolver.etd5 ⟨1 / 100, 32, 1⟩ (.diag ![-1])).withPoints N).new).1 = .ok u' ∧
        ‖u' - logisticY (q + h)‖ ≤ C * (h ^ 5 + h * (1 / 2) ^ N)) ∧
    ∃ C η : ℝ, 0 < η ∧ ∀ (N : ℕ) (h : ℝ), 0 < N → 0 < h → h < η → ∀ q ∈ Set.Icc (-1 : ℝ) 1,
      ∃ u' e, (((ASSolver.etd35 ⟨1 / 100, 32, 1⟩ (.diag ![-1]) : ASSolver (Fin 1)).withPoints N).trial (total logisticN) (logisticY (q + 0)) h
        ((ASSolver.etd35 ⟨1 / 100, 32, 1⟩ (.diag ![-1])).withPoints N).new).1 = .ok (u', e) ∧
        ‖u' - logisticY (q + h)‖ ≤ C * (h ^ ((ASSolver.etd35 ⟨1 / 100, 32, 1⟩ (.diag ![-1])).orderOf + 1) + h * (1 / 2) ^ N) := by
  have h1 := C35_uniform (y := fun q s => logisticY (q + s)) (.etd5 ⟨1 / 100, 32, 1⟩ (.diag ![-1])) (by constructor <;> norm_num)
    logisticN_smooth logistic_flows
  have h2 := C35_uniform_trial (y := fun q s => logisticY (q + s)) (.etd35 ⟨1 / 100, 32, 1⟩ (.diag ![-1]))
    (by constructor <;> norm_num) logisticN_smooth logistic_flows
  exact ⟨h1, h2⟩

/-- C56 for ETD4, started at `1/2 + x` instead of `1/2`. -/
example : ∃ (C η : ℝ) (N0 : ℕ), 0 < η ∧ ∀ (N : ℕ) (h x : ℝ), N0 ≤ N → 0 < h → h < η → |x| ≤ η → ∀ fuel : ℕ, ⌈(2 - 0) / h⌉₊ < fuel →
    ∃ v, (((CSSolver.etd4 ⟨1 / 100, 32, 1⟩ (.diag ![-1])).withPoints N).evolve (total logisticN) id true fuel
      (logisticY 0 + fun _ => (x : ℂ)) 0 2 h true 1 ((CSSolver.etd4 ⟨1 / 100, 32, 1⟩ (.diag ![-1])).withPoints N).new).1 = .ok (some v) ∧
      ‖v - logisticY (((CSSolver.etd4 ⟨1 / 100, 32, 1⟩ (.diag ![-1])).withPoints N).evolve (total logisticN) id true fuel
      (logisticY 0 + fun _ => (x : ℂ)) 0 2 h true 1 ((CSSolver.etd4 ⟨1 / 100, 32, 1⟩ (.diag ![-1])).withPoints N).new).2.tc‖ ≤
        C * (|x| + h ^ 4 + (1 / 2) ^ N) := by
  obtain ⟨C, η, N0, hη, h⟩ := C56_evolve (.etd4 ⟨1 / 100, 32, 1⟩ (.diag ![-1])) (by constructor <;> norm_num) logisticN_smooth
    (show (0 : ℝ) < 2 by norm_num) (logistic_solves 0 2)
  have hx : ∀ x : ℝ, ‖(logisticY 0 + fun _ => (x : ℂ)) - logisticY 0‖ = |x| := by
    intro x
    rw [add_sub_cancel_left, pi_norm_const, Complex.norm_real, Real.norm_eq_abs]
  refine ⟨C, η, N0, hη, fun N h' x hN h0 h1 hx1 fuel hf => ?_⟩
  have := (h N h' (logisticY 0 + fun _ => (x : ℂ)) hN h0 h1 (by rw [hx]; exact hx1) true true 1
    ((CSSolver.etd4 ⟨1 / 100, 32, 1⟩ (.diag ![-1])).withPoints N).new fuel (by norm_num) one_ne_zero hf).1
  rw [hx] at this
  exact this

/-- C57 for ETD34 started on the solution. -/
example : ∃ (C η : ℝ) (N0 : ℕ), 0 < η ∧ ∀ (N fuel : ℕ), N0 ≤ N → ∀ H, 0 < H → H < η →
    (((ASSolver.etd34 ⟨1 / 100, 32, 1⟩ (.diag ![-1])).withPoints N).evolve (total logisticN) id true
      ⟨1 / 10000, 5 / 4, 17 / 20, 4 / 5, 1 / 100, 1 / 10 ^ 16⟩ fuel (logisticY 0) 0 2 none true 1
      ((ASSolver.etd34 ⟨1 / 100, 32, 1⟩ (.diag ![-1])).withPoints N).new).2.t.IsChain (fun a b => b - a ≤ H) →
    ∀ v, (((ASSolver.etd34 ⟨1 / 100, 32, 1⟩ (.diag ![-1])).withPoints N).evolve (total logisticN) id true
      ⟨1 / 10000, 5 / 4, 17 / 20, 4 / 5, 1 / 100, 1 / 10 ^ 16⟩ fuel (logisticY 0) 0 2 none true 1
      ((ASSolver.etd34 ⟨1 / 100, 32, 1⟩ (.diag ![-1])).withPoints N).new).1 = .ok (some v) →
      ‖v - logisticY 2‖ ≤ C * (H ^ 4 + (1 / 2) ^ N) := by
  obtain ⟨C, η, N0, hη, h⟩ := C57_stored (.etd34 ⟨1 / 100, 32, 1⟩ (.diag ![-1])) (by constructor <;> norm_num) logisticN_smooth
    (show (0 : ℝ) ≤ 2 by norm_num) (logistic_solves 0 2)
  refine ⟨C, η, N0, hη, fun N fuel hN H H0 H1 hc v hv => ?_⟩
  have := (h N (logisticY 0) hN (by simpa using hη.le) ⟨1 / 10000, 5 / 4, 17 / 20, 4 / 5, 1 / 100, 1 / 10 ^ 16⟩ none true
    ((ASSolver.etd34 ⟨1 / 100, 32, 1⟩ (.diag ![-1])).withPoints N).new fuel (by norm_num) (by norm_num) (by simp) H H0 H1 hc).2 v hv
  rwa [sub_self, norm_zero, zero_add] at this

/-- C57 for a first step size of `1/10`: the run follows the method, and the states are close to the solution. -/
example : ∃ (C η : ℝ) (N0 : ℕ), 0 < η ∧ ∀ N, N0 ≤ N → ∀ fuel : ℕ,
    ∃ (n : ℕ) (tm : ℕ → ℝ) (st : ℕ → Vec (Fin 1)) (hu : ℕ → ℝ), tm 0 = 0 ∧ st 0 = logisticY 0 ∧
      (∀ v, (((ASSolver.etd34 ⟨1 / 100, 32, 1⟩ (.diag ![-1])).withPoints N).evolve (total logisticN) id true
        ⟨1 / 10000, 5 / 4, 17 / 20, 4 / 5, 1 / 100, 1 / 10 ^ 16⟩ fuel (logisticY 0) 0 2 (some (1 / 10)) true 1
        ((ASSolver.etd34 ⟨1 / 100, 32, 1⟩ (.diag ![-1])).withPoints N).new).1 = .ok (some v) → v = st n ∧ tm n = 2) ∧
      ∀ H, 0 < H → H < η → (∀ k < n, hu k ≤ H) → ∀ k ≤ n, ‖st k - logisticY (tm k)‖ ≤ C * (H ^ 4 + (1 / 2) ^ N) := by
  obtain ⟨C, η, N0, hη, h⟩ := C57_trajectory (.etd34 ⟨1 / 100, 32, 1⟩ (.diag ![-1])) (by constructor <;> norm_num) logisticN_smooth
    (show (0 : ℝ) ≤ 2 by norm_num) (logistic_solves 0 2)
  refine ⟨C, η, N0, hη, fun N hN fuel => ?_⟩
  obtain ⟨n, tm, st, hp, hu, hs, h0, h1, -, -, -, h2, h3⟩ := h N (logisticY 0) hN (by simpa using hη.le)
    ⟨1 / 10000, 5 / 4, 17 / 20, 4 / 5, 1 / 100, 1 / 10 ^ 16⟩ (some (1 / 10)) true true 1
    ((ASSolver.etd34 ⟨1 / 100, 32, 1⟩ (.diag ![-1])).withPoints N).new fuel (by norm_num) (by norm_num) (by norm_num) one_ne_zero
  simp only [sub_self, norm_zero, zero_add] at h3
  exact ⟨n, tm, st, hu, h0, h1, h2, h3⟩

/-- C56 for ETD4 with 10 steps or more: the hypotheses are met, and the bound tends to zero. -/
example : ∃ (C η : ℝ) (N0 : ℕ), 0 < η ∧ ∀ (N n : ℕ), N0 ≤ N → (2 - 0 : ℝ) / n < η → 0 < n →
    ∃ v, (((CSSolver.etd4 ⟨1 / 100, 32, 1⟩ (.diag ![-1])).withPoints N).evolve (total logisticN) id true (n + 1) (logisticY 0) 0 2
      ((2 - 0) / n) true 1 ((CSSolver.etd4 ⟨1 / 100, 32, 1⟩ (.diag ![-1])).withPoints N).new).1 = .ok (some v) ∧
      ‖v - logisticY 2‖ ≤ C * (((2 - 0 : ℝ) / n) ^ 4 + (1 / 2) ^ N) := by
  obtain ⟨C, η, N0, hη, h⟩ := C56_at_tf (.etd4 ⟨1 / 100, 32, 1⟩ (.diag ![-1])) (by constructor <;> norm_num) logisticN_smooth
    (show (0 : ℝ) < 2 by norm_num) (logistic_solves 0 2)
  exact ⟨C, η, N0, hη, fun N n hN hn hn0 => h N n hN hn true true 1 _ (n + 1) (by norm_num) one_ne_zero hn0 (Nat.lt_succ_self n)⟩

/-- C56 for IF4. -/
example : ∃ C η : ℝ, 0 < η ∧ ∀ n : ℕ, (2 - 0 : ℝ) / n < η → 0 < n →
    ∃ v, ((CSSolver.if4 (.diag ![-1])).evolve (total logisticN) id true (n + 1) (logisticY 0) 0 2 ((2 - 0) / n) false 1
      (CSSolver.if4 (.diag ![-1])).new).1 = .ok (some v) ∧ ‖v - logisticY 2‖ ≤ C * ((2 - 0 : ℝ) / n) ^ 4 := by
  obtain ⟨C, η, hη, h⟩ := C56_if4 (.diag ![-1]) logisticN_smooth (show (0 : ℝ) < 2 by norm_num) (logistic_solves 0 2)
  exact ⟨C, η, hη, fun n hn hn0 => h n hn true false 1 _ (n + 1) (by norm_num) one_ne_zero hn0 (Nat.lt_succ_self n)⟩

/-- C57 for IF45DP with the default settings of the controller. -/
example : ∃ C η : ℝ, 0 < η ∧ ∀ (fuel : ℕ) (H : ℝ), 0 < H → H < η →
    ((ASSolver.if45dp ![-1]).evolve (total logisticN) id true ⟨1 / 10000, 5 / 4, 17 / 20, 4 / 5, 1 / 100, 1 / 10 ^ 16⟩ fuel (logisticY 0)
      0 2 none true 1 (ASSolver.if45dp ![-1]).new).2.t.IsChain (fun a b => b - a ≤ H) →
    ∀ v, ((ASSolver.if45dp ![-1]).evolve (total logisticN) id true ⟨1 / 10000, 5 / 4, 17 / 20, 4 / 5, 1 / 100, 1 / 10 ^ 16⟩ fuel
      (logisticY 0) 0 2 none true 1 (ASSolver.if45dp ![-1]).new).1 = .ok (some v) → ‖v - logisticY 2‖ ≤ C * H ^ 5 := by
  obtain ⟨C, η, hη, h⟩ := C57_if (.if45dp ![-1]) id logisticN_smooth (show (0 : ℝ) ≤ 2 by norm_num) (logistic_solves 0 2)
  exact ⟨C, η, hη, fun fuel H H0 H1 hc v hv => (h ⟨1 / 10000, 5 / 4, 17 / 20, 4 / 5, 1 / 100, 1 / 10 ^ 16⟩ none true _ fuel
    (by norm_num) (by norm_num) (by simp) H H0 H1 hc).2 v hv⟩

end Verif
