import Verif.Props.AdaptiveEvolve
import Verif.Props.History
import Verif.Lemmas.Witness

/-!
# C95: how fast the sizes of adaptive steps grow
-/

set_option linter.unusedSectionVars false

namespace Verif

variable {ι : Type} [Fintype ι] [DecidableEq ι]

theorem FreshRun.sizes {m : ASSolver ι} {nl : NlFunc ι} {cfg : SolverConfig ℝ} {tf : ℝ} {n : ℕ} {tm : ℕ → ℝ} {st : ℕ → Vec ι}
    {hp hu hs : ℕ → ℝ} (R : FreshRun m nl cfg tf n tm st hp hu hs) (hd : cfg.decr_f < 1) (hm : 0 < cfg.minh) (h0 : 0 < n → 0 < hp 0) :
    ∀ k < n, 0 < hp k ∧ 0 < hu k ∧ hu k ≤ hp k ∧ hp (k + 1) ≤ 4 * hu k := by
  intro k hk
  have hpk : 0 < hp k := by
    induction k with
    | zero => exact h0 hk
    | succ k ih =>
      have ih := ih (by omega)
      obtain ⟨⟨a1, -, a3, -⟩, -⟩ := C08_step_sizes m nl cfg hd hm _ _ ih _ _ _ _ (R.step k (by omega))
      rw [R.next k (by omega)]
      exact lt_min (by linarith) (by linarith [R.before_end (k + 1) hk])
  obtain ⟨⟨a1, a2, a3, a4⟩, -⟩ := C08_step_sizes m nl cfg hd hm _ _ hpk _ _ _ _ (R.step k hk)
  refine ⟨hpk, a1, a2, ?_⟩
  rw [R.next k hk]
  exact (min_le_left _ _).trans a4

theorem FreshRun.grow {m : ASSolver ι} {nl : NlFunc ι} {cfg : SolverConfig ℝ} {tf : ℝ} {n : ℕ} {tm : ℕ → ℝ} {st : ℕ → Vec ι}
    {hp hu hs : ℕ → ℝ} (R : FreshRun m nl cfg tf n tm st hp hu hs) (hd : cfg.decr_f < 1) (hm : 0 < cfg.minh) (h0 : 0 < n → 0 < hp 0) :
    (∀ k, k + 1 < n → hu (k + 1) ≤ 4 * hu k) ∧ (∀ k < n, hu k ≤ 4 ^ k * hp 0) ∧ ∀ k ≤ n, 3 * (tm k - tm 0) ≤ (4 ^ k - 1) * hp 0 := by
  have S := R.sizes hd hm h0
  have h1 : ∀ k, k + 1 < n → hu (k + 1) ≤ 4 * hu k := fun k hk => (S (k + 1) hk).2.2.1.trans (S k (by omega)).2.2.2
  have h2 : ∀ k < n, hu k ≤ 4 ^ k * hp 0 := by
    intro k
    induction k with
    | zero => intro hk; simpa using (S 0 hk).2.2.1
    | succ k ih =>
      intro hk
      have := ih (by omega)
      have := h1 k hk
      rw [pow_succ]
      linarith
  refine ⟨h1, h2, fun k => ?_⟩
  induction k with
  | zero => intro _; simp
  | succ k ih =>
    intro hk
    have := ih (by omega)
    have := h2 k (by omega)
    rw [R.time k (by omega), pow_succ]
    linarith

theorem firstProposal_pos {t0 tf : ℝ} (ht : t0 < tf) {hInit : Option ℝ} (hpos : ∀ h, hInit = some h → 0 < h) :
    0 < firstProposal t0 tf hInit := by
  unfold firstProposal
  refine lt_min ?_ (by linarith)
  cases hInit with
  | none => simp; linarith
  | some h => exact hpos h rfl

theorem firstProposal_le (t0 tf : ℝ) (hInit : Option ℝ) : firstProposal t0 tf hInit ≤ hInit.getD ((tf - t0) / 100) := min_le_left _ _

/-- **C95.** The times that an adaptive run stores, whether it succeeds or not: every step is at most four times as long as the one
before, the first one at most `h_init` (by default a hundredth of the interval), so that `t_k - t_0 ≤ h_init (4^k - 1)/3`. -/
theorem C95_growth (m : ASSolver ι) (nl : NlFunc ι) (pyDiv : Bool) (cfg : SolverConfig ℝ) (hd : cfg.decr_f < 1)
    (hm : 0 < cfg.minh) (fuel : ℕ) (u : Vec ι) (t0 tf : ℝ) (ht : t0 < tf) (hInit : Option ℝ)
    (hpos : ∀ h, hInit = some h → 0 < h) (s : m.State) :
    let t := (m.evolve nl id pyDiv cfg fuel u t0 tf hInit true 1 s).2.t
    (∀ a b c k, t[k]? = some a → t[k + 1]? = some b → t[k + 2]? = some c → c - b ≤ 4 * (b - a)) ∧
    ∀ a k, t[k]? = some a → 3 * (a - t0) ≤ (4 ^ k - 1) * hInit.getD ((tf - t0) / 100) := by
  intro t
  obtain ⟨n, tm, st, hp, hu, hs, h1, -, h3, h4, h5, -⟩ := C13_stored m nl pyDiv cfg fuel u t0 tf hInit true 1 one_ne_zero s
  obtain ⟨g1, g2, g3⟩ := h4.grow hd hm fun _ => by rw [h3]; exact firstProposal_pos ht hpos
  have ht' : ∀ k a, t[k]? = some a → k ≤ n ∧ a = tm k := by
    intro k a hk
    change (m.evolve nl id pyDiv cfg fuel u t0 tf hInit true 1 s).2.t[k]? = _ at hk
    rw [h5] at hk
    simp only [if_true, Int.natAbs_one, Nat.div_one, mul_one, List.getElem?_map, Option.map_eq_some_iff] at hk
    obtain ⟨j, hj, rfl⟩ := hk
    obtain ⟨hlt, he⟩ := List.getElem?_eq_some_iff.mp hj
    rw [List.getElem_range] at he
    rw [List.length_range] at hlt
    subst he
    exact ⟨by omega, rfl⟩
  refine ⟨fun a b c k ha hb hc => ?_, fun a k ha => ?_⟩
  · obtain ⟨-, rfl⟩ := ht' _ _ ha
    obtain ⟨-, rfl⟩ := ht' _ _ hb
    obtain ⟨hk, rfl⟩ := ht' _ _ hc
    rw [h4.time (k + 1) (by omega), h4.time k (by omega)]
    linarith [g1 k (by omega)]
  · obtain ⟨hk, rfl⟩ := ht' _ _ ha
    have := g3 k hk
    rw [h1] at this
    refine this.trans (mul_le_mul_of_nonneg_left ?_ (by linarith [one_le_pow₀ (M₀ := ℝ) (a := 4) (n := k) (by norm_num)]))
    rw [h3]
    exact firstProposal_le _ _ _

/-- **C95.** Hence a run that succeeds needs many steps: `N` steps with `3 (tf - t0) ≤ (4^N - 1) h_init`, and `nl_func` is called
accordingly. -/
theorem C95_steps (m : ASSolver ι) (nl : NlFunc ι) (pyDiv : Bool) (cfg : SolverConfig ℝ) (hd : cfg.decr_f < 1)
    (hm : 0 < cfg.minh) (fuel : ℕ) (u v : Vec ι) (t0 tf : ℝ) (ht : t0 < tf) (hInit : Option ℝ)
    (hpos : ∀ h, hInit = some h → 0 < h) (storeData : Bool) (freq : ℤ) (s : m.State)
    (s' : m.State) (hrun : m.evolve nl id pyDiv cfg fuel u t0 tf hInit storeData freq s = (.ok (some v), s')) :
    ∃ N : ℕ, 3 * (tf - t0) ≤ (4 ^ N - 1) * hInit.getD ((tf - t0) / 100) ∧ s.trials + N ≤ s'.trials ∧
      ASSolver.evals s + (match m with
        | .if34 _ => 4 * N + 1
        | .etd34 _ _ => 4 * N + 1
        | .if45dp _ => 6 * N + 1
        | .etd35 _ _ => 6 * N) ≤ ASSolver.evals s' := by
  obtain ⟨n, a, tm, st, hp, hu, hs, h1, -, h3, h4, h5, -⟩ := C20_evals_as m nl pyDiv cfg fuel u t0 tf hInit storeData freq s _ s' hrun
  obtain ⟨-, h6, h7, h8, h9⟩ := h5 v rfl
  obtain ⟨g1, g2, g3⟩ := h4.grow hd hm fun _ => by rw [h3]; exact firstProposal_pos ht hpos
  have hn : n ≠ 0 := by rintro rfl; rw [h1] at h6; linarith
  refine ⟨n, ?_, by omega, ?_⟩
  · have := g3 n le_rfl
    rw [h1] at this
    refine le_trans (by linarith) (this.trans (mul_le_mul_of_nonneg_left ?_ (by linarith [one_le_pow₀ (M₀ := ℝ) (a := 4) (n := n) (by norm_num)])))
    rw [h3]
    exact firstProposal_le _ _ _
  · rw [h9, if_neg hn]
    cases m <;> simp only <;> omega

/-- **C95.** With the default `h_init` every successful run takes at least five steps. -/
theorem C95_default (m : ASSolver ι) (nl : NlFunc ι) (pyDiv : Bool) (cfg : SolverConfig ℝ) (hd : cfg.decr_f < 1)
    (hm : 0 < cfg.minh) (fuel : ℕ) (u v : Vec ι) (t0 tf : ℝ) (ht : t0 < tf) (s : m.State)
    (hret : (m.evolve nl id pyDiv cfg fuel u t0 tf none true 1 s).1 = .ok (some v)) :
    6 ≤ (m.evolve nl id pyDiv cfg fuel u t0 tf none true 1 s).2.t.length := by
  obtain ⟨n, tm, st, hp, hu, hs, h1, -, h3, h4, h5, -, h7, -⟩ := C13_stored m nl pyDiv cfg fuel u t0 tf none true 1 one_ne_zero s
  obtain ⟨-, -, g3⟩ := h4.grow hd hm fun _ => by rw [h3]; exact firstProposal_pos ht (by simp)
  have h6 := (h7 v hret).2
  have h8 := g3 n le_rfl
  have h9 : hp 0 ≤ (tf - t0) / 100 := by rw [h3]; exact firstProposal_le t0 tf none
  rw [h5]
  simp only [if_true, Int.natAbs_one, Nat.div_one, List.length_map, List.length_range]
  by_contra hlt
  have hn : (4 : ℝ) ^ n ≤ 4 ^ 4 := pow_le_pow_right₀ (by norm_num) (by omega)
  rw [h1] at h8
  have h10 : (4 ^ n - 1) * hp 0 ≤ 255 * ((tf - t0) / 100) :=
    mul_le_mul (by linarith) h9 (by rw [h3]; exact (firstProposal_pos ht (by simp)).le) (by norm_num)
  linarith

/-! ### Examples -/

/-- Short trials of `u' = u` with IF34 are accepted at once, and four times their size is suggested. -/
theorem demo_step4 (cfg : SolverConfig ℝ) (he : cfg.epsilon = 1) (hs : cfg.safety_f = 1) (hc : cfg.adapt_cutoff < 1) (hi : cfg.incr_f < 4) {h : ℝ}
    (h0 : 0 < h) (h2 : h ≤ 16 / 25) {u : Vec (Fin 1)} (hu : u 0 ≠ 0) :
    ∃ w : Vec (Fin 1), w 0 ≠ 0 ∧ (demo.step (fun x => .ok x) id cfg u h demo.new).1 = .ok (w, h, 4 * h) := by
  have e1 : (1 + h + h ^ 2 / 2 + h ^ 3 / 6 + h ^ 4 / 24 : ℂ) = ((1 + h + h ^ 2 / 2 + h ^ 3 / 6 + h ^ 4 / 24 : ℝ) : ℂ) := by push_cast; rfl
  have e2 : (h / 6 * (h ^ 3 / 12 - h ^ 4 / 24) : ℂ) = ((h / 6 * (h ^ 3 / 12 - h ^ 4 / 24) : ℝ) : ℂ) := by push_cast; rfl
  have ht := demo_trial h u
  rw [e1, e2] at ht
  set p := 1 + h + h ^ 2 / 2 + h ^ 3 / 6 + h ^ 4 / 24 with hp
  set e := h / 6 * (h ^ 3 / 12 - h ^ 4 / 24) with he'
  have e3 : e = h ^ 4 * (2 - h) / 144 := by rw [he']; ring
  have p0 : 0 < p := by positivity
  have e0 : 0 < e := by
    rw [e3]; have : 0 < 2 - h := by linarith
    positivity
  have hle : 256 * e ≤ p := by
    have h5 : 0 ≤ h ^ 5 := by positivity
    have : e = h ^ 4 / 72 - h ^ 5 / 144 := by rw [e3]; ring
    have h4 : h ^ 4 ≤ (16 / 25) ^ 4 := pow_le_pow_left₀ h0.le h2 4
    have : 0 ≤ h + h ^ 2 / 2 + h ^ 3 / 6 + h ^ 4 / 24 := by positivity
    norm_num at h4
    linarith
  have hw : ((p : ℂ) • u) 0 ≠ 0 := by simp [p0.ne', hu]
  have hf := factor_one 4 cfg hc (by rw [he]; norm_num) ((p : ℂ) • u) ((e : ℂ) • u) hw (by simp [e0.ne', hu])
  set x := cfg.safety_f * (cfg.epsilon * ‖((p : ℂ) • u) 0‖ / ‖((e : ℂ) • u) 0‖) ^ ((1 : ℝ) / (4 : ℕ)) with hx
  have hx4 : 4 ≤ x := by
    rw [hx, he, hs, one_mul, one_mul]
    have h44 : (4 : ℝ) = (256 : ℝ) ^ ((1 : ℝ) / (4 : ℕ)) := by
      rw [show (256 : ℝ) = 4 ^ (4 : ℕ) by norm_num, ← Real.rpow_natCast, ← Real.rpow_mul (by norm_num)]
      norm_num
    refine h44.le.trans (Real.rpow_le_rpow (by norm_num) ?_ (by norm_num))
    simp only [Pi.smul_apply, smul_eq_mul, norm_mul, Complex.norm_real, Real.norm_of_nonneg p0.le, Real.norm_of_nonneg e0.le]
    have hn : 0 < ‖u 0‖ := norm_pos_iff.mpr hu
    rw [le_div_iff₀ (by positivity), ← mul_assoc]
    exact mul_le_mul_of_nonneg_right hle hn.le
  have hg : grow cfg.incr_f x h = 4 * h := by
    unfold grow
    rw [min_eq_right hx4, if_pos hi]
  refine ⟨(p : ℂ) • u, hw, ?_⟩
  rw [← demo.stepSpec_iff _ _ _ _ _ h0.le, ← hg]
  exact StepSpec.accept (Φ := demo.oneTrial fun x => .ok x) (S := demo.factor (fun x => .ok x) cfg) (j := 0) (by norm_num) (.zero h)
    ht hf (by linarith)

/-- Sizes and times of the run below. -/
noncomputable def demoSize : ℕ → ℝ
  | 0 => 1 / 100 | 1 => 4 / 100 | 2 => 16 / 100 | 3 => 64 / 100 | _ => 15 / 100

noncomputable def demoTime : ℕ → ℝ
  | 0 => 0 | 1 => 1 / 100 | 2 => 5 / 100 | 3 => 21 / 100 | 4 => 85 / 100 | _ => 1

/-- The bounds are attained: with the default `h_init` IF34 solves `u' = u` on `[0, 1]` (at a coarse tolerance) in five steps. -/
theorem demo_five_steps (s : demo.State) : (∃ v, (demo.evolve (fun x => .ok x) id true { demoCfg with minh := 1 / 100 } 200 1 0 1 none true 1 s).1 = .ok (some v)) ∧
    (demo.evolve (fun x => .ok x) id true { demoCfg with minh := 1 / 100 } 200 1 0 1 none true 1 s).2.t = [0, 1 / 100, 5 / 100, 21 / 100, 85 / 100, 1] := by
  set cfg : SolverConfig ℝ := { demoCfg with minh := 1 / 100 } with hcfg
  obtain ⟨n, tm, st, hp, hu, hs, h1, h2, h3, h4, h5, -, h7, h8⟩ := C13_stored demo (fun x => .ok x) true cfg 200 1 0 1 none true 1 one_ne_zero s
  have hst : ∀ k ≤ n, k ≤ 5 ∧ tm k = demoTime k ∧ (k < 5 → hp k = demoSize k) ∧ st k 0 ≠ 0 := by
    intro k
    induction k with
    | zero => exact fun _ => ⟨by norm_num, h1, fun _ => by rw [h3]; norm_num [firstProposal, demoSize], by rw [h2]; simp⟩
    | succ k ih =>
      intro hk
      obtain ⟨i1, i2, i3, i4⟩ := ih (by omega)
      have hk5 : k < 5 := by
        by_contra hc
        obtain rfl : k = 5 := by omega
        have := h4.before_end 5 (by omega)
        rw [i2] at this
        norm_num [demoTime] at this
      have hp1 : hp k = demoSize k := i3 hk5
      obtain ⟨w, w0, hw⟩ := demo_step4 cfg rfl rfl (by norm_num [cfg, demoCfg]) (by norm_num [cfg, demoCfg]) (h := hp k)
        (by rw [hp1]; interval_cases k <;> norm_num [demoSize]) (by rw [hp1]; interval_cases k <;> norm_num [demoSize]) i4
      rw [h4.step k (by omega)] at hw
      simp only [Except.ok.injEq, Prod.mk.injEq] at hw
      obtain ⟨rfl, w2, w3⟩ := hw
      have ht : tm (k + 1) = demoTime (k + 1) := by
        rw [h4.time k (by omega), w2, i2, hp1]
        interval_cases k <;> norm_num [demoSize, demoTime]
      refine ⟨by omega, ht, fun h => ?_, w0⟩
      rw [h4.next k (by omega), ht, w3, hp1]
      clear hk5 i1
      have hk4 : k < 4 := by omega
      clear h
      interval_cases k <;> norm_num [demoSize, demoTime]
  have hok : ∃ v, (demo.evolve (fun x => .ok x) id true cfg 200 1 0 1 none true 1 s).1 = .ok (some v) := by
    rcases C12_terminates demo (fun x => .ok x) true cfg (by norm_num [cfg, demoCfg]) (by norm_num [cfg]) 200 1 0 1 (by norm_num) none (by simp)
      true 1 s (by norm_num [cfg]) with h | ⟨e, h⟩
    · exact h
    · exfalso
      obtain ⟨a1, a2⟩ := h8 e h
      obtain ⟨i1, i2, i3, i4⟩ := hst n le_rfl
      have hn : n < 5 := by
        by_contra hc
        obtain rfl : n = 5 := by omega
        rw [i2] at a1
        norm_num [demoTime] at a1
      have hp1 := i3 hn
      obtain ⟨w, w0, hw⟩ := demo_step4 cfg rfl rfl (by norm_num [cfg, demoCfg]) (by norm_num [cfg, demoCfg]) (h := hp n)
        (by rw [hp1]; interval_cases n <;> norm_num [demoSize]) (by rw [hp1]; interval_cases n <;> norm_num [demoSize]) i4
      rcases a2 with a2 | ⟨-, a2, -⟩
      · rw [hw] at a2; simp at a2
      · norm_num at a2
  refine ⟨hok, ?_⟩
  obtain ⟨v, hv⟩ := hok
  have hn : n = 5 := by
    obtain ⟨i1, i2, -⟩ := hst n le_rfl
    have := (h7 v hv).2
    rw [i2] at this
    interval_cases n <;> first | rfl | (exfalso; norm_num [demoTime] at this; done)
  subst hn
  rw [h5]
  simp [List.range_succ, (hst 0 (by norm_num)).2.1, (hst 1 (by norm_num)).2.1, (hst 2 (by norm_num)).2.1, (hst 3 (by norm_num)).2.1,
    (hst 4 (by norm_num)).2.1, (hst 5 (by norm_num)).2.1, demoTime]

/-- All hypotheses are met by this run; its times meet the bounds with equality where the end of the interval does not matter. -/
example (s s' : demo.State) (v : Vec (Fin 1))
    (hrun : demo.evolve (fun x => .ok x) id true { demoCfg with minh := 1 / 100 } 200 1 0 1 none true 1 s = (.ok (some v), s')) :
    6 ≤ s'.t.length ∧ s.trials + 5 ≤ s'.trials ∧ ASSolver.evals s + 21 ≤ ASSolver.evals s' := by
  obtain ⟨N, h1, h2, h3⟩ := C95_steps demo (fun x => .ok x) true { demoCfg with minh := 1 / 100 } (by norm_num [demoCfg]) (by norm_num) 200 1 v 0 1
    one_pos none (by simp) true 1 s s' hrun
  have hN : 5 ≤ N := by
    by_contra hc
    have : (4 : ℝ) ^ N ≤ 4 ^ 4 := pow_le_pow_right₀ (by norm_num) (by omega)
    simp at h1
    linarith
  have h3' : ASSolver.evals s + (4 * N + 1) ≤ ASSolver.evals s' := h3
  refine ⟨?_, by omega, by omega⟩
  have := C95_default demo (fun x => .ok x) true { demoCfg with minh := 1 / 100 } (by norm_num [demoCfg]) (by norm_num) 200 1 v 0 1 one_pos s
    (by rw [hrun])
  rwa [hrun] at this

/-- The bound on `t_4` is attained. -/
example (s : demo.State) : ∃ a, (demo.evolve (fun x => .ok x) id true { demoCfg with minh := 1 / 100 } 200 1 0 1 none true 1 s).2.t[4]? = some a ∧
    3 * (a - 0) ≤ (4 ^ 4 - 1) * (none : Option ℝ).getD ((1 - 0) / 100) ∧ a = 85 / 100 := by
  have ht := (demo_five_steps s).2
  refine ⟨85 / 100, by rw [ht]; rfl, ?_, rfl⟩
  exact (C95_growth demo (fun x => .ok x) true { demoCfg with minh := 1 / 100 } (by norm_num [demoCfg]) (by norm_num) 200 1 0 1 one_pos none
    (by simp) s).2 _ 4 (by rw [ht]; rfl)

end Verif
