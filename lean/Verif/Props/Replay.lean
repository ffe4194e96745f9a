import Verif.Props.Prefix

/-!
# C98: repeating adaptive steps, and looser tolerances
-/

set_option linter.unusedSectionVars false

namespace Verif

variable {ι : Type} [Fintype ι] [DecidableEq ι]

/-- A looser tolerance gives a larger factor. -/
theorem computeS_looser {q : ℕ} {cfg cfg' : SolverConfig ℝ} (hc : cfg'.adapt_cutoff = cfg.adapt_cutoff) (he : 0 < cfg.epsilon)
    (he' : cfg.epsilon ≤ cfg'.epsilon) (hs' : cfg.safety_f ≤ cfg'.safety_f) {v e : Vec ι} {x : ℝ} (hx : computeS q cfg v e = .fin x)
    (h1 : 1 ≤ x) : ∃ x', computeS q cfg' v e = .fin x' ∧ x ≤ x' := by
  have hE0 : selNorm cfg.adapt_cutoff v e ≠ 0 := fun h => factor_of_zero_err h x hx
  rw [computeS_eq] at hx ⊢
  rw [hc]
  set N := selNorm cfg.adapt_cutoff v v
  set E := selNorm cfg.adapt_cutoff v e
  have hN : 0 ≤ N := selNorm_nonneg _ _ _
  have hEpos : 0 < E := lt_of_le_of_ne (selNorm_nonneg _ _ _) (Ne.symm hE0)
  have hquot : 0 ≤ cfg.epsilon * N / E := by positivity
  have hle : cfg.epsilon * N / E ≤ cfg'.epsilon * N / E :=
    div_le_div_of_nonneg_right (mul_le_mul_of_nonneg_right he' hN) hEpos.le
  have hquot' : 0 ≤ cfg'.epsilon * N / E := hquot.trans hle
  unfold npDiv at hx ⊢
  rw [if_neg hE0] at hx ⊢
  simp only [npPower, npScale, not_lt.mpr hquot, if_false, Ext.fin.injEq] at hx
  simp only [npPower, npScale, not_lt.mpr hquot', if_false, Ext.fin.injEq]
  refine ⟨_, rfl, ?_⟩
  have hp : 0 ≤ (cfg.epsilon * N / E) ^ ((1 : ℝ) / q) := Real.rpow_nonneg hquot _
  have hs : 0 < cfg.safety_f := by
    by_contra hn
    have : cfg.safety_f * (cfg.epsilon * N / E) ^ ((1 : ℝ) / q) ≤ 0 := mul_nonpos_of_nonpos_of_nonneg (not_lt.mp hn) hp
    linarith
  rw [← hx]
  exact mul_le_mul hs' (Real.rpow_le_rpow hquot hle (by positivity)) hp (hs.le.trans hs')

theorem grow_looser {i i' x x' h : ℝ} (hi : 1 ≤ i') (hi' : i' ≤ i) (hx : x ≤ x') (hh : 0 ≤ h) : grow i x h ≤ grow i' x' h := by
  have hm : min x 4 ≤ min x' 4 := min_le_min_right _ hx
  unfold grow
  split
  · rw [if_pos (by linarith)]
    exact mul_le_mul_of_nonneg_right hm hh
  · split
    · nlinarith
    · exact le_rfl

/-- **C98.** Repeating an adaptive step with the size that it used (here: on a new object) gives the same state and uses the same size,
also with looser tolerances: larger `epsilon` and `safety_f`, smaller `incr_f` and any `decr_f` and `minh`. The suggested size is then at
least as large. -/
theorem C98_repeat (m : ASSolver ι) (nl : NlFunc ι) (cfg cfg' : SolverConfig ℝ) (hd : cfg.decr_f < 1) (hm : 0 < cfg.minh)
    (he : 0 < cfg.epsilon) (hi : 1 ≤ cfg'.incr_f) (hc : cfg'.adapt_cutoff = cfg.adapt_cutoff) (he' : cfg.epsilon ≤ cfg'.epsilon)
    (hs' : cfg.safety_f ≤ cfg'.safety_f) (hi' : cfg'.incr_f ≤ cfg.incr_f) (u v : Vec ι) (h hu hs : ℝ) (hh : 0 < h)
    (hret : (m.step nl id cfg u h m.new).1 = .ok (v, hu, hs)) :
    ∃ hs', (m.step nl id cfg' u hu m.new).1 = .ok (v, hu, hs') ∧ hs ≤ hs' := by
  have hpos := (C08_step_sizes m nl cfg hd hm u h hh m.new v hu hs hret).1.1
  rw [← m.stepSpec_iff nl id cfg u h hh.le] at hret
  generalize hR : (Except.ok (v, hu, hs) : Except PyErr (Vec ι × ℝ × ℝ)) = R at hret
  cases hret with
  | @accept j h' x r hj hrej hok hx h1 =>
    simp only [Except.ok.injEq, Prod.mk.injEq] at hR
    obtain ⟨rfl, rfl, rfl⟩ := hR
    obtain ⟨x', hx', hle⟩ := computeS_looser hc he he' hs' ((m.factor_eq nl cfg r).symm.trans hx) h1
    refine ⟨grow cfg'.incr_f x' hu, ?_, grow_looser hi hi' hle hpos.le⟩
    rw [← m.stepSpec_iff nl id cfg' u hu hpos.le]
    exact StepSpec.accept (j := 0) (by norm_num) (.zero _) hok ((m.factor_eq nl cfg' r).trans hx') (by linarith)
  | _ => simp at hR

/-- **C98.** Whatever an adaptive run has stored, whether it succeeded or not, can be replayed: `step` from a stored state with the
difference of stored times gives the next stored state without rejections, also with looser tolerances. -/
theorem C98_replay (m : ASSolver ι) (nl : NlFunc ι) (pyDiv : Bool) (cfg cfg' : SolverConfig ℝ) (hd : cfg.decr_f < 1) (hm : 0 < cfg.minh)
    (he : 0 < cfg.epsilon) (hi : 1 ≤ cfg'.incr_f) (hc : cfg'.adapt_cutoff = cfg.adapt_cutoff) (he' : cfg.epsilon ≤ cfg'.epsilon)
    (hs' : cfg.safety_f ≤ cfg'.safety_f) (hi' : cfg'.incr_f ≤ cfg.incr_f) (fuel : ℕ) (u : Vec ι) (t0 tf : ℝ) (ht : t0 < tf)
    (hInit : Option ℝ) (hpos : ∀ h, hInit = some h → 0 < h) (s : m.State) (k : ℕ) (a b : ℝ) (v w : Vec ι)
    (ha : (m.evolve nl id pyDiv cfg fuel u t0 tf hInit true 1 s).2.t[k]? = some a)
    (hb : (m.evolve nl id pyDiv cfg fuel u t0 tf hInit true 1 s).2.t[k + 1]? = some b)
    (hv : (m.evolve nl id pyDiv cfg fuel u t0 tf hInit true 1 s).2.u[k]? = some v)
    (hw : (m.evolve nl id pyDiv cfg fuel u t0 tf hInit true 1 s).2.u[k + 1]? = some w) :
    ∃ hs, (m.step nl id cfg' v (b - a) m.new).1 = .ok (w, b - a, hs) := by
  obtain ⟨n, tm, st, hp, hu, hs, h1, h2, h3, R, h5, h6, -⟩ := C13_stored m nl pyDiv cfg fuel u t0 tf hInit true 1 one_ne_zero s
  rw [h5, if_pos rfl, getElem?_stored] at ha hb
  rw [h6, if_pos rfl, getElem?_stored] at hv hw
  obtain ⟨-, rfl⟩ := ha
  obtain ⟨hk, rfl⟩ := hb
  obtain ⟨-, rfl⟩ := hv
  obtain ⟨-, rfl⟩ := hw
  have hp0 : 0 < hp 0 := by rw [h3]; exact firstProposal_pos ht hpos
  have hpk := (R.sizes hd hm (fun _ => hp0) k (by omega)).1
  rw [R.time k (by omega), add_sub_cancel_left]
  obtain ⟨x, hx, -⟩ := C98_repeat m nl cfg cfg' hd hm he hi hc he' hs' hi' _ _ _ _ _ hpk (R.step k (by omega))
  exact ⟨x, hx⟩

/-- **C09.** Every step that an adaptive run has stored, whether the run succeeded or not, meets the tolerance: the error estimate of the
step between two stored states is positive and at most `epsilon` times the later state, in the norm over the components that count. -/
theorem C09_stored (m : ASSolver ι) (nl : NlFunc ι) (pyDiv : Bool) (cfg : SolverConfig ℝ) (he : 0 < cfg.epsilon) (hs1 : cfg.safety_f ≤ 1)
    (fuel : ℕ) (u : Vec ι) (t0 tf : ℝ) (hInit : Option ℝ) (s : m.State) (k : ℕ) (a b : ℝ) (v w : Vec ι)
    (ha : (m.evolve nl id pyDiv cfg fuel u t0 tf hInit true 1 s).2.t[k]? = some a)
    (hb : (m.evolve nl id pyDiv cfg fuel u t0 tf hInit true 1 s).2.t[k + 1]? = some b)
    (hv : (m.evolve nl id pyDiv cfg fuel u t0 tf hInit true 1 s).2.u[k]? = some v)
    (hw : (m.evolve nl id pyDiv cfg fuel u t0 tf hInit true 1 s).2.u[k + 1]? = some w) :
    ∃ err, (m.trial nl v (b - a) m.new).1 = .ok (w, err) ∧ 0 < selNorm cfg.adapt_cutoff w err ∧
      selNorm cfg.adapt_cutoff w err ≤ cfg.epsilon * selNorm cfg.adapt_cutoff w w := by
  obtain ⟨n, tm, st, hp, hu, hs, h1, h2, h3, R, h5, h6, -⟩ := C13_stored m nl pyDiv cfg fuel u t0 tf hInit true 1 one_ne_zero s
  rw [h5, if_pos rfl, getElem?_stored] at ha hb
  rw [h6, if_pos rfl, getElem?_stored] at hv hw
  obtain ⟨-, rfl⟩ := ha
  obtain ⟨hk, rfl⟩ := hb
  obtain ⟨-, rfl⟩ := hv
  obtain ⟨-, rfl⟩ := hw
  rw [R.time k (by omega), add_sub_cancel_left]
  obtain ⟨err, e1, e2, -, e4⟩ := C09_tolerance m nl id cfg he _ _ _ _ _ (R.step k (by omega))
  exact ⟨err, e1, e2, e4 hs1⟩

/-! ### Examples -/

/-- C09 for the fourth step of the run of C95. -/
example (s : demo.State) (v w : Vec (Fin 1))
    (hv : (demo.evolve (fun x => .ok x) id true { demoCfg with minh := 1 / 100 } 200 1 0 1 none true 1 s).2.u[3]? = some v)
    (hw : (demo.evolve (fun x => .ok x) id true { demoCfg with minh := 1 / 100 } 200 1 0 1 none true 1 s).2.u[4]? = some w) :
    ∃ err, (demo.trial (fun x => .ok x) v (85 / 100 - 21 / 100) demo.new).1 = .ok (w, err) ∧ 0 < selNorm (1 / 100) w err ∧
      selNorm (1 / 100) w err ≤ 1 * selNorm (1 / 100) w w := by
  have ht := (demo_five_steps s).2
  exact C09_stored demo (fun x => .ok x) true { demoCfg with minh := 1 / 100 } (by norm_num [demoCfg]) (by norm_num [demoCfg]) 200 1 0 1 none s 3
    (21 / 100) (85 / 100) v w (by rw [ht]; rfl) (by rw [ht]; rfl) hv hw

/-- Doubling `epsilon` on the concrete step of C07. -/
example : ∃ hs, (demo.step (fun x => .ok x) id { demoCfg with epsilon := 2 * demoCfg.epsilon } 1 1 demo.new).1 =
    .ok ((65 / 24 : ℂ) • 1, 1, hs) := by
  obtain ⟨hs, h, -⟩ := C98_repeat demo (fun x => .ok x) demoCfg { demoCfg with epsilon := 2 * demoCfg.epsilon } (by norm_num [demoCfg])
    (by norm_num [demoCfg]) (by norm_num [demoCfg]) (by norm_num [demoCfg]) rfl (by norm_num [demoCfg]) le_rfl le_rfl 1 _ 1 _ _ one_pos demo_step
  exact ⟨hs, h⟩

/-- The fourth step of the run of C95, replayed. -/
example (s : demo.State) (v w : Vec (Fin 1))
    (hv : (demo.evolve (fun x => .ok x) id true { demoCfg with minh := 1 / 100 } 200 1 0 1 none true 1 s).2.u[3]? = some v)
    (hw : (demo.evolve (fun x => .ok x) id true { demoCfg with minh := 1 / 100 } 200 1 0 1 none true 1 s).2.u[4]? = some w) :
    ∃ hs, (demo.step (fun x => .ok x) id demoCfg v (64 / 100) demo.new).1 = .ok (w, 64 / 100, hs) := by
  have ht := (demo_five_steps s).2
  have := C98_replay demo (fun x => .ok x) true { demoCfg with minh := 1 / 100 } demoCfg (by norm_num [demoCfg]) (by norm_num)
    (by norm_num [demoCfg]) (by norm_num [demoCfg]) rfl le_rfl le_rfl le_rfl 200 1 0 1 one_pos none (by simp) s 3 (21 / 100) (85 / 100) v w
    (by rw [ht]; rfl) (by rw [ht]; rfl) hv hw
  norm_num at this ⊢
  exact this

end Verif
