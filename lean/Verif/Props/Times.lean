import Verif.Lemmas.TimesTie
import Verif.Props.NonFinite

/-!
# Times, step sizes and settings that are infinite or `nan` (property C81)

`xEvolve`, `evolve` of an arbitrary subclass of the two base classes, for arguments that are any floats.  `rnd` is the rounding, which may
overflow.
-/

set_option linter.unusedSectionVars false

namespace Verif

variable {V Sub : Type} {rnd : ℝ → Ext ℝ}

/-! ### Constant step sizes -/

section CS

variable (C : CSClass (Ext ℝ) V Sub) (pyDiv : Bool) (fuel : ℕ) (u : V) (sd : Bool) (freq : ℤ) (s : CSState (Ext ℝ) V Sub)

/-- **C81.** If `t0` or `tf` is `nan`, then `evolve` returns its argument without a step and without complaint. -/
theorem C81_cs_nan {t0 tf : Ext ℝ} (ht : t0 = .nan ∨ tf = .nan) (h : Ext ℝ) :
    C.xEvolve rnd pyDiv (fuel + 1) u t0 tf h sd freq s =
      (.ok (some u), ⟨if sd then [t0] else [], if sd then [u] else [], tf, t0, C.reset s.sub⟩) := by
  rw [CSClass.xEvolve_apply]
  have h1 : Ext.lt tf (.add rnd t0 h) = false := by
    rcases ht with rfl | rfl
    · rw [Ext.add_nan_left, Ext.lt_nan_right]
    · exact Ext.lt_nan_left _
  have h2 : Ext.lt t0 tf = false := by
    rcases ht with rfl | rfl
    · exact Ext.lt_nan_left _
    · exact Ext.lt_nan_right _
  rw [if_neg (by simp [h1]), CSClass.xLoop_done _ _ _ _ _ _ _ _ (by exact h2)]
  rfl

/-- **C81.** With `h = nan` and `t0 < tf` it raises `AssertionError`. -/
theorem C81_cs_size_nan {t0 tf : Ext ℝ} (ht : Ext.lt t0 tf = true) :
    C.xEvolve rnd pyDiv (fuel + 1) u t0 tf .nan sd freq s =
      (.error .assertionError, ⟨if sd then [t0] else [], if sd then [u] else [], tf, t0, C.reset s.sub⟩) := by
  rw [CSClass.xEvolve_apply, if_neg (by rw [Ext.add_nan_right, Ext.lt_nan_right]; simp),
    CSClass.xLoop_error _ _ _ _ _ _ _ _ (by exact ht) (CSClass.xStep_bad u (by simp [Ext.le]) _)]
  rfl

/-- **C81.** With `h = inf` and finite times it raises `ValueError`; if `tf = inf` too, it makes one step of infinite size and returns its
result. -/
theorem C81_cs_size_inf (t0 : ℝ) :
    (∀ tf, C.xEvolve rnd pyDiv fuel u (.fin t0) (.fin tf) .pinf sd freq s =
      (.error .valueError, ⟨if sd then [.fin t0] else [], if sd then [u] else [], .fin tf, .fin t0, C.reset s.sub⟩)) ∧
    ((sd = true → freq ≠ 0) → (C.xEvolve rnd pyDiv (fuel + 2) u (.fin t0) .pinf .pinf sd freq s).1 =
      (C.updateStages u .pinf (C.reset s.sub)).1.map some) := by
  constructor
  · intro tf
    rw [CSClass.xEvolve_apply, if_pos (by rfl)]
    rfl
  · intro hf
    rw [CSClass.xEvolve_apply, if_neg (by simp [Ext.add])]
    have hst := CSClass.xStep_apply (C := C) u (h := .pinf) rfl (C.xStart u (.fin t0) .pinf sd s)
    cases hr : (C.updateStages u .pinf (C.reset s.sub)).1 with
    | error e =>
      rw [show (C.updateStages u .pinf (C.xStart u (.fin t0) .pinf sd s).sub).1 = .error e from hr] at hst
      rw [CSClass.xLoop_error pyDiv .pinf sd freq (fuel + 1) u 0 _ (by rfl) hst]
      rfl
    | ok v =>
      rw [show (C.updateStages u .pinf (C.xStart u (.fin t0) .pinf sd s).sub).1 = .ok v from hr] at hst
      rw [CSClass.xLoop_succ pyDiv .pinf sd freq (fuel + 1) u v 0 _ _ (by rfl) hst (by rintro - ⟨⟩) hf]
      obtain ⟨k1, k2⟩ := CSClass.xStore_keep sd freq (0 + 1) v { C.xStart u (.fin t0) .pinf sd s with
          tc := .add rnd (.fin t0) .pinf, sub := (C.updateStages u .pinf (C.xStart u (.fin t0) .pinf sd s).sub).2 }
      rw [CSClass.xLoop_done _ _ _ _ _ _ _ _ (by
        refine (congrArg₂ Ext.lt k1 k2).trans ?_
        rfl)]
      rfl

/-- **C81.** With `tf = inf` and a clock that does not overflow `evolve` never returns; if every step succeeds, it runs forever. -/
theorem C81_cs_forever (hr : ∀ x, (rnd x).IsFinite) (t0 h : ℝ) :
    (∀ v, (C.xEvolve rnd pyDiv fuel u (.fin t0) .pinf (.fin h) sd freq s).1 ≠ .ok (some v)) ∧
    (0 ≤ h → (∀ w m, ∃ v, (C.updateStages w (.fin h) m).1 = .ok v) → (sd = true → freq ≠ 0) →
      (C.xEvolve rnd pyDiv fuel u (.fin t0) .pinf (.fin h) sd freq s).1 = .ok none) := by
  have hlt : Ext.lt .pinf (.add rnd (.fin t0) (.fin h)) = false := Ext.lt_pinf_left _
  rw [CSClass.xEvolve_apply, if_neg (by simp)]
  have := CSClass.xLoop_never (C := C) (rnd := rnd) pyDiv (h := .fin h) (tf := .pinf) sd freq (P := Ext.IsFinite)
    (by rintro _ ⟨a, rfl⟩; rfl) (by rintro _ ⟨a, rfl⟩; exact hr _) fuel u 0 (C.xStart u (.fin t0) .pinf sd s) rfl ⟨t0, rfl⟩
    (by cases sd <;> simp [CSClass.xStart])
  exact ⟨this.1, fun h0 h1 h2 => this.2.2 (by simpa using h0) h1 (by rintro - ⟨⟩) h2⟩

/-- **C81.** So it is with `t0 = -inf`, where all recorded times are `-inf`. -/
theorem C81_cs_beginning {tf : Ext ℝ} (hf : tf ≠ .nan ∧ tf ≠ .ninf) (h : ℝ) :
    (∀ v, (C.xEvolve rnd pyDiv fuel u .ninf tf (.fin h) sd freq s).1 ≠ .ok (some v)) ∧
    (∀ t ∈ (C.xEvolve rnd pyDiv fuel u .ninf tf (.fin h) sd freq s).2.t, t = .ninf) ∧
    (0 ≤ h → (∀ w m, ∃ v, (C.updateStages w (.fin h) m).1 = .ok v) → (pyDiv = true → tf ≠ .fin 0) → (sd = true → freq ≠ 0) →
      (C.xEvolve rnd pyDiv fuel u .ninf tf (.fin h) sd freq s).1 = .ok none) := by
  have hlt : Ext.lt .ninf tf = true := by
    cases tf <;> simp_all [Ext.lt]
  have hgt : Ext.lt tf (.add rnd .ninf (.fin h)) = false := by
    cases tf <;> rfl
  rw [CSClass.xEvolve_apply, if_neg (by simp [hgt])]
  have := CSClass.xLoop_never (C := C) (rnd := rnd) pyDiv (h := .fin h) (tf := tf) sd freq (P := (· = .ninf))
    (by rintro _ rfl; exact hlt) (by rintro _ rfl; rfl) fuel u 0 (C.xStart u .ninf tf sd s) rfl rfl
    (by cases sd <;> simp [CSClass.xStart])
  exact ⟨this.1, this.2.1, fun h0 => this.2.2 (by simpa using h0)⟩

end CS

/-! ### Adaptive step sizes -/

section AS

variable (C : XASClass V Sub) (cfg : SolverConfig (Ext ℝ)) (pyDiv : Bool) (fuel : ℕ) (u : V) (sd : Bool) (freq : ℤ)
  (s : ASState (Ext ℝ) V Sub)

/-- **C81.** If `t0` or `tf` is `nan`, then the adaptive `evolve` returns its argument without a trial. -/
theorem C81_as_nan {t0 tf : Ext ℝ} (ht : t0 = .nan ∨ tf = .nan) (hInit : Option (Ext ℝ)) :
    C.evolve rnd pyDiv cfg (fuel + 1) u t0 tf hInit sd freq s =
      (.ok (some u), ⟨if sd then [t0] else [], if sd then [u] else [], tf, t0, false, C.reset s.sub, s.trials⟩) := by
  have h2 : Ext.lt t0 tf = false := by
    rcases ht with rfl | rfl
    · exact Ext.lt_nan_left _
    · exact Ext.lt_nan_right _
  rw [XASClass.evolve_apply, XASClass.loop_done _ _ _ _ _ _ _ _ (by exact h2)]
  rfl

/-- **C81.** With `h_init = nan` or `-inf` and `t0 < tf` it raises `AssertionError`, without a trial. -/
theorem C81_as_size {t0 tf h : Ext ℝ} (ht : Ext.lt t0 tf = true) (hh : h = .nan ∨ h = .ninf) :
    C.evolve rnd pyDiv cfg (fuel + 1) u t0 tf (some h) sd freq s =
      (.error .assertionError,
        ⟨if sd then [t0] else [], if sd then [u] else [], tf, t0, false, C.reset s.sub, s.trials⟩) := by
  have hc : XASClass.clip rnd t0 tf h = h := by
    unfold XASClass.clip
    rw [if_neg]
    rcases hh with rfl | rfl
    · rw [Ext.add_nan_right, Ext.lt_nan_right]
      simp
    · cases t0 <;> cases tf <;> simp_all [Ext.add, Ext.lt]
  rw [XASClass.evolve_apply, XASClass.loop_error _ _ _ _ _ _ _ _ (by exact ht) (XASClass.step_bad u (by
    rw [Option.getD_some, hc]
    rcases hh with rfl | rfl <;> simp [Ext.le]) _)]
  rfl

/-- **C81.** `h_init = inf` means `h_init = tf - t0`. -/
theorem C81_as_size_inf (t0 tf : ℝ) :
    C.evolve rnd pyDiv cfg fuel u (.fin t0) (.fin tf) (some .pinf) sd freq s =
      C.evolve rnd pyDiv cfg fuel u (.fin t0) (.fin tf) (some (.sub rnd (.fin tf) (.fin t0))) sd freq s := by
  rw [XASClass.evolve_apply, XASClass.evolve_apply]
  congr 1
  unfold XASClass.clip
  rw [if_pos (by rfl)]
  split_ifs <;> rfl

/-- **C81.** With `tf = inf` and no `h_init` all trials have infinite size, however often they are rejected: `evolve` raises
`MaxLoopsExceeded` after 51 trials, or what a trial raises, or it returns the result of one trial of infinite size. -/
theorem C81_as_infinite (h0 : 0 < fuel) (t0 : ℝ) {d : ℝ} (hd : cfg.decr_f = .fin d) (d0 : 0 < d) (hf : sd = true → freq ≠ 0) :
    let r := C.evolve rnd pyDiv cfg (fuel + 1) u (.fin t0) .pinf none sd freq s
    (r.1 = .error .maxLoopsExceeded ∧ r.2.trials = s.trials + 51 ∧ r.2.t = if sd then [.fin t0] else []) ∨
    (∃ e a m, r.1 = .error e ∧ (C.updateStages u .pinf a m).1 = .error e ∧ r.2.t = if sd then [.fin t0] else []) ∨
    ∃ v err a m, r.1 = .ok (some v) ∧ r.2.tc = .pinf ∧ (C.updateStages u .pinf a m).1 = .ok (v, err) ∧
      Acceptable (C.computeS cfg v err) := by
  intro r
  have hmul : ∀ x : ℝ, 0 < x → Ext.mul rnd (.fin x) .pinf = .pinf := fun x hx => by simp [Ext.mul, Ext.infTimes, hx.ne', hx]
  have hred : ∀ F h, ¬ Acceptable F → h = .pinf → XASClass.reduced rnd cfg F h = .pinf := by
    rintro F _ - rfl
    unfold XASClass.reduced
    cases F with
    | fin x =>
      simp only [hd, Ext.min, Ext.lt_fin_fin, decide_eq_true_eq]
      split_ifs
      · exact hmul _ d0
      · exact hmul _ (lt_max_of_lt_right (by norm_num))
    | _ => exact hmul _ (by norm_num)
  have hsz : XASClass.clip rnd (.fin t0) .pinf (Option.getD none (.div rnd (.sub rnd .pinf (.fin t0)) (.fin 100))) = .pinf := by
    simp [XASClass.clip, Ext.sub, Ext.neg, Ext.add, Ext.div]
  have hinc : ∀ x : ℝ, 1 ≤ x → XASClass.increased rnd cfg x .pinf = .pinf := fun x hx => by
    unfold XASClass.increased
    split_ifs
    · exact hmul _ (lt_min (by linarith) (by norm_num))
    · rfl
  have hr : r = C.loop rnd pyDiv cfg sd freq (fuel + 1) u .pinf 0 (C.start u (.fin t0) .pinf sd s) := by
    show C.evolve _ _ _ _ _ _ _ _ _ _ _ = _
    rw [XASClass.evolve_apply, hsz]
  have hst := XASClass.step_good (C := C) (rnd := rnd) (cfg := cfg) u (h := .pinf) rfl (C.start u (.fin t0) .pinf sd s)
  obtain ⟨ho, e1, e2, e3, e4⟩ := XASClass.stepLoop_outcome (C := C) (rnd := rnd) (cfg := cfg) u (P := (· = .pinf)) hred MAX_LOOPS 0 .pinf
    (C.start u (.fin t0) .pinf sd s) rfl rfl
  rcases ho with ⟨e, he, h⟩ | ⟨v, err, hu, x, a, m, hok, rfl, hup, hx, h1⟩
  · rw [XASClass.loop_error _ _ _ _ _ _ _ _ (by rfl) (hst.trans (Prod.ext he rfl))] at hr
    rcases h with ⟨rfl, h⟩ | ⟨-, _, rfl, h⟩ | ⟨_, a, m, rfl, h⟩
    · exact .inl ⟨by rw [hr], by rw [hr]; exact h, by rw [hr]; exact e1⟩
    · simp at h
    · exact .inr (.inl ⟨e, a, m, by rw [hr], h, by rw [hr]; exact e1⟩)
  · set s' := (C.stepLoop rnd cfg u 0 .pinf (C.start u (.fin t0) .pinf sd s)).2
    rw [XASClass.loop_succ (s' := s') pyDiv .pinf sd freq fuel u 0 _ (by rfl) (hst.trans (Prod.ext hok rfl)) (by rintro - ⟨⟩) hf] at hr
    obtain ⟨k1, k2⟩ := XASClass.store_keep sd freq (0 + 1) v { s' with tc := .add rnd s'.tc .pinf }
    have e4' : s'.tc = .fin t0 := e4
    have k3 : (XASClass.store sd freq (0 + 1) v { s' with tc := .add rnd s'.tc .pinf }).2.tc = .pinf := by
      rw [k1]
      show Ext.add rnd s'.tc .pinf = .pinf
      rw [e4']
      rfl
    obtain ⟨n, rfl⟩ : ∃ n, fuel = n + 1 := ⟨fuel - 1, by omega⟩
    rw [XASClass.loop_done _ _ _ _ _ _ _ _ (by
      refine (congrArg₂ Ext.lt k3 rfl).trans ?_
      exact Ext.lt_pinf_left _)] at hr
    exact .inr (.inr ⟨v, err, a, m, by rw [hr], by rw [hr]; exact k3, hup, x, hx, h1⟩)

/-- **C81.** With `tf = inf`, a finite `h_init`, a finite `decr_f` and numbers that do not overflow it never returns. -/
theorem C81_as_forever (hr : ∀ x, (rnd x).IsFinite) (hd : cfg.decr_f.IsFinite) (t0 h : ℝ) (v : V) :
    (C.evolve rnd pyDiv cfg fuel u (.fin t0) .pinf (some (.fin h)) sd freq s).1 ≠ .ok (some v) := by
  obtain ⟨d, hd⟩ := hd
  rw [XASClass.evolve_apply]
  refine XASClass.loop_never (P := Ext.IsFinite) (Q := Ext.IsFinite) pyDiv (tf := .pinf) sd freq ?_ ?_ ?_ ?_ ?_ fuel u _ 0 _ rfl ⟨t0, rfl⟩ ?_ v
  · rintro _ ⟨a, rfl⟩
    rfl
  · rintro _ _ ⟨a, rfl⟩ ⟨b, rfl⟩
    exact hr _
  · rintro F _ - ⟨a, rfl⟩
    unfold XASClass.reduced
    cases F with
    | fin x =>
      simp only [hd, Ext.min]
      split_ifs <;> exact hr _
    | _ => exact hr _
  · rintro x _ ⟨a, rfl⟩
    unfold XASClass.increased
    split_ifs
    · exact hr _
    · exact ⟨a, rfl⟩
  · rintro t h - hh
    unfold XASClass.clip
    rwa [if_neg (by simp)]
  · unfold XASClass.clip
    rw [if_neg (by simp)]
    exact ⟨h, rfl⟩

/-! ### Settings -/

/-- **C81.** `minh = nan` switches the lower limit of the step sizes off: `MinimumStepReached` is not raised (unless `nl_func` raises
it). -/
theorem C81_minh_nan (hm : cfg.minh = .nan) (h : Ext ℝ) (hr : (C.step rnd cfg u h s).1 = .error .minimumStepReached) :
    ∃ h' a m, (C.updateStages u h' a m).1 = .error .minimumStepReached := by
  by_cases hh : Ext.le (.fin 0) h = true
  · rw [XASClass.step_good u hh] at hr
    rcases (XASClass.stepLoop_outcome (C := C) (rnd := rnd) (cfg := cfg) u (P := fun _ => True) (fun _ _ _ _ => trivial) MAX_LOOPS 0 h s rfl
      trivial).1 with ⟨e, he, h1⟩ | ⟨v, err, hu, x, a, m, hok, -⟩
    · rw [hr] at he
      obtain rfl := Except.error.inj he
      rcases h1 with ⟨⟨⟩, -⟩ | ⟨-, h', -, h2⟩ | ⟨h', a, m, -, h2⟩
      · rw [hm, Ext.lt_nan_right] at h2
        cases h2
      · exact ⟨h', a, m, h2⟩
    · rw [hr] at hok
      cases hok
  · rw [XASClass.step_bad u hh] at hr
    cases hr

/-- **C81.** With `incr_f = nan` (or infinite) step sizes never grow: `step` suggests the size it used. -/
theorem C81_incr_nan (hm : cfg.incr_f = .nan ∨ cfg.incr_f = .pinf) (h : Ext ℝ) {v : V} {hu hs : Ext ℝ}
    (hr : (C.step rnd cfg u h s).1 = .ok (v, hu, hs)) : hs = hu := by
  by_cases hh : Ext.le (.fin 0) h = true
  · rw [XASClass.step_good u hh] at hr
    rcases (XASClass.stepLoop_outcome (C := C) (rnd := rnd) (cfg := cfg) u (P := fun _ => True) (fun _ _ _ _ => trivial) MAX_LOOPS 0 h s rfl
      trivial).1 with ⟨e, he, h1⟩ | ⟨v, err, hu, x, a, m, hok, -⟩
    · rw [hr] at he
      cases he
    · rw [hr] at hok
      simp only [Except.ok.injEq, Prod.mk.injEq] at hok
      rw [hok.2.2, hok.2.1]
      unfold XASClass.increased
      rw [if_neg]
      rcases hm with hm | hm <;> simp [hm]
  · rw [XASClass.step_bad u hh] at hr
    cases hr

/-- **C81.** With `decr_f = nan` a rejected trial with a finite factor is followed by trials of size `nan`, up to the limit of 51
trials: `step` raises `MaxLoopsExceeded` if they return and are not accepted. -/
theorem C81_decr_nan (hm : cfg.decr_f = .nan) {h : Ext ℝ} (hh : Ext.le (.fin 0) h = true) {r : V × V} {x : ℝ}
    (hr : (C.updateStages u h s.accept s.sub).1 = .ok r) (hx : C.computeS cfg r.1 r.2 = .fin x) (h1 : x < 1)
    (hnan : ∀ a m, ∃ r, (C.updateStages u .nan a m).1 = .ok r ∧ ¬ Acceptable (C.computeS cfg r.1 r.2)) :
    (C.step rnd cfg u h s).1 = .error .maxLoopsExceeded ∧ (C.step rnd cfg u h s).2.trials = s.trials + 51 := by
  have hna : ¬ Acceptable (C.computeS cfg r.1 r.2) := by
    rintro ⟨y, hy, h2⟩
    rw [hx, Ext.fin.injEq] at hy
    linarith
  have hred : XASClass.reduced rnd cfg (C.computeS cfg r.1 r.2) h = .nan := by
    rw [hx]
    simp only [XASClass.reduced, hm]
    rw [show Ext.min (.fin (max x (1 / 4))) .nan = .nan from rfl, Ext.mul_nan_left]
  rw [XASClass.step_good u hh, XASClass.stepLoop_reject u 0 h s hr hna, if_neg (by decide), hred, if_neg (by simp)]
  obtain ⟨ho, -⟩ := XASClass.stepLoop_outcome (C := C) (rnd := rnd) (cfg := cfg) u (P := (· = .nan))
    (by
      rintro F _ - rfl
      unfold XASClass.reduced
      cases F <;> exact Ext.mul_nan_right _) 49 (0 + 1) .nan { C.tried u h s with accept := false } rfl rfl
  rcases ho with ⟨e, he, ⟨rfl, h2⟩ | ⟨-, _, rfl, h2⟩ | ⟨_, a, m, rfl, h2⟩⟩ | ⟨v, err, hu, x, a, m, -, rfl, hup, hx, h1⟩
  · exact ⟨he, h2.trans (by simp only [XASClass.tried])⟩
  · simp at h2
  · obtain ⟨r, h3, -⟩ := hnan a m
    rw [h2] at h3
    cases h3
  · obtain ⟨r, h3, h4⟩ := hnan a m
    rw [hup] at h3
    obtain rfl := Except.ok.inj h3
    exact absurd ⟨x, hx, h1⟩ h4

end AS

/-! ### Settings that are not finite -/

section Settings

variable {ι : Type} [Fintype ι]

theorem Ext.isFinite_div {x y : Ext ℝ} (h : (div rnd x y).IsFinite) : x.IsFinite := by
  cases x <;> cases y <;> simp [div] at h ⊢ <;> split_ifs at h <;> simp at h

theorem Ext.isFinite_power {x : Ext ℝ} {p : ℝ} (h : (power rnd x p).IsFinite) : x.IsFinite := by
  cases x <;> simp [power] at h ⊢

/-- **C81.** With an infinite or `nan` tolerance, an infinite or `nan` `safety_f`, or an `adapt_cutoff` that is `nan`, no trial is
acceptable, whatever the solution and the error estimate are. -/
theorem C81_setting_factor (h0 : rnd 0 = .fin 0) (q : ℕ) {cfg : SolverConfig (Ext ℝ)}
    (hc : ¬ cfg.epsilon.IsFinite ∨ ¬ cfg.safety_f.IsFinite ∨ cfg.adapt_cutoff = .nan) (u err : ι → CFl) :
    ¬ Acceptable (xComputeS rnd q cfg u err) := by
  rintro ⟨x, hx, -⟩
  have hf : (xComputeS rnd q cfg u err).IsFinite := ⟨x, hx⟩
  rcases hc with h | h | h
  · exact h (Ext.isFinite_mul (Ext.isFinite_div (Ext.isFinite_power (Ext.isFinite_mul hf).2))).1
  · exact h (Ext.isFinite_mul hf).1
  · have hn : flNorm rnd [] = .fin 0 := by simp [flNorm, Ext.add, h0, Ext.sqrt]
    have h1 := Ext.isFinite_power (Ext.isFinite_mul hf).2
    simp only [h, Ext.lt_nan_left, List.filter_false, List.map_nil, hn] at h1
    have h2 := Ext.isFinite_div h1
    obtain ⟨y, hy⟩ := (Ext.isFinite_mul h2).1
    rw [hy] at h1
    simp [Ext.mul, h0, Ext.div, Ext.infTimes] at h1

variable [DecidableEq ι]

/-- **C81.** With such settings `step` of every adaptive solver raises: `MaxLoopsExceeded` after 51 trials, `MinimumStepReached`, or what a
trial raises. -/
theorem C81_setting_step (m : ASSolver ι) (h0 : rnd 0 = .fin 0) {load : ℂ → CFl} {coefs : ℝ → Except PyErr m.Coef}
    {nl : (ι → CFl) → Except PyErr (ι → CFl)}
    {other : (ι → CFl) → Ext ℝ → Bool → PyM (Wrap (AMethod m.Coef (ι → CFl))) ((ι → CFl) × (ι → CFl))} {cfg : SolverConfig (Ext ℝ)}
    (hc : ¬ cfg.epsilon.IsFinite ∨ ¬ cfg.safety_f.IsFinite ∨ cfg.adapt_cutoff = .nan) (u : ι → CFl) {h : Ext ℝ}
    (hh : Ext.le (.fin 0) h = true) (s : ASState (Ext ℝ) (ι → CFl) (Wrap (AMethod m.Coef (ι → CFl)))) :
    ∃ e, ((m.xCls rnd load coefs nl other).step rnd cfg u h s).1 = .error e ∧
      ((e = .maxLoopsExceeded ∧ ((m.xCls rnd load coefs nl other).step rnd cfg u h s).2.trials = s.trials + 51) ∨
        e = .minimumStepReached ∨ ∃ h' a n, ((m.xCls rnd load coefs nl other).updateStages u h' a n).1 = .error e) ∧
      ((m.xCls rnd load coefs nl other).step rnd cfg u h s).2.t = s.t ∧ ((m.xCls rnd load coefs nl other).step rnd cfg u h s).2.u = s.u := by
  rw [XASClass.step_good u hh]
  obtain ⟨ho, h1, h2, -⟩ := XASClass.stepLoop_outcome (C := m.xCls rnd load coefs nl other) (rnd := rnd) (cfg := cfg) u (P := fun _ => True)
    (fun _ _ _ _ => trivial) MAX_LOOPS 0 h s rfl trivial
  rcases ho with ⟨e, he, ⟨rfl, h3⟩ | ⟨rfl, -⟩ | ⟨h', a, n, -, h3⟩⟩ | ⟨v, err, hu, x, a, n, -, -, -, hx, hx1⟩
  · exact ⟨_, he, .inl ⟨rfl, h3⟩, h1, h2⟩
  · exact ⟨_, he, .inr (.inl rfl), h1, h2⟩
  · exact ⟨_, he, .inr (.inr ⟨h', a, n, h3⟩), h1, h2⟩
  · exact absurd ⟨x, hx, hx1⟩ (C81_setting_factor h0 _ hc v err)

end Settings

/-! ### Finite arguments -/

/-- **C81.** On finite times and step sizes this is `evolve` of `CSClass`, of which the other properties speak: the same result or exception,
and the same object afterwards. -/
theorem C81_tie_cs (C : CSClass ℝ V Sub) (other : V → Ext ℝ → PyM Sub V) {clk : ℝ → ℝ} (hc : ∀ x, rnd x = .fin (clk x)) (pyDiv : Bool)
    (fuel : ℕ) (u : V) (t0 tf h : ℝ) (sd : Bool) (freq : ℤ) {s : CSState ℝ V Sub} {s' : CSState (Ext ℝ) V Sub} (hs : s'.sub = s.sub) :
    let x := (C.withSizes other).xEvolve rnd pyDiv fuel u (.fin t0) (.fin tf) (.fin h) sd freq s'
    let y := C.evolve clk pyDiv fuel u t0 tf h sd freq s
    x.1 = y.1 ∧ x.2.t = y.2.t.map .fin ∧ x.2.u = y.2.u ∧ x.2.tf = .fin y.2.tf ∧ x.2.tc = .fin y.2.tc ∧ x.2.sub = y.2.sub := by
  intro x y
  have := CSClass.xEvolve_fin (X := C.withSizes other) (C := C) ⟨rfl, fun _ _ => rfl⟩ hc pyDiv fuel u t0 tf h sd freq s s' hs
  rw [show x = _ from this]
  exact ⟨rfl, rfl, rfl, rfl, rfl, rfl⟩

/-- **C81.** The same for adaptive solvers with float arrays, of which C80 speaks; `clk` is a rounding of step sizes and times and the
given first step size is representable. -/
theorem C81_tie_as {ι : Type} [Fintype ι] [DecidableEq ι] (m : ASSolver ι) {load : ℂ → CFl} {coefs : ℝ → Except PyErr m.Coef}
    {nl : (ι → CFl) → Except PyErr (ι → CFl)}
    (other : (ι → CFl) → Ext ℝ → Bool → PyM (Wrap (AMethod m.Coef (ι → CFl))) ((ι → CFl) × (ι → CFl))) {clk : ℝ → ℝ}
    (hc : ∀ x, rnd x = .fin (clk x)) (hi : ∀ x, clk (clk x) = clk x) (pyDiv : Bool) (cfg : SolverConfig ℝ) (fuel : ℕ) (u : ι → CFl)
    (t0 tf : ℝ) {hInit : Option ℝ} (hh : ∀ h ∈ hInit, clk h = h) (sd : Bool) (freq : ℤ) {s : m.FlSt}
    {s' : ASState (Ext ℝ) (ι → CFl) (Wrap (AMethod m.Coef (ι → CFl)))} (hs : s'.sub = s.sub) (ht : s'.trials = s.trials) :
    let x := (m.xCls rnd load coefs nl other).evolve rnd pyDiv cfg.toExt fuel u (.fin t0) (.fin tf) (hInit.map .fin) sd freq s'
    let y := m.flEvolve rnd load coefs nl clk pyDiv cfg fuel u t0 tf hInit sd freq s
    x.1 = y.1 ∧ x.2.t = y.2.t.map .fin ∧ x.2.u = y.2.u ∧ x.2.tf = .fin y.2.tf ∧ x.2.tc = .fin y.2.tc ∧ x.2.accept = y.2.accept ∧
      x.2.sub = y.2.sub ∧ x.2.trials = y.2.trials := by
  intro x y
  have := XASClass.evolve_fin (X := m.xCls rnd load coefs nl other) (C := m.flCls rnd load coefs nl) (cfg := cfg)
    ⟨rfl, fun _ _ => rfl, fun _ => rfl⟩ hc hi pyDiv fuel u t0 tf hInit hh sd freq s s' hs ht
  rw [show x = _ from this]
  exact ⟨rfl, rfl, rfl, rfl, rfl, rfl, rfl, rfl⟩

/-! ### Examples -/

/-- A subclass with constant step sizes that doubles its argument. -/
def doubling : CSClass (Ext ℝ) ℝ Unit := ⟨id, fun u _ => pure (2 * u)⟩

/-- A subclass with adaptive step sizes that doubles its argument and whose error factor is always the same. -/
def steady (x : Ext ℝ) : XASClass ℝ Unit := ⟨id, fun u _ _ => pure (2 * u, u), fun _ _ _ => x⟩

/-- Default settings, with some changed. -/
noncomputable def defaults : SolverConfig (Ext ℝ) :=
  ⟨.fin (1 / 10000), .fin (5 / 4), .fin (17 / 20), .fin (4 / 5), .fin (1 / 100), .fin (1 / 10 ^ 16)⟩

/-- `IF4(...).evolve(u, 0, nan, h)` returns `u` and stores one snapshot. -/
example (c : IFCoef (Vec (Fin 2))) (other) (u : Fin 2 → CFl) (s) :
    let C := ((CSSolver.if4 (.diag (ι := Fin 2) ![-1, -4])).flCls overflow CFl.ofComplex (fun _ => .ok c) .ok).withSizes other
    (C.xEvolve overflow true 1 u (.fin 0) .nan (.fin (1 / 10)) true 1 s).1 = .ok (some u) ∧
      (C.xEvolve overflow true 1 u (.fin 0) .nan (.fin (1 / 10)) true 1 s).2.u = [u] := by
  intro C
  rw [C81_cs_nan (rnd := overflow) C true 0 u true 1 s (t0 := .fin 0) (tf := .nan) (.inr rfl) (.fin (1 / 10))]
  exact ⟨rfl, rfl⟩

/-- `h = nan` on `[0, 1]`. -/
example (c : IFCoef (Vec (Fin 2))) (other) (u : Fin 2 → CFl) (s) :
    let C := ((CSSolver.if4 (.diag (ι := Fin 2) ![-1, -4])).flCls overflow CFl.ofComplex (fun _ => .ok c) .ok).withSizes other
    (C.xEvolve overflow true 3 u (.fin 0) (.fin 1) .nan true 1 s).1 = .error .assertionError := by
  intro C
  rw [C81_cs_size_nan (rnd := overflow) C true 2 u true 1 s (t0 := .fin 0) (tf := .fin 1) (by simp)]

/-- One step of infinite size. -/
example : (doubling.xEvolve overflow true 2 3 (.fin 0) .pinf .pinf true 1 ⟨[], [], .fin 0, .fin 0, ()⟩).1 = .ok (some 6) := by
  rw [(C81_cs_size_inf (rnd := overflow) doubling true 0 3 true 1 ⟨[], [], .fin 0, .fin 0, ()⟩ 0).2 (by simp)]
  simp [doubling, Except.map]
  norm_num

/-- A run to `inf`, after any number of iterations. -/
example (fuel : ℕ) : (doubling.xEvolve .fin true fuel 3 (.fin 0) .pinf (.fin 1) true 1 ⟨[], [], .fin 0, .fin 0, ()⟩).1 = .ok none :=
  (C81_cs_forever doubling true fuel 3 true 1 _ (fun x => ⟨x, rfl⟩) 0 1).2 (by norm_num) (fun w _ => ⟨2 * w, rfl⟩) (by simp)

/-- A run from `-inf`. -/
example (fuel : ℕ) : (doubling.xEvolve overflow true fuel 3 .ninf (.fin 5) (.fin 1) true 1 ⟨[], [], .fin 0, .fin 0, ()⟩).1 = .ok none :=
  (C81_cs_beginning doubling true fuel 3 true 1 _ ⟨by rintro ⟨⟩, by rintro ⟨⟩⟩ 1).2.2 (by norm_num) (fun w _ => ⟨2 * w, rfl⟩)
    (by simp) (by simp)

/-- `IF34(...).evolve(u, nan, 1)` returns `u`. -/
example (c : IFCoef (Vec (Fin 2))) (other) (u : Fin 2 → CFl) (s) :
    let C := (ASSolver.if34 (.diag (ι := Fin 2) ![-1, -4])).xCls overflow CFl.ofComplex (fun _ => .ok c) .ok other
    (C.evolve overflow true defaults 1 u .nan (.fin 1) none true 1 s).1 = .ok (some u) := by
  intro C
  rw [C81_as_nan (rnd := overflow) C defaults true 0 u true 1 s (t0 := .nan) (tf := .fin 1) (.inl rfl) none]

/-- `h_init = -inf`. -/
example (c : IFCoef (Vec (Fin 2))) (other) (u : Fin 2 → CFl) (s) :
    let C := (ASSolver.if34 (.diag (ι := Fin 2) ![-1, -4])).xCls overflow CFl.ofComplex (fun _ => .ok c) .ok other
    (C.evolve overflow true defaults 1 u (.fin 0) (.fin 1) (some .ninf) true 1 s).1 = .error .assertionError := by
  intro C
  rw [C81_as_size (rnd := overflow) C defaults true 0 u true 1 s (t0 := .fin 0) (tf := .fin 1) (by simp) (.inr rfl)]

/-- A run to `inf` with every trial rejected and with every trial accepted. -/
example (s) : ((steady .nan).evolve overflow true defaults 2 3 (.fin 0) .pinf none true 1 s).1 = .error .maxLoopsExceeded ∧
    ((steady (.fin 2)).evolve overflow true defaults 2 3 (.fin 0) .pinf none true 1 s).2.tc = .pinf := by
  constructor
  · rcases C81_as_infinite (rnd := overflow) (steady .nan) defaults true 1 3 true 1 s one_pos 0 (d := 17 / 20) rfl (by norm_num)
      (by simp) with ⟨h, -⟩ | ⟨e, a, m, -, h, -⟩ | ⟨v, err, a, m, -, -, -, x, h, -⟩
    · exact h
    · cases h
    · cases h
  · rcases C81_as_infinite (rnd := overflow) (steady (.fin 2)) defaults true 1 3 true 1 s one_pos 0 (d := 17 / 20) rfl (by norm_num)
      (by simp) with ⟨h, -⟩ | ⟨e, a, m, -, h, -⟩ | ⟨v, err, a, m, -, h, -⟩
    · rw [XASClass.evolve_apply] at h
      rw [show XASClass.clip overflow (.fin 0) .pinf ((none : Option (Ext ℝ)).getD (.div overflow (.sub overflow .pinf (.fin 0)) (.fin 100))) =
        .pinf by simp [XASClass.clip, Ext.sub, Ext.add, Ext.neg, Ext.div, Ext.lt]] at h
      rw [XASClass.loop_succ _ _ _ _ _ _ _ _ _ (by rfl)
        ((XASClass.step_good 3 (by rfl) _).trans (XASClass.stepLoop_accept 3 0 _ _ rfl rfl one_le_two)) (by rintro - ⟨⟩) (by simp),
        XASClass.loop_done _ _ _ _ _ _ _ _ (by
          obtain ⟨k1, k2⟩ := XASClass.store_keep true 1 (0 + 1) (2 * 3 : ℝ) _
          exact (congrArg₂ Ext.lt k1 k2).trans rfl)] at h
      cases h
    · cases h
    · exact h

/-- A run to `inf` with a finite first step size. -/
example (s) (fuel : ℕ) (v : ℝ) : ((steady (.fin 2)).evolve .fin true defaults fuel 3 (.fin 0) .pinf (some (.fin 1)) true 1 s).1 ≠ .ok (some v) :=
  C81_as_forever (steady (.fin 2)) defaults true fuel 3 true 1 s (fun x => ⟨x, rfl⟩) ⟨_, rfl⟩ 0 1 v

/-- The setters accept `nan`, and `inf` for `epsilon` and `incr_f`. -/
example : (SolverConfig.setEpsilon .pinf defaults).2.epsilon = .pinf ∧ (SolverConfig.setIncrF .nan defaults).2.incr_f = .nan ∧
    (SolverConfig.setDecrF .nan defaults).2.decr_f = .nan ∧ (SolverConfig.setSafetyF .ninf defaults).2.safety_f = .ninf ∧
    (SolverConfig.setAdaptCutoff .nan defaults).2.adapt_cutoff = .nan ∧ (SolverConfig.setMinh .nan defaults).2.minh = .nan := by
  simp [SolverConfig.setEpsilon, SolverConfig.setIncrF, SolverConfig.setDecrF, SolverConfig.setSafetyF, SolverConfig.setAdaptCutoff,
    SolverConfig.setMinh, Ext.le, Ext.lt]

/-- With `minh = nan` and every trial rejected. -/
example (s) : ((steady (.fin (1 / 2))).step .fin { defaults with minh := .nan } 3 (.fin 1) s).1 ≠ .error .minimumStepReached := by
  intro h
  obtain ⟨h', a, m, h1⟩ := C81_minh_nan (rnd := .fin) (steady (.fin (1 / 2))) { defaults with minh := .nan } 3 s rfl (.fin 1) h
  cases h1

/-- With `incr_f = nan` the size does not grow, though the factor is 2. -/
example (s) : ((steady (.fin 2)).step .fin { defaults with incr_f := .nan } 3 (.fin 1) s).1 = .ok (6, .fin 1, .fin 1) := by
  have h1 : ((steady (.fin 2)).step .fin { defaults with incr_f := .nan } 3 (.fin 1) s).1 =
      .ok (6, .fin 1, XASClass.increased .fin { defaults with incr_f := .nan } 2 (.fin 1)) := by
    rw [XASClass.step_good 3 (by simp),
      XASClass.stepLoop_accept 3 0 _ s (r := (6, 3)) (by simp [steady]; norm_num) (x := 2) rfl (by norm_num)]
  rw [h1, C81_incr_nan (rnd := .fin) (steady (.fin 2)) { defaults with incr_f := .nan } 3 s (.inl rfl) (.fin 1) h1]

/-- With `decr_f = nan`, a first trial with factor 1/2, and all further trials rejected. -/
example (s : ASState (Ext ℝ) ℝ Unit) : ((steady (.fin (1 / 2))).step .fin { defaults with decr_f := .nan } 3 (.fin 1) s).2.trials = s.trials + 51 :=
  (C81_decr_nan (rnd := .fin) (steady (.fin (1 / 2))) { defaults with decr_f := .nan } 3 s rfl (h := .fin 1) (by simp) (r := (2 * 3, 3))
    (x := 1 / 2) rfl rfl (by norm_num) fun a m => ⟨_, rfl, by rintro ⟨x, hx, h1⟩; obtain rfl := Ext.fin.inj hx; norm_num at h1⟩).2

/-- `epsilon = inf`. -/
example (c : IFCoef (Vec (Fin 2))) (other) (u : Fin 2 → CFl) (s) :
    let C := (ASSolver.if34 (.diag (ι := Fin 2) ![-1, -4])).xCls overflow CFl.ofComplex (fun _ => .ok c) .ok other
    ∃ e, (C.step overflow { defaults with epsilon := .pinf } u (.fin (1 / 10)) s).1 = .error e := by
  intro C
  obtain ⟨e, he, -⟩ := C81_setting_step (ASSolver.if34 (.diag (ι := Fin 2) ![-1, -4])) overflow_zero (load := CFl.ofComplex)
    (coefs := fun _ => .ok c) (nl := .ok) (other := other) (cfg := { defaults with epsilon := .pinf }) (.inl (by simp)) u
    (h := .fin (1 / 10)) (by simp) s
  exact ⟨e, he⟩

end Verif
