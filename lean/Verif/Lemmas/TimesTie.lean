import Verif.Lemmas.Times
import Verif.Lemmas.CS
import Verif.Lemmas.ASEvolve

/-!
# On finite arguments the two models of the base classes agree
-/

set_option linter.unusedSectionVars false

namespace Verif

variable {V Sub : Type} {rnd : ℝ → Ext ℝ}

/-- Settings that are finite. -/
def SolverConfig.toExt (c : SolverConfig ℝ) : SolverConfig (Ext ℝ) :=
  ⟨.fin c.epsilon, .fin c.incr_f, .fin c.decr_f, .fin c.safety_f, .fin c.adapt_cutoff, .fin c.minh⟩

/-- `X` is `C` on finite step sizes. -/
structure CSClass.Extends (X : CSClass (Ext ℝ) V Sub) (C : CSClass ℝ V Sub) : Prop where
  reset : X.reset = C.reset
  stages : ∀ u h, X.updateStages u (.fin h) = C.updateStages u h

/-- `X` is `C` on finite step sizes and settings. -/
structure XASClass.Extends (X : XASClass V Sub) (C : ASClass ℝ V Sub) : Prop where
  reset : X.reset = C.reset
  stages : ∀ u h, X.updateStages u (.fin h) = C.updateStages u h
  factor : ∀ cfg : SolverConfig ℝ, X.computeS cfg.toExt = C.computeS cfg

/-- An object with finite times. -/
def CSState.toExt (s : CSState ℝ V Sub) : CSState (Ext ℝ) V Sub := ⟨s.t.map .fin, s.u, .fin s.tf, .fin s.tc, s.sub⟩

/-- An object with finite times. -/
def ASState.toExt (s : ASState ℝ V Sub) : ASState (Ext ℝ) V Sub := ⟨s.t.map .fin, s.u, .fin s.tf, .fin s.tc, s.accept, s.sub, s.trials⟩

theorem PyM.map_bind {σ τ α β α' β' : Type} (T : σ → τ) {x : PyM σ α} {y : PyM τ α'} {f : α → PyM σ β} {g : α' → PyM τ β'} (a : α → α')
    (b : β → β') {s : σ} (hx : y (T s) = ((x s).1.map a, T (x s).2))
    (hf : ∀ r s', x s = (.ok r, s') → g (a r) (T s') = ((f r s').1.map b, T (f r s').2)) :
    (y >>= g) (T s) = (((x >>= f) s).1.map b, T ((x >>= f) s).2) := by
  cases hr : x s with
  | mk r s1 =>
    rw [hr] at hx
    cases r with
    | error e => rw [PyM.bind_error hr, PyM.bind_error hx]; rfl
    | ok r => rw [PyM.bind_ok hr, PyM.bind_ok hx]; exact hf r s1 hr

theorem xProgress_fin {σ : Type} (pyDiv : Bool) (c : ℕ) (tf : ℝ) : (xProgress pyDiv c (.fin tf) : PyM σ Unit) = progress pyDiv c tf := by
  unfold xProgress progress
  simp only [Ext.fin.injEq]

namespace CSClass

variable {X : CSClass (Ext ℝ) V Sub} {C : CSClass ℝ V Sub}

theorem xStep_fin (hX : X.Extends C) (u : V) (h : ℝ) (s : CSState ℝ V Sub) :
    X.xStep u (.fin h) s.toExt = ((C.step u h s).1, (C.step u h s).2.toExt) := by
  by_cases hh : 0 ≤ h
  · rw [step_apply u h hh, xStep_apply u (by simpa using hh), hX.stages]
    rfl
  · rw [step_neg u h hh, xStep_bad u (by simpa using hh)]

theorem xStore_fin (sd : Bool) (freq : ℤ) (c : ℕ) (u : V) (s : CSState ℝ V Sub) :
    xStore sd freq c u s.toExt = ((store sd freq c u s).1, (store sd freq c u s).2.toExt) := by
  unfold xStore store
  split_ifs <;> simp [CSState.toExt]

theorem xLoop_fin (hX : X.Extends C) {clk : ℝ → ℝ} (hc : ∀ x, rnd x = .fin (clk x)) (pyDiv : Bool) (h : ℝ) (sd : Bool) (freq : ℤ) (fuel : ℕ) :
    ∀ (u : V) (c : ℕ) (s : CSState ℝ V Sub), X.xLoop rnd pyDiv (.fin h) sd freq fuel u c s.toExt =
      ((C.loop clk pyDiv h sd freq fuel u c s).1, (C.loop clk pyDiv h sd freq fuel u c s).2.toExt) := by
  have hid : ∀ {α : Type} (x : Except PyErr α), x = x.map id := fun x => by cases x <;> rfl
  induction fuel with
  | zero => exact fun _ _ _ => rfl
  | succ n ih =>
    intro u c s
    by_cases hlt : s.tc < s.tf
    · rw [xLoop, loop]
      simp only [PyM.bind_get_apply]
      rw [if_pos (by simpa [CSState.toExt] using hlt), if_pos hlt]
      rw [hid (Prod.fst _)]
      refine PyM.map_bind CSState.toExt id id (by rw [xStep_fin hX]; exact Prod.ext (hid _) rfl) fun v s1 h1 => ?_
      refine PyM.map_bind CSState.toExt id id (x := PyM.modify fun s => { s with tc := clk (s.tc + h) }) ?_ fun v2 s2 h2 => ?_
      · simp [CSState.toExt, Ext.add, hc, Except.map]
      refine PyM.map_bind CSState.toExt id id ?_ fun v3 s3 h3 => ?_
      · rw [show s.toExt.tf = .fin s.tf from rfl, xProgress_fin]
        unfold progress
        split_ifs <;> rfl
      refine PyM.map_bind CSState.toExt id id (by rw [xStore_fin]; exact Prod.ext (hid _) rfl) fun v4 s4 h4 => ?_
      rw [ih]
      exact Prod.ext (hid _) rfl
    · rw [loop_done _ _ _ _ _ _ _ _ _ hlt, xLoop_done _ _ _ _ _ _ _ _ (by simpa [CSState.toExt] using hlt)]

/-- `evolve` with finite arguments, from objects with the same subclass state. -/
theorem xEvolve_fin (hX : X.Extends C) {clk : ℝ → ℝ} (hc : ∀ x, rnd x = .fin (clk x)) (pyDiv : Bool) (fuel : ℕ) (u : V) (t0 tf h : ℝ)
    (sd : Bool) (freq : ℤ) (s : CSState ℝ V Sub) (s' : CSState (Ext ℝ) V Sub) (hs : s'.sub = s.sub) :
    X.xEvolve rnd pyDiv fuel u (.fin t0) (.fin tf) (.fin h) sd freq s' =
      ((C.evolve clk pyDiv fuel u t0 tf h sd freq s).1, (C.evolve clk pyDiv fuel u t0 tf h sd freq s).2.toExt) := by
  have hst : X.xStart u (.fin t0) (.fin tf) sd s' = (⟨if sd then [t0] else [], if sd then [u] else [], tf, t0, C.reset s.sub⟩ :
      CSState ℝ V Sub).toExt := by
    cases sd <;> simp [xStart, CSState.toExt, hs, hX.reset]
  have hev : C.evolve clk pyDiv fuel u t0 tf h sd freq s =
      if tf < clk (t0 + h) then (.error .valueError, ⟨if sd then [t0] else [], if sd then [u] else [], tf, t0, C.reset s.sub⟩)
      else C.loop clk pyDiv h sd freq fuel u 0 ⟨if sd then [t0] else [], if sd then [u] else [], tf, t0, C.reset s.sub⟩ := by
    unfold evolve resetM
    cases sd <;> by_cases hc : tf < clk (t0 + h) <;> simp [hc, PyM.ite_apply]
  rw [xEvolve_apply, hev, hst]
  by_cases hlt : tf < clk (t0 + h)
  · rw [if_pos hlt, if_pos (by simpa [Ext.add, hc] using hlt)]
  · rw [if_neg hlt, if_neg (by simpa [Ext.add, hc] using hlt), xLoop_fin hX hc]

end CSClass

namespace XASClass

variable {X : XASClass V Sub} {C : ASClass ℝ V Sub} {cfg : SolverConfig ℝ} {clk : ℝ → ℝ}

/-- The result of `step` with finite sizes. -/
def finStep (r : V × ℝ × ℝ) : V × Ext ℝ × Ext ℝ := (r.1, .fin r.2.1, .fin r.2.2)

theorem reduced_fin (hc : ∀ x, rnd x = .fin (clk x)) (cfg : SolverConfig ℝ) (s : Ext ℝ) (h : ℝ) :
    reduced rnd cfg.toExt s (.fin h) = .fin (clk (shrink cfg.decr_f s * h)) := by
  cases s with
  | fin s =>
    simp only [reduced, SolverConfig.toExt, Ext.min, Ext.lt_fin_fin, decide_eq_true_eq, shrink]
    split_ifs with h1
    · rw [min_eq_right h1.le]; exact hc _
    · rw [min_eq_left (not_lt.mp h1)]; exact hc _
  | _ => exact hc _

theorem increased_fin (hc : ∀ x, rnd x = .fin (clk x)) (cfg : SolverConfig ℝ) (x h : ℝ) (hh : clk h = h) :
    increased rnd cfg.toExt x (.fin h) = .fin (clk (grow cfg.incr_f x h)) := by
  simp only [increased, SolverConfig.toExt, Ext.lt_fin_fin, decide_eq_true_eq, grow]
  split_ifs with h1
  · exact hc _
  · rw [hh]

theorem tried_fin (hX : X.Extends C) (u : V) (h : ℝ) (s : ASState ℝ V Sub) :
    X.tried u (.fin h) s.toExt = (C.afterTrial u h s).toExt := by
  simp [tried, ASClass.afterTrial, hX.stages, ASState.toExt]

theorem stepLoop_fin (hX : X.Extends C) (hc : ∀ x, rnd x = .fin (clk x)) (hi : ∀ x, clk (clk x) = clk x) (u : V) :
    ∀ (n k : ℕ) (h : ℝ) (s : ASState ℝ V Sub), k + n = MAX_LOOPS → clk h = h →
    X.stepLoop rnd cfg.toExt u k (.fin h) s.toExt =
      ((C.stepLoop clk cfg u k h s).1.map finStep, (C.stepLoop clk cfg u k h s).2.toExt) ∧
    ∀ r, (C.stepLoop clk cfg u k h s).1 = .ok r → clk r.2.2 = r.2.2 := by
  intro n
  induction n with
  | zero =>
    intro k h s hk hh
    cases hr : (C.updateStages u h s.accept s.sub).1 with
    | error e =>
      rw [ASClass.stepLoop_error clk cfg u k h s e hr, stepLoop_error u k _ _ (e := e) (by rw [hX.stages]; exact hr), tried_fin hX]
      exact ⟨rfl, by simp⟩
    | ok r =>
      have hr' : (X.updateStages u (.fin h) s.toExt.accept s.toExt.sub).1 = .ok r := by rw [hX.stages]; exact hr
      have hf : X.computeS cfg.toExt r.1 r.2 = C.factor cfg r := by rw [hX.factor]; rfl
      by_cases ha : Acceptable (C.factor cfg r)
      · obtain ⟨x, hx, h1⟩ := ha
        rw [ASClass.stepLoop_accept clk cfg u k h s r hr x hx h1, stepLoop_accept u k _ _ hr' (hf.trans hx) h1, tried_fin hX,
          increased_fin hc _ _ _ hh]
        exact ⟨rfl, by rintro r hr; obtain rfl := Except.ok.inj hr; exact hi _⟩
      · rw [ASClass.stepLoop_reject clk cfg u k h s r hr ha, stepLoop_reject u k _ _ hr' (by rwa [hf]), tried_fin hX,
          if_pos (by omega), if_pos (by omega)]
        exact ⟨rfl, by simp⟩
  | succ n ih =>
    intro k h s hk hh
    cases hr : (C.updateStages u h s.accept s.sub).1 with
    | error e =>
      rw [ASClass.stepLoop_error clk cfg u k h s e hr, stepLoop_error u k _ _ (e := e) (by rw [hX.stages]; exact hr), tried_fin hX]
      exact ⟨rfl, by simp⟩
    | ok r =>
      have hr' : (X.updateStages u (.fin h) s.toExt.accept s.toExt.sub).1 = .ok r := by rw [hX.stages]; exact hr
      have hf : X.computeS cfg.toExt r.1 r.2 = C.factor cfg r := by rw [hX.factor]; rfl
      by_cases ha : Acceptable (C.factor cfg r)
      · obtain ⟨x, hx, h1⟩ := ha
        rw [ASClass.stepLoop_accept clk cfg u k h s r hr x hx h1, stepLoop_accept u k _ _ hr' (hf.trans hx) h1, tried_fin hX,
          increased_fin hc _ _ _ hh]
        exact ⟨rfl, by rintro r hr; obtain rfl := Except.ok.inj hr; exact hi _⟩
      · rw [ASClass.stepLoop_reject clk cfg u k h s r hr ha, stepLoop_reject u k _ _ hr' (by rwa [hf]), tried_fin hX,
          if_neg (show ¬ k + 1 > MAX_LOOPS by omega), if_neg (show ¬ k + 1 > MAX_LOOPS by omega), hf, reduced_fin hc]
        by_cases hm : clk (shrink cfg.decr_f (C.factor cfg r) * h) < cfg.minh
        · rw [if_pos hm, if_pos (by simpa [SolverConfig.toExt] using hm)]
          exact ⟨rfl, by simp⟩
        · rw [if_neg hm, if_neg (by simpa [SolverConfig.toExt] using hm)]
          exact ih (k + 1) _ { C.afterTrial u h s with accept := false } (by omega) (hi _)

theorem step_fin (hX : X.Extends C) (hc : ∀ x, rnd x = .fin (clk x)) (hi : ∀ x, clk (clk x) = clk x) (u : V) (h : ℝ) (hh : clk h = h)
    (s : ASState ℝ V Sub) :
    X.step rnd cfg.toExt u (.fin h) s.toExt = ((C.step clk cfg u h s).1.map finStep, (C.step clk cfg u h s).2.toExt) ∧
    ∀ r, (C.step clk cfg u h s).1 = .ok r → clk r.2.2 = r.2.2 := by
  by_cases h0 : 0 ≤ h
  · have : C.step clk cfg u h s = C.stepLoop clk cfg u 0 h s := by simp [ASClass.step, h0]
    rw [this, step_good u (by simpa using h0)]
    exact stepLoop_fin hX hc hi u MAX_LOOPS 0 h s (by omega) hh
  · have : C.step clk cfg u h s = (.error .assertionError, s) := by simp [ASClass.step, h0]
    rw [this, step_bad u (by simpa using h0)]
    exact ⟨rfl, by simp⟩

theorem store_fin (sd : Bool) (freq : ℤ) (c : ℕ) (u : V) (s : ASState ℝ V Sub) :
    store sd freq c u s.toExt = ((ASClass.store sd freq c u s).1, (ASClass.store sd freq c u s).2.toExt) := by
  unfold store ASClass.store
  split_ifs <;> simp [ASState.toExt]

theorem clip_fin (hc : ∀ x, rnd x = .fin (clk x)) (tc tf h : ℝ) :
    clip rnd (.fin tc) (.fin tf) (.fin h) = .fin (ASClass.clip clk tc tf h) := by
  simp only [clip, ASClass.clip, Ext.add, Ext.sub, Ext.neg, hc, Ext.lt_fin_fin, decide_eq_true_eq, sub_eq_add_neg]
  split_ifs <;> rfl

theorem loop_fin (hX : X.Extends C) (hc : ∀ x, rnd x = .fin (clk x)) (hi : ∀ x, clk (clk x) = clk x) (pyDiv : Bool) (sd : Bool)
    (freq : ℤ) (fuel : ℕ) :
    ∀ (u : V) (h : ℝ) (c : ℕ) (s : ASState ℝ V Sub), clk h = h → X.loop rnd pyDiv cfg.toExt sd freq fuel u (.fin h) c s.toExt =
      ((C.loop clk pyDiv cfg sd freq fuel u h c s).1, (C.loop clk pyDiv cfg sd freq fuel u h c s).2.toExt) := by
  have hid : ∀ {α : Type} (x : Except PyErr α), x = x.map id := fun x => by cases x <;> rfl
  induction fuel with
  | zero => exact fun _ _ _ _ _ => rfl
  | succ n ih =>
    intro u h c s hh
    rw [loop, ASClass.loop]
    simp only [PyM.bind_get_apply]
    by_cases hlt : s.tc < s.tf
    · rw [if_pos (by simpa [ASState.toExt] using hlt), if_pos hlt]
      rw [hid (Prod.fst _)]
      have hst := step_fin (cfg := cfg) hX hc hi u h hh s
      refine PyM.map_bind ASState.toExt finStep id hst.1 fun v s1 h1 => ?_
      refine PyM.map_bind ASState.toExt id id (x := PyM.modify fun s => { s with tc := clk (s.tc + v.2.1) }) ?_ fun v2 s2 h2 => ?_
      · simp [ASState.toExt, Ext.add, hc, Except.map, finStep]
      refine PyM.map_bind ASState.toExt id id ?_ fun v3 s3 h3 => ?_
      · rw [show s.toExt.tf = .fin s.tf from rfl, xProgress_fin]
        unfold progress
        split_ifs <;> rfl
      simp only [PyM.bind_get_apply]
      refine PyM.map_bind ASState.toExt id id (by rw [show (finStep v).1 = v.1 from rfl, store_fin]; exact Prod.ext (hid _) rfl)
        fun v4 s4 h4 => ?_
      rw [show s3.toExt.tc = .fin s3.tc from rfl, show s3.toExt.tf = .fin s3.tf from rfl, show (finStep v).2.2 = .fin v.2.2 from rfl,
        clip_fin hc, show (finStep v).1 = v.1 from rfl, ih]
      · exact Prod.ext (hid _) rfl
      · unfold ASClass.clip
        split_ifs
        · exact hi _
        · exact hst.2 v (by rw [h1])
    · rw [if_neg (by simpa [ASState.toExt] using hlt), if_neg hlt]
      rfl

/-- `evolve` with finite arguments, from objects with the same subclass state and the same number of trials so far. -/
theorem evolve_fin (hX : X.Extends C) (hc : ∀ x, rnd x = .fin (clk x)) (hi : ∀ x, clk (clk x) = clk x) (pyDiv : Bool) (fuel : ℕ) (u : V)
    (t0 tf : ℝ) (hInit : Option ℝ) (hh : ∀ h ∈ hInit, clk h = h) (sd : Bool) (freq : ℤ) (s : ASState ℝ V Sub)
    (s' : ASState (Ext ℝ) V Sub) (hs : s'.sub = s.sub) (ht : s'.trials = s.trials) :
    X.evolve rnd pyDiv cfg.toExt fuel u (.fin t0) (.fin tf) (hInit.map .fin) sd freq s' =
      ((C.evolve clk pyDiv cfg fuel u t0 tf hInit sd freq s).1, (C.evolve clk pyDiv cfg fuel u t0 tf hInit sd freq s).2.toExt) := by
  have hst : X.start u (.fin t0) (.fin tf) sd s' = (C.start u t0 tf sd s).toExt := by
    cases sd <;> simp [start, ASClass.start, ASState.toExt, hs, hX.reset, ht]
  have h1 : (hInit.map Ext.fin).getD (.div rnd (.sub rnd (.fin tf) (.fin t0)) (.fin 100)) =
      .fin (hInit.getD (clk (clk (tf - t0) / 100))) := by
    cases hInit with
    | none => simp [Ext.sub, Ext.add, Ext.neg, hc, Ext.div, sub_eq_add_neg]
    | some h => rfl
  rw [evolve_apply, ASClass.evolve_apply, hst, h1, clip_fin hc]
  refine loop_fin hX hc hi pyDiv sd freq fuel u _ 0 _ ?_
  show clk (limitTo clk t0 tf _) = limitTo clk t0 tf _
  unfold limitTo
  split_ifs
  · exact hi _
  · cases hInit with
    | none => exact hi _
    | some h => exact hh h rfl

end XASClass

end Verif
