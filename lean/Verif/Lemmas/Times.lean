import Verif.Model.Times
import Verif.Lemmas.NonFiniteRun

/-!
# Lemmas on times, step sizes and settings that may be infinite or `nan`
-/

set_option linter.unusedSectionVars false

namespace Verif

variable {V Sub : Type} {rnd : ℝ → Ext ℝ}

namespace Ext

theorem lt_nan_right (x : Ext ℝ) : lt x nan = false := by cases x <;> rfl

theorem add_nan_left (y : Ext ℝ) : add rnd nan y = nan := by cases y <;> rfl

theorem add_nan_right (x : Ext ℝ) : add rnd x nan = nan := by cases x <;> rfl

theorem mul_nan_left (y : Ext ℝ) : mul rnd nan y = nan := by cases y <;> rfl

theorem mul_nan_right (x : Ext ℝ) : mul rnd x nan = nan := by cases x <;> rfl

theorem lt_iff_fin {x : Ext ℝ} {a : ℝ} : lt x (fin a) = true ↔ x = ninf ∨ ∃ b, x = fin b ∧ b < a := by
  cases x <;> simp [lt]

theorem not_reject_iff {x : Ext ℝ} : ¬ (x.isInf = true ∨ x.isNan = true ∨ lt x (fin 1) = true) ↔ Acceptable x := by
  unfold Acceptable
  cases x <;> simp [isInf, isNan, lt]

end Ext

/-- What holds after a computation, whether it returns or raises. -/
def PyM.Out {σ α : Type} (P : σ → Prop) (x : PyM σ α) (Q : α → σ → Prop) (E : PyErr → σ → Prop) : Prop :=
  ∀ s, P s → (∀ a s', x s = (.ok a, s') → Q a s') ∧ ∀ e s', x s = (.error e, s') → E e s'

theorem PyM.Out.bind {σ α β : Type} {P : σ → Prop} {x : PyM σ α} {Q : α → σ → Prop} {E : PyErr → σ → Prop} {f : α → PyM σ β}
    {R : β → σ → Prop} (hx : PyM.Out P x Q E) (hf : ∀ a, PyM.Out (Q a) (f a) R E) : PyM.Out P (x >>= f) R E := by
  intro s hs
  obtain ⟨h1, h2⟩ := hx s hs
  cases hr : x s with
  | mk r s1 =>
    cases r with
    | error e =>
      rw [PyM.bind_error hr]
      refine ⟨fun a s' h => by simp at h, fun e' s' h => ?_⟩
      simp only [Prod.mk.injEq, Except.error.injEq] at h
      rw [← h.1, ← h.2]
      exact h2 e s1 hr
    | ok a =>
      rw [PyM.bind_ok hr]
      exact hf a s1 (h1 a s1 hr)

theorem PyM.Out.mono {σ α : Type} {P P' : σ → Prop} {x : PyM σ α} {Q Q' : α → σ → Prop} {E E' : PyErr → σ → Prop}
    (hx : PyM.Out P x Q E) (hP : ∀ s, P' s → P s) (hQ : ∀ a s, Q a s → Q' a s) (hE : ∀ e s, E e s → E' e s) : PyM.Out P' x Q' E' :=
  fun s hs => ⟨fun a s' h => hQ a s' ((hx s (hP s hs)).1 a s' h), fun e s' h => hE e s' ((hx s (hP s hs)).2 e s' h)⟩

theorem xProgress_cases {σ : Type} (pyDiv : Bool) (count : ℕ) (tf : Ext ℝ) (s : σ) :
    xProgress pyDiv count tf s = (.ok (), s) ∨ (xProgress pyDiv count tf s = (.error .zeroDivisionError, s) ∧ pyDiv = true ∧ tf = .fin 0) := by
  unfold xProgress
  split_ifs with h1 h2
  · exact .inr ⟨rfl, h2⟩
  · exact .inl rfl
  · exact .inl rfl

theorem xProgress_ok {σ : Type} {pyDiv : Bool} {tf : Ext ℝ} (h : pyDiv = true → tf ≠ .fin 0) (count : ℕ) (s : σ) :
    xProgress pyDiv count tf s = (.ok (), s) := by
  rcases xProgress_cases pyDiv count tf s with h1 | ⟨-, h1, h2⟩
  · exact h1
  · exact absurd h2 (h h1)

namespace CSClass

variable {C : CSClass (Ext ℝ) V Sub}

theorem xStore_cases (sd : Bool) (freq : ℤ) (count : ℕ) (u : V) (s : CSState (Ext ℝ) V Sub) :
    xStore sd freq count u s = (.ok (), s) ∨ xStore sd freq count u s = (.ok (), { s with t := s.t ++ [s.tc], u := s.u ++ [u] }) ∨
      (xStore sd freq count u s = (.error .zeroDivisionError, s) ∧ sd = true ∧ freq = 0) := by
  unfold xStore
  split_ifs with h1 h2 h3
  · exact .inr (.inr ⟨rfl, h1, h2⟩)
  · exact .inr (.inl rfl)
  · exact .inl rfl
  · exact .inl rfl

theorem xStore_keep (sd : Bool) (freq : ℤ) (count : ℕ) (u : V) (s : CSState (Ext ℝ) V Sub) :
    (xStore sd freq count u s).2.tc = s.tc ∧ (xStore sd freq count u s).2.tf = s.tf := by
  rcases xStore_cases sd freq count u s with h | h | ⟨h, -⟩ <;> rw [h] <;> exact ⟨rfl, rfl⟩

theorem xStep_apply (u : V) {h : Ext ℝ} (hh : Ext.le (.fin 0) h = true) (s : CSState (Ext ℝ) V Sub) :
    C.xStep u h s = ((C.updateStages u h s.sub).1, { s with sub := (C.updateStages u h s.sub).2 }) := by
  simp [xStep, hh]

theorem xStep_bad (u : V) {h : Ext ℝ} (hh : ¬ Ext.le (.fin 0) h = true) (s : CSState (Ext ℝ) V Sub) :
    C.xStep u h s = (.error .assertionError, s) := by
  simp [xStep, hh]

/-- The object after `evolve` has set it up. -/
def xStart (C : CSClass (Ext ℝ) V Sub) (u : V) (t0 tf : Ext ℝ) (sd : Bool) (s : CSState (Ext ℝ) V Sub) : CSState (Ext ℝ) V Sub :=
  ⟨if sd then [t0] else [], if sd then [u] else [], tf, t0, C.reset s.sub⟩

theorem xEvolve_apply (pyDiv : Bool) (fuel : ℕ) (u : V) (t0 tf h : Ext ℝ) (sd : Bool) (freq : ℤ) (s : CSState (Ext ℝ) V Sub) :
    C.xEvolve rnd pyDiv fuel u t0 tf h sd freq s =
      if Ext.lt tf (.add rnd t0 h) = true then (.error .valueError, C.xStart u t0 tf sd s)
      else C.xLoop rnd pyDiv h sd freq fuel u 0 (C.xStart u t0 tf sd s) := by
  unfold xEvolve xReset
  cases sd <;> by_cases hc : Ext.lt tf (.add rnd t0 h) = true <;> simp [hc, xStart, PyM.ite_apply]

theorem xLoop_done (pyDiv : Bool) (h : Ext ℝ) (sd : Bool) (freq : ℤ) (fuel : ℕ) (u : V) (c : ℕ) (s : CSState (Ext ℝ) V Sub)
    (hge : Ext.lt s.tc s.tf = false) : C.xLoop rnd pyDiv h sd freq (fuel + 1) u c s = (.ok (some u), s) := by
  rw [xLoop]
  simp [hge]

theorem xLoop_error (pyDiv : Bool) (h : Ext ℝ) (sd : Bool) (freq : ℤ) (fuel : ℕ) (u : V) (c : ℕ) (s : CSState (Ext ℝ) V Sub)
    (hlt : Ext.lt s.tc s.tf = true) {e : PyErr} {s' : CSState (Ext ℝ) V Sub} (hr : C.xStep u h s = (.error e, s')) :
    C.xLoop rnd pyDiv h sd freq (fuel + 1) u c s = (.error e, s') := by
  rw [xLoop]
  simp only [PyM.bind_get_apply, hlt, if_true]
  rw [PyM.bind_error hr]

theorem xLoop_succ (pyDiv : Bool) (h : Ext ℝ) (sd : Bool) (freq : ℤ) (fuel : ℕ) (u v : V) (c : ℕ) (s s' : CSState (Ext ℝ) V Sub)
    (hlt : Ext.lt s.tc s.tf = true) (hr : C.xStep u h s = (.ok v, s')) (hp : pyDiv = true → s.tf ≠ .fin 0) (hf : sd = true → freq ≠ 0) :
    C.xLoop rnd pyDiv h sd freq (fuel + 1) u c s = C.xLoop rnd pyDiv h sd freq fuel v (c + 1)
      (xStore sd freq (c + 1) v { s' with tc := .add rnd s'.tc h }).2 := by
  rw [xLoop]
  simp only [PyM.bind_get_apply, hlt, if_true]
  rw [PyM.bind_ok hr]
  simp only [PyM.bind_modify_apply]
  rw [PyM.bind_ok (xProgress_ok hp _ _)]
  rcases xStore_cases sd freq (c + 1) v { s' with tc := .add rnd s'.tc h } with h1 | h1 | ⟨h1, h2, h3⟩
  · rw [PyM.bind_ok h1, h1]
  · rw [PyM.bind_ok h1, h1]
  · exact absurd h3 (hf h2)

/-- Times that stay before `tf`: the loop does not end by itself. -/
theorem xLoop_never (pyDiv : Bool) {h tf : Ext ℝ} (sd : Bool) (freq : ℤ) {P : Ext ℝ → Prop} (hP : ∀ t, P t → Ext.lt t tf = true)
    (hadd : ∀ t, P t → P (.add rnd t h)) (fuel : ℕ) : ∀ (u : V) (c : ℕ) (s : CSState (Ext ℝ) V Sub), s.tf = tf → P s.tc →
      (∀ t ∈ s.t, P t) →
      (∀ v, (C.xLoop rnd pyDiv h sd freq fuel u c s).1 ≠ .ok (some v)) ∧ (∀ t ∈ (C.xLoop rnd pyDiv h sd freq fuel u c s).2.t, P t) ∧
      (Ext.le (.fin 0) h = true → (∀ u s, ∃ v, (C.updateStages u h s).1 = .ok v) → (pyDiv = true → tf ≠ .fin 0) →
        (sd = true → freq ≠ 0) → (C.xLoop rnd pyDiv h sd freq fuel u c s).1 = .ok none) := by
  induction fuel with
  | zero => exact fun u c s _ _ ht => ⟨fun v hv => by simp [xLoop] at hv, ht, fun _ _ _ _ => rfl⟩
  | succ n ih =>
    intro u c s hs htc ht
    have hlt : Ext.lt s.tc s.tf = true := hs ▸ hP _ htc
    by_cases hh : Ext.le (.fin 0) h = true
    · have hst := xStep_apply (C := C) u hh s
      cases hr : (C.updateStages u h s.sub).1 with
      | error e =>
        rw [hr] at hst
        rw [xLoop_error pyDiv h sd freq n u c s hlt hst]
        refine ⟨fun v hv => by simp at hv, ht, fun _ h2 _ _ => ?_⟩
        obtain ⟨v, hv⟩ := h2 u s.sub
        rw [hv] at hr
        cases hr
      | ok v =>
        rw [hr] at hst
        rw [xLoop]
        simp only [PyM.bind_get_apply, hlt, if_true]
        rw [PyM.bind_ok hst]
        simp only [PyM.bind_modify_apply]
        rcases xProgress_cases pyDiv (c + 1) s.tf { s with tc := .add rnd s.tc h, sub := (C.updateStages u h s.sub).2 } with h1 | ⟨h1, h2, h3⟩
        · rw [PyM.bind_ok h1]
          rcases xStore_cases sd freq (c + 1) v { s with tc := .add rnd s.tc h, sub := (C.updateStages u h s.sub).2 } with
            h4 | h4 | ⟨h4, h5, h6⟩
          · rw [PyM.bind_ok h4]
            exact ih v (c + 1) _ hs (hadd _ htc) ht
          · rw [PyM.bind_ok h4]
            refine ih v (c + 1) _ hs (hadd _ htc) fun t h => ?_
            rcases List.mem_append.mp h with h | h
            · exact ht t h
            · rw [List.mem_singleton.mp h]
              exact hadd _ htc
          · rw [PyM.bind_error h4]
            exact ⟨fun v hv => by simp at hv, ht, fun _ _ _ h => absurd h6 (h h5)⟩
        · rw [PyM.bind_error h1]
          exact ⟨fun v hv => by simp at hv, ht, fun _ _ h _ => absurd (hs ▸ h3) (h h2)⟩
    · rw [xLoop_error pyDiv h sd freq n u c s hlt (xStep_bad u hh s)]
      exact ⟨fun v hv => by simp at hv, ht, fun h1 => absurd h1 hh⟩

end CSClass

namespace XASClass

variable {C : XASClass V Sub} {cfg : SolverConfig (Ext ℝ)}

/-- The object after a trial. -/
def tried (C : XASClass V Sub) (u : V) (h : Ext ℝ) (s : ASState (Ext ℝ) V Sub) : ASState (Ext ℝ) V Sub :=
  { s with trials := s.trials + 1, sub := (C.updateStages u h s.accept s.sub).2 }

theorem trial_apply (u : V) (h : Ext ℝ) (s : ASState (Ext ℝ) V Sub) :
    C.trial u h s = ((C.updateStages u h s.accept s.sub).1, C.tried u h s) := rfl

theorem stepLoop_error (u : V) (k : ℕ) (h : Ext ℝ) (s : ASState (Ext ℝ) V Sub) {e : PyErr}
    (hr : (C.updateStages u h s.accept s.sub).1 = .error e) : C.stepLoop rnd cfg u k h s = (.error e, C.tried u h s) := by
  rw [stepLoop, PyM.bind_error (show C.trial u h s = (.error e, C.tried u h s) by rw [trial_apply, hr])]

theorem stepLoop_reject (u : V) (k : ℕ) (h : Ext ℝ) (s : ASState (Ext ℝ) V Sub) {r : V × V}
    (hr : (C.updateStages u h s.accept s.sub).1 = .ok r) (ha : ¬ Acceptable (C.computeS cfg r.1 r.2)) :
    C.stepLoop rnd cfg u k h s =
      if k + 1 > MAX_LOOPS then (.error .maxLoopsExceeded, { C.tried u h s with accept := false })
      else if Ext.lt (reduced rnd cfg (C.computeS cfg r.1 r.2) h) cfg.minh = true then
        (.error .minimumStepReached, { C.tried u h s with accept := false })
      else C.stepLoop rnd cfg u (k + 1) (reduced rnd cfg (C.computeS cfg r.1 r.2) h) { C.tried u h s with accept := false } := by
  rw [stepLoop, PyM.bind_ok (show C.trial u h s = (.ok r, C.tried u h s) by rw [trial_apply, hr])]
  have h1 := not_not.mp (mt Ext.not_reject_iff.mp ha)
  simp only [h1, if_true, PyM.bind_modify_apply]
  split_ifs <;> rfl

theorem stepLoop_accept (u : V) (k : ℕ) (h : Ext ℝ) (s : ASState (Ext ℝ) V Sub) {r : V × V}
    (hr : (C.updateStages u h s.accept s.sub).1 = .ok r) {x : ℝ} (hx : C.computeS cfg r.1 r.2 = .fin x) (h1 : 1 ≤ x) :
    C.stepLoop rnd cfg u k h s = (.ok (r.1, h, increased rnd cfg x h), { C.tried u h s with accept := true }) := by
  rw [stepLoop, PyM.bind_ok (show C.trial u h s = (.ok r, C.tried u h s) by rw [trial_apply, hr])]
  have := Ext.not_reject_iff.mpr (show Acceptable (C.computeS cfg r.1 r.2) from ⟨x, hx, h1⟩)
  simp only [this, if_false, PyM.bind_modify_apply]
  rw [hx]
  rfl

theorem step_bad (u : V) {h : Ext ℝ} (hh : ¬ Ext.le (.fin 0) h = true) (s : ASState (Ext ℝ) V Sub) :
    C.step rnd cfg u h s = (.error .assertionError, s) := by
  simp [step, hh]

theorem step_good (u : V) {h : Ext ℝ} (hh : Ext.le (.fin 0) h = true) (s : ASState (Ext ℝ) V Sub) :
    C.step rnd cfg u h s = C.stepLoop rnd cfg u 0 h s := by
  simp [step, hh]

theorem store_cases (sd : Bool) (freq : ℤ) (count : ℕ) (u : V) (s : ASState (Ext ℝ) V Sub) :
    store sd freq count u s = (.ok (), s) ∨ store sd freq count u s = (.ok (), { s with t := s.t ++ [s.tc], u := s.u ++ [u] }) ∨
      (store sd freq count u s = (.error .zeroDivisionError, s) ∧ sd = true ∧ freq = 0) := by
  unfold store
  split_ifs with h1 h2 h3
  · exact .inr (.inr ⟨rfl, h1, h2⟩)
  · exact .inr (.inl rfl)
  · exact .inl rfl
  · exact .inl rfl

/-- The object after `evolve` has set it up. -/
def start (C : XASClass V Sub) (u : V) (t0 tf : Ext ℝ) (sd : Bool) (s : ASState (Ext ℝ) V Sub) : ASState (Ext ℝ) V Sub :=
  ⟨if sd then [t0] else [], if sd then [u] else [], tf, t0, false, C.reset s.sub, s.trials⟩

theorem evolve_apply (pyDiv : Bool) (fuel : ℕ) (u : V) (t0 tf : Ext ℝ) (hInit : Option (Ext ℝ)) (sd : Bool) (freq : ℤ)
    (s : ASState (Ext ℝ) V Sub) :
    C.evolve rnd pyDiv cfg fuel u t0 tf hInit sd freq s = C.loop rnd pyDiv cfg sd freq fuel u
      (clip rnd t0 tf (hInit.getD (.div rnd (.sub rnd tf t0) (.fin 100)))) 0 (C.start u t0 tf sd s) := by
  unfold evolve resetM
  cases sd <;> cases hInit <;> simp [start]

theorem loop_done (pyDiv : Bool) (h : Ext ℝ) (sd : Bool) (freq : ℤ) (fuel : ℕ) (u : V) (c : ℕ) (s : ASState (Ext ℝ) V Sub)
    (hge : Ext.lt s.tc s.tf = false) : C.loop rnd pyDiv cfg sd freq (fuel + 1) u h c s = (.ok (some u), s) := by
  rw [loop]
  simp [hge]

theorem loop_error (pyDiv : Bool) (h : Ext ℝ) (sd : Bool) (freq : ℤ) (fuel : ℕ) (u : V) (c : ℕ) (s : ASState (Ext ℝ) V Sub)
    (hlt : Ext.lt s.tc s.tf = true) {e : PyErr} {s' : ASState (Ext ℝ) V Sub} (hr : C.step rnd cfg u h s = (.error e, s')) :
    C.loop rnd pyDiv cfg sd freq (fuel + 1) u h c s = (.error e, s') := by
  rw [loop]
  simp only [PyM.bind_get_apply, hlt, if_true]
  rw [PyM.bind_error hr]

theorem store_keep (sd : Bool) (freq : ℤ) (count : ℕ) (u : V) (s : ASState (Ext ℝ) V Sub) :
    (store sd freq count u s).2.tc = s.tc ∧ (store sd freq count u s).2.tf = s.tf := by
  rcases store_cases sd freq count u s with h | h | ⟨h, -⟩ <;> rw [h] <;> exact ⟨rfl, rfl⟩

theorem loop_succ (pyDiv : Bool) (h : Ext ℝ) (sd : Bool) (freq : ℤ) (fuel : ℕ) (u : V) (c : ℕ) (s s' : ASState (Ext ℝ) V Sub)
    {r : V × Ext ℝ × Ext ℝ} (hlt : Ext.lt s.tc s.tf = true) (hr : C.step rnd cfg u h s = (.ok r, s'))
    (hp : pyDiv = true → s.tf ≠ .fin 0) (hf : sd = true → freq ≠ 0) :
    C.loop rnd pyDiv cfg sd freq (fuel + 1) u h c s = C.loop rnd pyDiv cfg sd freq fuel r.1
      (clip rnd (.add rnd s'.tc r.2.1) s'.tf r.2.2) (c + 1) (store sd freq (c + 1) r.1 { s' with tc := .add rnd s'.tc r.2.1 }).2 := by
  rw [loop]
  simp only [PyM.bind_get_apply, hlt, if_true]
  rw [PyM.bind_ok hr]
  simp only [PyM.bind_modify_apply]
  rw [PyM.bind_ok (xProgress_ok hp _ _)]
  simp only [PyM.bind_get_apply]
  rcases store_cases sd freq (c + 1) r.1 { s' with tc := .add rnd s'.tc r.2.1 } with h1 | h1 | ⟨h1, h2, h3⟩
  · rw [PyM.bind_ok h1, h1]
  · rw [PyM.bind_ok h1, h1]
  · exact absurd h3 (hf h2)

/-- The outcome of the loop of `step`, for a property of sizes that reductions keep. -/
theorem stepLoop_outcome (u : V) {P : Ext ℝ → Prop} (hP : ∀ F h, ¬ Acceptable F → P h → P (reduced rnd cfg F h)) :
    ∀ (n k : ℕ) (h : Ext ℝ) (s : ASState (Ext ℝ) V Sub), k + n = MAX_LOOPS → P h →
      ((∃ e, (C.stepLoop rnd cfg u k h s).1 = .error e ∧
          ((e = .maxLoopsExceeded ∧ (C.stepLoop rnd cfg u k h s).2.trials = s.trials + n + 1) ∨
            (e = .minimumStepReached ∧ ∃ h', P h' ∧ Ext.lt h' cfg.minh = true) ∨
            ∃ h' a m, P h' ∧ (C.updateStages u h' a m).1 = .error e)) ∨
        ∃ v err hu x a m, (C.stepLoop rnd cfg u k h s).1 = .ok (v, hu, increased rnd cfg x hu) ∧ P hu ∧
          (C.updateStages u hu a m).1 = .ok (v, err) ∧ C.computeS cfg v err = .fin x ∧ 1 ≤ x) ∧
      (C.stepLoop rnd cfg u k h s).2.t = s.t ∧ (C.stepLoop rnd cfg u k h s).2.u = s.u ∧
      (C.stepLoop rnd cfg u k h s).2.tf = s.tf ∧ (C.stepLoop rnd cfg u k h s).2.tc = s.tc := by
  intro n
  induction n with
  | zero =>
    intro k h s hk hh
    cases hr : (C.updateStages u h s.accept s.sub).1 with
    | error e =>
      rw [stepLoop_error u k h s hr]
      exact ⟨.inl ⟨e, rfl, .inr (.inr ⟨h, _, _, hh, hr⟩)⟩, rfl, rfl, rfl, rfl⟩
    | ok r =>
      by_cases ha : Acceptable (C.computeS cfg r.1 r.2)
      · obtain ⟨x, hx, h1⟩ := ha
        rw [stepLoop_accept u k h s hr hx h1]
        exact ⟨.inr ⟨r.1, r.2, h, x, _, _, rfl, hh, hr, hx, h1⟩, rfl, rfl, rfl, rfl⟩
      · rw [stepLoop_reject u k h s hr ha, if_pos (by omega)]
        exact ⟨.inl ⟨_, rfl, .inl ⟨rfl, rfl⟩⟩, rfl, rfl, rfl, rfl⟩
  | succ n ih =>
    intro k h s hk hh
    cases hr : (C.updateStages u h s.accept s.sub).1 with
    | error e =>
      rw [stepLoop_error u k h s hr]
      exact ⟨.inl ⟨e, rfl, .inr (.inr ⟨h, _, _, hh, hr⟩)⟩, rfl, rfl, rfl, rfl⟩
    | ok r =>
      by_cases ha : Acceptable (C.computeS cfg r.1 r.2)
      · obtain ⟨x, hx, h1⟩ := ha
        rw [stepLoop_accept u k h s hr hx h1]
        exact ⟨.inr ⟨r.1, r.2, h, x, _, _, rfl, hh, hr, hx, h1⟩, rfl, rfl, rfl, rfl⟩
      · rw [stepLoop_reject u k h s hr ha, if_neg (by omega)]
        have hh' := hP _ h ha hh
        split_ifs with hm
        · exact ⟨.inl ⟨_, rfl, .inr (.inl ⟨rfl, _, hh', hm⟩)⟩, rfl, rfl, rfl, rfl⟩
        · have := ih (k + 1) _ { C.tried u h s with accept := false } (by omega) hh'
          simpa [tried, add_assoc, add_comm, add_left_comm] using this

/-- Times that stay before `tf` in an adaptive run. -/
theorem loop_never (pyDiv : Bool) {tf : Ext ℝ} (sd : Bool) (freq : ℤ) {P Q : Ext ℝ → Prop} (hQ : ∀ t, Q t → Ext.lt t tf = true)
    (hadd : ∀ t h, Q t → P h → Q (.add rnd t h)) (hP : ∀ F h, ¬ Acceptable F → P h → P (reduced rnd cfg F h))
    (hup : ∀ x h, P h → P (increased rnd cfg x h)) (hclip : ∀ t h, Q t → P h → P (clip rnd t tf h)) (fuel : ℕ) :
    ∀ (u : V) (h : Ext ℝ) (c : ℕ) (s : ASState (Ext ℝ) V Sub), s.tf = tf → Q s.tc → P h →
      ∀ v, (C.loop rnd pyDiv cfg sd freq fuel u h c s).1 ≠ .ok (some v) := by
  induction fuel with
  | zero => exact fun u h c s _ _ _ v hv => by simp [loop] at hv
  | succ n ih =>
    intro u h c s hs htc hh v hv
    have hlt : Ext.lt s.tc s.tf = true := hs ▸ hQ _ htc
    by_cases h0 : Ext.le (.fin 0) h = true
    · have hst := step_good (C := C) (rnd := rnd) (cfg := cfg) u h0 s
      obtain ⟨ho, -, -, etf, etc⟩ := stepLoop_outcome (C := C) (rnd := rnd) (cfg := cfg) u hP MAX_LOOPS 0 h s (Nat.zero_add _) hh
      rcases ho with ⟨e, he, -⟩ | ⟨w, err, hu, x, -, -, hok, hhu, -⟩
      · rw [loop_error pyDiv h sd freq n u c s hlt (s' := (C.stepLoop rnd cfg u 0 h s).2) (hst.trans (Prod.ext he rfl))] at hv
        simp at hv
      · set s' := (C.stepLoop rnd cfg u 0 h s).2 with hs'
        rw [loop] at hv
        simp only [PyM.bind_get_apply, hlt, if_true] at hv
        rw [PyM.bind_ok (hst.trans (Prod.ext hok rfl) : C.step rnd cfg u h s = (_, s'))] at hv
        simp only [PyM.bind_modify_apply] at hv
        have htc' : Q (.add rnd s'.tc hu) := by rw [etc]; exact hadd _ _ htc hhu
        rcases xProgress_cases pyDiv (c + 1) s.tf { s' with tc := .add rnd s'.tc hu } with h1 | ⟨h1, -, -⟩
        · rw [PyM.bind_ok h1] at hv
          simp only [PyM.bind_get_apply] at hv
          have hcl : P (clip rnd (.add rnd s'.tc hu) s'.tf (increased rnd cfg x hu)) := by
            rw [etf, hs]
            exact hclip _ _ htc' (hup _ _ hhu)
          rcases store_cases sd freq (c + 1) w { s' with tc := .add rnd s'.tc hu } with h4 | h4 | ⟨h4, -, -⟩
          · rw [PyM.bind_ok h4] at hv
            exact ih _ _ _ _ (by exact etf.trans hs) (by exact htc') (by exact hcl) v hv
          · rw [PyM.bind_ok h4] at hv
            exact ih _ _ _ _ (by exact etf.trans hs) (by exact htc') (by exact hcl) v hv
          · rw [PyM.bind_error h4] at hv
            simp at hv
        · rw [PyM.bind_error h1] at hv
          simp at hv
    · rw [loop_error pyDiv h sd freq n u c s hlt (step_bad u h0 s)] at hv
      simp at hv

end XASClass

end Verif
