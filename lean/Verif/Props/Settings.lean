import Verif.Lemmas.Float64
import Verif.Model.Settings
import Verif.Lemmas.SizedLoop
import Verif.Props.History

/-!
# When a change of `etd_config` takes effect (property C65)

The coefficients are computed when the step size differs from that of the coefficients at hand, so new settings wait for
the next change of the step size (or `reset`, or `evolve`).
-/

set_option linter.unusedSectionVars false

namespace Verif

open Matrix

variable {ι : Type} [Fintype ι] [DecidableEq ι]

/-- The settings (or whatever else is read with the coefficients) that a step of size `h` uses, when `now` are the present values and `last` is the size of
the last step (trial) since the last `reset`, with the settings it used. -/
noncomputable def inEffect {α : Type} (now : α) (last : Option (ℝ × α)) (h : ℝ) : α :=
  open Classical in
  match last with
  | none => now
  | some (k, c) => if h = k then c else now

theorem inEffect_same {α : Type} (now c : α) (h : ℝ) : inEffect now (some (h, c)) h = c := by simp [inEffect]

theorem inEffect_other {α : Type} (now c : α) {h k : ℝ} (hh : h ≠ k) : inEffect now (some (k, c)) h = now := by
  simp [inEffect, hh]

/-! ### Constant-step solvers -/

/-- `m.Continues nl u last s`: histories of calls and of assignments to the attributes of `etd_config`, after which the
attributes have the values `m.etd`, `u` is the array to continue with and `last` is the size of the last step since the
last `reset`, with the settings it used. -/
inductive CSSolver.Continues (nl : NlFunc ι) : (m : CSSolver ι) → Vec ι → Option (ℝ × ETDConfig ℝ) → m.State → Prop
  | new (m u) : Continues nl m u none m.new
  | reset (m u) (s : m.State) : Continues nl m u none (m.reset nl s).2
  | assign {m u last s} (c : ETDConfig ℝ) : Continues nl m u last s → Continues nl (m.withEtd c) u last (m.keep c s)
  | step {m u v h last s s'} : Continues nl m u last s → m.step nl u h s = (.ok v, s') →
      Continues nl m v (some (h, inEffect m.etd last h)) s'
  | retry {m u h e last s s'} : Continues nl m u last s → 0 ≤ h → m.step nl u h s = (.error e, s') → e ≠ .linAlgError →
      Continues nl m u (some (h, inEffect m.etd last h)) s'
  | evolve {m u v rnd pyDiv fuel t0 tf h storeData freq} {s s' : CSSolver.State m} : t0 < tf →
      m.evolve nl rnd pyDiv fuel u t0 tf h storeData freq s = (.ok (some v), s') →
      Continues nl m v (some (h, m.etd)) s'

namespace CSSolver

theorem withEtd_etd (m : CSSolver ι) : m.withEtd m.etd = m := by
  rcases m with _ | _ | _ <;> rfl

theorem withEtd_withEtd (m : CSSolver ι) (c c' : ETDConfig ℝ) : (m.withEtd c).withEtd c' = m.withEtd c' := by
  rcases m with _ | _ | _ <;> rfl

theorem keepSub_hCoeff (m : CSSolver ι) (c : ETDConfig ℝ) (s : m.Sub) : (m.keepSub c s).hCoeff = s.hCoeff := by
  rcases m with (_ | _) | ⟨_, _ | _⟩ | ⟨_, _ | _⟩ <;> rfl

end CSSolver

/-- With coefficients for the size at hand only the stages matter. -/
theorem IF4.updateStages_cached {Coef : Type} (S S' : CSStrategy Coef ι) (hn : S.n1Init = S'.n1Init)
    (hu : S.updateStages = S'.updateStages) (u : Vec ι) (h : ℝ) (s : Wrap (CSMethod Coef ι)) (hs : s.hCoeff = some h) :
    IF4.updateStages S u h s = IF4.updateStages S' u h s := by
  unfold IF4.updateStages IF4.updateCoeffs
  rw [hn, hu]
  simp only [PyM.bind_apply, PyM.get_apply, hs, if_true]

/-- Otherwise it does not matter which size the coefficients at hand belong to. -/
theorem IF4.updateStages_forget {Coef : Type} (S : CSStrategy Coef ι) (u : Vec ι) (h : ℝ) (s : Wrap (CSMethod Coef ι))
    (hs : s.hCoeff ≠ some h) :
    IF4.updateStages S u h s = IF4.updateStages S u h { s with hCoeff := none } := by
  unfold IF4.updateStages IF4.updateCoeffs
  simp only [PyM.bind_apply, PyM.get_apply, Ne.symm hs, if_false, reduceCtorEq]
  rfl

/-- A computation on the strategy object leaves the attributes of the solver alone. -/
theorem Wrap.onMethod_hCoeff {M α : Type} (x : PyM M α) (s : Wrap M) : (Wrap.onMethod x s).2.hCoeff = s.hCoeff := by
  simp only [Wrap.onMethod, PyM.zoom_apply]

/-- A property of the state that two computations respect is respected by their composition. -/
theorem PyM.bind_keeps {σ α β : Type} {P : σ → Prop} {x : PyM σ α} {f : α → PyM σ β} {s : σ} (hx : P (x s).2)
    (hf : ∀ a s, P s → P (f a s).2) : P ((x >>= f) s).2 := by
  rcases hc : x s with ⟨e | a, s1⟩
  · rw [PyM.bind_error hc]; rw [hc] at hx; exact hx
  · rw [PyM.bind_ok hc]; rw [hc] at hx; exact hf a s1 hx

/-- After a step the coefficients at hand are those for its size. -/
theorem IF4.updateStages_size {Coef : Type} (S : CSStrategy Coef ι) (u : Vec ι) (h : ℝ) (s : Wrap (CSMethod Coef ι)) :
    (IF4.updateStages S u h s).2.hCoeff = some h := by
  unfold IF4.updateStages
  refine PyM.bind_keeps (P := fun s : Wrap (CSMethod Coef ι) => s.hCoeff = some h) ?_ fun _ s1 h1 => ?_
  · unfold IF4.updateCoeffs
    rw [PyM.bind_get_apply]
    split
    · rename_i hs; exact hs.symm
    · rw [PyM.bind_modify_apply]; exact Wrap.onMethod_hCoeff _ _
  · rw [PyM.bind_get_apply]
    split
    · refine PyM.bind_keeps (P := fun s : Wrap (CSMethod Coef ι) => s.hCoeff = some h) ?_ fun _ s2 h2 => ?_
      · rw [Wrap.onMethod_hCoeff]; exact h1
      · rw [PyM.bind_modify_apply]; exact (Wrap.onMethod_hCoeff _ _).trans h2
    · exact (Wrap.onMethod_hCoeff _ _).trans h1

namespace CSSolver

/-- With coefficients for the size at hand the settings are not looked at. -/
theorem stages_cached (m : CSSolver ι) (nl : NlFunc ι) (c : ETDConfig ℝ) (u : Vec ι) (h : ℝ) (s : m.Sub)
    (hs : s.hCoeff = some h) :
    ((m.withEtd c).cls nl).updateStages u h (m.keepSub c s) =
      (((m.cls nl).updateStages u h s).1, m.keepSub c ((m.cls nl).updateStages u h s).2) := by
  rcases m with (L | L) | ⟨cfg, L | L⟩ | ⟨cfg, L | L⟩
  · rfl
  · rfl
  · exact IF4.updateStages_cached (ETD4.diagonal c L nl) (ETD4.diagonal cfg L nl) rfl rfl u h s hs
  · exact IF4.updateStages_cached (ETD4.nonDiagonal c L nl) (ETD4.nonDiagonal cfg L nl) rfl rfl u h s hs
  · exact IF4.updateStages_cached (ETD5.diagonal c L nl) (ETD5.diagonal cfg L nl) rfl rfl u h s hs
  · exact IF4.updateStages_cached (ETD5.nonDiagonal c L nl) (ETD5.nonDiagonal cfg L nl) rfl rfl u h s hs

theorem stages_forget (m : CSSolver ι) (nl : NlFunc ι) (u : Vec ι) (h : ℝ) (s : m.Sub) (hs : s.hCoeff ≠ some h) :
    (m.cls nl).updateStages u h s = (m.cls nl).updateStages u h { s with hCoeff := none } := by
  rw [m.cls_eq nl]
  exact IF4.updateStages_forget (m.strategy nl) u h s hs

/-- After a step the coefficients at hand are those for its size, whether it returned or raised. -/
theorem stages_size (m : CSSolver ι) (nl : NlFunc ι) (u : Vec ι) (h : ℝ) (s : m.Sub) :
    ((m.cls nl).updateStages u h s).2.hCoeff = some h := by
  rw [m.cls_eq nl]
  exact IF4.updateStages_size (m.strategy nl) u h s

/-- What the attributes of an object satisfy after a history. -/
def Kept (m : CSSolver ι) (nl : NlFunc ι) (u : Vec ι) (last : Option (ℝ × ETDConfig ℝ)) (s : m.Sub) : Prop :=
  s.hCoeff = last.map Prod.fst ∧
    match last with
    | none => (m.lawful nl).Inv s u
    | some (_, c) => ((m.withEtd c).lawful nl).Inv (m.keepSub c s) u

/-- Without coefficients at hand the settings do not matter. -/
theorem inv_forget (m : CSSolver ι) (nl : NlFunc ι) (c : ETDConfig ℝ) (u : Vec ι) (s : m.Sub)
    (hi : ((m.withEtd c).lawful nl).Inv (m.keepSub c s) u) : (m.lawful nl).Inv { s with hCoeff := none } u := by
  rcases m with (L | L) | ⟨cfg, L | L⟩ | ⟨cfg, L | L⟩
  all_goals exact ⟨by simp, hi.2⟩

theorem Kept.assign {m : CSSolver ι} {nl : NlFunc ι} {u : Vec ι} {last : Option (ℝ × ETDConfig ℝ)} {s : m.Sub}
    (hk : m.Kept nl u last s) (c : ETDConfig ℝ) : (m.withEtd c).Kept nl u last (m.keepSub c s) := by
  obtain ⟨h1, h2⟩ := hk
  refine ⟨by rw [keepSub_hCoeff]; exact h1, ?_⟩
  rcases last with _ | ⟨k, d⟩
  · rcases m with (L | L) | ⟨cfg, L | L⟩ | ⟨cfg, L | L⟩
    all_goals exact ⟨fun h hh => absurd (hh.symm.trans h1) (by simp), h2.2⟩
  · rcases m with (L | L) | ⟨cfg, L | L⟩ | ⟨cfg, L | L⟩
    all_goals exact h2

/-- The step that a history is followed by. -/
theorem Kept.result {m : CSSolver ι} {nl : NlFunc ι} {u : Vec ι} {last : Option (ℝ × ETDConfig ℝ)} {s : m.Sub}
    (hk : m.Kept nl u last s) (h : ℝ) :
    ((m.cls nl).updateStages u h s).1 = (m.withEtd (inEffect m.etd last h)).oneStep nl h u := by
  obtain ⟨h1, h2⟩ := hk
  rcases last with _ | ⟨k, c⟩
  · show _ = (m.withEtd m.etd).oneStep nl h u
    rw [withEtd_etd]
    exact (m.lawful nl).result _ _ _ h2
  · by_cases hh : h = k
    · subst hh
      simp only [inEffect, if_true]
      have := m.stages_cached nl c u h s h1
      rw [← ((m.withEtd c).lawful nl).result _ _ _ h2, this]
    · simp only [inEffect, if_neg hh]
      rw [withEtd_etd, m.stages_forget nl u h s (by rw [h1]; simpa using Ne.symm hh)]
      exact (m.lawful nl).result _ _ _ (m.inv_forget nl c u s h2)

theorem inv_self {m : CSSolver ι} {nl : NlFunc ι} {u : Vec ι} {s : m.Sub} (hi : (m.lawful nl).Inv s u) :
    ((m.withEtd m.etd).lawful nl).Inv (m.keepSub m.etd s) u := by
  rcases m with (L | L) | ⟨cfg, L | L⟩ | ⟨cfg, L | L⟩
  all_goals exact hi

theorem Kept.of_ok {m : CSSolver ι} {nl : NlFunc ι} {u v : Vec ι} {last : Option (ℝ × ETDConfig ℝ)} {s : m.Sub}
    (hk : m.Kept nl u last s) (h : ℝ) (hr : ((m.cls nl).updateStages u h s).1 = .ok v) :
    m.Kept nl v (some (h, inEffect m.etd last h)) ((m.cls nl).updateStages u h s).2 := by
  refine ⟨m.stages_size nl u h s, ?_⟩
  obtain ⟨h1, h2⟩ := hk
  rcases last with _ | ⟨k, c⟩
  · exact inv_self ((m.lawful nl).inv_ok _ _ _ _ h2 (by rw [← (m.lawful nl).result _ _ _ h2]; exact hr))
  · by_cases hh : h = k
    · subst hh
      rw [inEffect_same]
      have := m.stages_cached nl c u h s h1
      have h3 := ((m.withEtd c).lawful nl).inv_ok _ u h v h2 (by
        rw [← ((m.withEtd c).lawful nl).result _ _ _ h2, this]; exact hr)
      rwa [this] at h3
    · rw [inEffect_other _ _ hh]
      rw [m.stages_forget nl u h s (by rw [h1]; simpa using Ne.symm hh)] at hr ⊢
      have h4 := m.inv_forget nl c u s h2
      exact inv_self ((m.lawful nl).inv_ok _ _ _ _ h4 (by rw [← (m.lawful nl).result _ _ _ h4]; exact hr))

theorem Kept.of_error {m : CSSolver ι} {nl : NlFunc ι} {u : Vec ι} {last : Option (ℝ × ETDConfig ℝ)} {s : m.Sub}
    (hk : m.Kept nl u last s) (h : ℝ) {e : PyErr} (he : e ≠ .linAlgError)
    (hr : ((m.cls nl).updateStages u h s).1 = .error e) :
    m.Kept nl u (some (h, inEffect m.etd last h)) ((m.cls nl).updateStages u h s).2 := by
  refine ⟨m.stages_size nl u h s, ?_⟩
  obtain ⟨h1, h2⟩ := hk
  rcases last with _ | ⟨k, c⟩
  · have h3 := ((m.lawful nl).result _ _ _ h2).symm.trans hr
    exact inv_self ((m.lawful nl).inv_err _ _ _ _ h2 (m.coefOk_of_error nl h3 he) h3)
  · by_cases hh : h = k
    · subst hh
      rw [inEffect_same]
      have := m.stages_cached nl c u h s h1
      have h4 : (m.withEtd c).oneStep nl h u = .error e := by
        rw [← ((m.withEtd c).lawful nl).result _ _ _ h2, this]; exact hr
      have h3 := ((m.withEtd c).lawful nl).inv_err _ u h e h2 ((m.withEtd c).coefOk_of_error nl h4 he) h4
      rwa [this] at h3
    · rw [inEffect_other _ _ hh]
      rw [m.stages_forget nl u h s (by rw [h1]; simpa using Ne.symm hh)] at hr ⊢
      have h4 := m.inv_forget nl c u s h2
      have h3 := ((m.lawful nl).result _ _ _ h4).symm.trans hr
      exact inv_self ((m.lawful nl).inv_err _ _ _ _ h4 (m.coefOk_of_error nl h3 he) h3)

theorem Continues.kept {m : CSSolver ι} {nl : NlFunc ι} {u : Vec ι} {last : Option (ℝ × ETDConfig ℝ)} {s : m.State}
    (hf : CSSolver.Continues nl m u last s) : m.Kept nl u last s.sub := by
  induction hf with
  | new m u =>
    refine ⟨?_, m.init_inv nl u⟩
    rcases m with (L | L) | ⟨cfg, L | L⟩ | ⟨cfg, L | L⟩ <;> rfl
  | reset m u s =>
    refine ⟨?_, (m.lawful nl).reset_inv _ _⟩
    rcases m with (L | L) | ⟨cfg, L | L⟩ | ⟨cfg, L | L⟩ <;> rfl
  | assign c _ ih => exact ih.assign c
  | @step m u v h last s s' _ hst ih =>
    by_cases hh : 0 ≤ h
    · unfold CSSolver.step at hst
      rw [CSClass.step_apply _ _ hh] at hst
      simp only [Prod.mk.injEq] at hst
      rw [← hst.2]
      exact ih.of_ok h hst.1
    · rw [m.step_neg nl u h (not_le.mp hh)] at hst; simp at hst
  | @retry m u h e last s s' _ hh hst hne ih =>
    unfold CSSolver.step at hst
    rw [CSClass.step_apply _ _ hh] at hst
    simp only [Prod.mk.injEq] at hst
    rw [← hst.2]
    exact ih.of_error h hne hst.1
  | @evolve m u v rnd pyDiv fuel t0 tf h storeData freq s s' hlt hev =>
    have hi := (CSSolver.Follows.evolve (m := m) hev).inv
    refine ⟨?_, inv_self hi⟩
    unfold CSSolver.evolve at hev
    rw [CSClass.evolve_apply] at hev
    split at hev
    · simp at hev
    · obtain ⟨-, n, h1, h2, h3⟩ := CSClass.loop_inv_with (m.lawful nl) rnd pyDiv h storeData freq v
        (fun k sub => k = 0 ∨ sub.hCoeff = some h) (fun k u v sub _ _ _ => .inr (m.stages_size nl u h sub)) fuel u 0
        ((m.cls nl).start u t0 tf storeData s) ((m.lawful nl).reset_inv _ _) (.inl rfl) (by rw [hev])
      rw [hev] at h3
      rcases h3 with h3 | h3
      · obtain rfl : n = 0 := by omega
        exact absurd hlt h2
      · exact h3

end CSSolver

/-- **C65.** After every history of calls and assignments to the attributes of `etd_config`, `step` returns what a new
solver returns whose settings are those in effect: if the size is that of the last step, the settings which that step used,
otherwise the present ones. -/
theorem C65_step_cs (m : CSSolver ι) (nl : NlFunc ι) (u : Vec ι) (last : Option (ℝ × ETDConfig ℝ)) (s : m.State)
    (hf : CSSolver.Continues nl m u last s) (h : ℝ) :
    (m.step nl u h s).1 = ((m.withEtd (inEffect m.etd last h)).step nl u h (m.withEtd (inEffect m.etd last h)).new).1 := by
  by_cases hh : 0 ≤ h
  · rw [CSSolver.step_new _ nl u h hh]
    unfold CSSolver.step
    rw [CSClass.step_apply _ _ hh]
    exact hf.kept.result h
  · rw [m.step_neg nl u h (not_le.mp hh), CSSolver.step_neg _ nl u h (not_le.mp hh)]

/-- **C65.** In particular: new settings assigned after a step of size `h` are ignored by all following steps of this
size. -/
theorem C65_ignored_cs (m : CSSolver ι) (nl : NlFunc ι) (u v : Vec ι) (s s' : m.State) (last : Option (ℝ × ETDConfig ℝ))
    (hf : CSSolver.Continues nl m u last s) (h : ℝ) (hl : ∀ k c, last = some (k, c) → k ≠ h)
    (hst : m.step nl u h s = (.ok v, s')) (c : ETDConfig ℝ) :
    ((m.withEtd c).step nl v h (m.keep c s')).1 = (m.step nl v h m.new).1 := by
  have h1 := C65_step_cs _ nl v _ _ ((hf.step hst).assign c) h
  have h2 : inEffect m.etd last h = m.etd := by
    rcases last with _ | ⟨k, d⟩
    · rfl
    · simp [inEffect, (hl k d rfl).symm]
  rw [h1]
  have h3 : (m.withEtd c).withEtd (inEffect (m.withEtd c).etd (some (h, inEffect m.etd last h)) h) = m := by
    rw [CSSolver.withEtd_withEtd, h2]
    simp only [inEffect, if_true]
    exact m.withEtd_etd
  rw [h3]

/-- **C65.** `evolve` uses the present settings. -/
theorem C65_evolve_cs (m : CSSolver ι) (nl : NlFunc ι) (s : m.State) (c : ETDConfig ℝ) (rnd : ℝ → ℝ) (pyDiv : Bool)
    (fuel : ℕ) (u : Vec ι) (t0 tf h : ℝ) (storeData : Bool) (freq : ℤ) :
    ((m.withEtd c).evolve nl rnd pyDiv fuel u t0 tf h storeData freq (m.keep c s)).1 =
      ((m.withEtd c).evolve nl rnd pyDiv fuel u t0 tf h storeData freq (m.withEtd c).new).1 :=
  (C14_evolve_fresh_cs (m.withEtd c) nl rnd pyDiv fuel u t0 tf h storeData freq _).1

/-! ### Adaptive solvers -/

/-- With coefficients for the size at hand only the stages matter. -/
theorem IF34.updateStages_cached {Coef : Type} (S S' : ASStrategy Coef ι) (hn : S.init = S'.init)
    (hu : S.updateStages = S'.updateStages) (u : Vec ι) (h : ℝ) (a : Bool) (s : Wrap (ASMethod Coef ι))
    (hs : s.hCoeff = some h) : IF34.updateStages S u h a s = IF34.updateStages S' u h a s := by
  unfold IF34.updateStages IF34.updateCoeffs
  rw [hn, hu]
  simp only [PyM.bind_apply, PyM.get_apply, hs, if_true]

/-- Otherwise it does not matter which size the coefficients at hand belong to. -/
theorem IF34.updateStages_forget {Coef : Type} (S : ASStrategy Coef ι) (u : Vec ι) (h : ℝ) (a : Bool)
    (s : Wrap (ASMethod Coef ι)) (hs : s.hCoeff ≠ some h) :
    IF34.updateStages S u h a s = IF34.updateStages S u h a { s with hCoeff := none } := by
  unfold IF34.updateStages IF34.updateCoeffs
  simp only [PyM.bind_apply, PyM.get_apply, Ne.symm hs, if_false, reduceCtorEq]
  rfl

theorem IF45DP.updateStages_forget (L : Vec ι) (nl : NlFunc ι) (u : Vec ι) (h : ℝ) (a : Bool)
    (s : Wrap (ASMethod (If45dpCoef ι) ι)) (hs : s.hCoeff ≠ some h) :
    IF45DP.updateStages L nl u h a s = IF45DP.updateStages L nl u h a { s with hCoeff := none } := by
  unfold IF45DP.updateStages IF45DP.updateCoeffs
  simp only [PyM.bind_apply, PyM.get_apply, Ne.symm hs, if_false, reduceCtorEq]
  rfl

/-- After a trial the coefficients at hand are those for its size. -/
theorem IF34.updateStages_size {Coef : Type} (S : ASStrategy Coef ι) (u : Vec ι) (h : ℝ) (a : Bool)
    (s : Wrap (ASMethod Coef ι)) : (IF34.updateStages S u h a s).2.hCoeff = some h := by
  unfold IF34.updateStages
  refine PyM.bind_keeps (P := fun s : Wrap (ASMethod Coef ι) => s.hCoeff = some h) ?_ fun _ s1 h1 => ?_
  · unfold IF34.updateCoeffs
    rw [PyM.bind_get_apply]
    split
    · rename_i hs; exact hs.symm
    · rw [PyM.bind_modify_apply]; exact Wrap.onMethod_hCoeff _ _
  · rw [PyM.bind_get_apply]
    split
    · refine PyM.bind_keeps (P := fun s : Wrap (ASMethod Coef ι) => s.hCoeff = some h) ?_ fun _ s2 h2 => ?_
      · rw [Wrap.onMethod_hCoeff]; exact h1
      · rw [PyM.bind_modify_apply]; exact (Wrap.onMethod_hCoeff _ _).trans h2
    · exact (Wrap.onMethod_hCoeff _ _).trans h1

namespace ASSolver

theorem withEtd_etd (m : ASSolver ι) : m.withEtd m.etd = m := by
  rcases m with _ | _ | _ | _ <;> rfl

theorem withEtd_withEtd (m : ASSolver ι) (c c' : ETDConfig ℝ) : (m.withEtd c).withEtd c' = m.withEtd c' := by
  rcases m with _ | _ | _ | _ <;> rfl

theorem withEtd_factor (m : ASSolver ι) (c : ETDConfig ℝ) (nl : NlFunc ι) (cfg : SolverConfig ℝ) :
    (m.withEtd c).factor nl cfg = m.factor nl cfg := by
  rcases m with (_ | _ | _) | ⟨_, _ | _ | _⟩ | ⟨_, _ | _ | _⟩ | _ <;> rfl

theorem keepSub_hCoeff (m : ASSolver ι) (c : ETDConfig ℝ) (s : m.Sub) : (m.keepSub c s).hCoeff = s.hCoeff := by
  rcases m with (_ | _ | _) | ⟨_, _ | _ | _⟩ | ⟨_, _ | _ | _⟩ | _ <;> rfl

/-- With coefficients for the size at hand the settings are not looked at. -/
theorem stages_cached (m : ASSolver ι) (nl : NlFunc ι) (c : ETDConfig ℝ) (u : Vec ι) (h : ℝ) (a : Bool) (s : m.Sub)
    (hs : s.hCoeff = some h) :
    ((m.withEtd c).cls nl).updateStages u h a (m.keepSub c s) =
      (((m.cls nl).updateStages u h a s).1, m.keepSub c ((m.cls nl).updateStages u h a s).2) := by
  rcases m with (L | L | ⟨l, S, T, hS⟩) | ⟨cfg, L | L | ⟨l, S, T, hS⟩⟩ | ⟨cfg, L | L | ⟨l, S, T, hS⟩⟩ | L
  · rfl
  · rfl
  · rfl
  · exact IF34.updateStages_cached (ETD34.diagonal c L nl) (ETD34.diagonal cfg L nl) rfl rfl u h a s hs
  · exact IF34.updateStages_cached (ETD34.nonDiagonal c L nl) (ETD34.nonDiagonal cfg L nl) rfl rfl u h a s hs
  · exact IF34.updateStages_cached (ETD34.diagonalized c l S T nl) (ETD34.diagonalized cfg l S T nl) rfl rfl u h a s hs
  · exact IF34.updateStages_cached (ETD35.diagonal c L nl) (ETD35.diagonal cfg L nl) rfl rfl u h a s hs
  · exact IF34.updateStages_cached (ETD35.nonDiagonal c L nl) (ETD35.nonDiagonal cfg L nl) rfl rfl u h a s hs
  · exact IF34.updateStages_cached (ETD35.diagonalized c l S T nl) (ETD35.diagonalized cfg l S T nl) rfl rfl u h a s hs
  · rfl

theorem stages_forget (m : ASSolver ι) (nl : NlFunc ι) (u : Vec ι) (h : ℝ) (a : Bool) (s : m.Sub)
    (hs : s.hCoeff ≠ some h) :
    (m.cls nl).updateStages u h a s = (m.cls nl).updateStages u h a { s with hCoeff := none } := by
  rcases m with (L | L | ⟨l, S, T, hS⟩) | ⟨cfg, L | L | ⟨l, S, T, hS⟩⟩ | ⟨cfg, L | L | ⟨l, S, T, hS⟩⟩ | L
  all_goals first
    | exact IF34.updateStages_forget _ u h a s hs
    | exact IF45DP.updateStages_forget L nl u h a s hs

/-- What the attributes of an object satisfy after a history. -/
def Kept (m : ASSolver ι) (nl : NlFunc ι) (u : Vec ι) (a : Bool) (last : Option (ℝ × ETDConfig ℝ)) (s : m.Sub) : Prop :=
  s.hCoeff = last.map Prod.fst ∧
    match last with
    | none => (m.lawful nl).Ready s a u
    | some (_, c) => ((m.withEtd c).lawful nl).Ready (m.keepSub c s) a u

/-- After a trial the coefficients at hand are those for its size. -/
theorem stages_size (m : ASSolver ι) (nl : NlFunc ι) (u : Vec ι) (h : ℝ) (a : Bool) (s : m.Sub)
    (hs : s.n1init = false → a = false) : ((m.cls nl).updateStages u h a s).2.hCoeff = some h := by
  rw [m.updateStages_eq nl u h a s hs]
  exact IF34.updateStages_size (m.strategy nl) u h a s

theorem kept_first {m : ASSolver ι} {nl : NlFunc ι} {u : Vec ι} {a : Bool} {last : Option (ℝ × ETDConfig ℝ)} {s : m.Sub}
    (hk : m.Kept nl u a last s) : s.n1init = false → a = false := by
  obtain ⟨h1, h2⟩ := hk
  rcases last with _ | ⟨k, c⟩
  · simp only at h2
    rw [m.lawful_ready nl] at h2
    exact h2.2.1
  · simp only at h2
    rw [(m.withEtd c).lawful_ready nl] at h2
    rcases m with (L | L | ⟨l, S, T, hS⟩) | ⟨cfg, L | L | ⟨l, S, T, hS⟩⟩ | ⟨cfg, L | L | ⟨l, S, T, hS⟩⟩ | L
    all_goals exact h2.2.1

/-- Without coefficients at hand the settings do not matter. -/
theorem ready_forget (m : ASSolver ι) (nl : NlFunc ι) (c : ETDConfig ℝ) (u : Vec ι) (a : Bool) (s : m.Sub)
    (hi : ((m.withEtd c).lawful nl).Ready (m.keepSub c s) a u) : (m.lawful nl).Ready { s with hCoeff := none } a u := by
  rw [ASSolver.lawful_ready] at hi ⊢
  rcases m with (L | L | ⟨l, S, T, hS⟩) | ⟨cfg, L | L | ⟨l, S, T, hS⟩⟩ | ⟨cfg, L | L | ⟨l, S, T, hS⟩⟩ | L
  all_goals exact ⟨by simp, hi.2⟩

theorem ready_self {m : ASSolver ι} {nl : NlFunc ι} {u : Vec ι} {a : Bool} {s : m.Sub}
    (hi : (m.lawful nl).Ready s a u) : ((m.withEtd m.etd).lawful nl).Ready (m.keepSub m.etd s) a u := by
  rcases m with (L | L | ⟨l, S, T, hS⟩) | ⟨cfg, L | L | ⟨l, S, T, hS⟩⟩ | ⟨cfg, L | L | ⟨l, S, T, hS⟩⟩ | L
  all_goals exact hi

theorem Kept.assign {m : ASSolver ι} {nl : NlFunc ι} {u : Vec ι} {a : Bool} {last : Option (ℝ × ETDConfig ℝ)} {s : m.Sub}
    (hk : m.Kept nl u a last s) (c : ETDConfig ℝ) : (m.withEtd c).Kept nl u a last (m.keepSub c s) := by
  obtain ⟨h1, h2⟩ := hk
  refine ⟨by rw [keepSub_hCoeff]; exact h1, ?_⟩
  rcases last with _ | ⟨k, d⟩
  · simp only at h2 ⊢
    rw [ASSolver.lawful_ready] at h2 ⊢
    rcases m with (L | L | ⟨l, S, T, hS⟩) | ⟨cfg, L | L | ⟨l, S, T, hS⟩⟩ | ⟨cfg, L | L | ⟨l, S, T, hS⟩⟩ | L
    all_goals exact ⟨fun h hh => absurd (hh.symm.trans h1) (by simp), h2.2⟩
  · rcases m with (L | L | ⟨l, S, T, hS⟩) | ⟨cfg, L | L | ⟨l, S, T, hS⟩⟩ | ⟨cfg, L | L | ⟨l, S, T, hS⟩⟩ | L
    all_goals exact h2

/-- The trial that a history is followed by. -/
theorem Kept.result {m : ASSolver ι} {nl : NlFunc ι} {u : Vec ι} {a : Bool} {last : Option (ℝ × ETDConfig ℝ)} {s : m.Sub}
    (hk : m.Kept nl u a last s) (h : ℝ) :
    ((m.cls nl).updateStages u h a s).1 = (m.withEtd (inEffect m.etd last h)).oneTrial nl h u := by
  obtain ⟨h1, h2⟩ := hk
  rcases last with _ | ⟨k, c⟩
  · show _ = (m.withEtd m.etd).oneTrial nl h u
    rw [withEtd_etd]
    exact (m.lawful nl).result _ _ _ _ h2
  · by_cases hh : h = k
    · subst hh
      rw [inEffect_same]
      have := m.stages_cached nl c u h a s h1
      rw [← ((m.withEtd c).lawful nl).result _ _ _ _ h2, this]
    · rw [inEffect_other _ _ hh]
      rw [withEtd_etd, m.stages_forget nl u h a s (by rw [h1]; simpa using Ne.symm hh)]
      exact (m.lawful nl).result _ _ _ _ (m.ready_forget nl c u a s h2)

theorem Kept.of_ok {m : ASSolver ι} {nl : NlFunc ι} {u : Vec ι} {a : Bool} {last : Option (ℝ × ETDConfig ℝ)} {s : m.Sub}
    (hk : m.Kept nl u a last s) (h : ℝ) {r : Vec ι × Vec ι} (hr : ((m.cls nl).updateStages u h a s).1 = .ok r) :
    m.Kept nl u false (some (h, inEffect m.etd last h)) ((m.cls nl).updateStages u h a s).2 ∧
    m.Kept nl r.1 true (some (h, inEffect m.etd last h)) ((m.cls nl).updateStages u h a s).2 := by
  suffices hs : ((m.withEtd (inEffect m.etd last h)).lawful nl).Ready
      (m.keepSub (inEffect m.etd last h) ((m.cls nl).updateStages u h a s).2) false u ∧
      ((m.withEtd (inEffect m.etd last h)).lawful nl).Ready
      (m.keepSub (inEffect m.etd last h) ((m.cls nl).updateStages u h a s).2) true r.1 from
    ⟨⟨m.stages_size nl u h a s (kept_first hk), hs.1⟩, ⟨m.stages_size nl u h a s (kept_first hk), hs.2⟩⟩
  obtain ⟨h1, h2⟩ := hk
  rcases last with _ | ⟨k, c⟩
  · have h3 := (m.lawful nl).ready_ok _ a u h r h2 (by rw [← (m.lawful nl).result _ _ _ _ h2]; exact hr)
    exact ⟨ready_self h3.1, ready_self h3.2⟩
  · by_cases hh : h = k
    · subst hh
      rw [inEffect_same]
      have := m.stages_cached nl c u h a s h1
      have h3 := ((m.withEtd c).lawful nl).ready_ok _ a u h r h2 (by
        rw [← ((m.withEtd c).lawful nl).result _ _ _ _ h2, this]; exact hr)
      rwa [this] at h3
    · rw [inEffect_other _ _ hh]
      rw [m.stages_forget nl u h a s (by rw [h1]; simpa using Ne.symm hh)] at hr ⊢
      have h4 := m.ready_forget nl c u a s h2
      have h3 := (m.lawful nl).ready_ok _ a u h r h4 (by rw [← (m.lawful nl).result _ _ _ _ h4]; exact hr)
      exact ⟨ready_self h3.1, ready_self h3.2⟩

theorem Kept.of_error {m : ASSolver ι} {nl : NlFunc ι} {u : Vec ι} {a : Bool} {last : Option (ℝ × ETDConfig ℝ)} {s : m.Sub}
    (hk : m.Kept nl u a last s) (h : ℝ) {e : PyErr} (he : e ≠ .linAlgError)
    (hr : ((m.cls nl).updateStages u h a s).1 = .error e) :
    m.Kept nl u a (some (h, inEffect m.etd last h)) ((m.cls nl).updateStages u h a s).2 := by
  refine ⟨m.stages_size nl u h a s (kept_first hk), ?_⟩
  obtain ⟨h1, h2⟩ := hk
  rcases last with _ | ⟨k, c⟩
  · have h3 := ((m.lawful nl).result _ _ _ _ h2).symm.trans hr
    exact ready_self ((m.lawful nl).ready_err _ _ _ _ _ h2 (by
      rw [m.lawful_coefOk nl]; exact m.coefOk_of_error nl h3 he) h3)
  · by_cases hh : h = k
    · subst hh
      rw [inEffect_same]
      have := m.stages_cached nl c u h a s h1
      have h4 : (m.withEtd c).oneTrial nl h u = .error e := by
        rw [← ((m.withEtd c).lawful nl).result _ _ _ _ h2, this]; exact hr
      have h3 := ((m.withEtd c).lawful nl).ready_err _ a u h e h2 (by
        rw [ASSolver.lawful_coefOk]; exact (m.withEtd c).coefOk_of_error nl h4 he) h4
      rwa [this] at h3
    · rw [inEffect_other _ _ hh]
      rw [m.stages_forget nl u h a s (by rw [h1]; simpa using Ne.symm hh)] at hr ⊢
      have h4 := m.ready_forget nl c u a s h2
      have h3 := ((m.lawful nl).result _ _ _ _ h4).symm.trans hr
      exact ready_self ((m.lawful nl).ready_err _ _ _ _ _ h4 (by
        rw [m.lawful_coefOk nl]; exact m.coefOk_of_error nl h3 he) h3)

end ASSolver

/-- Reductions of the size `h` after rejected trials are not undone by the rounding. -/
def ShrinksFrom (rnd : ℝ → ℝ) (cfg : SolverConfig ℝ) (h : ℝ) : Prop :=
  0 < cfg.decr_f ∧ ∀ x, x ≤ max cfg.decr_f (1 / 4) * h → rnd x < h

/-- This is so in exact arithmetic. -/
theorem shrinksFrom_id (cfg : SolverConfig ℝ) (h0 : 0 < cfg.decr_f) (h1 : cfg.decr_f < 1) {h : ℝ} (hh : 0 < h) :
    ShrinksFrom id cfg h := by
  refine ⟨h0, fun x hx => lt_of_le_of_lt hx ?_⟩
  have : max cfg.decr_f (1 / 4) < 1 := max_lt h1 (by norm_num)
  nlinarith

/-- It is so in binary64, for `decr_f` at most `1 - 2⁻⁵²`. -/
theorem shrinksFrom_rnd64 (cfg : SolverConfig ℝ) (h0 : 0 < cfg.decr_f) (h1 : cfg.decr_f ≤ 1 - 1 / 2 ^ 52) {h : ℝ}
    (hh : 0 < h) : ShrinksFrom rnd64 cfg h := by
  refine ⟨h0, fun x hx => ?_⟩
  have hm : max cfg.decr_f (1 / 4) ≤ 1 - 1 / 2 ^ 52 := max_le h1 (by norm_num)
  have hx' : x ≤ (1 - 1 / 2 ^ 52) * h := hx.trans (by gcongr)
  refine lt_of_le_of_lt (rnd64_mono hx') ?_
  have := (abs_le.mp (rnd64_error ((1 - 1 / 2 ^ 52) * h))).2
  rw [abs_of_pos (mul_pos (by norm_num) hh)] at this
  nlinarith

theorem shrink_le (d : ℝ) (x : Ext ℝ) : shrink d x ≤ max d (1 / 4) := by
  rcases x with _ | _ | _ | x
  · exact le_max_right _ _
  · exact le_max_right _ _
  · exact le_max_right _ _
  · exact (min_le_right _ _).trans (le_max_left _ _)

theorem shrink_pos {d : ℝ} (hd : 0 < d) (x : Ext ℝ) : 0 < shrink d x := by
  rcases x with _ | _ | _ | x
  · simp [shrink]
  · simp [shrink]
  · simp [shrink]
  · exact lt_min (lt_of_lt_of_le (by norm_num) (le_max_right _ _)) hd

theorem ShrinksFrom.lt {rnd : ℝ → ℝ} {cfg : SolverConfig ℝ} {h : ℝ} (hs : ShrinksFrom rnd cfg h) (hh : 0 ≤ h) (x : Ext ℝ)
    {k : ℝ} (hk : k ≤ h) : rnd (shrink cfg.decr_f x * k) < h := by
  refine hs.2 _ ?_
  have h1 := shrink_le cfg.decr_f x
  have h2 := shrink_pos hs.1 x
  nlinarith

/-- The trials of a step with proposed size `h`: those of this size use the settings `c`, the others the settings `d`. -/
noncomputable def ASSolver.mixedTrial (m : ASSolver ι) (nl : NlFunc ι) (h : ℝ) (c d : ETDConfig ℝ) (k : ℝ) (u : Vec ι) :
    Except PyErr (Vec ι × Vec ι) :=
  open Classical in (m.withEtd (if k = h then c else d)).oneTrial nl k u

/-- The settings of the last trial of a step with proposed size `h`, when its size is `k`. -/
noncomputable def lastEffect {α : Type} (now : α) (last : Option (ℝ × α)) (h k : ℝ) : α :=
  open Classical in if k = h then inEffect now last h else now

/-- Histories of calls and of assignments to the attributes of `etd_config`, after which the attributes have the values
`m.etd`, `u` is the array to continue with and `last` is the size of the last trial since the last `reset`, with the
settings it used.  After a `step` that returned, the size of its last trial is the size it returned; after one that
raised, and after `evolve`, it is found in the attribute `_h_coeff`. -/
inductive ASSolver.Continues (nl : NlFunc ι) : (m : ASSolver ι) → Vec ι → Option (ℝ × ETDConfig ℝ) → m.State → Prop
  | new (m u) : Continues nl m u none m.new
  | reset (m u) (s : m.State) : Continues nl m u none (m.reset nl s).2
  | assign {m u last s} (c : ETDConfig ℝ) : Continues nl m u last s → Continues nl (m.withEtd c) u last (m.keep c s)
  | step {m u v h hu hs rnd cfg last s s'} : Continues nl m u last s →
      ShrinksFrom rnd cfg h ∨ inEffect m.etd last h = m.etd → m.step nl rnd cfg u h s = (.ok (v, hu, hs), s') →
      Continues nl m v (some (hu, lastEffect m.etd last h hu)) s'
  | retry {m u h e rnd cfg last s s' k} : Continues nl m u last s → 0 ≤ h →
      ShrinksFrom rnd cfg h ∨ inEffect m.etd last h = m.etd → m.step nl rnd cfg u h s = (.error e, s') →
      e ≠ .linAlgError → s'.sub.hCoeff = some k → Continues nl m u (some (k, lastEffect m.etd last h k)) s'
  | evolve {m u v rnd pyDiv cfg fuel t0 tf hInit storeData freq k} {s s' : ASSolver.State m} :
      m.evolve nl rnd pyDiv cfg fuel u t0 tf hInit storeData freq s = (.ok (some v), s') → s'.sub.hCoeff = some k →
      Continues nl m v (some (k, m.etd)) s'

namespace ASSolver

/-- One step from a state left behind by a history. -/
theorem Kept.step {m : ASSolver ι} {nl : NlFunc ι} {u : Vec ι} {last : Option (ℝ × ETDConfig ℝ)} {s : m.State}
    (hk : m.Kept nl u s.accept last s.sub) (rnd : ℝ → ℝ) (cfg : SolverConfig ℝ) (h : ℝ) (hh : 0 ≤ h)
    (hr : ShrinksFrom rnd cfg h ∨ inEffect m.etd last h = m.etd) :
    StepSpec (m.mixedTrial nl h (inEffect m.etd last h) m.etd) (m.factor nl cfg) cfg rnd u h (m.step nl rnd cfg u h s).1 ∧
    (∀ v hu hs, (m.step nl rnd cfg u h s).1 = .ok (v, hu, hs) →
      m.Kept nl v (m.step nl rnd cfg u h s).2.accept (some (hu, lastEffect m.etd last h hu)) (m.step nl rnd cfg u h s).2.sub) ∧
    (∀ e k, (m.step nl rnd cfg u h s).1 = .error e → e ≠ .linAlgError → (m.step nl rnd cfg u h s).2.sub.hCoeff = some k →
      m.Kept nl u (m.step nl rnd cfg u h s).2.accept (some (k, lastEffect m.etd last h k)) (m.step nl rnd cfg u h s).2.sub) := by
  classical
  let P : m.Sub → Bool → ℝ → Prop := fun s a k => ∃ last', m.Kept nl u a last' s ∧ (k < h ∨ k = h ∨ inEffect m.etd last h = m.etd) ∧
    inEffect m.etd last' k = if k = h then inEffect m.etd last h else m.etd
  have hres : ∀ s a k, P s a k → ((m.cls nl).updateStages u k a s).1 =
      m.mixedTrial nl h (inEffect m.etd last h) m.etd k u := by
    rintro s a k ⟨last', h1, -, h2⟩
    rw [h1.result k, h2]
    rfl
  have hfac : ∀ r, (m.cls nl).factor cfg r = m.factor nl cfg r := fun _ => rfl
  obtain ⟨h1, k, a, s0, ⟨last', h2, h3, h4⟩, h5, h6⟩ := ASClass.stepLoop_sized (C := m.cls nl)
    (Φ := m.mixedTrial nl h (inEffect m.etd last h) m.etd) P rnd cfg u hres (by
      rintro s a k r ⟨last', h1, h2, h3⟩ hΦ hacc
      have hr' := (hres s a k ⟨last', h1, h2, h3⟩).trans hΦ
      refine ⟨_, (h1.of_ok k hr').1, ?_⟩
      rw [h3]
      rcases hr with hr | hr
      · have hlt : rnd (shrink cfg.decr_f ((m.cls nl).factor cfg r) * k) < h ∨ inEffect m.etd last h = m.etd := by
          rcases h2 with h2 | rfl | h2
          · exact .inl (hr.lt hh _ h2.le)
          · exact .inl (hr.lt hh _ le_rfl)
          · exact .inr h2
        rcases hlt with hlt | hlt
        · refine ⟨.inl hlt, ?_⟩
          rw [if_neg hlt.ne]
          by_cases hkh : k = h
          · rw [inEffect_other _ _ (fun hc => hlt.ne (hc.trans hkh))]
          · rw [if_neg hkh]
            unfold inEffect; simp
        · refine ⟨.inr (.inr hlt), ?_⟩
          rw [hlt]; simp only [ite_self]; unfold inEffect; simp
      · refine ⟨.inr (.inr hr), ?_⟩
        rw [hr]; simp only [ite_self]; unfold inEffect; simp)
    h MAX_LOOPS 0 h s rfl (Nat.zero_le _) ⟨last, hk, .inr (.inl rfl), by rw [if_pos rfl]⟩ (.zero h)
  have hst : m.step nl rnd cfg u h s = (m.cls nl).stepLoop rnd cfg u 0 h s := by
    unfold ASSolver.step
    rw [ASClass.step_nonneg _ _ _ _ hh]
  rw [hst]
  have hle : ∀ k, lastEffect m.etd last h k = if k = h then inEffect m.etd last h else m.etd := fun _ => rfl
  refine ⟨h1, ?_, ?_⟩
  · intro v hu hs hok
    rw [h5, hle]
    rcases h6 with ⟨r, hΦ, ⟨⟨w, h7⟩, h8⟩ | ⟨⟨e, h7⟩, -⟩⟩ | ⟨e, -, h7, -⟩
    · rw [h7] at hok
      simp only [Except.ok.injEq, Prod.mk.injEq] at hok
      obtain ⟨rfl, rfl, rfl⟩ := hok
      rw [h8, ← h4]
      exact (h2.of_ok _ ((hres s0 a _ ⟨last', h2, h3, h4⟩).trans hΦ)).2
    · rw [h7] at hok; simp at hok
    · rw [h7] at hok; simp at hok
  · intro e k' hok hne hk'
    have hsz : (m.step nl rnd cfg u h s).2.sub.hCoeff = some k := by
      rw [hst, h5]; exact m.stages_size nl u k a s0 (kept_first h2)
    obtain rfl : k = k' := by
      rw [hst] at hsz; rw [hsz] at hk'; simpa using hk'
    rw [h5, hle]
    rcases h6 with ⟨r, hΦ, ⟨⟨w, h7⟩, -⟩ | ⟨⟨e, h7⟩, h8⟩⟩ | ⟨e', hΦ, h7, h8⟩
    · rw [h7] at hok; simp at hok
    · rw [h8, ← h4]
      exact (h2.of_ok _ ((hres s0 a _ ⟨last', h2, h3, h4⟩).trans hΦ)).1
    · rw [h7] at hok
      obtain rfl : e' = e := by simpa using hok
      rw [h8, ← h4]
      exact h2.of_error _ hne ((hres s0 a _ ⟨last', h2, h3, h4⟩).trans hΦ)

theorem Continues.kept {m : ASSolver ι} {nl : NlFunc ι} {u : Vec ι} {last : Option (ℝ × ETDConfig ℝ)} {s : m.State}
    (hf : ASSolver.Continues nl m u last s) : m.Kept nl u s.accept last s.sub := by
  induction hf with
  | new m u =>
    refine ⟨?_, m.init_ready nl u⟩
    rcases m with (L | L | ⟨l, S, T, hS⟩) | ⟨cfg, L | L | ⟨l, S, T, hS⟩⟩ | ⟨cfg, L | L | ⟨l, S, T, hS⟩⟩ | L <;> rfl
  | reset m u s =>
    refine ⟨?_, (m.lawful nl).reset_ready _ _⟩
    rcases m with (L | L | ⟨l, S, T, hS⟩) | ⟨cfg, L | L | ⟨l, S, T, hS⟩⟩ | ⟨cfg, L | L | ⟨l, S, T, hS⟩⟩ | L <;> rfl
  | assign c _ ih => exact ih.assign c
  | @step m u v h hu hs rnd cfg last s s' _ hr hst ih =>
    by_cases hh : 0 ≤ h
    · have := (ih.step rnd cfg h hh hr).2.1 v hu hs (by rw [hst])
      rwa [hst] at this
    · unfold ASSolver.step at hst
      rw [ASClass.step_neg _ _ _ _ hh] at hst; simp at hst
  | @retry m u h e rnd cfg last s s' k _ hh hr hst hne hk ih =>
    have := (ih.step rnd cfg h hh hr).2.2 e k (by rw [hst]) hne (by rw [hst]; exact hk)
    rwa [hst] at this
  | @evolve m u v rnd pyDiv cfg fuel t0 tf hInit storeData freq k s s' hev hk =>
    exact ⟨hk, ready_self (ASSolver.Follows.evolve (m := m) hev).ready⟩

end ASSolver

/-- **C65.** After every history of calls and assignments to the attributes of `etd_config`, a `step` of an adaptive solver
is the adaptive step of the specification in which trials of the proposed size use the settings in effect for it (those
of the last trial, if this had the same size) and the trials after a rejection the present ones. -/
theorem C65_step_as (m : ASSolver ι) (nl : NlFunc ι) (u : Vec ι) (last : Option (ℝ × ETDConfig ℝ)) (s : m.State)
    (hf : ASSolver.Continues nl m u last s) (rnd : ℝ → ℝ) (cfg : SolverConfig ℝ) (h : ℝ) (hh : 0 ≤ h)
    (hr : ShrinksFrom rnd cfg h ∨ inEffect m.etd last h = m.etd) :
    StepSpec (m.mixedTrial nl h (inEffect m.etd last h) m.etd) (m.factor nl cfg) cfg rnd u h
      (m.step nl rnd cfg u h s).1 :=
  (hf.kept.step rnd cfg h hh hr).1

/-- **C65.** A step whose size is not that of the last trial uses the present settings throughout. -/
theorem C65_fresh_as (m : ASSolver ι) (nl : NlFunc ι) (u : Vec ι) (last : Option (ℝ × ETDConfig ℝ)) (s : m.State)
    (hf : ASSolver.Continues nl m u last s) (rnd : ℝ → ℝ) (cfg : SolverConfig ℝ) (h : ℝ)
    (hl : ∀ k c, last = some (k, c) → k ≠ h) :
    (m.step nl rnd cfg u h s).1 = (m.step nl rnd cfg u h m.new).1 := by
  by_cases hh : 0 ≤ h
  swap
  · unfold ASSolver.step
    rw [ASClass.step_neg _ _ _ _ hh, ASClass.step_neg _ _ _ _ hh]
  have h2 : inEffect m.etd last h = m.etd := by
    rcases last with _ | ⟨k, d⟩
    · rfl
    · exact inEffect_other _ _ (hl k d rfl).symm
  have h1 := C65_step_as m nl u last s hf rnd cfg h hh (.inr h2)
  have h3 := C65_step_as m nl u none m.new (.new m u) rnd cfg h hh (.inr rfl)
  rw [h2] at h1
  exact h1.det h3

/-- **C65.** A step of the size of the last trial whose first trial is accepted, or raises, uses the settings of that trial
and ignores the present ones. -/
theorem C65_ignored_as (m : ASSolver ι) (nl : NlFunc ι) (u : Vec ι) (c : ETDConfig ℝ) (s : m.State) (h : ℝ)
    (hf : ASSolver.Continues nl m u (some (h, c)) s) (rnd : ℝ → ℝ) (cfg : SolverConfig ℝ) (hh : 0 ≤ h)
    (hr : ShrinksFrom rnd cfg h)
    (hfirst : (∃ e, (m.withEtd c).oneTrial nl h u = .error e) ∨
      ∃ r, (m.withEtd c).oneTrial nl h u = .ok r ∧ Acceptable (m.factor nl cfg r)) :
    (m.step nl rnd cfg u h s).1 = ((m.withEtd c).step nl rnd cfg u h (m.withEtd c).new).1 := by
  have h1 := C65_step_as m nl u _ s hf rnd cfg h hh (.inl hr)
  rw [inEffect_same] at h1
  have h2 := ((m.withEtd c).stepSpec_iff nl rnd cfg u h hh _).mpr rfl
  have h0 : m.mixedTrial nl h c m.etd h u = (m.withEtd c).oneTrial nl h u := by
    unfold ASSolver.mixedTrial; rw [if_pos rfl]
  rcases hfirst with ⟨e, he⟩ | ⟨r, hok, x, hx, hx1⟩
  · rw [StepSpec.det h1 (.raised (Nat.zero_le _) (.zero h) (h0.trans he))]
    exact (StepSpec.det h2 (.raised (Nat.zero_le _) (.zero h) he)).symm
  · rw [StepSpec.det h1 (.accept (Nat.zero_le _) (.zero h) (h0.trans hok) hx hx1)]
    rw [m.withEtd_factor] at h2
    exact (StepSpec.det h2 (.accept (Nat.zero_le _) (.zero h) hok hx hx1)).symm

/-- **C65.** `evolve` uses the present settings. -/
theorem C65_evolve_as (m : ASSolver ι) (nl : NlFunc ι) (s : m.State) (c : ETDConfig ℝ) (rnd : ℝ → ℝ) (pyDiv : Bool)
    (cfg : SolverConfig ℝ) (fuel : ℕ) (u : Vec ι) (t0 tf : ℝ) (hInit : Option ℝ) (storeData : Bool) (freq : ℤ) :
    ((m.withEtd c).evolve nl rnd pyDiv cfg fuel u t0 tf hInit storeData freq (m.keep c s)).1 =
      ((m.withEtd c).evolve nl rnd pyDiv cfg fuel u t0 tf hInit storeData freq (m.withEtd c).new).1 :=
  (C14_evolve_fresh_as (m.withEtd c) nl rnd pyDiv cfg fuel u t0 tf hInit storeData freq _).1

end Verif
