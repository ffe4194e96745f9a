import Verif.Model.Operator
import Verif.Props.Settings

/-!
# When changes of what the coefficients are computed from take effect (property C72)
-/

set_option linter.unusedSectionVars false

namespace Verif

open Matrix

variable {ι : Type} [Fintype ι] [DecidableEq ι]

/-! ### Constant-step solvers -/

/-- `m.Goes nl u last s`: histories of calls and of changes of what the coefficients are computed from (the attributes of
`etd_config`, the contents of `lin_op`), after which this is `m.held`, `u` is the array to continue with and `last` is the
size of the last step since the last `reset`, with what its coefficients were computed from. -/
inductive CSSolver.Goes (nl : NlFunc ι) : (m : CSSolver ι) → Vec ι → Option (ℝ × Held ι) → m.State → Prop
  | new (m u) : Goes nl m u none m.new
  | reset (m u) (s : m.State) : Goes nl m u none (m.reset nl s).2
  | assign {m u last s} (c : Held ι) : Goes nl m u last s → Goes nl (m.withHeld c) u last (m.hold c s)
  | step {m u v h last s s'} : Goes nl m u last s → m.step nl u h s = (.ok v, s') →
      Goes nl m v (some (h, inEffect m.held last h)) s'
  | retry {m u h e last s s'} : Goes nl m u last s → 0 ≤ h → m.step nl u h s = (.error e, s') → e ≠ .linAlgError →
      Goes nl m u (some (h, inEffect m.held last h)) s'
  | evolve {m u v rnd pyDiv fuel t0 tf h storeData freq} {s s' : CSSolver.State m} : t0 < tf →
      m.evolve nl rnd pyDiv fuel u t0 tf h storeData freq s = (.ok (some v), s') →
      Goes nl m v (some (h, m.held)) s'

namespace CSSolver

theorem withHeld_held (m : CSSolver ι) : m.withHeld m.held = m := by
  rcases m with (_ | _) | ⟨_, _ | _⟩ | ⟨_, _ | _⟩ <;> rfl

theorem withHeld_withHeld (m : CSSolver ι) (c c' : Held ι) : (m.withHeld c).withHeld c' = m.withHeld c' := by
  rcases m with (_ | _) | ⟨_, _ | _⟩ | ⟨_, _ | _⟩ <;> rfl

theorem holdSub_hCoeff (m : CSSolver ι) (c : Held ι) (s : m.Sub) : (m.holdSub c s).hCoeff = s.hCoeff := by
  rcases m with (_ | _) | ⟨_, _ | _⟩ | ⟨_, _ | _⟩ <;> rfl

end CSSolver

namespace CSSolver

/-- With coefficients for the size at hand neither settings nor operator are looked at. -/
theorem stages_cachedH (m : CSSolver ι) (nl : NlFunc ι) (c : Held ι) (u : Vec ι) (h : ℝ) (s : m.Sub)
    (hs : s.hCoeff = some h) :
    ((m.withHeld c).cls nl).updateStages u h (m.holdSub c s) =
      (((m.cls nl).updateStages u h s).1, m.holdSub c ((m.cls nl).updateStages u h s).2) := by
  rcases m with (L | L) | ⟨cfg, L | L⟩ | ⟨cfg, L | L⟩
  · exact IF4.updateStages_cached (IF4.diagonal c.vec nl) (IF4.diagonal L nl) rfl rfl u h s hs
  · exact IF4.updateStages_cached (IF4.nonDiagonal c.mat nl) (IF4.nonDiagonal L nl) rfl rfl u h s hs
  · exact IF4.updateStages_cached (ETD4.diagonal c.etd c.vec nl) (ETD4.diagonal cfg L nl) rfl rfl u h s hs
  · exact IF4.updateStages_cached (ETD4.nonDiagonal c.etd c.mat nl) (ETD4.nonDiagonal cfg L nl) rfl rfl u h s hs
  · exact IF4.updateStages_cached (ETD5.diagonal c.etd c.vec nl) (ETD5.diagonal cfg L nl) rfl rfl u h s hs
  · exact IF4.updateStages_cached (ETD5.nonDiagonal c.etd c.mat nl) (ETD5.nonDiagonal cfg L nl) rfl rfl u h s hs

/-- What the attributes of an object satisfy after a history. -/
def Holds (m : CSSolver ι) (nl : NlFunc ι) (u : Vec ι) (last : Option (ℝ × Held ι)) (s : m.Sub) : Prop :=
  s.hCoeff = last.map Prod.fst ∧
    match last with
    | none => (m.lawful nl).Inv s u
    | some (_, c) => ((m.withHeld c).lawful nl).Inv (m.holdSub c s) u

/-- Without coefficients at hand the state does not depend on what they will be computed from. -/
theorem inv_forgetH (m : CSSolver ι) (nl : NlFunc ι) (c : Held ι) (u : Vec ι) (s : m.Sub)
    (hi : ((m.withHeld c).lawful nl).Inv (m.holdSub c s) u) : (m.lawful nl).Inv { s with hCoeff := none } u := by
  rcases m with (L | L) | ⟨cfg, L | L⟩ | ⟨cfg, L | L⟩
  all_goals exact ⟨by simp, hi.2⟩

theorem Holds.assign {m : CSSolver ι} {nl : NlFunc ι} {u : Vec ι} {last : Option (ℝ × Held ι)} {s : m.Sub}
    (hk : m.Holds nl u last s) (c : Held ι) : (m.withHeld c).Holds nl u last (m.holdSub c s) := by
  obtain ⟨h1, h2⟩ := hk
  refine ⟨by rw [holdSub_hCoeff]; exact h1, ?_⟩
  rcases last with _ | ⟨k, d⟩
  · rcases m with (L | L) | ⟨cfg, L | L⟩ | ⟨cfg, L | L⟩
    all_goals exact ⟨fun h hh => absurd (hh.symm.trans h1) (by simp), h2.2⟩
  · rcases m with (L | L) | ⟨cfg, L | L⟩ | ⟨cfg, L | L⟩
    all_goals exact h2

/-- The step that a history is followed by. -/
theorem Holds.result {m : CSSolver ι} {nl : NlFunc ι} {u : Vec ι} {last : Option (ℝ × Held ι)} {s : m.Sub}
    (hk : m.Holds nl u last s) (h : ℝ) :
    ((m.cls nl).updateStages u h s).1 = (m.withHeld (inEffect m.held last h)).oneStep nl h u := by
  obtain ⟨h1, h2⟩ := hk
  rcases last with _ | ⟨k, c⟩
  · show _ = (m.withHeld m.held).oneStep nl h u
    rw [withHeld_held]
    exact (m.lawful nl).result _ _ _ h2
  · by_cases hh : h = k
    · subst hh
      simp only [inEffect, if_true]
      have := m.stages_cachedH nl c u h s h1
      rw [← ((m.withHeld c).lawful nl).result _ _ _ h2, this]
    · simp only [inEffect, if_neg hh]
      rw [withHeld_held, m.stages_forget nl u h s (by rw [h1]; simpa using Ne.symm hh)]
      exact (m.lawful nl).result _ _ _ (m.inv_forgetH nl c u s h2)

theorem inv_selfH {m : CSSolver ι} {nl : NlFunc ι} {u : Vec ι} {s : m.Sub} (hi : (m.lawful nl).Inv s u) :
    ((m.withHeld m.held).lawful nl).Inv (m.holdSub m.held s) u := by
  rcases m with (L | L) | ⟨cfg, L | L⟩ | ⟨cfg, L | L⟩
  all_goals exact hi

theorem Holds.of_ok {m : CSSolver ι} {nl : NlFunc ι} {u v : Vec ι} {last : Option (ℝ × Held ι)} {s : m.Sub}
    (hk : m.Holds nl u last s) (h : ℝ) (hr : ((m.cls nl).updateStages u h s).1 = .ok v) :
    m.Holds nl v (some (h, inEffect m.held last h)) ((m.cls nl).updateStages u h s).2 := by
  refine ⟨m.stages_size nl u h s, ?_⟩
  obtain ⟨h1, h2⟩ := hk
  rcases last with _ | ⟨k, c⟩
  · exact inv_selfH ((m.lawful nl).inv_ok _ _ _ _ h2 (by rw [← (m.lawful nl).result _ _ _ h2]; exact hr))
  · by_cases hh : h = k
    · subst hh
      rw [inEffect_same]
      have := m.stages_cachedH nl c u h s h1
      have h3 := ((m.withHeld c).lawful nl).inv_ok _ u h v h2 (by
        rw [← ((m.withHeld c).lawful nl).result _ _ _ h2, this]; exact hr)
      rwa [this] at h3
    · rw [inEffect_other _ _ hh]
      rw [m.stages_forget nl u h s (by rw [h1]; simpa using Ne.symm hh)] at hr ⊢
      have h4 := m.inv_forgetH nl c u s h2
      exact inv_selfH ((m.lawful nl).inv_ok _ _ _ _ h4 (by rw [← (m.lawful nl).result _ _ _ h4]; exact hr))

theorem Holds.of_error {m : CSSolver ι} {nl : NlFunc ι} {u : Vec ι} {last : Option (ℝ × Held ι)} {s : m.Sub}
    (hk : m.Holds nl u last s) (h : ℝ) {e : PyErr} (he : e ≠ .linAlgError)
    (hr : ((m.cls nl).updateStages u h s).1 = .error e) :
    m.Holds nl u (some (h, inEffect m.held last h)) ((m.cls nl).updateStages u h s).2 := by
  refine ⟨m.stages_size nl u h s, ?_⟩
  obtain ⟨h1, h2⟩ := hk
  rcases last with _ | ⟨k, c⟩
  · have h3 := ((m.lawful nl).result _ _ _ h2).symm.trans hr
    exact inv_selfH ((m.lawful nl).inv_err _ _ _ _ h2 (m.coefOk_of_error nl h3 he) h3)
  · by_cases hh : h = k
    · subst hh
      rw [inEffect_same]
      have := m.stages_cachedH nl c u h s h1
      have h4 : (m.withHeld c).oneStep nl h u = .error e := by
        rw [← ((m.withHeld c).lawful nl).result _ _ _ h2, this]; exact hr
      have h3 := ((m.withHeld c).lawful nl).inv_err _ u h e h2 ((m.withHeld c).coefOk_of_error nl h4 he) h4
      rwa [this] at h3
    · rw [inEffect_other _ _ hh]
      rw [m.stages_forget nl u h s (by rw [h1]; simpa using Ne.symm hh)] at hr ⊢
      have h4 := m.inv_forgetH nl c u s h2
      have h3 := ((m.lawful nl).result _ _ _ h4).symm.trans hr
      exact inv_selfH ((m.lawful nl).inv_err _ _ _ _ h4 (m.coefOk_of_error nl h3 he) h3)

theorem Goes.holds {m : CSSolver ι} {nl : NlFunc ι} {u : Vec ι} {last : Option (ℝ × Held ι)} {s : m.State}
    (hf : CSSolver.Goes nl m u last s) : m.Holds nl u last s.sub := by
  induction hf with
  | new m u =>
    refine ⟨?_, m.init_inv nl u⟩
    rcases m with (L | L) | ⟨cfg, L | L⟩ | ⟨cfg, L | L⟩ <;> rfl
  | reset m u s =>
    refine ⟨?_, (m.lawful nl).reset_inv _ _⟩
    rcases m with (L | L) | ⟨cfg, L | L⟩ | ⟨cfg, L | L⟩ <;> rfl
  | assign c _ ih => exact ih.assign c
  | @step m u v h last s s' _ hst ih =>
    by_cases hh : 0 ≤ h
    · unfold CSSolver.step at hst
      rw [CSClass.step_apply _ _ hh] at hst
      simp only [Prod.mk.injEq] at hst
      rw [← hst.2]
      exact ih.of_ok h hst.1
    · rw [m.step_neg nl u h (not_le.mp hh)] at hst; simp at hst
  | @retry m u h e last s s' _ hh hst hne ih =>
    unfold CSSolver.step at hst
    rw [CSClass.step_apply _ _ hh] at hst
    simp only [Prod.mk.injEq] at hst
    rw [← hst.2]
    exact ih.of_error h hne hst.1
  | @evolve m u v rnd pyDiv fuel t0 tf h storeData freq s s' hlt hev =>
    have hi := (CSSolver.Follows.evolve (m := m) hev).inv
    refine ⟨?_, inv_selfH hi⟩
    unfold CSSolver.evolve at hev
    rw [CSClass.evolve_apply] at hev
    split at hev
    · simp at hev
    · obtain ⟨-, n, h1, h2, h3⟩ := CSClass.loop_inv_with (m.lawful nl) rnd pyDiv h storeData freq v
        (fun k sub => k = 0 ∨ sub.hCoeff = some h) (fun k u v sub _ _ _ => .inr (m.stages_size nl u h sub)) fuel u 0
        ((m.cls nl).start u t0 tf storeData s) ((m.lawful nl).reset_inv _ _) (.inl rfl) (by rw [hev])
      rw [hev] at h3
      rcases h3 with h3 | h3
      · obtain rfl : n = 0 := by omega
        exact absurd hlt h2
      · exact h3

end CSSolver

/-- **C72.** After every history of calls and changes of `lin_op` and `etd_config`, `step` returns what a new solver returns
whose operator and settings are those in effect: if the size is that of the last step, those which that step used,
otherwise the present ones. -/
theorem C72_step_cs (m : CSSolver ι) (nl : NlFunc ι) (u : Vec ι) (last : Option (ℝ × Held ι)) (s : m.State)
    (hf : CSSolver.Goes nl m u last s) (h : ℝ) :
    (m.step nl u h s).1 = ((m.withHeld (inEffect m.held last h)).step nl u h (m.withHeld (inEffect m.held last h)).new).1 := by
  by_cases hh : 0 ≤ h
  · rw [CSSolver.step_new _ nl u h hh]
    unfold CSSolver.step
    rw [CSClass.step_apply _ _ hh]
    exact hf.holds.result h
  · rw [m.step_neg nl u h (not_le.mp hh), CSSolver.step_neg _ nl u h (not_le.mp hh)]

/-- **C72.** In particular: an operator written after a step of size `h` is ignored by all following steps of this
size. -/
theorem C72_ignored_cs (m : CSSolver ι) (nl : NlFunc ι) (u v : Vec ι) (s s' : m.State) (last : Option (ℝ × Held ι))
    (hf : CSSolver.Goes nl m u last s) (h : ℝ) (hl : ∀ k c, last = some (k, c) → k ≠ h)
    (hst : m.step nl u h s = (.ok v, s')) (c : Held ι) :
    ((m.withHeld c).step nl v h (m.hold c s')).1 = (m.step nl v h m.new).1 := by
  have h1 := C72_step_cs _ nl v _ _ ((hf.step hst).assign c) h
  have h2 : inEffect m.held last h = m.held := by
    rcases last with _ | ⟨k, d⟩
    · rfl
    · simp [inEffect, (hl k d rfl).symm]
  rw [h1]
  have h3 : (m.withHeld c).withHeld (inEffect (m.withHeld c).held (some (h, inEffect m.held last h)) h) = m := by
    rw [CSSolver.withHeld_withHeld, h2]
    simp only [inEffect, if_true]
    exact m.withHeld_held
  rw [h3]

/-- **C72.** `evolve` uses the present operator and settings. -/
theorem C72_evolve_cs (m : CSSolver ι) (nl : NlFunc ι) (s : m.State) (c : Held ι) (rnd : ℝ → ℝ) (pyDiv : Bool)
    (fuel : ℕ) (u : Vec ι) (t0 tf h : ℝ) (storeData : Bool) (freq : ℤ) :
    ((m.withHeld c).evolve nl rnd pyDiv fuel u t0 tf h storeData freq (m.hold c s)).1 =
      ((m.withHeld c).evolve nl rnd pyDiv fuel u t0 tf h storeData freq (m.withHeld c).new).1 :=
  (C14_evolve_fresh_cs (m.withHeld c) nl rnd pyDiv fuel u t0 tf h storeData freq _).1

/-! ### Adaptive solvers -/

theorem IF45DP.updateStages_cached (L L' : Vec ι) (nl : NlFunc ι) (u : Vec ι) (h : ℝ) (a : Bool)
    (s : Wrap (ASMethod (If45dpCoef ι) ι)) (hs : s.hCoeff = some h) :
    IF45DP.updateStages L nl u h a s = IF45DP.updateStages L' nl u h a s := by
  unfold IF45DP.updateStages IF45DP.updateCoeffs
  simp only [PyM.bind_apply, PyM.get_apply, hs, if_true]

namespace ASSolver

theorem withHeld_held (m : ASSolver ι) : m.withHeld m.held = m := by
  rcases m with (_ | _ | _) | ⟨_, _ | _ | _⟩ | ⟨_, _ | _ | _⟩ | _ <;> rfl

theorem withHeld_withHeld (m : ASSolver ι) (c c' : Held ι) : (m.withHeld c).withHeld c' = m.withHeld c' := by
  rcases m with (_ | _ | _) | ⟨_, _ | _ | _⟩ | ⟨_, _ | _ | _⟩ | _ <;> rfl

theorem withHeld_factor (m : ASSolver ι) (c : Held ι) (nl : NlFunc ι) (cfg : SolverConfig ℝ) :
    (m.withHeld c).factor nl cfg = m.factor nl cfg := by
  rcases m with (_ | _ | _) | ⟨_, _ | _ | _⟩ | ⟨_, _ | _ | _⟩ | _ <;> rfl

theorem holdSub_hCoeff (m : ASSolver ι) (c : Held ι) (s : m.Sub) : (m.holdSub c s).hCoeff = s.hCoeff := by
  rcases m with (_ | _ | _) | ⟨_, _ | _ | _⟩ | ⟨_, _ | _ | _⟩ | _ <;> rfl

/-- With coefficients for the size at hand neither settings nor operator are looked at. -/
theorem stages_cachedH (m : ASSolver ι) (nl : NlFunc ι) (c : Held ι) (u : Vec ι) (h : ℝ) (a : Bool) (s : m.Sub)
    (hs : s.hCoeff = some h) :
    ((m.withHeld c).cls nl).updateStages u h a (m.holdSub c s) =
      (((m.cls nl).updateStages u h a s).1, m.holdSub c ((m.cls nl).updateStages u h a s).2) := by
  rcases m with (L | L | ⟨l, S, T, hS⟩) | ⟨cfg, L | L | ⟨l, S, T, hS⟩⟩ | ⟨cfg, L | L | ⟨l, S, T, hS⟩⟩ | L
  · exact IF34.updateStages_cached (IF34.diagonal c.vec nl) (IF34.diagonal L nl) rfl rfl u h a s hs
  · exact IF34.updateStages_cached (IF34.nonDiagonal c.mat nl) (IF34.nonDiagonal L nl) rfl rfl u h a s hs
  · rfl
  · exact IF34.updateStages_cached (ETD34.diagonal c.etd c.vec nl) (ETD34.diagonal cfg L nl) rfl rfl u h a s hs
  · exact IF34.updateStages_cached (ETD34.nonDiagonal c.etd c.mat nl) (ETD34.nonDiagonal cfg L nl) rfl rfl u h a s hs
  · exact IF34.updateStages_cached (ETD34.diagonalized c.etd l S T nl) (ETD34.diagonalized cfg l S T nl) rfl rfl u h a s hs
  · exact IF34.updateStages_cached (ETD35.diagonal c.etd c.vec nl) (ETD35.diagonal cfg L nl) rfl rfl u h a s hs
  · exact IF34.updateStages_cached (ETD35.nonDiagonal c.etd c.mat nl) (ETD35.nonDiagonal cfg L nl) rfl rfl u h a s hs
  · exact IF34.updateStages_cached (ETD35.diagonalized c.etd l S T nl) (ETD35.diagonalized cfg l S T nl) rfl rfl u h a s hs
  · exact IF45DP.updateStages_cached c.vec L nl u h a s hs

/-- What the attributes of an object satisfy after a history. -/
def Holds (m : ASSolver ι) (nl : NlFunc ι) (u : Vec ι) (a : Bool) (last : Option (ℝ × Held ι)) (s : m.Sub) : Prop :=
  s.hCoeff = last.map Prod.fst ∧
    match last with
    | none => (m.lawful nl).Ready s a u
    | some (_, c) => ((m.withHeld c).lawful nl).Ready (m.holdSub c s) a u

theorem holds_first {m : ASSolver ι} {nl : NlFunc ι} {u : Vec ι} {a : Bool} {last : Option (ℝ × Held ι)} {s : m.Sub}
    (hk : m.Holds nl u a last s) : s.n1init = false → a = false := by
  obtain ⟨h1, h2⟩ := hk
  rcases last with _ | ⟨k, c⟩
  · simp only at h2
    rw [m.lawful_ready nl] at h2
    exact h2.2.1
  · simp only at h2
    rw [(m.withHeld c).lawful_ready nl] at h2
    rcases m with (L | L | ⟨l, S, T, hS⟩) | ⟨cfg, L | L | ⟨l, S, T, hS⟩⟩ | ⟨cfg, L | L | ⟨l, S, T, hS⟩⟩ | L
    all_goals exact h2.2.1

/-- Without coefficients at hand the state does not depend on what they will be computed from. -/
theorem ready_forgetH (m : ASSolver ι) (nl : NlFunc ι) (c : Held ι) (u : Vec ι) (a : Bool) (s : m.Sub)
    (hi : ((m.withHeld c).lawful nl).Ready (m.holdSub c s) a u) : (m.lawful nl).Ready { s with hCoeff := none } a u := by
  rw [ASSolver.lawful_ready] at hi ⊢
  rcases m with (L | L | ⟨l, S, T, hS⟩) | ⟨cfg, L | L | ⟨l, S, T, hS⟩⟩ | ⟨cfg, L | L | ⟨l, S, T, hS⟩⟩ | L
  all_goals exact ⟨by simp, hi.2⟩

theorem ready_selfH {m : ASSolver ι} {nl : NlFunc ι} {u : Vec ι} {a : Bool} {s : m.Sub}
    (hi : (m.lawful nl).Ready s a u) : ((m.withHeld m.held).lawful nl).Ready (m.holdSub m.held s) a u := by
  rcases m with (L | L | ⟨l, S, T, hS⟩) | ⟨cfg, L | L | ⟨l, S, T, hS⟩⟩ | ⟨cfg, L | L | ⟨l, S, T, hS⟩⟩ | L
  all_goals exact hi

theorem Holds.assign {m : ASSolver ι} {nl : NlFunc ι} {u : Vec ι} {a : Bool} {last : Option (ℝ × Held ι)} {s : m.Sub}
    (hk : m.Holds nl u a last s) (c : Held ι) : (m.withHeld c).Holds nl u a last (m.holdSub c s) := by
  obtain ⟨h1, h2⟩ := hk
  refine ⟨by rw [holdSub_hCoeff]; exact h1, ?_⟩
  rcases last with _ | ⟨k, d⟩
  · simp only at h2 ⊢
    rw [ASSolver.lawful_ready] at h2 ⊢
    rcases m with (L | L | ⟨l, S, T, hS⟩) | ⟨cfg, L | L | ⟨l, S, T, hS⟩⟩ | ⟨cfg, L | L | ⟨l, S, T, hS⟩⟩ | L
    all_goals exact ⟨fun h hh => absurd (hh.symm.trans h1) (by simp), h2.2⟩
  · rcases m with (L | L | ⟨l, S, T, hS⟩) | ⟨cfg, L | L | ⟨l, S, T, hS⟩⟩ | ⟨cfg, L | L | ⟨l, S, T, hS⟩⟩ | L
    all_goals exact h2

/-- The trial that a history is followed by. -/
theorem Holds.result {m : ASSolver ι} {nl : NlFunc ι} {u : Vec ι} {a : Bool} {last : Option (ℝ × Held ι)} {s : m.Sub}
    (hk : m.Holds nl u a last s) (h : ℝ) :
    ((m.cls nl).updateStages u h a s).1 = (m.withHeld (inEffect m.held last h)).oneTrial nl h u := by
  obtain ⟨h1, h2⟩ := hk
  rcases last with _ | ⟨k, c⟩
  · show _ = (m.withHeld m.held).oneTrial nl h u
    rw [withHeld_held]
    exact (m.lawful nl).result _ _ _ _ h2
  · by_cases hh : h = k
    · subst hh
      rw [inEffect_same]
      have := m.stages_cachedH nl c u h a s h1
      rw [← ((m.withHeld c).lawful nl).result _ _ _ _ h2, this]
    · rw [inEffect_other _ _ hh]
      rw [withHeld_held, m.stages_forget nl u h a s (by rw [h1]; simpa using Ne.symm hh)]
      exact (m.lawful nl).result _ _ _ _ (m.ready_forgetH nl c u a s h2)

theorem Holds.of_ok {m : ASSolver ι} {nl : NlFunc ι} {u : Vec ι} {a : Bool} {last : Option (ℝ × Held ι)} {s : m.Sub}
    (hk : m.Holds nl u a last s) (h : ℝ) {r : Vec ι × Vec ι} (hr : ((m.cls nl).updateStages u h a s).1 = .ok r) :
    m.Holds nl u false (some (h, inEffect m.held last h)) ((m.cls nl).updateStages u h a s).2 ∧
    m.Holds nl r.1 true (some (h, inEffect m.held last h)) ((m.cls nl).updateStages u h a s).2 := by
  suffices hs : ((m.withHeld (inEffect m.held last h)).lawful nl).Ready
      (m.holdSub (inEffect m.held last h) ((m.cls nl).updateStages u h a s).2) false u ∧
      ((m.withHeld (inEffect m.held last h)).lawful nl).Ready
      (m.holdSub (inEffect m.held last h) ((m.cls nl).updateStages u h a s).2) true r.1 from
    ⟨⟨m.stages_size nl u h a s (holds_first hk), hs.1⟩, ⟨m.stages_size nl u h a s (holds_first hk), hs.2⟩⟩
  obtain ⟨h1, h2⟩ := hk
  rcases last with _ | ⟨k, c⟩
  · have h3 := (m.lawful nl).ready_ok _ a u h r h2 (by rw [← (m.lawful nl).result _ _ _ _ h2]; exact hr)
    exact ⟨ready_selfH h3.1, ready_selfH h3.2⟩
  · by_cases hh : h = k
    · subst hh
      rw [inEffect_same]
      have := m.stages_cachedH nl c u h a s h1
      have h3 := ((m.withHeld c).lawful nl).ready_ok _ a u h r h2 (by
        rw [← ((m.withHeld c).lawful nl).result _ _ _ _ h2, this]; exact hr)
      rwa [this] at h3
    · rw [inEffect_other _ _ hh]
      rw [m.stages_forget nl u h a s (by rw [h1]; simpa using Ne.symm hh)] at hr ⊢
      have h4 := m.ready_forgetH nl c u a s h2
      have h3 := (m.lawful nl).ready_ok _ a u h r h4 (by rw [← (m.lawful nl).result _ _ _ _ h4]; exact hr)
      exact ⟨ready_selfH h3.1, ready_selfH h3.2⟩

theorem Holds.of_error {m : ASSolver ι} {nl : NlFunc ι} {u : Vec ι} {a : Bool} {last : Option (ℝ × Held ι)} {s : m.Sub}
    (hk : m.Holds nl u a last s) (h : ℝ) {e : PyErr} (he : e ≠ .linAlgError)
    (hr : ((m.cls nl).updateStages u h a s).1 = .error e) :
    m.Holds nl u a (some (h, inEffect m.held last h)) ((m.cls nl).updateStages u h a s).2 := by
  refine ⟨m.stages_size nl u h a s (holds_first hk), ?_⟩
  obtain ⟨h1, h2⟩ := hk
  rcases last with _ | ⟨k, c⟩
  · have h3 := ((m.lawful nl).result _ _ _ _ h2).symm.trans hr
    exact ready_selfH ((m.lawful nl).ready_err _ _ _ _ _ h2 (by
      rw [m.lawful_coefOk nl]; exact m.coefOk_of_error nl h3 he) h3)
  · by_cases hh : h = k
    · subst hh
      rw [inEffect_same]
      have := m.stages_cachedH nl c u h a s h1
      have h4 : (m.withHeld c).oneTrial nl h u = .error e := by
        rw [← ((m.withHeld c).lawful nl).result _ _ _ _ h2, this]; exact hr
      have h3 := ((m.withHeld c).lawful nl).ready_err _ a u h e h2 (by
        rw [ASSolver.lawful_coefOk]; exact (m.withHeld c).coefOk_of_error nl h4 he) h4
      rwa [this] at h3
    · rw [inEffect_other _ _ hh]
      rw [m.stages_forget nl u h a s (by rw [h1]; simpa using Ne.symm hh)] at hr ⊢
      have h4 := m.ready_forgetH nl c u a s h2
      have h3 := ((m.lawful nl).result _ _ _ _ h4).symm.trans hr
      exact ready_selfH ((m.lawful nl).ready_err _ _ _ _ _ h4 (by
        rw [m.lawful_coefOk nl]; exact m.coefOk_of_error nl h3 he) h3)

end ASSolver

/-- The trials of a step with proposed size `h`: those of this size use `c`, the others `d`. -/
noncomputable def ASSolver.mixedTrialH (m : ASSolver ι) (nl : NlFunc ι) (h : ℝ) (c d : Held ι) (k : ℝ) (u : Vec ι) :
    Except PyErr (Vec ι × Vec ι) :=
  open Classical in (m.withHeld (if k = h then c else d)).oneTrial nl k u

/-- Histories of calls and of changes of `lin_op` and `etd_config`, after which these are `m.held`, `u` is the array to
continue with and `last` is the size of the last trial since the last `reset`, with what it used.  After a `step` that returned, the size of its last trial is the size it returned; after one that
raised, and after `evolve`, it is found in the attribute `_h_coeff`. -/
inductive ASSolver.Goes (nl : NlFunc ι) : (m : ASSolver ι) → Vec ι → Option (ℝ × Held ι) → m.State → Prop
  | new (m u) : Goes nl m u none m.new
  | reset (m u) (s : m.State) : Goes nl m u none (m.reset nl s).2
  | assign {m u last s} (c : Held ι) : Goes nl m u last s → Goes nl (m.withHeld c) u last (m.hold c s)
  | step {m u v h hu hs rnd cfg last s s'} : Goes nl m u last s →
      ShrinksFrom rnd cfg h ∨ inEffect m.held last h = m.held → m.step nl rnd cfg u h s = (.ok (v, hu, hs), s') →
      Goes nl m v (some (hu, lastEffect m.held last h hu)) s'
  | retry {m u h e rnd cfg last s s' k} : Goes nl m u last s → 0 ≤ h →
      ShrinksFrom rnd cfg h ∨ inEffect m.held last h = m.held → m.step nl rnd cfg u h s = (.error e, s') →
      e ≠ .linAlgError → s'.sub.hCoeff = some k → Goes nl m u (some (k, lastEffect m.held last h k)) s'
  | evolve {m u v rnd pyDiv cfg fuel t0 tf hInit storeData freq k} {s s' : ASSolver.State m} :
      m.evolve nl rnd pyDiv cfg fuel u t0 tf hInit storeData freq s = (.ok (some v), s') → s'.sub.hCoeff = some k →
      Goes nl m v (some (k, m.held)) s'

namespace ASSolver

/-- One step from a state left behind by a history. -/
theorem Holds.step {m : ASSolver ι} {nl : NlFunc ι} {u : Vec ι} {last : Option (ℝ × Held ι)} {s : m.State}
    (hk : m.Holds nl u s.accept last s.sub) (rnd : ℝ → ℝ) (cfg : SolverConfig ℝ) (h : ℝ) (hh : 0 ≤ h)
    (hr : ShrinksFrom rnd cfg h ∨ inEffect m.held last h = m.held) :
    StepSpec (m.mixedTrialH nl h (inEffect m.held last h) m.held) (m.factor nl cfg) cfg rnd u h (m.step nl rnd cfg u h s).1 ∧
    (∀ v hu hs, (m.step nl rnd cfg u h s).1 = .ok (v, hu, hs) →
      m.Holds nl v (m.step nl rnd cfg u h s).2.accept (some (hu, lastEffect m.held last h hu)) (m.step nl rnd cfg u h s).2.sub) ∧
    (∀ e k, (m.step nl rnd cfg u h s).1 = .error e → e ≠ .linAlgError → (m.step nl rnd cfg u h s).2.sub.hCoeff = some k →
      m.Holds nl u (m.step nl rnd cfg u h s).2.accept (some (k, lastEffect m.held last h k)) (m.step nl rnd cfg u h s).2.sub) := by
  classical
  let P : m.Sub → Bool → ℝ → Prop := fun s a k => ∃ last', m.Holds nl u a last' s ∧ (k < h ∨ k = h ∨ inEffect m.held last h = m.held) ∧
    inEffect m.held last' k = if k = h then inEffect m.held last h else m.held
  have hres : ∀ s a k, P s a k → ((m.cls nl).updateStages u k a s).1 =
      m.mixedTrialH nl h (inEffect m.held last h) m.held k u := by
    rintro s a k ⟨last', h1, -, h2⟩
    rw [h1.result k, h2]
    rfl
  have hfac : ∀ r, (m.cls nl).factor cfg r = m.factor nl cfg r := fun _ => rfl
  obtain ⟨h1, k, a, s0, ⟨last', h2, h3, h4⟩, h5, h6⟩ := ASClass.stepLoop_sized (C := m.cls nl)
    (Φ := m.mixedTrialH nl h (inEffect m.held last h) m.held) P rnd cfg u hres (by
      rintro s a k r ⟨last', h1, h2, h3⟩ hΦ hacc
      have hr' := (hres s a k ⟨last', h1, h2, h3⟩).trans hΦ
      refine ⟨_, (h1.of_ok k hr').1, ?_⟩
      rw [h3]
      rcases hr with hr | hr
      · have hlt : rnd (shrink cfg.decr_f ((m.cls nl).factor cfg r) * k) < h ∨ inEffect m.held last h = m.held := by
          rcases h2 with h2 | rfl | h2
          · exact .inl (hr.lt hh _ h2.le)
          · exact .inl (hr.lt hh _ le_rfl)
          · exact .inr h2
        rcases hlt with hlt | hlt
        · refine ⟨.inl hlt, ?_⟩
          rw [if_neg hlt.ne]
          by_cases hkh : k = h
          · rw [inEffect_other _ _ (fun hc => hlt.ne (hc.trans hkh))]
          · rw [if_neg hkh]
            unfold inEffect; simp
        · refine ⟨.inr (.inr hlt), ?_⟩
          rw [hlt]; simp only [ite_self]; unfold inEffect; simp
      · refine ⟨.inr (.inr hr), ?_⟩
        rw [hr]; simp only [ite_self]; unfold inEffect; simp)
    h MAX_LOOPS 0 h s rfl (Nat.zero_le _) ⟨last, hk, .inr (.inl rfl), by rw [if_pos rfl]⟩ (.zero h)
  have hst : m.step nl rnd cfg u h s = (m.cls nl).stepLoop rnd cfg u 0 h s := by
    unfold ASSolver.step
    rw [ASClass.step_nonneg _ _ _ _ hh]
  rw [hst]
  have hle : ∀ k, lastEffect m.held last h k = if k = h then inEffect m.held last h else m.held := fun _ => rfl
  refine ⟨h1, ?_, ?_⟩
  · intro v hu hs hok
    rw [h5, hle]
    rcases h6 with ⟨r, hΦ, ⟨⟨w, h7⟩, h8⟩ | ⟨⟨e, h7⟩, -⟩⟩ | ⟨e, -, h7, -⟩
    · rw [h7] at hok
      simp only [Except.ok.injEq, Prod.mk.injEq] at hok
      obtain ⟨rfl, rfl, rfl⟩ := hok
      rw [h8, ← h4]
      exact (h2.of_ok _ ((hres s0 a _ ⟨last', h2, h3, h4⟩).trans hΦ)).2
    · rw [h7] at hok; simp at hok
    · rw [h7] at hok; simp at hok
  · intro e k' hok hne hk'
    have hsz : (m.step nl rnd cfg u h s).2.sub.hCoeff = some k := by
      rw [hst, h5]; exact m.stages_size nl u k a s0 (holds_first h2)
    obtain rfl : k = k' := by
      rw [hst] at hsz; rw [hsz] at hk'; simpa using hk'
    rw [h5, hle]
    rcases h6 with ⟨r, hΦ, ⟨⟨w, h7⟩, -⟩ | ⟨⟨e, h7⟩, h8⟩⟩ | ⟨e', hΦ, h7, h8⟩
    · rw [h7] at hok; simp at hok
    · rw [h8, ← h4]
      exact (h2.of_ok _ ((hres s0 a _ ⟨last', h2, h3, h4⟩).trans hΦ)).1
    · rw [h7] at hok
      obtain rfl : e' = e := by simpa using hok
      rw [h8, ← h4]
      exact h2.of_error _ hne ((hres s0 a _ ⟨last', h2, h3, h4⟩).trans hΦ)

theorem Goes.holds {m : ASSolver ι} {nl : NlFunc ι} {u : Vec ι} {last : Option (ℝ × Held ι)} {s : m.State}
    (hf : ASSolver.Goes nl m u last s) : m.Holds nl u s.accept last s.sub := by
  induction hf with
  | new m u =>
    refine ⟨?_, m.init_ready nl u⟩
    rcases m with (L | L | ⟨l, S, T, hS⟩) | ⟨cfg, L | L | ⟨l, S, T, hS⟩⟩ | ⟨cfg, L | L | ⟨l, S, T, hS⟩⟩ | L <;> rfl
  | reset m u s =>
    refine ⟨?_, (m.lawful nl).reset_ready _ _⟩
    rcases m with (L | L | ⟨l, S, T, hS⟩) | ⟨cfg, L | L | ⟨l, S, T, hS⟩⟩ | ⟨cfg, L | L | ⟨l, S, T, hS⟩⟩ | L <;> rfl
  | assign c _ ih => exact ih.assign c
  | @step m u v h hu hs rnd cfg last s s' _ hr hst ih =>
    by_cases hh : 0 ≤ h
    · have := (ih.step rnd cfg h hh hr).2.1 v hu hs (by rw [hst])
      rwa [hst] at this
    · unfold ASSolver.step at hst
      rw [ASClass.step_neg _ _ _ _ hh] at hst; simp at hst
  | @retry m u h e rnd cfg last s s' k _ hh hr hst hne hk ih =>
    have := (ih.step rnd cfg h hh hr).2.2 e k (by rw [hst]) hne (by rw [hst]; exact hk)
    rwa [hst] at this
  | @evolve m u v rnd pyDiv cfg fuel t0 tf hInit storeData freq k s s' hev hk =>
    exact ⟨hk, ready_selfH (ASSolver.Follows.evolve (m := m) hev).ready⟩

end ASSolver

/-- **C72.** After every history of calls and changes of `lin_op` and `etd_config`, a `step` of an adaptive solver is the
adaptive step of the specification in which trials of the proposed size use what is in effect for it (that of the last trial, if this had the same size) and the trials after a rejection the present ones. -/
theorem C72_step_as (m : ASSolver ι) (nl : NlFunc ι) (u : Vec ι) (last : Option (ℝ × Held ι)) (s : m.State)
    (hf : ASSolver.Goes nl m u last s) (rnd : ℝ → ℝ) (cfg : SolverConfig ℝ) (h : ℝ) (hh : 0 ≤ h)
    (hr : ShrinksFrom rnd cfg h ∨ inEffect m.held last h = m.held) :
    StepSpec (m.mixedTrialH nl h (inEffect m.held last h) m.held) (m.factor nl cfg) cfg rnd u h
      (m.step nl rnd cfg u h s).1 :=
  (hf.holds.step rnd cfg h hh hr).1

/-- **C72.** A step whose size is not that of the last trial uses the present operator and settings throughout. -/
theorem C72_fresh_as (m : ASSolver ι) (nl : NlFunc ι) (u : Vec ι) (last : Option (ℝ × Held ι)) (s : m.State)
    (hf : ASSolver.Goes nl m u last s) (rnd : ℝ → ℝ) (cfg : SolverConfig ℝ) (h : ℝ)
    (hl : ∀ k c, last = some (k, c) → k ≠ h) :
    (m.step nl rnd cfg u h s).1 = (m.step nl rnd cfg u h m.new).1 := by
  by_cases hh : 0 ≤ h
  swap
  · unfold ASSolver.step
    rw [ASClass.step_neg _ _ _ _ hh, ASClass.step_neg _ _ _ _ hh]
  have h2 : inEffect m.held last h = m.held := by
    rcases last with _ | ⟨k, d⟩
    · rfl
    · exact inEffect_other _ _ (hl k d rfl).symm
  have h1 := C72_step_as m nl u last s hf rnd cfg h hh (.inr h2)
  have h3 := C72_step_as m nl u none m.new (.new m u) rnd cfg h hh (.inr rfl)
  rw [h2] at h1
  exact h1.det h3

/-- **C72.** A step of the size of the last trial whose first trial is accepted, or raises, uses the operator and the
settings of that trial and ignores the present ones. -/
theorem C72_ignored_as (m : ASSolver ι) (nl : NlFunc ι) (u : Vec ι) (c : Held ι) (s : m.State) (h : ℝ)
    (hf : ASSolver.Goes nl m u (some (h, c)) s) (rnd : ℝ → ℝ) (cfg : SolverConfig ℝ) (hh : 0 ≤ h)
    (hr : ShrinksFrom rnd cfg h)
    (hfirst : (∃ e, (m.withHeld c).oneTrial nl h u = .error e) ∨
      ∃ r, (m.withHeld c).oneTrial nl h u = .ok r ∧ Acceptable (m.factor nl cfg r)) :
    (m.step nl rnd cfg u h s).1 = ((m.withHeld c).step nl rnd cfg u h (m.withHeld c).new).1 := by
  have h1 := C72_step_as m nl u _ s hf rnd cfg h hh (.inl hr)
  rw [inEffect_same] at h1
  have h2 := ((m.withHeld c).stepSpec_iff nl rnd cfg u h hh _).mpr rfl
  have h0 : m.mixedTrialH nl h c m.held h u = (m.withHeld c).oneTrial nl h u := by
    unfold ASSolver.mixedTrialH; rw [if_pos rfl]
  rcases hfirst with ⟨e, he⟩ | ⟨r, hok, x, hx, hx1⟩
  · rw [StepSpec.det h1 (.raised (Nat.zero_le _) (.zero h) (h0.trans he))]
    exact (StepSpec.det h2 (.raised (Nat.zero_le _) (.zero h) he)).symm
  · rw [StepSpec.det h1 (.accept (Nat.zero_le _) (.zero h) (h0.trans hok) hx hx1)]
    rw [m.withHeld_factor] at h2
    exact (StepSpec.det h2 (.accept (Nat.zero_le _) (.zero h) hok hx hx1)).symm

/-- **C72.** `evolve` uses the present operator and settings. -/
theorem C72_evolve_as (m : ASSolver ι) (nl : NlFunc ι) (s : m.State) (c : Held ι) (rnd : ℝ → ℝ) (pyDiv : Bool)
    (cfg : SolverConfig ℝ) (fuel : ℕ) (u : Vec ι) (t0 tf : ℝ) (hInit : Option ℝ) (storeData : Bool) (freq : ℤ) :
    ((m.withHeld c).evolve nl rnd pyDiv cfg fuel u t0 tf hInit storeData freq (m.hold c s)).1 =
      ((m.withHeld c).evolve nl rnd pyDiv cfg fuel u t0 tf hInit storeData freq (m.withHeld c).new).1 :=
  (C14_evolve_fresh_as (m.withHeld c) nl rnd pyDiv cfg fuel u t0 tf hInit storeData freq _).1

/-! ### Writing into the array passed as `lin_op` -/

/-- **C72.** The caller writes into the array passed to the constructor between two steps.  A step of the size of the one
before does not notice; a step of another size is that of a new solver made from the array as it is now, if the object
shares it, and from the array as it was, if the object has a copy. -/
theorem C72_write_step (m : CSSolver ι) (nl : NlFunc ι) (u v : Vec ι) (h k : ℝ) (s' : m.State)
    (hst : m.step nl u h m.new = (.ok v, s')) (c128 : Bool) (vec : Vec ι) (mat : Mat ι) :
    ((m.withHeld (m.heldWrite c128 vec mat)).step nl v k (m.hold (m.heldWrite c128 vec mat) s')).1 =
      (open Classical in
      if k = h then (m.step nl v k m.new).1
      else if m.sharesOp c128 then
        ((m.withHeld ⟨m.held.etd, vec, mat⟩).step nl v k (m.withHeld ⟨m.held.etd, vec, mat⟩).new).1
      else (m.step nl v k m.new).1) := by
  set x := m.heldWrite c128 vec mat with hx
  have hf : CSSolver.Goes nl (m.withHeld x) v (some (h, m.held)) (m.hold x s') :=
    .assign x (.step (last := none) (.new m u) hst)
  have h1 := C72_step_cs _ nl v _ _ hf k
  rw [h1, CSSolver.withHeld_withHeld]
  by_cases hk : k = h
  · subst hk
    rw [if_pos rfl, inEffect_same, CSSolver.withHeld_held]
  · rw [if_neg hk, inEffect_other _ _ hk]
    have h2 : m.withHeld (m.withHeld x).held = m.withHeld x := by
      rw [← m.withHeld_withHeld x, CSSolver.withHeld_held]
    rw [h2]
    by_cases hs : m.sharesOp c128
    · rw [if_pos hs]
      have : x = ⟨m.held.etd, vec, mat⟩ := by rw [hx, CSSolver.heldWrite, if_pos hs]
      rw [this]
    · rw [if_neg hs]
      have : x = m.held := by rw [hx, CSSolver.heldWrite, if_neg hs]
      rw [this, CSSolver.withHeld_held]

/-- **C72.** IF4 goes on with the present contents of the array: `evolve` returns what a new solver returns. -/
theorem C72_write_if4 (L L' : Vec ι) (M M' : Mat ι) (c128 : Bool) (nl : NlFunc ι) (rnd : ℝ → ℝ) (pyDiv : Bool) (fuel : ℕ)
    (u : Vec ι) (t0 tf h : ℝ) (storeData : Bool) (freq : ℤ) :
    (∀ s : (CSSolver.if4 (.diag L)).State,
      (((CSSolver.if4 (.diag L)).withHeld ((CSSolver.if4 (.diag L)).heldWrite c128 L' M')).evolve nl rnd pyDiv fuel u t0 tf h
        storeData freq ((CSSolver.if4 (.diag L)).hold _ s)).1 =
      ((CSSolver.if4 (.diag L')).evolve nl rnd pyDiv fuel u t0 tf h storeData freq (CSSolver.new _)).1) ∧
    ∀ s : (CSSolver.if4 (.full M)).State,
      (((CSSolver.if4 (.full M)).withHeld ((CSSolver.if4 (.full M)).heldWrite c128 L' M')).evolve nl rnd pyDiv fuel u t0 tf h
        storeData freq ((CSSolver.if4 (.full M)).hold _ s)).1 =
      ((CSSolver.if4 (.full M')).evolve nl rnd pyDiv fuel u t0 tf h storeData freq (CSSolver.new _)).1 :=
  ⟨fun s => C72_evolve_cs _ nl s _ rnd pyDiv fuel u t0 tf h storeData freq,
    fun s => C72_evolve_cs _ nl s _ rnd pyDiv fuel u t0 tf h storeData freq⟩

/-- **C72.** ETD4 and ETD5 do so only if the array has dtype `complex128`; a real array has been copied, and `evolve` goes
on with the original contents. -/
theorem C72_write_etd (cfg : ETDConfig ℝ) (L L' : Vec ι) (M' : Mat ι) (c128 : Bool) (nl : NlFunc ι) (rnd : ℝ → ℝ)
    (pyDiv : Bool) (fuel : ℕ) (u : Vec ι) (t0 tf h : ℝ) (storeData : Bool) (freq : ℤ) :
    (∀ s : (CSSolver.etd4 cfg (.diag L)).State,
      (((CSSolver.etd4 cfg (.diag L)).withHeld ((CSSolver.etd4 cfg (.diag L)).heldWrite c128 L' M')).evolve nl rnd pyDiv fuel u
        t0 tf h storeData freq ((CSSolver.etd4 cfg (.diag L)).hold _ s)).1 =
      ((CSSolver.etd4 cfg (.diag (if c128 then L' else L))).evolve nl rnd pyDiv fuel u t0 tf h storeData freq
        (CSSolver.new _)).1) ∧
    ∀ s : (CSSolver.etd5 cfg (.diag L)).State,
      (((CSSolver.etd5 cfg (.diag L)).withHeld ((CSSolver.etd5 cfg (.diag L)).heldWrite c128 L' M')).evolve nl rnd pyDiv fuel u
        t0 tf h storeData freq ((CSSolver.etd5 cfg (.diag L)).hold _ s)).1 =
      ((CSSolver.etd5 cfg (.diag (if c128 then L' else L))).evolve nl rnd pyDiv fuel u t0 tf h storeData freq
        (CSSolver.new _)).1 := by
  constructor <;> intro s <;> rw [C72_evolve_cs] <;> cases c128 <;> rfl

/-- **C72.** The same for `evolve` of the adaptive solvers: those made with `diagonalize=True` never notice. -/
theorem C72_write_as (m : ASSolver ι) (c128 : Bool) (vec : Vec ι) (mat : Mat ι) (nl : NlFunc ι) (rnd : ℝ → ℝ) (pyDiv : Bool)
    (cfg : SolverConfig ℝ) (fuel : ℕ) (u : Vec ι) (t0 tf : ℝ) (hInit : Option ℝ) (storeData : Bool) (freq : ℤ)
    (s : m.State) :
    ((m.withHeld (m.heldWrite c128 vec mat)).evolve nl rnd pyDiv cfg fuel u t0 tf hInit storeData freq (m.hold _ s)).1 =
      ((match m with
        | .if34 (.diag _) => ASSolver.if34 (.diag vec)
        | .if34 (.full _) => .if34 (.full mat)
        | .etd34 c (.diag L) => .etd34 c (.diag (if c128 then vec else L))
        | .etd34 c (.full L) => .etd34 c (.full (if c128 then mat else L))
        | .etd35 c (.diag L) => .etd35 c (.diag (if c128 then vec else L))
        | .etd35 c (.full L) => .etd35 c (.full (if c128 then mat else L))
        | .if45dp _ => .if45dp vec
        | m => m).evolve nl rnd pyDiv cfg fuel u t0 tf hInit storeData freq (ASSolver.new _)).1 := by
  rw [C72_evolve_as]
  rcases m with (L | L | ⟨l, S, T, hS⟩) | ⟨c, L | L | ⟨l, S, T, hS⟩⟩ | ⟨c, L | L | ⟨l, S, T, hS⟩⟩ | L <;> cases c128 <;> rfl

/-! ### Assigning `solver.lin_op` and `solver.nl_func` -/

/-- **C72.** After `solver.lin_op = a`, `solver.nl_func = f`, `evolve` of IF45DP is that of a new solver made with `a` and
`f`; `evolve` of every other adaptive solver is as if nothing had been assigned. -/
theorem C72_rebind_evolve (m : ASSolver ι) (a : Vec ι) (f nl : NlFunc ι) (rnd : ℝ → ℝ) (pyDiv : Bool) (cfg : SolverConfig ℝ)
    (fuel : ℕ) (u : Vec ι) (t0 tf : ℝ) (hInit : Option ℝ) (storeData : Bool) (freq : ℤ) (s : m.State) :
    ((m.withHeld (m.heldRebind a)).evolve (m.nlRebind f nl) rnd pyDiv cfg fuel u t0 tf hInit storeData freq (m.hold _ s)).1 =
      match m with
      | .if45dp _ => ((ASSolver.if45dp a).evolve f rnd pyDiv cfg fuel u t0 tf hInit storeData freq (ASSolver.new _)).1
      | m => (m.evolve nl rnd pyDiv cfg fuel u t0 tf hInit storeData freq m.new).1 := by
  rw [C72_evolve_as]
  rcases m with (L | L | ⟨l, S, T, hS⟩) | ⟨c, L | L | ⟨l, S, T, hS⟩⟩ | ⟨c, L | L | ⟨l, S, T, hS⟩⟩ | L <;> rfl

/-- **C72.** A `step` of IF45DP after `solver.nl_func = f` takes the value of the first stage from the step before, where it
was computed with the old function; so it is the step of a new solver made with `f` if the two functions agree on the
array at hand. -/
theorem C72_rebind_step (L : Vec ι) (f nl : NlFunc ι) (u : Vec ι) (s : (ASSolver.if45dp L).State)
    (hf : (ASSolver.if45dp L).Follows nl u s) (hu : f u = nl u) (rnd : ℝ → ℝ) (cfg : SolverConfig ℝ) (h : ℝ) :
    ((ASSolver.if45dp L).step f rnd cfg u h s).1 = ((ASSolver.if45dp L).step f rnd cfg u h (ASSolver.new _)).1 := by
  refine ASClass.step_congr ((ASSolver.if45dp L).lawful f) rnd cfg u h s _ ?_ ((ASSolver.if45dp L).init_ready f u)
  obtain ⟨h1, h2, h3⟩ := hf.ready
  refine ⟨h1, h2, fun hn => ⟨fun ha => ?_, fun ha => ?_⟩⟩
  · have := (h3 hn).1 ha
    change conj id id nl u = _ at this
    change conj id id f u = _
    rw [conj_id] at this ⊢
    exact hu.trans this
  · have := ((h3 hn).2 ha).1
    rw [conj_id] at this
    exact ⟨by rw [conj_id]; exact hu.trans this, fun h => absurd h (by decide)⟩

/-- Another operator is put in place of the operator of a solver that has just been made: it is used from the first step, by `step` and by
`evolve`. -/
example (x : Held ι) (L u : Vec ι) (nl : NlFunc ι) (cfg : SolverConfig ℝ) (s : (CSSolver.if4 (.diag L)).State)
    (a : (ASSolver.if34 (.diag L)).State) :
    (((CSSolver.if4 (.diag L)).withHeld x).evolve nl id true 100 u 0 1 (1 / 10) true 1 ((CSSolver.if4 (.diag L)).hold x s)).1 =
      ((CSSolver.if4 (.diag x.vec)).evolve nl id true 100 u 0 1 (1 / 10) true 1 (CSSolver.new _)).1 ∧
    (((ASSolver.if34 (.diag L)).withHeld x).evolve nl id true cfg 100 u 0 1 none true 1 ((ASSolver.if34 (.diag L)).hold x a)).1 =
      ((ASSolver.if34 (.diag x.vec)).evolve nl id true cfg 100 u 0 1 none true 1 (ASSolver.new _)).1 :=
  ⟨C72_evolve_cs (.if4 (.diag L)) nl s x id true 100 u 0 1 (1 / 10) true 1, C72_evolve_as (.if34 (.diag L)) nl a x id true cfg 100 u 0 1 none true 1⟩

end Verif
