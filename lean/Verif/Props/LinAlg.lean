import Verif.Lemmas.Retry
import Verif.Props.History

/-!
# `LinAlgError` while computing coefficients (property C19)

The full-matrix ETD solvers invert a matrix at every contour point.  When one of them is singular the call raises, but
the step size has been recorded as done.
-/

set_option linter.unusedSectionVars false

namespace Verif

open Matrix

variable {ι : Type} [Fintype ι] [DecidableEq ι]

/-! ### The step size is recorded before the coefficients are computed -/

/-- **C19.** A step whose coefficients cannot be computed raises `LinAlgError` and records the step size. -/
theorem C19_raises_cs (m : CSSolver ι) (nl : NlFunc ι) (u : Vec ι) (s : m.State) (hf : m.Follows nl u s) (h : ℝ)
    (hh : 0 ≤ h) (hc : ¬ m.CoefOk h) :
    (m.step nl u h s).1 = .error .linAlgError ∧ (m.step nl u h s).2.sub.hCoeff = some h := by
  unfold CSSolver.step
  rw [CSClass.step_apply _ _ hh, m.cls_eq nl]
  obtain ⟨c, hcc⟩ := (m.law nl).wrap_coeffs_err (s := s.sub) hf.inv hc
  have : IF4.updateStages (m.strategy nl) u h s.sub =
      (.error .linAlgError, ⟨s.sub.n1init, some h, ⟨c, s.sub.method.NL1, s.sub.method.evals⟩⟩) := by
    unfold IF4.updateStages; rw [PyM.bind_error hcc]
  show (IF4.updateStages (m.strategy nl) u h s.sub).1 = _ ∧ (IF4.updateStages (m.strategy nl) u h s.sub).2.hCoeff = _
  rw [this]
  exact ⟨rfl, rfl⟩

/-! ### A second call does not raise -/

/-- Every exception of `x` satisfies `P`. -/
def PyM.RaisesOnly {σ α : Type} (P : PyErr → Prop) (x : PyM σ α) : Prop := ∀ s e, (x s).1 = .error e → P e

namespace PyM.RaisesOnly
variable {σ τ α β : Type} {P : PyErr → Prop}

theorem pure (a : α) : PyM.RaisesOnly P (Pure.pure a : PyM σ α) := by intro s e he; simp at he
theorem get : PyM.RaisesOnly P (PyM.get : PyM σ σ) := by intro s e he; simp at he
theorem modify (f : σ → σ) : PyM.RaisesOnly P (PyM.modify f) := by intro s e he; simp at he

theorem bind {x : PyM σ α} {f : α → PyM σ β} (hx : PyM.RaisesOnly P x) (hf : ∀ a, PyM.RaisesOnly P (f a)) :
    PyM.RaisesOnly P (x >>= f) := by
  intro s e he
  rcases hxs : x s with ⟨r | a, s'⟩
  · rw [PyM.bind_error hxs] at he
    exact hx s e (by rw [hxs]; simpa using he)
  · rw [PyM.bind_ok hxs] at he
    exact hf a s' e he

theorem onMethod {Method : Type} {x : PyM Method α} (hx : PyM.RaisesOnly P x) :
    PyM.RaisesOnly P (Wrap.onMethod x) := by
  intro s e he
  exact hx s.method e (by simpa [Wrap.onMethod] using he)

theorem ite {c : Prop} [Decidable c] {x y : PyM σ α} (hx : PyM.RaisesOnly P x) (hy : PyM.RaisesOnly P y) :
    PyM.RaisesOnly P (if c then x else y) := by split <;> assumption

end PyM.RaisesOnly

theorem CSMethod.raises {Coef : Type} (nl : NlFunc ι) (x : Vec ι) :
    PyM.RaisesOnly (fun e => ∃ x, nl x = .error e) (CSMethod.call (Coef := Coef) nl x) := fun _ _ he => ⟨x, he⟩

theorem ASMethod.raises {Coef : Type} (nl : NlFunc ι) (x : Vec ι) :
    PyM.RaisesOnly (fun e => ∃ x, nl x = .error e) (ASMethod.call (Coef := Coef) nl x) := fun _ _ he => ⟨x, he⟩

macro "raises_only" : tactic =>
  `(tactic| repeat first
    | assumption
    | exact PyM.RaisesOnly.pure _
    | exact PyM.RaisesOnly.get
    | exact PyM.RaisesOnly.modify _
    | exact CSMethod.raises _ _
    | exact ASMethod.raises _ _
    | refine PyM.RaisesOnly.ite ?_ ?_
    | refine PyM.RaisesOnly.onMethod ?_
    | (refine PyM.RaisesOnly.bind ?_ fun _ => ?_))

theorem CSSolver.strategy_raises (m : CSSolver ι) (nl : NlFunc ι) (u : Vec ι) (h : ℝ) :
    PyM.RaisesOnly (fun e => ∃ x, nl x = .error e) ((m.strategy nl).n1Init u) ∧
    PyM.RaisesOnly (fun e => ∃ x, nl x = .error e) ((m.strategy nl).updateStages u h) := by
  rcases m with (_ | _) | ⟨_, _ | _⟩ | ⟨_, _ | _⟩ <;> constructor <;>
    simp only [CSSolver.strategy, IF4.diagonal, IF4.nonDiagonal, ETD4.diagonal, ETD4.nonDiagonal, ETD5.diagonal,
      ETD5.nonDiagonal] <;> raises_only

/-- **C19.** Whatever state the object is in: once a step size is recorded, `step` with this size lets only the
exceptions of `nl_func` through.  In particular the repeated call does not raise `LinAlgError`. -/
theorem C19_silent_cs (m : CSSolver ι) (nl : NlFunc ι) (u : Vec ι) (h : ℝ) (hh : 0 ≤ h) (s : m.State)
    (hs : s.sub.hCoeff = some h) (e : PyErr) (he : (m.step nl u h s).1 = .error e) : ∃ x, nl x = .error e := by
  unfold CSSolver.step at he
  rw [CSClass.step_apply _ _ hh, m.cls_eq nl] at he
  change (IF4.updateStages (m.strategy nl) u h s.sub).1 = _ at he
  unfold IF4.updateStages IF4.updateCoeffs at he
  rw [PyM.bind_ok (s' := s.sub) (a := ()) (by simp [hs])] at he
  obtain ⟨r1, r2⟩ := m.strategy_raises nl u h
  refine PyM.RaisesOnly.bind (P := fun e => ∃ x, nl x = .error e) .get (fun _ => ?_) s.sub e he
  raises_only

theorem IF34.raises {Coef : Type} (S : ASStrategy Coef ι) (nl : NlFunc ι) (u : Vec ι) (h : ℝ) (a : Bool)
    (s : Wrap (ASMethod Coef ι)) (hs : s.hCoeff = some h) (e : PyErr)
    (he : (IF34.updateStages S u h a s).1 = .error e)
    (r1 : PyM.RaisesOnly (fun e => ∃ x, nl x = .error e) (S.init u))
    (r2 : PyM.RaisesOnly (fun e => ∃ x, nl x = .error e) (S.updateStages u h a)) : ∃ x, nl x = .error e := by
  unfold IF34.updateStages IF34.updateCoeffs at he
  rw [PyM.bind_ok (s' := s) (a := ()) (by simp [hs])] at he
  refine (?_ : PyM.RaisesOnly (fun e => ∃ x, nl x = .error e) _) s e he
  raises_only

theorem IF45DP.raises (L : Vec ι) (nl : NlFunc ι) (u : Vec ι) (h : ℝ) (a : Bool)
    (s : Wrap (ASMethod (If45dpCoef ι) ι)) (hs : s.hCoeff = some h) (e : PyErr)
    (he : (IF45DP.updateStages L nl u h a s).1 = .error e) : ∃ x, nl x = .error e := by
  unfold IF45DP.updateStages IF45DP.updateCoeffs at he
  rw [PyM.bind_ok (s' := s) (a := ()) (by simp [hs])] at he
  refine (?_ : PyM.RaisesOnly (fun e => ∃ x, nl x = .error e) _) s e he
  unfold IF45DP.stages
  raises_only

theorem ASSolver.cls_raises (m : ASSolver ι) (nl : NlFunc ι) (u : Vec ι) (h : ℝ) (a : Bool) (s : m.Sub)
    (hs : s.hCoeff = some h) (e : PyErr) (he : ((m.cls nl).updateStages u h a s).1 = .error e) :
    ∃ x, nl x = .error e := by
  rcases m with (_ | _ | _) | ⟨_, _ | _ | _⟩ | ⟨_, _ | _ | _⟩ | _
  case if45dp => exact IF45DP.raises _ nl u h a s hs e he
  all_goals
    refine IF34.raises _ nl u h a s hs e he ?_ ?_ <;>
    simp only [IF34.diagonal, IF34.nonDiagonal, IF34.diagonalized, ETD34.diagonal, ETD34.nonDiagonal,
      ETD34.diagonalized, ETD35.diagonal, ETD35.nonDiagonal, ETD35.diagonalized] <;>
    raises_only

/-- **C19.** The first trial of an adaptive step with a recorded step size lets only the exceptions of `nl_func`
through. -/
theorem C19_silent_as (m : ASSolver ι) (nl : NlFunc ι) (u : Vec ι) (h : ℝ) (s : m.State)
    (hs : s.sub.hCoeff = some h) (e : PyErr) (he : (m.trial nl u h s).1 = .error e) : ∃ x, nl x = .error e := by
  unfold ASSolver.trial at he
  rw [ASClass.trial_apply] at he
  exact m.cls_raises nl u h s.accept s.sub hs e he

/-- State of an adaptive solver after a failed computation of coefficients. -/
theorem ASSolver.fails (m : ASSolver ι) (nl : NlFunc ι) (u : Vec ι) (h : ℝ) (a : Bool) (s : m.Sub)
    (hi : (m.lawful nl).Ready s a u) (hc : ¬ m.CoefOk h) :
    ∃ c, (m.cls nl).updateStages u h a s =
      (.error .linAlgError, ⟨s.n1init, some h, { s.method with coef := c }⟩) := by
  rcases m with (_ | L | _) | ⟨cfg, _ | L | _⟩ | ⟨cfg, _ | L | _⟩ | _
  case etd34.full =>
    have hs : s.hCoeff ≠ some h := fun hs => hc (hi.1 h hs).1
    exact ⟨_, (ETD34.nonDiagonal cfg L nl).fails u h a s _ hs (ETD34.fails cfg L nl s.method hc)⟩
  case etd35.full =>
    have hs : s.hCoeff ≠ some h := fun hs => hc (hi.1 h hs).1
    exact ⟨_, (ETD35.nonDiagonal cfg L nl).fails u h a s _ hs (ETD35.fails cfg L nl s.method hc)⟩
  all_goals exact absurd trivial hc

theorem ASSolver.step_fails (m : ASSolver ι) (nl : NlFunc ι) (rnd : ℝ → ℝ) (cfg : SolverConfig ℝ) (u : Vec ι) (h : ℝ)
    (hh : 0 ≤ h) (s : m.State) (hi : (m.lawful nl).Ready s.sub s.accept u) (hc : ¬ m.CoefOk h) :
    m.step nl rnd cfg u h s = (.error .linAlgError, (m.trial nl u h s).2) := by
  obtain ⟨c, hcc⟩ := m.fails nl u h s.accept s.sub hi hc
  unfold ASSolver.step ASSolver.trial
  rw [ASClass.step_nonneg _ _ _ _ hh]
  unfold ASClass.stepLoop
  rw [PyM.bind_error (s' := ((m.cls nl).trial u h s).2) (e := .linAlgError)]
  rw [ASClass.trial_apply, hcc]

/-- **C19.** The same for adaptive solvers. -/
theorem C19_raises_as (m : ASSolver ι) (nl : NlFunc ι) (rnd : ℝ → ℝ) (cfg : SolverConfig ℝ) (u : Vec ι) (s : m.State)
    (hf : m.Follows nl u s) (h : ℝ) (hh : 0 ≤ h) (hc : ¬ m.CoefOk h) :
    (m.step nl rnd cfg u h s).1 = .error .linAlgError ∧ (m.step nl rnd cfg u h s).2.sub.hCoeff = some h := by
  rw [m.step_fails nl rnd cfg u h hh s hf.ready hc]
  refine ⟨rfl, ?_⟩
  obtain ⟨c, hcc⟩ := m.fails nl u h s.accept s.sub hf.ready hc
  unfold ASSolver.trial
  rw [ASClass.trial_apply, ASClass.afterTrial, hcc]

/-! ### What the second call computes -/

/-- **C19.** On a new object the repeated step drops the nonlinear term: it runs the method with all weights zero. -/
theorem C19_fresh_cs (m : CSSolver ι) (nl : NlFunc ι) (u : Vec ι) (h : ℝ) (hh : 0 ≤ h) (hc : ¬ m.CoefOk h) :
    (m.step nl u h (m.step nl u h m.new).2).1 = ((m.method h).zeroed.step nl u).map Prod.fst := by
  unfold CSSolver.step
  rw [CSClass.step_apply _ _ hh, CSClass.step_apply _ _ hh]
  rcases m with (_ | L) | ⟨cfg, _ | L⟩ | ⟨cfg, _ | L⟩
  case etd4.full =>
    exact (ETD4.lawNonDiagonal cfg L nl).retry _ (ETD4.lawZero cfg L nl) rfl
      ((CSSolver.etd4 cfg (.full L)).init_inv nl u) hc (ETD4.fails cfg L nl _ hc)
  case etd5.full =>
    exact (ETD5.lawNonDiagonal cfg L nl).retry _ (ETD5.lawZero cfg L nl) rfl
      ((CSSolver.etd5 cfg (.full L)).init_inv nl u) hc (ETD5.fails cfg L nl _ hc)
  all_goals exact absurd trivial hc

theorem CSSolver.ok_coefs (m : CSSolver ι) (nl : NlFunc ι) (u v : Vec ι) (s s1 : m.State)
    (hf : m.Follows nl u s) (h0 : ℝ) (hst : m.step nl u h0 s = (.ok v, s1)) :
    s1.sub.hCoeff = some h0 ∧ s1.sub.method.coef = (m.law nl).coefs h0 := by
  have hh : 0 ≤ h0 := by
    by_contra hh
    rw [m.step_neg nl u h0 (not_le.mp hh)] at hst; simp at hst
  unfold CSSolver.step at hst
  rw [CSClass.step_apply _ _ hh, m.cls_eq nl] at hst
  change ((IF4.updateStages (m.strategy nl) u h0 s.sub).1,
    { s with sub := (IF4.updateStages (m.strategy nl) u h0 s.sub).2 }) = _ at hst
  have hi : (m.law nl).Inv s.sub u := hf.inv
  by_cases hc : m.CoefOk h0
  swap
  · obtain ⟨s', hs'⟩ := (m.law nl).wrap_linalg hi hc
    rw [hs'] at hst; simp at hst
  rcases hr : (m.method h0).step nl u with e | r
  · obtain ⟨s', hs', _⟩ := (m.law nl).wrap_err hi hc hr
    rw [hs'] at hst; simp at hst
  · obtain ⟨n, hs', _⟩ := (m.law nl).wrap_ok hi hc hr
    rw [hs'] at hst
    simp only [Prod.mk.injEq] at hst
    rw [← hst.2]
    exact ⟨rfl, rfl⟩

/-- **C19.** After a successful step of another size `h0` the repeated step uses the exponentials for `h` together with
the weights for `h0`. -/
theorem C19_previous_cs (m : CSSolver ι) (nl : NlFunc ι) (u v : Vec ι) (s s1 : m.State) (hf : m.Follows nl u s) (h0 h : ℝ)
    (hst : m.step nl u h0 s = (.ok v, s1)) (hh : 0 ≤ h) (hc : ¬ m.CoefOk h) :
    (m.step nl v h (m.step nl v h s1).2).1 = (((m.method h).mixed (m.method h0)).step nl v).map Prod.fst := by
  have hco := m.ok_coefs nl u v s s1 hf h0 hst
  have hi := (CSSolver.Follows.step hf hst).inv
  unfold CSSolver.step
  rw [CSClass.step_apply _ _ hh, CSClass.step_apply _ _ hh]
  clear hst hf s
  rcases m with (_ | L) | ⟨cfg, _ | L⟩ | ⟨cfg, _ | L⟩
  case etd4.full =>
    have h2 : s1.sub.method.coef = ETD4.coefN cfg L h0 := hco.2
    exact (ETD4.lawNonDiagonal cfg L nl).retry _ (ETD4.lawMixed cfg L nl h0) rfl hi hc
      (by rw [← h2]; exact ETD4.fails cfg L nl _ hc)
  case etd5.full =>
    have h2 : s1.sub.method.coef = ETD5.coefN cfg L h0 := hco.2
    exact (ETD5.lawNonDiagonal cfg L nl).retry _ (ETD5.lawMixed cfg L nl h0) rfl hi hc
      (by rw [← h2]; exact ETD5.fails cfg L nl _ hc)
  all_goals exact absurd trivial hc

/-- **C19.** On a new adaptive solver the step that is repeated starts with a trial that drops the nonlinear term and has
error estimate zero. -/
theorem C19_fresh_as (m : ASSolver ι) (nl : NlFunc ι) (rnd : ℝ → ℝ) (cfg : SolverConfig ℝ) (u : Vec ι) (h : ℝ)
    (hh : 0 ≤ h) (hc : ¬ m.CoefOk h) :
    (m.trial nl u h (m.step nl rnd cfg u h m.new).2).1 = (m.method h).zeroed.step nl u := by
  rw [m.step_fails nl rnd cfg u h hh _ (m.init_ready nl u) hc]
  unfold ASSolver.trial
  rw [ASClass.trial_apply, ASClass.trial_apply]
  rcases m with (_ | L | _) | ⟨cfg, _ | L | _⟩ | ⟨cfg, _ | L | _⟩ | _
  case etd34.full =>
    refine ((ETD34.rawNonDiagonal cfg L nl).law.retry _ (ETD34.rawZero cfg L nl).law rfl rfl rfl (a := false)
      ((ASSolver.etd34 cfg (.full L)).init_ready nl u) hc (ETD34.fails cfg L nl _ hc)).trans ?_
    rw [coordStep_id]; rfl
  case etd35.full =>
    refine ((ETD35.rawNonDiagonal cfg L nl).law.retry _ (ETD35.rawZero cfg L nl).law rfl rfl rfl (a := false)
      ((ASSolver.etd35 cfg (.full L)).init_ready nl u) hc (ETD35.fails cfg L nl _ hc)).trans ?_
    rw [coordStep_id]; rfl
  all_goals exact absurd trivial hc

/-- A returning step ends with a trial of the size it reports. -/
theorem ASClass.stepLoop_ends {K V Sub : Type} [Field K] [LinearOrder K] {C : ASClass K V Sub} (rnd : K → K)
    (cfg : SolverConfig K) (u v : V) (hu hs : K) :
    ∀ (d n : ℕ) (h : K) (s : ASState K V Sub), MAX_LOOPS - n = d → n ≤ MAX_LOOPS →
      (C.stepLoop rnd cfg u n h s).1 = .ok (v, hu, hs) →
      ∃ a s0, (C.stepLoop rnd cfg u n h s).2.sub = (C.updateStages u hu a s0).2 := by
  intro d
  induction d with
  | zero =>
    intro n h s hd hn he
    cases hr : (C.updateStages u h s.accept s.sub).1 with
    | error e => rw [stepLoop_error rnd cfg u n h s e hr] at he; simp at he
    | ok r =>
      by_cases hacc : Acceptable (C.factor cfg r)
      · obtain ⟨x, hx, h1⟩ := hacc
        rw [stepLoop_accept rnd cfg u n h s r hr x hx h1] at he ⊢
        simp only [Except.ok.injEq, Prod.mk.injEq] at he
        rw [← he.2.1]
        exact ⟨_, _, rfl⟩
      · rw [stepLoop_reject rnd cfg u n h s r hr hacc, if_pos (by omega)] at he
        simp at he
  | succ d ih =>
    intro n h s hd hn he
    cases hr : (C.updateStages u h s.accept s.sub).1 with
    | error e => rw [stepLoop_error rnd cfg u n h s e hr] at he; simp at he
    | ok r =>
      by_cases hacc : Acceptable (C.factor cfg r)
      · obtain ⟨x, hx, h1⟩ := hacc
        rw [stepLoop_accept rnd cfg u n h s r hr x hx h1] at he ⊢
        simp only [Except.ok.injEq, Prod.mk.injEq] at he
        rw [← he.2.1]
        exact ⟨_, _, rfl⟩
      · rw [stepLoop_reject rnd cfg u n h s r hr hacc, if_neg (by omega)] at he ⊢
        by_cases hmin : rnd (shrink cfg.decr_f (C.factor cfg r) * h) < cfg.minh
        · rw [if_pos hmin] at he; simp at he
        · rw [if_neg hmin] at he ⊢
          exact ih (n + 1) _ _ (by omega) (by omega) he

theorem IF34.records {Coef : Type} (S : ASStrategy Coef ι) (u : Vec ι) (h : ℝ) (a : Bool) (s : Wrap (ASMethod Coef ι)) :
    (IF34.updateStages S u h a s).2.hCoeff = some h := by
  have h1 : ∀ s, (IF34.updateCoeffs S h s).2.hCoeff = some h := by
    intro s
    unfold IF34.updateCoeffs
    simp only [PyM.bind_get_apply]
    split
    · rename_i hh; exact hh.symm
    · rfl
  unfold IF34.updateStages
  rcases hx : IF34.updateCoeffs S h s with ⟨e | _, s1⟩
  · rw [PyM.bind_error hx]; have := h1 s; rwa [hx] at this
  have h2 : s1.hCoeff = some h := by have := h1 s; rwa [hx] at this
  rw [PyM.bind_ok hx]
  simp only [PyM.bind_get_apply]
  split
  · rcases hy : (Wrap.onMethod (S.init u) : PyM _ _) s1 with ⟨e | _, s2⟩
    · rw [PyM.bind_error hy]
      have : s2 = ((Wrap.onMethod (S.init u) : PyM _ _) s1).2 := by rw [hy]
      rw [this]; exact h2
    · rw [PyM.bind_ok hy]
      have : s2 = ((Wrap.onMethod (S.init u) : PyM _ _) s1).2 := by rw [hy]
      rw [this]; exact h2
  · exact h2

/-- **C19.** After a successful adaptive step that used size `hu`, the repeated step starts with a trial that uses the
exponentials for `h` together with the weights for `hu`. -/
theorem C19_previous_as (m : ASSolver ι) (nl : NlFunc ι) (rnd rnd' : ℝ → ℝ) (cfg cfg' : SolverConfig ℝ) (u v : Vec ι)
    (s s1 : m.State) (hf : m.Follows nl u s) (h0 hu hs h : ℝ)
    (hst : m.step nl rnd cfg u h0 s = (.ok (v, hu, hs), s1)) (hh : 0 ≤ h) (hc : ¬ m.CoefOk h) :
    (m.trial nl v h (m.step nl rnd' cfg' v h s1).2).1 = ((m.method h).mixed (m.method hu)).step nl v := by
  have hi := (ASSolver.Follows.step hf hst).ready
  have hlast : ∃ a s0, s1.sub = ((m.cls nl).updateStages u hu a s0).2 := by
    have hh0 : 0 ≤ h0 := by
      by_contra hh
      unfold ASSolver.step at hst
      rw [ASClass.step_neg _ _ _ _ hh] at hst; simp at hst
    unfold ASSolver.step at hst
    rw [ASClass.step_nonneg _ _ _ _ hh0] at hst
    have := ASClass.stepLoop_ends rnd cfg u v hu hs _ 0 h0 s rfl (by omega) (by rw [hst])
    rwa [hst] at this
  rw [m.step_fails nl rnd' cfg' v h hh _ hi hc]
  unfold ASSolver.trial
  rw [ASClass.trial_apply, ASClass.trial_apply]
  clear hst hf s
  obtain ⟨a, s0, hlast⟩ := hlast
  rcases m with (_ | L | _) | ⟨cfg, _ | L | _⟩ | ⟨cfg, _ | L | _⟩ | _
  case etd34.full =>
    have h1 : s1.sub.hCoeff = some hu := by rw [hlast]; exact IF34.records _ _ _ _ _
    have h2 : s1.sub.method.coef = ETD34.coefN cfg L hu := (hi.1 hu h1).2
    refine ((ETD34.rawNonDiagonal cfg L nl).law.retry _ (ETD34.rawMixed cfg L nl hu).law rfl rfl rfl
      hi hc (by rw [← h2]; exact ETD34.fails cfg L nl _ hc)).trans ?_
    rw [coordStep_id]; rfl
  case etd35.full =>
    have h1 : s1.sub.hCoeff = some hu := by rw [hlast]; exact IF34.records _ _ _ _ _
    have h2 : s1.sub.method.coef = ETD35.coefN cfg L hu := (hi.1 hu h1).2
    refine ((ETD35.rawNonDiagonal cfg L nl).law.retry _ (ETD35.rawMixed cfg L nl hu).law rfl rfl rfl
      hi hc (by rw [← h2]; exact ETD35.fails cfg L nl _ hc)).trans ?_
    rw [coordStep_id]; rfl
  all_goals exact absurd trivial hc

theorem ERK.stages_total (M : ERK ι) (f : Vec ι → Vec ι) (u : Vec ι) (i : ℕ) :
    ∃ N, M.stages (fun x => .ok (f x)) u i = .ok N := by
  induction i with
  | zero => exact ⟨0, rfl⟩
  | succ i ih =>
    obtain ⟨N, hN⟩ := ih
    rw [ERK.stages, hN]
    exact ⟨_, rfl⟩

/-- The step without weights is the exponential alone, with error estimate zero. -/
theorem ERK.zeroed_step (M : ERK ι) (f : Vec ι → Vec ι) (u : Vec ι) :
    M.zeroed.step (fun x => .ok (f x)) u = .ok (M.Eout *ᵥ u, 0) := by
  obtain ⟨N, hN⟩ := M.zeroed.stages_total f u M.s
  have : M.zeroed.stages (fun x => .ok (f x)) u M.zeroed.s = .ok N := hN
  unfold ERK.step
  rw [this]
  simp [ERK.out, ERK.err, ERK.zeroed]

theorem CSSolver.method_Eout (m : CSSolver ι) (h : ℝ) : (m.method h).Eout = expm m.op.mat h := by
  rcases m with L | ⟨_, L⟩ | ⟨_, L⟩ <;> rfl

/-- **C19.** If `nl_func` does not raise, the step repeated on a new object returns `exp(h L) u`: the nonlinear term has
disappeared. -/
theorem C19_dropped_cs (m : CSSolver ι) (f : Vec ι → Vec ι) (u : Vec ι) (h : ℝ) (hh : 0 ≤ h) (hc : ¬ m.CoefOk h) :
    (m.step (fun x => .ok (f x)) u h m.new).1 = .error .linAlgError ∧
    (m.step (fun x => .ok (f x)) u h (m.step (fun x => .ok (f x)) u h m.new).2).1 = .ok (expm m.op.mat h *ᵥ u) := by
  refine ⟨(C19_raises_cs m _ u _ (.new u) h hh hc).1, ?_⟩
  rw [C19_fresh_cs m _ u h hh hc, ERK.zeroed_step, m.method_Eout]
  rfl

/-! ### Recovery -/

theorem CSStrategy.recompute {Coef : Type} (S : CSStrategy Coef ι) (u : Vec ι) (h : ℝ) (s : Wrap (CSMethod Coef ι))
    (hs : s.hCoeff ≠ some h) : IF4.updateStages S u h s = IF4.updateStages S u h { s with hCoeff := none } := by
  unfold IF4.updateStages IF4.updateCoeffs
  simp only [PyM.bind_apply, PyM.get_apply, if_neg (Ne.symm hs), reduceCtorEq, if_false, PyM.modify_apply]

theorem ASStrategy.recompute {Coef : Type} (S : ASStrategy Coef ι) (u : Vec ι) (h : ℝ) (a : Bool)
    (s : Wrap (ASMethod Coef ι)) (hs : s.hCoeff ≠ some h) :
    IF34.updateStages S u h a s = IF34.updateStages S u h a { s with hCoeff := none } := by
  unfold IF34.updateStages IF34.updateCoeffs
  simp only [PyM.bind_apply, PyM.get_apply, if_neg (Ne.symm hs), reduceCtorEq, if_false, PyM.modify_apply]

/-- **C19.** A step of another size computes its coefficients and gives the result of a new object. -/
theorem C19_other_size_cs (m : CSSolver ι) (nl : NlFunc ι) (u : Vec ι) (s : m.State) (hf : m.Follows nl u s) (h h' : ℝ)
    (hh : 0 ≤ h) (hc : ¬ m.CoefOk h) (hne : h' ≠ h) :
    (m.step nl u h' (m.step nl u h s).2).1 = (m.step nl u h' m.new).1 := by
  by_cases hh' : 0 ≤ h'
  swap
  · rw [m.step_neg nl u h' (not_le.mp hh'), m.step_neg nl u h' (not_le.mp hh')]
  rw [m.step_new nl u h' hh']
  have hi : (m.law nl).Inv s.sub u := hf.inv
  obtain ⟨c, hcc⟩ := (m.law nl).wrap_coeffs_err hi hc
  have hst : m.step nl u h s =
      (.error .linAlgError, { s with sub := ⟨s.sub.n1init, some h, ⟨c, s.sub.method.NL1, s.sub.method.evals⟩⟩ }) := by
    have : IF4.updateStages (m.strategy nl) u h s.sub =
        (.error .linAlgError, ⟨s.sub.n1init, some h, ⟨c, s.sub.method.NL1, s.sub.method.evals⟩⟩) := by
      unfold IF4.updateStages; rw [PyM.bind_error hcc]
    unfold CSSolver.step
    rw [CSClass.step_apply _ _ hh, m.cls_eq nl]
    show ((IF4.updateStages (m.strategy nl) u h s.sub).1, _) = _
    simp only [this]
    show (_, { s with sub := (IF4.updateStages (m.strategy nl) u h s.sub).2 }) = _
    rw [this]
  rw [hst]
  have key : (m.cls nl).updateStages u h' ⟨s.sub.n1init, some h, ⟨c, s.sub.method.NL1, s.sub.method.evals⟩⟩ =
      (m.cls nl).updateStages u h' ⟨s.sub.n1init, none, ⟨c, s.sub.method.NL1, s.sub.method.evals⟩⟩ := by
    rw [m.cls_eq nl]
    exact (m.strategy nl).recompute u h' _ (by simpa using hne.symm)
  unfold CSSolver.step
  rw [CSClass.step_apply _ _ hh', key]
  exact (m.lawful nl).result _ u h' (show (m.law nl).Inv _ u from ⟨by simp, hi.2⟩)

/-- Invariance of the trial loop under equality of the first trial. -/
theorem ASClass.stepLoop_congr_first {K V Sub : Type} [Field K] [LinearOrder K] {C : ASClass K V Sub} (rnd : K → K)
    (cfg : SolverConfig K) (u : V) (n : ℕ) (h : K) (s s' : ASState K V Sub) (ht : C.trial u h s = C.trial u h s') :
    C.stepLoop rnd cfg u n h s = C.stepLoop rnd cfg u n h s' := by
  unfold ASClass.stepLoop
  simp only [PyM.bind_apply, ht]

/-- **C19.** The same for adaptive solvers. -/
theorem C19_other_size_as (m : ASSolver ι) (nl : NlFunc ι) (rnd rnd' : ℝ → ℝ) (cfg cfg' : SolverConfig ℝ) (u : Vec ι)
    (s : m.State) (hf : m.Follows nl u s) (h h' : ℝ) (hh : 0 ≤ h) (hc : ¬ m.CoefOk h) (hne : h' ≠ h) :
    (m.step nl rnd' cfg' u h' (m.step nl rnd cfg u h s).2).1 = (m.step nl rnd' cfg' u h' m.new).1 := by
  by_cases hh' : 0 ≤ h'
  swap
  · unfold ASSolver.step; rw [ASClass.step_neg _ _ _ _ hh', ASClass.step_neg _ _ _ _ hh']
  have hi := hf.ready
  rw [m.step_fails nl rnd cfg u h hh s hi hc]
  obtain ⟨c, hcc⟩ := m.fails nl u h s.accept s.sub hi hc
  unfold ASSolver.trial
  rw [ASClass.trial_apply, ASClass.afterTrial, hcc]
  have hready : (m.lawful nl).Ready (⟨s.sub.n1init, none, { s.sub.method with coef := c }⟩ : m.Sub) s.accept u ∧
      (m.cls nl).updateStages u h' s.accept ⟨s.sub.n1init, some h, { s.sub.method with coef := c }⟩ =
      (m.cls nl).updateStages u h' s.accept ⟨s.sub.n1init, none, { s.sub.method with coef := c }⟩ := by
    clear hcc hf
    rcases m with (_ | L | _) | ⟨cfg, _ | L | _⟩ | ⟨cfg, _ | L | _⟩ | _
    case etd34.full =>
      exact ⟨⟨by simp, hi.2.1, fun hn => ⟨fun ha => (hi.2.2 hn).1 ha, fun ha => (hi.2.2 hn).2 ha⟩⟩,
        (ETD34.nonDiagonal cfg L nl).recompute u h' _ _ (by simpa using hne.symm)⟩
    case etd35.full =>
      exact ⟨⟨by simp, hi.2.1, fun hn => ⟨fun ha => (hi.2.2 hn).1 ha, fun ha => (hi.2.2 hn).2 ha⟩⟩,
        (ETD35.nonDiagonal cfg L nl).recompute u h' _ _ (by simpa using hne.symm)⟩
    all_goals exact absurd trivial hc
  have := ASClass.step_congr (m.lawful nl) rnd' cfg' u h'
    { s with trials := s.trials + 1
             sub := ⟨s.sub.n1init, none, { s.sub.method with coef := c }⟩ } m.new hready.1 (m.init_ready nl u)
  unfold ASSolver.step
  rw [← this, ASClass.step_nonneg _ _ _ _ hh', ASClass.step_nonneg _ _ _ _ hh']
  congr 1
  apply ASClass.stepLoop_congr_first
  rw [ASClass.trial_apply, ASClass.trial_apply, ASClass.afterTrial, ASClass.afterTrial]
  simp only [hready.2]

/-! ### Witnesses -/

/-- A 1 × 1 operator that is a contour point: the coefficients for `h = 1` cannot be computed. -/
noncomputable def badOp (cfg : ETDConfig ℝ) : Mat (Fin 1) := fun _ _ => node cfg.contour_radius cfg.contour_points.toNat 0

theorem badOp_not_ok (cfg : ETDConfig ℝ) (hN : 0 < cfg.contour_points.toNat) (cs : List ℝ) (h1 : 1 ∈ cs) :
    ¬ ContourOk cfg.contour_radius cfg.contour_points.toNat (badOp cfg) cs 1 := by
  intro h
  have := h 0 hN 1 h1
  simp [badOp] at this

theorem badOp_ok_zero (cfg : ETDConfig ℝ) (hR : cfg.contour_radius ≠ 0) (cs : List ℝ) :
    ContourOk cfg.contour_radius cfg.contour_points.toNat (badOp cfg) cs 0 := by
  intro m hm c hc
  have : node cfg.contour_radius cfg.contour_points.toNat m ≠ 0 := by simp [node, hR, Complex.exp_ne_zero]
  simp [this]

/-- C19 for ETD5 and ETD35, after a step of size zero: the step of size one raises and is recorded; repeated, it uses the new
exponentials with the old coefficients; other sizes are not affected. -/
example (f : Vec (Fin 1) → Vec (Fin 1)) (u : Vec (Fin 1)) (cfg : SolverConfig ℝ) (hu hs : ℝ) (e : PyErr) :
    (let m := CSSolver.etd5 ⟨1 / 100, 32, 1⟩ (.full (badOp ⟨1 / 100, 32, 1⟩))
     ((m.step (fun x => .ok (f x)) u 1 m.new).1 = .error .linAlgError ∧ (m.step (fun x => .ok (f x)) u 1 m.new).2.sub.hCoeff = some 1) ∧
     (m.step (fun x => .ok (f x)) u 1 (m.step (fun x => .ok (f x)) u 1 m.new).2).1 = ((m.method 1).zeroed.step (fun x => .ok (f x)) u).map Prod.fst ∧
     (m.step (fun x => .ok (f x)) u 1 (m.step (fun x => .ok (f x)) u 1 m.new).2).1 ≠ .error e ∧
     ∀ v s1, m.step (fun x => .ok (f x)) u 0 m.new = (.ok v, s1) →
      (m.step (fun x => .ok (f x)) v 1 (m.step (fun x => .ok (f x)) v 1 s1).2).1 = (((m.method 1).mixed (m.method 0)).step (fun x => .ok (f x)) v).map Prod.fst) ∧
    (let m := ASSolver.etd35 ⟨1 / 100, 32, 1⟩ (.full (badOp ⟨1 / 100, 32, 1⟩))
     (m.step (fun x => .ok (f x)) id cfg u 0 (m.step (fun x => .ok (f x)) id cfg u 1 m.new).2).1 = (m.step (fun x => .ok (f x)) id cfg u 0 m.new).1 ∧
     (m.trial (fun x => .ok (f x)) u 1 (m.step (fun x => .ok (f x)) id cfg u 1 m.new).2).1 ≠ .error e ∧
     ∀ v s1, m.step (fun x => .ok (f x)) id cfg u 0 m.new = (.ok (v, hu, hs), s1) →
      (m.trial (fun x => .ok (f x)) v 1 (m.step (fun x => .ok (f x)) id cfg v 1 s1).2).1 = ((m.method 1).mixed (m.method hu)).step (fun x => .ok (f x)) v) := by
  have hb : ∀ cs, 1 ∈ cs → ¬ LinOp.CoefOk (⟨1 / 100, 32, 1⟩ : ETDConfig ℝ) cs 1 (.full (badOp ⟨1 / 100, 32, 1⟩)) :=
    fun cs hc => badOp_not_ok ⟨1 / 100, 32, 1⟩ (by simp) cs hc
  have hc : ¬ (CSSolver.etd5 ⟨1 / 100, 32, 1⟩ (.full (badOp ⟨1 / 100, 32, 1⟩))).CoefOk 1 := hb _ (by simp)
  have ha : ¬ (ASSolver.etd35 ⟨1 / 100, 32, 1⟩ (.full (badOp ⟨1 / 100, 32, 1⟩))).CoefOk 1 := hb _ (by simp)
  have hr := C19_raises_cs _ (fun x => .ok (f x)) u _ (.new u) 1 zero_le_one hc
  have hra := C19_raises_as _ (fun x => .ok (f x)) id cfg u _ (.new u) 1 zero_le_one ha
  refine ⟨⟨hr, C19_fresh_cs _ _ u 1 zero_le_one hc, fun h => ?_, fun v s1 h => ?_⟩, ?_, fun h => ?_, fun v s1 h => ?_⟩
  · obtain ⟨x, hx⟩ := C19_silent_cs _ (fun x => .ok (f x)) u 1 zero_le_one _ hr.2 e h
    simp at hx
  · exact C19_previous_cs _ _ u v _ s1 (.new u) 0 1 h zero_le_one hc
  · exact C19_other_size_as _ _ id id cfg cfg u _ (.new u) 1 0 zero_le_one ha zero_ne_one
  · obtain ⟨x, hx⟩ := C19_silent_as _ (fun x => .ok (f x)) u 1 _ hra.2 e h
    simp at hx
  · exact C19_previous_as _ _ id id cfg cfg u v _ s1 (.new u) 0 hu hs 1 h zero_le_one ha

/-- The default `ETDConfig`. -/
noncomputable def etdDefault : ETDConfig ℝ := ⟨1 / 100, 32, 1⟩

/-- ETD4 with the bad operator: the first step of size 1 raises, the second one silently returns `e^L u`, and a step of
size 0 after the failure is again right. -/
example (f : Vec (Fin 1) → Vec (Fin 1)) (u : Vec (Fin 1)) :
    let m := CSSolver.etd4 etdDefault (.full (badOp etdDefault))
    let nl : NlFunc (Fin 1) := fun x => .ok (f x)
    (m.step nl u 1 m.new).1 = .error .linAlgError ∧
    (m.step nl u 1 (m.step nl u 1 m.new).2).1 = .ok (expm (badOp etdDefault) 1 *ᵥ u) ∧
    (m.step nl u 0 (m.step nl u 1 m.new).2).1 = (m.step nl u 0 m.new).1 := by
  have hb : ¬ (CSSolver.etd4 etdDefault (.full (badOp etdDefault))).CoefOk 1 :=
    badOp_not_ok etdDefault (by simp [etdDefault]) _ (by simp)
  refine ⟨?_, ?_, ?_⟩
  · exact (C19_dropped_cs _ f u 1 (by norm_num) hb).1
  · exact (C19_dropped_cs _ f u 1 (by norm_num) hb).2
  · exact C19_other_size_cs _ _ u _ (.new u) 1 0 (by norm_num) hb (by norm_num)

/-- A step of size 0 that succeeds followed by the failing size: the hypotheses of `C19_previous_cs` can be met. -/
example (f : Vec (Fin 1) → Vec (Fin 1)) (u : Vec (Fin 1)) :
    let m := CSSolver.etd5 etdDefault (.full (badOp etdDefault))
    ∃ v s1, m.step (fun x => .ok (f x)) u 0 m.new = (.ok v, s1) ∧ ¬ m.CoefOk 1 := by
  intro m
  have hc : m.CoefOk 0 := badOp_ok_zero etdDefault (by simp [etdDefault]) _
  have hs := m.step_new (fun x => .ok (f x)) u 0 le_rfl
  unfold CSSolver.oneStep at hs
  rw [if_pos hc] at hs
  obtain ⟨N, hN⟩ := (m.method 0).stages_total f u (m.method 0).s
  unfold ERK.step at hs
  rw [hN] at hs
  exact ⟨_, _, Prod.ext hs rfl, badOp_not_ok etdDefault (by simp [etdDefault]) _ (by simp)⟩

/-- ETD35 with the bad operator: the step raises and records the step size; the trial that follows has error estimate
zero. -/
example (f : Vec (Fin 1) → Vec (Fin 1)) (u : Vec (Fin 1)) (rnd : ℝ → ℝ) (cfg : SolverConfig ℝ) :
    let m := ASSolver.etd35 etdDefault (.full (badOp etdDefault))
    let nl : NlFunc (Fin 1) := fun x => .ok (f x)
    (m.step nl rnd cfg u 1 m.new).1 = .error .linAlgError ∧
    (m.trial nl u 1 (m.step nl rnd cfg u 1 m.new).2).1 = .ok (expm (badOp etdDefault) 1 *ᵥ u, 0) := by
  have hb : ¬ (ASSolver.etd35 etdDefault (.full (badOp etdDefault))).CoefOk 1 :=
    badOp_not_ok etdDefault (by simp [etdDefault]) _ (by simp)
  refine ⟨(C19_raises_as _ _ rnd cfg u _ (.new u) 1 (by norm_num) hb).1, ?_⟩
  have := C19_fresh_as _ (fun x => .ok (f x)) rnd cfg u 1 (by norm_num) hb
  rw [ERK.zeroed_step] at this
  exact this

end Verif
