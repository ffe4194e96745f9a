import Verif.Lemmas.BroadcastTags

/-!
# Matrices and arrays that do not fit
-/

set_option linter.unusedSectionVars false

namespace Verif

variable {N : ℕ}

/-- Operations on arrays that only differ in `dot`, which raises. -/
def ArrOps.units (N : ℕ) : ArrOps (Fin N) Unit where
  add _ _ := .ok ()
  sub _ _ := .ok ()
  mul _ _ := .ok ()
  neg _ := .ok ()
  quot _ _ := .ok ()
  scalar _ := ()
  vec _ := ()
  dot _ _ := .error .valueError

/-- The shape of an array. -/
def UnitRel (s : List ℕ) : Kind → NdArr ℂ → Unit → Prop
  | .scal, x, _ => x.shape = []
  | .coef, _, _ => False
  | .arr, x, _ => x.shape = s

theorem elementwise_unit {s : List ℕ} (g : ℂ → ℂ → ℂ) {k l : Kind} {x y : NdArr ℂ} {t r : Unit} (hx : UnitRel s k x t)
    (hy : UnitRel s l y r) : RelE (UnitRel s (k.join l)) (NdArr.elementwise g x y) (.ok ()) := by
  have key : ∀ d, bcShape x.shape y.shape = some d → (UnitRel s (k.join l) ⟨d, fun _ => 0⟩ ()) →
      RelE (UnitRel s (k.join l)) (NdArr.elementwise g x y) (.ok ()) := by
    intro d h1 h2
    simp only [NdArr.elementwise, h1]
    revert h2
    cases k.join l <;> exact fun h2 => h2
  cases k <;> cases l <;> simp only [UnitRel] at hx hy
  · exact key [] (by rw [hx, hy]; rfl) rfl
  · exact key s (by rw [hx, hy]; exact (bcShape_of_fits (.nil _)).1) rfl
  · exact key s (by rw [hx, hy]; exact (bcShape_of_fits (.nil _)).2) rfl
  · exact key s (by rw [hx, hy]; exact bcShape_self _) rfl

theorem unitOps {s : List ℕ} (hs : ∀ (M : Mat (Fin N)) (x : NdArr ℂ), x.shape = s → NdArr.matDot M x = .error .valueError) :
    RelOps true (UnitRel s) (ArrOps.numpy N) (ArrOps.units N) where
  add _ _ _ _ _ _ hx hy := elementwise_unit _ hx hy
  sub _ _ _ _ _ _ hx hy := elementwise_unit _ hx hy
  mul _ _ _ _ _ _ hx hy := elementwise_unit _ hx hy
  neg k _ _ hx := by cases k <;> exact hx
  quot k _ _ n hx := by cases k <;> exact hx
  scalar z := rfl
  dot _ M x _ hx := by
    show RelE _ (NdArr.matDot M x) _
    rw [hs M x hx]
    rfl

theorem CSSolver.unit_step (m : CSSolver (Fin N)) {L : Mat (Fin N)} (hm : m.op = .full L) {s : List ℕ}
    (hs : ∀ (M : Mat (Fin N)) (x : NdArr ℂ), x.shape = s → NdArr.matDot M x = .error .valueError)
    {nl : NdArr ℂ → Except PyErr (NdArr ℂ)} (hnl : ∀ x, x.shape = s → ∃ y, nl x = .ok y ∧ y.shape = s) {h : ℝ} (hc : m.CoefOk h)
    {u : NdArr ℂ} (hu : u.shape = s) : m.rprog.aStep m.ndEnv nl h u = .error .valueError := by
  have := RCSProg.aStep_rel (P := m.rprog) (F := m.ndEnv) (F' := ⟨ArrOps.units N, (m.env Arith.exact).coefs⟩) (h := h)
    (unitOps hs) (nl := nl) (nl' := fun t => .ok t) (fun x _ hx => by
      obtain ⟨y, h1, h2⟩ := hnl x hx
      rw [h1]
      exact h2) m.stages_kinded (by
      unfold CoefsRel
      show RelE _ ((m.env Arith.exact).coefs h) ((m.env Arith.exact).coefs h)
      cases (m.env Arith.exact).coefs h with
      | error e => rfl
      | ok c => exact fun i hi => ⟨by simp [stages_full hm i hi], fun _ _ => rfl⟩)
    (u := u) (u' := ()) hu
  have he : m.rprog.aStep ⟨ArrOps.units N, (m.env Arith.exact).coefs⟩ (fun t => .ok t) h () = .error .valueError := by
    rcases m with (L | L) | ⟨cfg, L | L⟩ | ⟨cfg, L | L⟩ <;>
      first
      | (cases hm; done)
      | (unfold RCSProg.aStep; simp only [env]; rw [if_pos hc]; rfl)
  rw [he] at this
  cases hx : m.rprog.aStep m.ndEnv nl h u with
  | error e => rw [hx] at this; rw [show e = PyErr.valueError from this]
  | ok v => rw [hx] at this; exact this.elim

theorem ASSolver.unit_trial (m : ASSolver (Fin N)) {s : List ℕ} (hm : ∀ lam, m.op ≠ .diag lam)
    (hs : ∀ (M : Mat (Fin N)) (x : NdArr ℂ), x.shape = s → NdArr.matDot M x = .error .valueError)
    (hv : ∀ i ∈ m.rprog.stages, i.vecs = [])
    {nl : NdArr ℂ → Except PyErr (NdArr ℂ)} (hnl : ∀ x, x.shape = s → ∃ y, nl x = .ok y ∧ y.shape = s) {h : ℝ} (hc : m.CoefOk h)
    {u : NdArr ℂ} (hu : u.shape = s) : m.rprog.aTrial m.ndEnv checkS nl h u = .error .valueError := by
  have := RASProg.aTrial_rel (P := m.rprog) (F := m.ndEnv) (F' := ⟨ArrOps.units N, (m.env Arith.exact).coefs⟩) (h := h)
    (check := checkS) (check' := fun _ _ => checkS ⟨s, fun _ => 0⟩ ⟨s, fun _ => 0⟩)
    (unitOps hs) (nl := nl) (nl' := fun t => .ok t) (fun x _ hx => by
      obtain ⟨y, h1, h2⟩ := hnl x hx
      rw [h1]
      exact h2) (by
      intro a _ e _ ha he
      simp only [UnitRel] at ha he
      simp only [checkS, ha, he]
      split_ifs <;> trivial) m.init_kinded m.init_vecs m.stages_kinded (by
      unfold CoefsRel
      show RelE _ ((m.env Arith.exact).coefs h) ((m.env Arith.exact).coefs h)
      cases (m.env Arith.exact).coefs h with
      | error e => rfl
      | ok c => exact fun i hi => ⟨by simp [hv i hi], fun _ _ => rfl⟩)
    (u := u) (u' := ()) hu
  have he : m.rprog.aTrial ⟨ArrOps.units N, (m.env Arith.exact).coefs⟩ (fun _ _ => checkS ⟨s, fun _ => 0⟩ ⟨s, fun _ => 0⟩)
      (fun t => .ok t) h () = .error .valueError := by
    rcases m with (L | L | ⟨l, S, T, hS⟩) | ⟨cfg, L | L | ⟨l, S, T, hS⟩⟩ | ⟨cfg, L | L | ⟨l, S, T, hS⟩⟩ | L <;>
      first
      | exact absurd rfl (hm L)
      | (unfold RASProg.aTrial; simp only [env]; rw [if_pos hc]; rfl)
  rw [he] at this
  cases hx : m.rprog.aTrial m.ndEnv checkS nl h u with
  | error e => rw [hx] at this; rw [show e = PyErr.valueError from this]
  | ok v => rw [hx] at this; exact this.elim

end Verif
