import Verif.Lemmas.BroadcastSeen

/-!
# Shapes are computed from shapes
-/

set_option linter.unusedSectionVars false

namespace Verif

variable {N : ℕ}

/-- `dot` on shapes. -/
def dotShape (N : ℕ) (s : List ℕ) : Except PyErr (List ℕ) :=
  match s.reverse with
  | [] => .ok [N, N]
  | [k] => if k = N then .ok [N] else .error .valueError
  | b :: k :: lead => if k = N then .ok (N :: lead.reverse ++ [b]) else .error .valueError

/-- Element-wise operations on shapes. -/
def joinShape (s t : List ℕ) : Except PyErr (List ℕ) :=
  match bcShape s t with
  | some d => .ok d
  | none => .error .valueError

/-- Operations on shapes. -/
def ArrOps.shapes (N : ℕ) : ArrOps (Fin N) (List ℕ) where
  add := joinShape
  sub := joinShape
  mul := joinShape
  neg s := .ok s
  quot s _ := .ok s
  scalar _ := []
  vec _ := [N]
  dot _ := dotShape N

/-- An array has the shape `s`. -/
def ShapeRel (_ : Kind) (x : NdArr ℂ) (s : List ℕ) : Prop := x.shape = s

theorem elementwise_shape (g : ℂ → ℂ → ℂ) {k l : Kind} {x y : NdArr ℂ} {s t : List ℕ} (hx : ShapeRel k x s) (hy : ShapeRel l y t) :
    RelE (ShapeRel (k.join l)) (NdArr.elementwise g x y) (joinShape s t) := by
  unfold ShapeRel at hx hy
  subst hx hy
  unfold NdArr.elementwise joinShape
  cases bcShape x.shape y.shape <;> simp [RelE, ShapeRel]

theorem matDot_shape (M : Mat (Fin N)) (x : NdArr ℂ) : RelE (fun y s => y.shape = s) (NdArr.matDot M x) (dotShape N x.shape) := by
  unfold NdArr.matDot dotShape
  rcases x.shape.reverse with _ | ⟨b, _ | ⟨k, l⟩⟩
  · simp [RelE]
  · simp only
    split <;> simp [RelE]
  · simp only
    split <;> simp [RelE]

theorem shapeOps : RelOps true ShapeRel (ArrOps.numpy N) (ArrOps.shapes N) where
  add _ _ _ _ _ _ hx hy := elementwise_shape _ hx hy
  sub _ _ _ _ _ _ hx hy := elementwise_shape _ hx hy
  mul _ _ _ _ _ _ hx hy := elementwise_shape _ hx hy
  neg _ _ _ hx := hx
  quot _ _ _ _ hx := hx
  scalar _ := rfl
  dot _ M x s hx := by
    unfold ShapeRel at hx
    subst hx
    exact matDot_shape M x

theorem shapeCoefs {Coef : Type} (coefs : ℝ → Except PyErr Coef) (is : List (RInstr Coef (Fin N)))
    (h : ℝ) : CoefsRel ShapeRel ⟨ArrOps.numpy N, coefs⟩ ⟨ArrOps.shapes N, coefs⟩ is h := by
  unfold CoefsRel
  simp only
  cases coefs h with
  | error e => rfl
  | ok c => exact fun i hi => ⟨fun p hp => rfl, fun _ _ => rfl⟩

/-- The shape of the results of a step, if the shapes of the results of `nl_func` depend on shapes only. -/
theorem CSSolver.shape_step (m : CSSolver (Fin N)) {nl : NdArr ℂ → Except PyErr (NdArr ℂ)} {σ : List ℕ → Except PyErr (List ℕ)}
    (hnl : ∀ x, RelE (fun y s => y.shape = s) (nl x) (σ x.shape)) (h : ℝ) (u : NdArr ℂ) :
    RelE (fun y s => y.shape = s) (m.rprog.aStep m.ndEnv nl h u)
      (m.rprog.aStep ⟨ArrOps.shapes N, (m.env Arith.exact).coefs⟩ σ h u.shape) :=
  RCSProg.aStep_rel (P := m.rprog) (F := m.ndEnv) (F' := ⟨ArrOps.shapes N, (m.env Arith.exact).coefs⟩) (R := ShapeRel) (h := h)
    shapeOps (fun x s hx => by unfold ShapeRel at hx; subst hx; exact hnl x) m.stages_kinded (shapeCoefs _ _ h) rfl

/-- The exceptions of `_compute_s` depend on shapes only. -/
def checkShape (s t : List ℕ) : Except PyErr Unit := checkS ⟨s, fun _ => 0⟩ ⟨t, fun _ => 0⟩

theorem ASSolver.shape_trial (m : ASSolver (Fin N)) {nl : NdArr ℂ → Except PyErr (NdArr ℂ)} {σ : List ℕ → Except PyErr (List ℕ)}
    (hnl : ∀ x, RelE (fun y s => y.shape = s) (nl x) (σ x.shape)) (h : ℝ) (u : NdArr ℂ) :
    RelE (fun r r' => r.1.shape = r'.1 ∧ r.2.shape = r'.2) (m.rprog.aTrial m.ndEnv checkS nl h u)
      (m.rprog.aTrial ⟨ArrOps.shapes N, (m.env Arith.exact).coefs⟩ checkShape σ h u.shape) :=
  RASProg.aTrial_rel (P := m.rprog) (F := m.ndEnv) (F' := ⟨ArrOps.shapes N, (m.env Arith.exact).coefs⟩) (R := ShapeRel) (h := h)
    shapeOps (fun x s hx => by unfold ShapeRel at hx; subst hx; exact hnl x)
    (fun a s e t ha he => by
      unfold ShapeRel at ha he
      subst ha he
      unfold checkShape checkS
      simp only
      split_ifs <;> trivial) m.init_kinded m.init_vecs m.stages_kinded (shapeCoefs _ _ h) rfl

theorem joinShape_self (s : List ℕ) : joinShape s s = .ok s := by simp [joinShape, bcShape_self]

theorem joinShape_nil (s : List ℕ) : joinShape [] s = .ok s := by simp [joinShape, (bcShape_of_fits (.nil s)).1]

theorem joinShape_nil' (s : List ℕ) : joinShape s [] = .ok s := by simp [joinShape, (bcShape_of_fits (.nil s)).2]

theorem dotShape_stack (A N B : ℕ) : dotShape N [A, N, B] = .ok [N, A, B] := by simp [dotShape]

theorem dotShape_stack' {A N : ℕ} (hA : A ≠ N) (B : ℕ) : dotShape N [N, A, B] = .error .valueError := by simp [dotShape, hA]

theorem evalA_sub {ι A Coef : Type} (O : ArrOps ι A) (c : Coef) (h : ℝ) (x : Attr → A) (e f : Exp Coef ι) :
    (e - f).evalA O c h x = (e.evalA O c h x).bind fun a => (f.evalA O c h x).bind fun b => O.sub a b := rfl

theorem evalA_neg {ι A Coef : Type} (O : ArrOps ι A) (c : Coef) (h : ℝ) (x : Attr → A) (e : Exp Coef ι) :
    (-e).evalA O c h x = (e.evalA O c h x).bind O.neg := rfl

/-- Stacks of batches: `dot` moves the axis of length `N` to the front, where the next `dot` does not find it. -/
theorem CSSolver.stack_step (m : CSSolver (Fin N)) {L : Mat (Fin N)} (hm : m.op = .full L) {A : ℕ} (hA : A ≠ N) (B : ℕ) {h : ℝ}
    (hc : m.CoefOk h) :
    m.rprog.aStep ⟨ArrOps.shapes N, (m.env Arith.exact).coefs⟩ (fun s => .ok s) h [A, N, B] = .error .valueError := by
  rcases m with (L | L) | ⟨cfg, L | L⟩ | ⟨cfg, L | L⟩ <;>
    first
    | (cases hm; done)
    | (unfold RCSProg.aStep; simp only [env]; rw [if_pos hc]
       simp [Except.bind, Except.map, rprog, avals, Exp.evalA, evalA_sub, evalA_neg, ArrOps.shapes, joinShape_self, joinShape_nil, joinShape_nil',
         dotShape_stack, dotShape_stack' hA, IF4.rProgNonDiagonal, ETD4.rProgNonDiagonal, ETD5.rProgNonDiagonal])

theorem ASSolver.stack_trial (m : ASSolver (Fin N)) {L : Mat (Fin N)} (hm : m.op = .full L) {A : ℕ} (hA : A ≠ N) (B : ℕ) {h : ℝ}
    (hc : m.CoefOk h) :
    m.rprog.aTrial ⟨ArrOps.shapes N, (m.env Arith.exact).coefs⟩ checkShape (fun s => .ok s) h [A, N, B] = .error .valueError := by
  rcases m with (L | L | ⟨l, S, T, hS⟩) | ⟨cfg, L | L | ⟨l, S, T, hS⟩⟩ | ⟨cfg, L | L | ⟨l, S, T, hS⟩⟩ | L <;>
    first
    | (cases hm; done)
    | (unfold RASProg.aTrial; simp only [env]; rw [if_pos hc]
       simp [RASProg.aload, Except.bind, Except.map, rprog, avals, Exp.evalA, evalA_sub, evalA_neg, ArrOps.shapes, joinShape_self, joinShape_nil, joinShape_nil',
         dotShape_stack, dotShape_stack' hA, IF34.rProgNonDiagonal, ETD34.rProgNonDiagonal, ETD35.rProgNonDiagonal])

/-! ### `nl_func` returns numbers -/

/-- A number, a vector of length `N`, or a square matrix. -/
inductive Rank where
  | num | vec | sq
  deriving DecidableEq

/-- The shape. -/
def Rank.shape (N : ℕ) : Rank → List ℕ
  | num => []
  | vec => [N]
  | sq => [N, N]

/-- Sums and products. -/
def Rank.join : Rank → Rank → Rank
  | num, t => t
  | t, num => t
  | vec, vec => vec
  | _, _ => sq

/-- Operations on ranks. -/
def ArrOps.ranks (N : ℕ) : ArrOps (Fin N) Rank where
  add s t := .ok (s.join t)
  sub s t := .ok (s.join t)
  mul s t := .ok (s.join t)
  neg s := .ok s
  quot s _ := .ok s
  scalar _ := .num
  vec _ := .vec
  dot _ s := .ok (match s with | .num => .sq | t => t)

/-- An array has the rank `s`. -/
def RankRel (N : ℕ) (_ : Kind) (x : NdArr ℂ) (s : Rank) : Prop := x.shape = s.shape N

theorem elementwise_rank (g : ℂ → ℂ → ℂ) {k l : Kind} {x y : NdArr ℂ} {s t : Rank} (hx : RankRel N k x s) (hy : RankRel N l y t) :
    RelE (RankRel N (k.join l)) (NdArr.elementwise g x y) (.ok (s.join t)) := by
  have key : bcShape (s.shape N) (t.shape N) = some ((s.join t).shape N) := by
    have h1 := bcShape_of_fits (show Fits [N] [N, N] by simp [Fits, FitsRev])
    cases s <;> cases t <;>
      first
      | exact bcShape_self _
      | exact (bcShape_of_fits (.nil _)).1
      | exact (bcShape_of_fits (.nil _)).2
      | exact h1.1
      | exact h1.2
  simp only [NdArr.elementwise, hx.symm ▸ hy.symm ▸ key]
  rfl

theorem rankOps : RelOps true (RankRel N) (ArrOps.numpy N) (ArrOps.ranks N) where
  add _ _ _ _ _ _ hx hy := elementwise_rank _ hx hy
  sub _ _ _ _ _ _ hx hy := elementwise_rank _ hx hy
  mul _ _ _ _ _ _ hx hy := elementwise_rank _ hx hy
  neg _ _ _ hx := hx
  quot _ _ _ _ hx := hx
  scalar _ := rfl
  dot _ M x s hx := by
    have := matDot_shape M x
    show RelE _ (NdArr.matDot M x) _
    rw [show x.shape = s.shape N from hx] at this
    cases hx' : NdArr.matDot M x <;> cases s <;> rw [hx'] at this <;> simpa [dotShape, Rank.shape, ArrOps.ranks, RelE, RankRel] using this

theorem rankCoefs {Coef : Type} (coefs : ℝ → Except PyErr Coef) (is : List (RInstr Coef (Fin N)))
    (h : ℝ) : CoefsRel (RankRel N) ⟨ArrOps.numpy N, coefs⟩ ⟨ArrOps.ranks N, coefs⟩ is h := by
  unfold CoefsRel
  simp only
  cases coefs h with
  | error e => rfl
  | ok c => exact fun i hi => ⟨fun p hp => rfl, fun _ _ => rfl⟩

theorem CSSolver.number_step (m : CSSolver (Fin N)) {nl : NdArr ℂ → Except PyErr (NdArr ℂ)}
    (hnl : ∀ x, ∃ y, nl x = .ok y ∧ y.shape = []) {h : ℝ} (hc : m.CoefOk h) {u : NdArr ℂ} (hu : u.shape = [N]) :
    ∃ v, m.rprog.aStep m.ndEnv nl h u = .ok v ∧ v.shape = (match m.op with | .diag _ => [N] | .full _ => [N, N]) := by
  have := RCSProg.aStep_rel (P := m.rprog) (F := m.ndEnv) (F' := ⟨ArrOps.ranks N, (m.env Arith.exact).coefs⟩) (R := RankRel N) (h := h)
    rankOps (nl := nl) (nl' := fun _ => .ok .num) (fun x s hx => by
      obtain ⟨y, h1, h2⟩ := hnl x
      rw [h1]
      exact h2) m.stages_kinded (rankCoefs _ _ h) (u := u) (u' := .vec) hu
  have he : m.rprog.aStep ⟨ArrOps.ranks N, (m.env Arith.exact).coefs⟩ (fun _ => .ok .num) h .vec =
      .ok (match m.op with | .diag _ => .vec | .full _ => .sq) := by
    rcases m with (L | L) | ⟨cfg, L | L⟩ | ⟨cfg, L | L⟩ <;> (unfold RCSProg.aStep; simp only [env]; rw [if_pos hc]; rfl)
  rw [he] at this
  cases hx : m.rprog.aStep m.ndEnv nl h u with
  | error e => rw [hx] at this; exact this.elim
  | ok v =>
    rw [hx] at this
    refine ⟨v, rfl, ?_⟩
    have h2 : v.shape = _ := this
    rw [h2]
    cases m.op <;> rfl

/-- What the adaptive solvers do if `nl_func` returns numbers. -/
def ASSolver.numberRank : ASSolver (Fin N) → Rank × Rank
  | if34 (.diag _) => (.vec, .num)
  | if34 (.full _) => (.sq, .num)
  | etd34 _ (.diag _) | etd35 _ (.diag _) | if45dp _ => (.vec, .vec)
  | _ => (.sq, .sq)

theorem ASSolver.number_trial (m : ASSolver (Fin N)) {nl : NdArr ℂ → Except PyErr (NdArr ℂ)}
    (hnl : ∀ x, ∃ y, nl x = .ok y ∧ y.shape = []) {h : ℝ} (hc : m.CoefOk h) {u : NdArr ℂ} (hu : u.shape = [N]) :
    RelE (fun r _ => r.1.shape = m.numberRank.1.shape N ∧ r.2.shape = m.numberRank.2.shape N)
      (m.rprog.aTrial m.ndEnv checkS nl h u)
      (checkS ⟨m.numberRank.1.shape N, fun _ => 0⟩ ⟨m.numberRank.2.shape N, fun _ => 0⟩) := by
  have := RASProg.aTrial_rel (P := m.rprog) (F := m.ndEnv) (F' := ⟨ArrOps.ranks N, (m.env Arith.exact).coefs⟩) (R := RankRel N) (h := h)
    (check := checkS) (check' := fun s t => checkS ⟨s.shape N, fun _ => 0⟩ ⟨t.shape N, fun _ => 0⟩)
    rankOps (nl := nl) (nl' := fun _ => .ok .num) (fun x s hx => by
      obtain ⟨y, h1, h2⟩ := hnl x
      rw [h1]
      exact h2) (fun a s e t ha he => by
      simp only [RankRel] at ha he
      simp only [checkS, ha, he]
      split_ifs <;> trivial) m.init_kinded m.init_vecs m.stages_kinded (rankCoefs _ _ h) (u := u) (u' := .vec) hu
  have he : m.rprog.aTrial ⟨ArrOps.ranks N, (m.env Arith.exact).coefs⟩ (fun s t => checkS ⟨s.shape N, fun _ => 0⟩ ⟨t.shape N, fun _ => 0⟩)
      (fun _ => .ok .num) h .vec =
      (checkS ⟨m.numberRank.1.shape N, fun _ => 0⟩ ⟨m.numberRank.2.shape N, fun _ => 0⟩).map fun _ => m.numberRank := by
    rcases m with (L | L | ⟨l, S, T, hS⟩) | ⟨cfg, L | L | ⟨l, S, T, hS⟩⟩ | ⟨cfg, L | L | ⟨l, S, T, hS⟩⟩ | L <;>
      (unfold RASProg.aTrial; simp only [env]; rw [if_pos hc]; rfl)
  rw [he] at this
  cases hE : checkS ⟨m.numberRank.1.shape N, fun _ => 0⟩ ⟨m.numberRank.2.shape N, fun _ => 0⟩ with
  | error e =>
    rw [hE] at this
    cases hx : m.rprog.aTrial m.ndEnv checkS nl h u with
    | error e => rw [hx] at this; exact this
    | ok r => rw [hx] at this; exact this.elim
  | ok e =>
    rw [hE] at this
    cases hx : m.rprog.aTrial m.ndEnv checkS nl h u with
    | error e => rw [hx] at this; exact this.elim
    | ok r => rw [hx] at this; exact this

end Verif
