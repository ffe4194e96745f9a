import Verif.Lemmas.BroadcastShape
import Verif.Props.Shapes

/-!
# C77: shapes of results depend on shapes only; `nl_func` that returns numbers; stacks of batches
-/

set_option linter.unusedSectionVars false

namespace Verif

variable {N : ℕ}

/-- Same exception, or results of the same shape. -/
def SameShape (r r' : Except PyErr (NdArr ℂ)) : Prop :=
  match r, r' with
  | .ok y, .ok y' => y.shape = y'.shape
  | .error e, .error e' => e = e'
  | _, _ => False

theorem sameShape_iff {r r' : Except PyErr (NdArr ℂ)} : SameShape r r' ↔ RelE (fun y y' => y.shape = y'.shape) r r' := by
  cases r <;> cases r' <;> rfl

theorem sameOps : RelOps true (fun _ x y => x.shape = y.shape) (ArrOps.numpy N) (ArrOps.numpy N) where
  add _ _ x x' y y' hx hy := by
    show RelE _ (NdArr.elementwise _ x y) (NdArr.elementwise _ x' y')
    unfold NdArr.elementwise
    rw [hx, hy]
    cases bcShape x'.shape y'.shape <;> simp [RelE]
  sub _ _ x x' y y' hx hy := by
    show RelE _ (NdArr.elementwise _ x y) (NdArr.elementwise _ x' y')
    unfold NdArr.elementwise
    rw [hx, hy]
    cases bcShape x'.shape y'.shape <;> simp [RelE]
  mul _ _ x x' y y' hx hy := by
    show RelE _ (NdArr.elementwise _ x y) (NdArr.elementwise _ x' y')
    unfold NdArr.elementwise
    rw [hx, hy]
    cases bcShape x'.shape y'.shape <;> simp [RelE]
  neg _ _ _ hx := hx
  quot _ _ _ _ hx := hx
  scalar _ := rfl
  dot _ M x x' hx := by
    have h1 := matDot_shape M x
    have h2 := matDot_shape M x'
    rw [hx] at h1
    show RelE _ (NdArr.matDot M x) (NdArr.matDot M x')
    cases e1 : NdArr.matDot M x <;> cases e2 : NdArr.matDot M x' <;> cases e3 : dotShape N x'.shape <;>
      rw [e1, e3] at h1 <;> rw [e2, e3] at h2 <;> simp only [RelE] at h1 h2 ⊢
    · rw [h1, h2]
    · rw [h1, h2]

theorem sameCoefs {Coef : Type} (coefs : ℝ → Except PyErr Coef) (is : List (RInstr Coef (Fin N))) (h : ℝ) :
    CoefsRel (fun _ x y => x.shape = y.shape) ⟨ArrOps.numpy N, coefs⟩ ⟨ArrOps.numpy N, coefs⟩ is h := by
  unfold CoefsRel
  simp only
  cases coefs h with
  | error e => rfl
  | ok c => exact fun i hi => ⟨fun p hp => rfl, fun _ _ => rfl⟩

/-- **C77.** The shape of the result of `step`, or the exception, depends on the shape of `u` and on the shapes that `nl_func` returns, not on
values. -/
theorem C77_shapes_cs (m : CSSolver (Fin N)) {nl nl' : NdArr ℂ → Except PyErr (NdArr ℂ)}
    (hnl : ∀ x x', x.shape = x'.shape → SameShape (nl x) (nl' x')) {u u' : NdArr ℂ} (hu : u.shape = u'.shape) {h : ℝ} (hh : 0 ≤ h) :
    SameShape (m.ndStep nl u h m.ndNew).1 (m.ndStep nl' u' h m.ndNew).1 := by
  rw [m.ndStep_new nl u hh, m.ndStep_new nl' u' hh, sameShape_iff]
  exact RCSProg.aStep_rel (R := fun _ x y => x.shape = y.shape) sameOps (fun x x' hx => sameShape_iff.mp (hnl x x' hx)) m.stages_kinded
    (sameCoefs _ _ h) hu

/-- **C77.** The same for trials of adaptive solvers: the shape of the new array. -/
theorem C77_shapes_as (m : ASSolver (Fin N)) {nl nl' : NdArr ℂ → Except PyErr (NdArr ℂ)}
    (hnl : ∀ x x', x.shape = x'.shape → SameShape (nl x) (nl' x')) {u u' : NdArr ℂ} (hu : u.shape = u'.shape) (h : ℝ) :
    SameShape ((m.ndTrial nl u h m.ndNew).1.map Prod.fst) ((m.ndTrial nl' u' h m.ndNew).1.map Prod.fst) := by
  rw [m.ndTrial_new, m.ndTrial_new]
  have := RASProg.aTrial_rel (P := m.rprog) (F := m.ndEnv) (F' := m.ndEnv) (R := fun _ x y => x.shape = y.shape) (check := checkS)
    (check' := checkS) (h := h) sameOps (fun x x' hx => sameShape_iff.mp (hnl x x' hx))
    (fun a b e f ha he => by
      simp only [checkS, ha, he]
      split_ifs <;> trivial) m.init_kinded m.init_vecs m.stages_kinded (sameCoefs _ _ h) hu
  cases e1 : m.rprog.aTrial m.ndEnv checkS nl h u <;> cases e2 : m.rprog.aTrial m.ndEnv checkS nl' h u' <;> rw [e1, e2] at this <;>
    simp only [RelE] at this
  · rw [this]; exact rfl
  · exact this.1

/-- **C77.** A matrix as `lin_op` and an array of shape `(A, N, B)`, `A ≠ N`: `step` raises `ValueError`. -/
theorem C77_stack_cs (m : CSSolver (Fin N)) {L : Mat (Fin N)} (hm : m.op = .full L) {nl : NdArr ℂ → Except PyErr (NdArr ℂ)}
    (hnl : ∀ x, ∃ y, nl x = .ok y ∧ y.shape = x.shape) {A B : ℕ} (hA : A ≠ N) {u : NdArr ℂ} (hu : u.shape = [A, N, B]) {h : ℝ}
    (hh : 0 ≤ h) (hc : m.CoefOk h) : (m.ndStep nl u h m.ndNew).1 = .error .valueError := by
  rw [m.ndStep_new nl u hh]
  have := m.shape_step (nl := nl) (σ := fun s => .ok s) (fun x => by
    obtain ⟨y, h1, h2⟩ := hnl x
    rw [h1]
    exact h2) h u
  rw [hu, m.stack_step hm hA B hc] at this
  cases hx : m.rprog.aStep m.ndEnv nl h u with
  | error e => rw [hx] at this; rw [show e = PyErr.valueError from this]
  | ok v => rw [hx] at this; exact this.elim

/-- **C77.** The same for trials of adaptive solvers. -/
theorem C77_stack_as (m : ASSolver (Fin N)) {L : Mat (Fin N)} (hm : m.op = .full L) {nl : NdArr ℂ → Except PyErr (NdArr ℂ)}
    (hnl : ∀ x, ∃ y, nl x = .ok y ∧ y.shape = x.shape) {A B : ℕ} (hA : A ≠ N) {u : NdArr ℂ} (hu : u.shape = [A, N, B]) {h : ℝ}
    (hc : m.CoefOk h) : (m.ndTrial nl u h m.ndNew).1 = .error .valueError := by
  rw [m.ndTrial_new]
  have := m.shape_trial (nl := nl) (σ := fun s => .ok s) (fun x => by
    obtain ⟨y, h1, h2⟩ := hnl x
    rw [h1]
    exact h2) h u
  rw [hu, m.stack_trial hm hA B hc] at this
  cases hx : m.rprog.aTrial m.ndEnv checkS nl h u with
  | error e => rw [hx] at this; rw [show e = PyErr.valueError from this]
  | ok v => rw [hx] at this; exact this.elim

/-! ### `nl_func` returns numbers -/

/-- **C77.** If `nl_func` returns numbers (arrays without axes), a constant-step solver with one-dimensional `lin_op` returns arrays of
shape `(N,)`; with a matrix the result silently has the shape `(N, N)`, since `dot` with a number is a multiple of the matrix. -/
theorem C77_number_cs (m : CSSolver (Fin N)) {nl : NdArr ℂ → Except PyErr (NdArr ℂ)} (hnl : ∀ x, ∃ y, nl x = .ok y ∧ y.shape = [])
    {u : NdArr ℂ} (hu : u.shape = [N]) {h : ℝ} (hh : 0 ≤ h) (hc : m.CoefOk h) :
    ∃ v, (m.ndStep nl u h m.ndNew).1 = .ok v ∧ ((∃ lam, m.op = .diag lam) → v.shape = [N]) ∧ ((∃ L, m.op = .full L) → v.shape = [N, N]) := by
  rw [m.ndStep_new nl u hh]
  obtain ⟨v, h1, h2⟩ := m.number_step hnl hc hu
  refine ⟨v, h1, ?_, ?_⟩
  · rintro ⟨lam, hl⟩
    rw [h2, hl]
  · rintro ⟨L, hl⟩
    rw [h2, hl]

/-- **C77.** IF34 without diagonalization raises `IndexError` if `nl_func` returns numbers: its error estimate is then a number. -/
theorem C77_number_if34 (L : ASOp (Fin N)) (hL : ∀ lam S T hS, L ≠ .eig lam S T hS) (hN : N ≠ 0) {nl : NdArr ℂ → Except PyErr (NdArr ℂ)}
    (hnl : ∀ x, ∃ y, nl x = .ok y ∧ y.shape = []) {u : NdArr ℂ} (hu : u.shape = [N]) {h : ℝ} (hc : (ASSolver.if34 L).CoefOk h) :
    ((ASSolver.if34 L).ndTrial nl u h (ASSolver.if34 L).ndNew).1 = .error .indexError := by
  rw [ASSolver.ndTrial_new]
  have := ASSolver.number_trial (.if34 L) hnl hc hu
  have hE : checkS ⟨(ASSolver.if34 L).numberRank.1.shape N, fun _ => 0⟩ ⟨(ASSolver.if34 L).numberRank.2.shape N, fun _ => 0⟩ =
      .error .indexError := by
    rcases L with L | L | ⟨lam, S, T, hS⟩
    · simp [checkS, ASSolver.numberRank, Rank.shape, hN, Ne.symm hN]
    · simp [checkS, ASSolver.numberRank, Rank.shape, hN, Ne.symm hN]
    · exact absurd rfl (hL _ _ _ _)
  rw [hE] at this
  cases hx : (ASSolver.if34 L).rprog.aTrial (ASSolver.if34 L).ndEnv checkS nl h u with
  | error e => rw [hx] at this; rw [show e = PyErr.indexError from this]
  | ok v => rw [hx] at this; exact this.elim

/-- IF34 without diagonalization. -/
def ASSolver.PlainIF34 {ι : Type} [Fintype ι] [DecidableEq ι] : ASSolver ι → Prop
  | if34 (.diag _) | if34 (.full _) => True
  | _ => False

/-- **C77.** All other adaptive solvers return arrays: of shape `(N,)` with one-dimensional `lin_op`, of shape `(N, N)` with a matrix,
diagonalized or not. -/
theorem C77_number_as (m : ASSolver (Fin N)) (hm : ¬ m.PlainIF34) (hN : N ≠ 0) {nl : NdArr ℂ → Except PyErr (NdArr ℂ)}
    (hnl : ∀ x, ∃ y, nl x = .ok y ∧ y.shape = []) {u : NdArr ℂ} (hu : u.shape = [N]) {h : ℝ} (hc : m.CoefOk h) :
    ∃ v e, (m.ndTrial nl u h m.ndNew).1 = .ok (v, e) ∧
      ((∃ lam, m.op = .diag lam) → v.shape = [N] ∧ e.shape = [N]) ∧ ((∀ lam, m.op ≠ .diag lam) → v.shape = [N, N] ∧ e.shape = [N, N]) := by
  rw [ASSolver.ndTrial_new]
  have := m.number_trial hnl hc hu
  have hE : checkS ⟨m.numberRank.1.shape N, fun _ => 0⟩ ⟨m.numberRank.2.shape N, fun _ => 0⟩ = .ok () := by
    rcases m with (L | L | ⟨l, S, T, hS⟩) | ⟨cfg, L | L | ⟨l, S, T, hS⟩⟩ | ⟨cfg, L | L | ⟨l, S, T, hS⟩⟩ | L <;>
      simp [checkS, ASSolver.numberRank, Rank.shape, Ne.symm hN, ASSolver.PlainIF34] at hm ⊢
  rw [hE] at this
  cases hx : m.rprog.aTrial m.ndEnv checkS nl h u with
  | error e => rw [hx] at this; exact this.elim
  | ok r =>
    rw [hx] at this
    refine ⟨r.1, r.2, rfl, ?_, ?_⟩
    · rintro ⟨lam, hl⟩
      rw [this.1, this.2]
      rcases m with (L | L | ⟨l, S, T, hS⟩) | ⟨cfg, L | L | ⟨l, S, T, hS⟩⟩ | ⟨cfg, L | L | ⟨l, S, T, hS⟩⟩ | L <;>
        simp [ASSolver.numberRank, Rank.shape, ASSolver.PlainIF34, ASSolver.op] at hm hl ⊢
    · intro hl
      rw [this.1, this.2]
      rcases m with (L | L | ⟨l, S, T, hS⟩) | ⟨cfg, L | L | ⟨l, S, T, hS⟩⟩ | ⟨cfg, L | L | ⟨l, S, T, hS⟩⟩ | L <;>
        simp [ASSolver.numberRank, Rank.shape, ASSolver.PlainIF34, ASSolver.op] at hm hl ⊢

/-- A number as NumPy array, `nl_func = lambda u: np.array(z)`. -/
def constNd (z : ℂ) : NdArr ℂ → Except PyErr (NdArr ℂ) := fun _ => .ok (NdArr.ofScalar z)

theorem constNd_shape (z : ℂ) (x : NdArr ℂ) : ∃ y, constNd z x = .ok y ∧ y.shape = [] := ⟨_, rfl, rfl⟩

theorem constNd_line (z : ℂ) (x : NdArr ℂ) (v : Vec (Fin N)) :
    RelE (LineRel [N] (fun j : Fin N => [j.val]) false .arr) (constNd z x) (.ok fun _ => z) :=
  ⟨.nil _, fun _ => rfl, fun h => by cases h⟩

theorem line_vec_weak {x : NdArr ℂ} {v : Vec (Fin N)} (hx : LineRel [N] (fun j : Fin N => [j.val]) false .arr x v) (hs : x.shape = [N]) :
    Part [N] (NdArr.row N []) x v := by
  refine ⟨hs, funext fun j => ?_⟩
  have := hx.get j
  rw [hs, bcIdx_vec] at this
  exact this

theorem line_vec_weak' {x : NdArr ℂ} {v : Vec (Fin N)} (hx : Part [N] (NdArr.row N []) x v) :
    LineRel [N] (fun j : Fin N => [j.val]) false .arr x v := by
  obtain ⟨h1, h2⟩ := hx
  refine ⟨h1 ▸ .refl _, fun j => ?_, fun h => by cases h⟩
  rw [h1, bcIdx_vec, ← h2]
  rfl

/-- **C77.** With one-dimensional `lin_op`, a constant-step run whose `nl_func` returns a fixed number is the run whose `nl_func` returns the
array filled with it. -/
theorem C77_constant_cs (m : CSSolver (Fin N)) {lam : Vec (Fin N)} (hm : m.op = .diag lam) (z : ℂ) (rnd : ℝ → ℝ) (pyDiv : Bool) (fuel : ℕ)
    {u : NdArr ℂ} (hu : u.shape = [N]) (t0 tf h : ℝ) (storeData : Bool) (freq : ℤ) (s : m.NdSt) (s' : m.State) :
    SeenAs [N] (NdArr.row N []) (m.ndEvolve (constNd z) rnd pyDiv fuel u t0 tf h storeData freq s).1
      (m.ndEvolve (constNd z) rnd pyDiv fuel u t0 tf h storeData freq s).2.t
      (m.ndEvolve (constNd z) rnd pyDiv fuel u t0 tf h storeData freq s).2.u
      (m.evolve (fun _ => .ok fun _ => z) rnd pyDiv fuel (u.row N []) t0 tf h storeData freq s').1
      (m.evolve (fun _ => .ok fun _ => z) rnd pyDiv fuel (u.row N []) t0 tf h storeData freq s').2.t
      (m.evolve (fun _ => .ok fun _ => z) rnd pyDiv fuel (u.row N []) t0 tf h storeData freq s').2.u := by
  refine CSSolver.seen (fun x v hx => ?_) rnd pyDiv fuel hu t0 tf storeData freq s s'
  have h1 := m.line_step (s := [N]) (f := fun j : Fin N => [j.val]) (fun _ => rfl) (dots := false) (strict := false)
    (by simp) (CSSolver.stages_diag hm) (fun i _ => .inr ⟨.refl _, bcIdx_vec⟩) (nl := constNd z) (nl' := fun _ => .ok fun _ => z)
    (fun x v _ => constNd_line z x v) h (line_vec_weak' hx)
  have hc : m.CoefOk h := by rcases m with (L | L) | ⟨cfg, L | L⟩ | ⟨cfg, L | L⟩ <;> first | (cases hm; done) | trivial
  obtain ⟨y, h2, h3⟩ := m.number_step (constNd_shape z) hc hx.1
  rw [h2] at h1 ⊢
  rw [hm] at h3
  cases h4 : m.oneStep (fun _ => .ok fun _ => z) h v with
  | error e => rw [h4] at h1; exact h1.elim
  | ok w => rw [h4] at h1; exact line_vec_weak h1 h3

theorem RASProg.aTrial_check {ι A Coef : Type} {P : RASProg Coef ι} {F : AEnv Coef ι A} {check : A → A → Except PyErr Unit}
    {nl : A → Except PyErr A} {h : ℝ} {u : A} {r : A × A} (hr : P.aTrial F check nl h u = .ok r) :
    P.aTrial F (fun _ _ => .ok ()) nl h u = .ok r := by
  unfold RASProg.aTrial at hr ⊢
  cases h1 : F.coefs h with
  | error e => simp [h1, Except.bind] at hr
  | ok c =>
    cases h2 : P.aload F.ops nl u with
    | error e => simp [h1, h2, Except.bind] at hr
    | ok x =>
      cases h3 : avals F.ops c h nl P.stages x with
      | error e => simp [h1, h2, h3, Except.bind] at hr
      | ok y =>
        cases h4 : check (y P.out) (y Attr.err) with
        | error e => simp [h1, h2, h3, h4, Except.bind, Except.map] at hr
        | ok _ => simpa [h1, h2, h3, h4, Except.bind, Except.map] using hr

/-- **C77.** The same for ETD34, ETD35 and IF45DP, with adaptive step sizes. -/
theorem C77_constant_as (m : ASSolver (Fin N)) {lam : Vec (Fin N)} (hm : m.op = .diag lam) (hm' : ¬ m.PlainIF34) (hN : N ≠ 0) (z : ℂ)
    (rnd : ℝ → ℝ) (pyDiv : Bool) (cfg : SolverConfig ℝ) (fuel : ℕ) {u : NdArr ℂ} (hu : u.shape = [N]) (t0 tf : ℝ) (hInit : Option ℝ)
    (storeData : Bool) (freq : ℤ) (s : m.NdSt) (s' : m.State) :
    SeenAs [N] (NdArr.row N []) (m.ndEvolve (constNd z) rnd pyDiv cfg fuel u t0 tf hInit storeData freq s).1
      (m.ndEvolve (constNd z) rnd pyDiv cfg fuel u t0 tf hInit storeData freq s).2.t
      (m.ndEvolve (constNd z) rnd pyDiv cfg fuel u t0 tf hInit storeData freq s).2.u
      (m.evolve (fun _ => .ok fun _ => z) rnd pyDiv cfg fuel (u.row N []) t0 tf hInit storeData freq s').1
      (m.evolve (fun _ => .ok fun _ => z) rnd pyDiv cfg fuel (u.row N []) t0 tf hInit storeData freq s').2.t
      (m.evolve (fun _ => .ok fun _ => z) rnd pyDiv cfg fuel (u.row N []) t0 tf hInit storeData freq s').2.u := by
  have : Nonempty (Fin N) := ⟨⟨0, Nat.pos_of_ne_zero hN⟩⟩
  refine ASSolver.seen (fun h x v hx => ?_) rnd pyDiv cfg (fun x e h1 h2 => ?_) fuel hu t0 tf hInit storeData freq s s'
  · have hc : m.CoefOk h := by
      rcases m with (L | L | ⟨l, S, T, hS⟩) | ⟨cfg, L | L | ⟨l, S, T, hS⟩⟩ | ⟨cfg, L | L | ⟨l, S, T, hS⟩⟩ | L <;>
        first | (cases hm; done) | trivial
    obtain ⟨y, e, h1, h2, -⟩ := C77_number_as m hm' hN (constNd_shape z) hx.1 hc
    rw [m.ndTrial_new] at h1
    have h3 := RASProg.aTrial_rel (P := m.rprog) (F := m.ndEnv) (F' := ⟨ArrOps.exact (Fin N), (m.env Arith.exact).coefs⟩) (h := h)
      (check := fun _ _ => .ok ()) (check' := fun _ _ => .ok ())
      (lineOps (s := [N]) (f := fun j : Fin N => [j.val]) (fun _ => rfl) false false id Matrix.mulVec (by simp))
      (nl := constNd z) (nl' := fun _ => .ok fun _ => z) (fun x v _ => constNd_line z x v) (fun _ _ _ _ _ _ => trivial)
      (ASSolver.init_diag hm) m.init_vecs (ASSolver.stages_diag hm) (by
        unfold CoefsRel
        show RelE _ ((m.env Arith.exact).coefs h) ((m.env Arith.exact).coefs h)
        cases (m.env Arith.exact).coefs h with
        | error e => rfl
        | ok c => exact fun i hi => ⟨fun p hp => lineVec false (.refl _) (g := id) bcIdx_vec (p c), fun _ _ => rfl⟩)
      (line_vec_weak' hx)
    rw [RASProg.aTrial_exact m.rprog_ok, RASProg.aTrial_check h1] at h3
    rw [h1, ← m.env_trial (fun _ => .ok fun _ => z) h v]
    have key : ∀ r : Except PyErr (Vec (Fin N) × Vec (Fin N)),
        RelE (fun r r' => LineRel [N] (fun j : Fin N => [j.val]) false .arr r.1 r'.1 ∧
          LineRel [N] (fun j : Fin N => [j.val]) false .arr r.2 r'.2) (.ok (y, e)) r →
        RelE (fun r r' => Part [N] (NdArr.row N []) r.1 r'.1 ∧ Part [N] (NdArr.row N []) r.2 r'.2) (.ok (y, e)) r := by
      intro r h3
      cases r with
      | error e => exact h3.elim
      | ok r => exact ⟨line_vec_weak h3.1 (h2 ⟨_, hm⟩).1, line_vec_weak h3.2 (h2 ⟨_, hm⟩).2⟩
    exact key _ h3
  · rw [m.ndQ_eq]
    exact ndComputeS_lists lists_vec _ cfg h1 h2

/-! ### Examples -/

/-- The shape of the result for one array tells the shape for all. -/
example (u : NdArr ℂ) (hu : u.shape = [2, 1]) :
    SameShape ((CSSolver.if4 twoRates).ndStep squareNd u (1 / 4) (CSSolver.if4 twoRates).ndNew).1
      ((CSSolver.if4 twoRates).ndStep squareNd column (1 / 4) (CSSolver.if4 twoRates).ndNew).1 :=
  C77_shapes_cs (nl := squareNd) (nl' := squareNd) _ (fun _ _ h => h) hu (by norm_num)

/-- The same for adaptive steps. -/
example (u : NdArr ℂ) (hu : u.shape = [2, 1]) :
    SameShape (((ASSolver.if45dp ![-1, -4]).ndTrial squareNd u (1 / 4) (ASSolver.if45dp ![-1, -4]).ndNew).1.map Prod.fst)
      (((ASSolver.if45dp ![-1, -4]).ndTrial squareNd column (1 / 4) (ASSolver.if45dp ![-1, -4]).ndNew).1.map Prod.fst) :=
  C77_shapes_as (nl := squareNd) (nl' := squareNd) _ (fun _ _ h => h) hu (1 / 4)

/-- Five batches of four columns each, with a `3 × 3` matrix. -/
example (M : Mat (Fin 3)) :
    ((CSSolver.if4 (.full M)).ndStep squareNd ⟨[5, 3, 4], fun _ => 1⟩ (1 / 4) (CSSolver.if4 (.full M)).ndNew).1 = .error .valueError :=
  C77_stack_cs _ rfl squareNd_shape (by decide) rfl (by norm_num) trivial

/-- The same for adaptive steps. -/
example (M : Mat (Fin 3)) :
    ((ASSolver.if34 (.full M)).ndTrial squareNd ⟨[5, 3, 4], fun _ => 1⟩ (1 / 4) (ASSolver.if34 (.full M)).ndNew).1 = .error .valueError :=
  C77_stack_as _ rfl squareNd_shape (by decide) rfl trivial

/-- Constant forcing with a matrix: the result has the shape `(3, 3)`. -/
example (M : Mat (Fin 3)) :
    ∃ v, ((CSSolver.if4 (.full M)).ndStep (constNd 1) (NdArr.ofVec ![1, 2, 3]) (1 / 4) (CSSolver.if4 (.full M)).ndNew).1 = .ok v ∧
      v.shape = [3, 3] := by
  obtain ⟨v, h1, -, h2⟩ := C77_number_cs (.if4 (.full M)) (constNd_shape 1) (u := NdArr.ofVec ![1, 2, 3]) rfl (h := 1 / 4) (by norm_num)
    trivial
  exact ⟨v, h1, h2 ⟨M, rfl⟩⟩

/-- IF34 with constant forcing. -/
example : ((ASSolver.if34 (.diag ![-1, -4])).ndTrial (constNd 1) (NdArr.ofVec ![1, 2]) (1 / 4) (ASSolver.if34 (.diag ![-1, -4])).ndNew).1 =
    .error .indexError :=
  C77_number_if34 _ (by simp) (by decide) (constNd_shape 1) rfl trivial

/-- IF34 with constant forcing and `diagonalize=True`. -/
example : ∃ v e, ((ASSolver.if34 (.eig ![-1, -4] 1 1 (mul_one 1))).ndTrial (constNd 1) (NdArr.ofVec ![1, 2]) (1 / 4)
    (ASSolver.if34 (.eig ![-1, -4] 1 1 (mul_one 1))).ndNew).1 = .ok (v, e) ∧ v.shape = [2, 2] := by
  obtain ⟨v, e, h1, -, h2⟩ := C77_number_as (.if34 (.eig ![-1, -4] 1 1 (mul_one 1))) (by simp [ASSolver.PlainIF34]) (by decide)
    (constNd_shape 1) (u := NdArr.ofVec ![1, 2]) rfl (h := 1 / 4) trivial
  exact ⟨v, e, h1, (h2 (by simp [ASSolver.op])).1⟩

section
variable (rnd : ℝ → ℝ) (cfg : SolverConfig ℝ)

/-- Constant forcing. -/
example (fuel : ℕ) (st) (st') :
    ((CSSolver.if4 twoRates).ndEvolve (constNd 3) rnd false fuel (NdArr.ofVec ![3, 4]) 0 1 (1 / 4) true 2 st).2.t =
      ((CSSolver.if4 twoRates).evolve (fun _ => .ok fun _ => 3) rnd false fuel ((NdArr.ofVec ![3, 4]).row 2 []) 0 1 (1 / 4) true 2 st').2.t :=
  (C77_constant_cs (.if4 twoRates) (lam := ![-1, -4]) rfl 3 rnd false fuel (u := NdArr.ofVec ![3, 4]) rfl 0 1 (1 / 4) true 2 st st').times

/-- Constant forcing and adaptive steps. -/
example (fuel : ℕ) (st) (st') :
    ((ASSolver.if45dp ![-1, -4]).ndEvolve (constNd 3) rnd false cfg fuel (NdArr.ofVec ![3, 4]) 0 1 none true 1 st).2.t =
      ((ASSolver.if45dp ![-1, -4]).evolve (fun _ => .ok fun _ => 3) rnd false cfg fuel ((NdArr.ofVec ![3, 4]).row 2 []) 0 1 none true 1 st').2.t :=
  (C77_constant_as (.if45dp ![-1, -4]) rfl (by simp [ASSolver.PlainIF34]) (by decide) 3 rnd false cfg fuel (u := NdArr.ofVec ![3, 4]) rfl
    0 1 none true 1 st st').times

end

end Verif
