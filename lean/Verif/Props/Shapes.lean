import Verif.Lemmas.BroadcastSeen

/-!
# C76: arrays of any shape

What the solvers do when `u` is not an array of shape `(N,)`: which shapes work, on which axis the operator acts, and which shapes raise.
-/

set_option linter.unusedSectionVars false

namespace Verif

variable {N : ℕ}

/-! ### One axis -/

theorem vec_valid (j : Fin N) : List.Forall₂ (· < ·) [j.val] [N] := by simp

theorem bcIdx_vec (j : Fin N) : bcIdx [N] [j.val] = [j.val] := bcIdx_last [] j

theorem line_vec : LineRel [N] (fun j : Fin N => [j.val]) true .arr = Part [N] (NdArr.row N []) := LineRel.eq_part vec_valid

/-- **C76.** On arrays of shape `(N,)` the solver with NumPy's arrays is the solver of the other properties. -/
theorem C76_vec_cs (m : CSSolver (Fin N)) {nl : NdArr ℂ → Except PyErr (NdArr ℂ)} {nl' : NlFunc (Fin N)}
    (hnl : ActsOn [N] (NdArr.row N []) nl nl') (rnd : ℝ → ℝ) (pyDiv : Bool) (fuel : ℕ) {u : NdArr ℂ} (hu : u.shape = [N]) (t0 tf h : ℝ)
    (storeData : Bool) (freq : ℤ) (s : m.NdSt) (s' : m.State) :
    SeenAs [N] (NdArr.row N []) (m.ndEvolve nl rnd pyDiv fuel u t0 tf h storeData freq s).1
      (m.ndEvolve nl rnd pyDiv fuel u t0 tf h storeData freq s).2.t (m.ndEvolve nl rnd pyDiv fuel u t0 tf h storeData freq s).2.u
      (m.evolve nl' rnd pyDiv fuel (u.row N []) t0 tf h storeData freq s').1
      (m.evolve nl' rnd pyDiv fuel (u.row N []) t0 tf h storeData freq s').2.t
      (m.evolve nl' rnd pyDiv fuel (u.row N []) t0 tf h storeData freq s').2.u :=
  CSSolver.seen (fun x v hx => by
    have := m.line_step (s := [N]) (f := fun j : Fin N => [j.val]) (fun _ => rfl) (dots := true) (strict := true)
      (fun _ M x v hx => dot_vec M hx) m.stages_kinded (fun i _ => .inr ⟨.refl _, bcIdx_vec⟩) (nl := nl) (nl' := nl')
      (by rw [line_vec]; exact hnl.rel) h (u := x) (v := v) (by rw [line_vec]; exact hx)
    rwa [line_vec] at this) rnd pyDiv fuel hu t0 tf storeData freq s s'

/-- **C76.** The same for adaptive solvers. -/
theorem C76_vec_as (m : ASSolver (Fin N)) (hN : N ≠ 0) {nl : NdArr ℂ → Except PyErr (NdArr ℂ)} {nl' : NlFunc (Fin N)}
    (hnl : ActsOn [N] (NdArr.row N []) nl nl') (rnd : ℝ → ℝ) (pyDiv : Bool) (cfg : SolverConfig ℝ) (fuel : ℕ) {u : NdArr ℂ}
    (hu : u.shape = [N]) (t0 tf : ℝ) (hInit : Option ℝ) (storeData : Bool) (freq : ℤ) (s : m.NdSt) (s' : m.State) :
    SeenAs [N] (NdArr.row N []) (m.ndEvolve nl rnd pyDiv cfg fuel u t0 tf hInit storeData freq s).1
      (m.ndEvolve nl rnd pyDiv cfg fuel u t0 tf hInit storeData freq s).2.t
      (m.ndEvolve nl rnd pyDiv cfg fuel u t0 tf hInit storeData freq s).2.u
      (m.evolve nl' rnd pyDiv cfg fuel (u.row N []) t0 tf hInit storeData freq s').1
      (m.evolve nl' rnd pyDiv cfg fuel (u.row N []) t0 tf hInit storeData freq s').2.t
      (m.evolve nl' rnd pyDiv cfg fuel (u.row N []) t0 tf hInit storeData freq s').2.u := by
  have : Nonempty (Fin N) := ⟨⟨0, Nat.pos_of_ne_zero hN⟩⟩
  refine ASSolver.seen (fun h x v hx => ?_) rnd pyDiv cfg (fun x e h1 h2 => ?_) fuel hu t0 tf hInit storeData freq s s'
  · have := m.line_trial (s := [N]) (by simpa using hN.symm) (f := fun j : Fin N => [j.val]) (fun _ => rfl) (dots := true)
      (fun _ M x v hx => dot_vec M hx) m.init_kinded m.stages_kinded (fun i _ => .inr ⟨.refl _, bcIdx_vec⟩) (nl := nl) (nl' := nl')
      (by rw [line_vec]; exact hnl.rel) h (u := x) (v := v) (by rw [line_vec]; exact hx)
    rwa [line_vec] at this
  · rw [m.ndQ_eq]
    exact ndComputeS_lists lists_vec _ cfg h1 h2

/-! ### One-dimensional operators: rows -/

theorem line_row {B b : List ℕ} (hb : b ∈ indices B) :
    LineRel (B ++ [N]) (fun j : Fin N => b ++ [j.val]) true .arr = Part (B ++ [N]) (NdArr.row N b) := LineRel.eq_part (row_valid hb)

theorem row_length {B b : List ℕ} (hb : b ∈ indices B) (j : Fin N) : (b ++ [j.val]).length = (B ++ [N]).length := by
  simp [indices_length hb]

/-- **C76.** A solver with a one-dimensional `lin_op` of length `N` evolves the rows of an array of shape `(…, N)` separately, if `nl_func` acts
on rows. -/
theorem C76_rows_cs (m : CSSolver (Fin N)) {lam : Vec (Fin N)} (hm : m.op = .diag lam) {B b : List ℕ} (hb : b ∈ indices B)
    {nl : NdArr ℂ → Except PyErr (NdArr ℂ)} {nl' : NlFunc (Fin N)} (hnl : ActsOn (B ++ [N]) (NdArr.row N b) nl nl') (rnd : ℝ → ℝ)
    (pyDiv : Bool) (fuel : ℕ) {u : NdArr ℂ} (hu : u.shape = B ++ [N]) (t0 tf h : ℝ) (storeData : Bool) (freq : ℤ) (s : m.NdSt)
    (s' : m.State) :
    SeenAs (B ++ [N]) (NdArr.row N b) (m.ndEvolve nl rnd pyDiv fuel u t0 tf h storeData freq s).1
      (m.ndEvolve nl rnd pyDiv fuel u t0 tf h storeData freq s).2.t (m.ndEvolve nl rnd pyDiv fuel u t0 tf h storeData freq s).2.u
      (m.evolve nl' rnd pyDiv fuel (u.row N b) t0 tf h storeData freq s').1
      (m.evolve nl' rnd pyDiv fuel (u.row N b) t0 tf h storeData freq s').2.t
      (m.evolve nl' rnd pyDiv fuel (u.row N b) t0 tf h storeData freq s').2.u :=
  CSSolver.seen (fun x v hx => by
    have := m.line_step (s := B ++ [N]) (f := fun j : Fin N => b ++ [j.val]) (row_length hb) (dots := false) (strict := true)
      (by simp) (CSSolver.stages_diag hm) (fun i _ => .inr ⟨fits_last B, bcIdx_last b⟩) (nl := nl) (nl' := nl')
      (by rw [line_row hb]; exact hnl.rel) h (u := x) (v := v) (by rw [line_row hb]; exact hx)
    rwa [line_row hb] at this) rnd pyDiv fuel hu t0 tf storeData freq s s'

/-- **C76.** Trials of adaptive solvers also act on rows.  (The step size is chosen from all rows, see `C76_flat_as`.) -/
theorem C76_rows_as (m : ASSolver (Fin N)) {lam : Vec (Fin N)} (hm : m.op = .diag lam) {B b : List ℕ} (hb : b ∈ indices B)
    (h0 : 0 ∉ B ++ [N]) {nl : NdArr ℂ → Except PyErr (NdArr ℂ)} {nl' : NlFunc (Fin N)}
    (hnl : ActsOn (B ++ [N]) (NdArr.row N b) nl nl') {u : NdArr ℂ} (hu : u.shape = B ++ [N]) (h : ℝ) :
    (m.ndTrial nl u h m.ndNew).1.map (fun r => (r.1.row N b, r.2.row N b)) = (m.trial nl' (u.row N b) h m.new).1 := by
  rw [m.ndTrial_new, m.trial_new]
  have := m.line_trial (s := B ++ [N]) h0 (f := fun j : Fin N => b ++ [j.val]) (row_length hb) (dots := false) (by simp)
    (ASSolver.init_diag hm) (ASSolver.stages_diag hm) (fun i _ => .inr ⟨fits_last B, bcIdx_last b⟩) (nl := nl) (nl' := nl')
    (by rw [line_row hb]; exact hnl.rel) h (u := u) (v := u.row N b) (by rw [line_row hb]; exact ⟨hu, rfl⟩)
  rw [line_row hb] at this
  cases h1 : m.rprog.aTrial m.ndEnv checkS nl h u <;> cases h2 : m.oneTrial nl' h (u.row N b) <;> rw [h1, h2] at this <;>
    simp only [RelE, Part] at this
  · rw [this]; rfl
  · simp only [Except.map, this]

/-! ### One-dimensional operators: the whole array -/

/-- **C76.** A solver with a one-dimensional `lin_op` evolves an array of shape `(…, N)` like the array of all its entries, with the operator
that repeats `lin_op` for each row.  This holds for any `nl_func`. -/
theorem C76_flat_cs (m : CSSolver (Fin N)) {lam : Vec (Fin N)} (hm : m.op = .diag lam) {B : List ℕ}
    {nl : NdArr ℂ → Except PyErr (NdArr ℂ)} {nl' : NlFunc (Cells (B ++ [N]))}
    (hnl : ActsOn (B ++ [N]) (NdArr.flat (B ++ [N])) nl nl') (rnd : ℝ → ℝ)
    (pyDiv : Bool) (fuel : ℕ) {u : NdArr ℂ} (hu : u.shape = B ++ [N]) (t0 tf h : ℝ) (storeData : Bool) (freq : ℤ) (s : m.NdSt)
    (s' : (m.withOp (.diag fun i : Cells (B ++ [N]) => lam i.last)).State) :
    let m' := m.withOp (.diag fun i : Cells (B ++ [N]) => lam i.last)
    SeenAs (B ++ [N]) (NdArr.flat (B ++ [N])) (m.ndEvolve nl rnd pyDiv fuel u t0 tf h storeData freq s).1
      (m.ndEvolve nl rnd pyDiv fuel u t0 tf h storeData freq s).2.t (m.ndEvolve nl rnd pyDiv fuel u t0 tf h storeData freq s).2.u
      (m'.evolve nl' rnd pyDiv fuel (u.flat _) t0 tf h storeData freq s').1
      (m'.evolve nl' rnd pyDiv fuel (u.flat _) t0 tf h storeData freq s').2.t
      (m'.evolve nl' rnd pyDiv fuel (u.flat _) t0 tf h storeData freq s').2.u :=
  CSSolver.seen (CSSolver.flat_step hm (fits_last B) (g := Cells.last) cell_last hnl h) rnd pyDiv fuel hu t0 tf storeData freq s s'

/-- **C76.** The same for adaptive solvers: step sizes are chosen from the norm over all rows. -/
theorem C76_flat_as (m : ASSolver (Fin N)) {lam : Vec (Fin N)} (hm : m.op = .diag lam) {B : List ℕ} (h0 : 0 ∉ B ++ [N])
    {nl : NdArr ℂ → Except PyErr (NdArr ℂ)} {nl' : NlFunc (Cells (B ++ [N]))}
    (hnl : ActsOn (B ++ [N]) (NdArr.flat (B ++ [N])) nl nl') (rnd : ℝ → ℝ) (pyDiv : Bool) (cfg : SolverConfig ℝ) (fuel : ℕ) {u : NdArr ℂ}
    (hu : u.shape = B ++ [N]) (t0 tf : ℝ) (hInit : Option ℝ) (storeData : Bool) (freq : ℤ) (s : m.NdSt)
    (s' : (m.withDiag fun i : Cells (B ++ [N]) => lam i.last).State) :
    let m' := m.withDiag fun i : Cells (B ++ [N]) => lam i.last
    SeenAs (B ++ [N]) (NdArr.flat (B ++ [N])) (m.ndEvolve nl rnd pyDiv cfg fuel u t0 tf hInit storeData freq s).1
      (m.ndEvolve nl rnd pyDiv cfg fuel u t0 tf hInit storeData freq s).2.t
      (m.ndEvolve nl rnd pyDiv cfg fuel u t0 tf hInit storeData freq s).2.u
      (m'.evolve nl' rnd pyDiv cfg fuel (u.flat _) t0 tf hInit storeData freq s').1
      (m'.evolve nl' rnd pyDiv cfg fuel (u.flat _) t0 tf hInit storeData freq s').2.t
      (m'.evolve nl' rnd pyDiv cfg fuel (u.flat _) t0 tf hInit storeData freq s').2.u := by
  have := cells_nonempty h0
  refine ASSolver.seen (ASSolver.flat_trial hm h0 (fits_last B) (g := Cells.last) cell_last hnl) rnd pyDiv cfg (fun x e h1 h2 => ?_)
    fuel hu t0 tf hInit storeData freq s s'
  rw [m.ndQ_eq, ← m.q_withDiag fun i : Cells (B ++ [N]) => lam i.last]
  exact ndComputeS_lists (lists_cells _) _ cfg h1 h2

theorem fits_one {s : List ℕ} (hs : s ≠ []) : Fits [1] s := by
  unfold Fits
  cases h : s.reverse with
  | nil => exact absurd (List.reverse_eq_nil_iff.mp h) hs
  | cons d l => simp [FitsRev]

theorem cell_one {s : List ℕ} (hs : s ≠ []) (i : Cells s) : bcIdx [1] i.1 = [(0 : Fin 1).val] := by
  have : i.1 ≠ [] := by
    intro h
    have h1 := indices_length i.2
    rw [h] at h1
    exact hs (List.length_eq_zero_iff.mp h1.symm)
  unfold bcIdx
  cases h : i.1.reverse with
  | nil => exact absurd (List.reverse_eq_nil_iff.mp h) this
  | cons d l => simp [bcIdxRev]

/-- **C76.** A `lin_op` of length 1 acts on arrays of any shape (with at least one axis) as a number. -/
theorem C76_one_cs (m : CSSolver (Fin 1)) {lam : Vec (Fin 1)} (hm : m.op = .diag lam) {S : List ℕ} (hS : S ≠ [])
    {nl : NdArr ℂ → Except PyErr (NdArr ℂ)} {nl' : NlFunc (Cells S)} (hnl : ActsOn S (NdArr.flat S) nl nl') (rnd : ℝ → ℝ)
    (pyDiv : Bool) (fuel : ℕ) {u : NdArr ℂ} (hu : u.shape = S) (t0 tf h : ℝ) (storeData : Bool) (freq : ℤ) (s : m.NdSt)
    (s' : (m.withOp (.diag fun _ : Cells S => lam 0)).State) :
    let m' := m.withOp (.diag fun _ : Cells S => lam 0)
    SeenAs S (NdArr.flat S) (m.ndEvolve nl rnd pyDiv fuel u t0 tf h storeData freq s).1
      (m.ndEvolve nl rnd pyDiv fuel u t0 tf h storeData freq s).2.t (m.ndEvolve nl rnd pyDiv fuel u t0 tf h storeData freq s).2.u
      (m'.evolve nl' rnd pyDiv fuel (u.flat S) t0 tf h storeData freq s').1
      (m'.evolve nl' rnd pyDiv fuel (u.flat S) t0 tf h storeData freq s').2.t
      (m'.evolve nl' rnd pyDiv fuel (u.flat S) t0 tf h storeData freq s').2.u :=
  CSSolver.seen (CSSolver.flat_step hm (fits_one hS) (g := fun _ => 0) (cell_one hS) hnl h) rnd pyDiv fuel hu t0 tf storeData freq s s'

/-- **C76.** The same for adaptive solvers. -/
theorem C76_one_as (m : ASSolver (Fin 1)) {lam : Vec (Fin 1)} (hm : m.op = .diag lam) {S : List ℕ} (hS : S ≠ []) (h0 : 0 ∉ S)
    {nl : NdArr ℂ → Except PyErr (NdArr ℂ)} {nl' : NlFunc (Cells S)} (hnl : ActsOn S (NdArr.flat S) nl nl') (rnd : ℝ → ℝ)
    (pyDiv : Bool) (cfg : SolverConfig ℝ) (fuel : ℕ) {u : NdArr ℂ} (hu : u.shape = S) (t0 tf : ℝ) (hInit : Option ℝ)
    (storeData : Bool) (freq : ℤ) (s : m.NdSt) (s' : (m.withDiag fun _ : Cells S => lam 0).State) :
    let m' := m.withDiag fun _ : Cells S => lam 0
    SeenAs S (NdArr.flat S) (m.ndEvolve nl rnd pyDiv cfg fuel u t0 tf hInit storeData freq s).1
      (m.ndEvolve nl rnd pyDiv cfg fuel u t0 tf hInit storeData freq s).2.t
      (m.ndEvolve nl rnd pyDiv cfg fuel u t0 tf hInit storeData freq s).2.u
      (m'.evolve nl' rnd pyDiv cfg fuel (u.flat S) t0 tf hInit storeData freq s').1
      (m'.evolve nl' rnd pyDiv cfg fuel (u.flat S) t0 tf hInit storeData freq s').2.t
      (m'.evolve nl' rnd pyDiv cfg fuel (u.flat S) t0 tf hInit storeData freq s').2.u := by
  have := cells_nonempty h0
  refine ASSolver.seen (ASSolver.flat_trial hm h0 (fits_one hS) (g := fun _ => 0) (cell_one hS) hnl) rnd pyDiv cfg
    (fun x e h1 h2 => ?_) fuel hu t0 tf hInit storeData freq s s'
  rw [m.ndQ_eq, ← m.q_withDiag fun _ : Cells S => lam 0]
  exact ndComputeS_lists (lists_cells _) _ cfg h1 h2

/-! ### Matrices: columns -/

theorem col_valid {B b : ℕ} (hb : b < B) (j : Fin N) : List.Forall₂ (· < ·) [j.val, b] [N, B] := by simp [hb]

theorem line_col {B b : ℕ} (hb : b < B) :
    LineRel [N, B] (fun j : Fin N => [j.val, b]) true .arr = Part [N, B] (NdArr.col N b) := LineRel.eq_part (col_valid hb)

/-- **C76.** A solver with a matrix as `lin_op` evolves the columns of an array of shape `(N, B)` separately, if `nl_func` acts on columns. -/
theorem C76_cols_cs (m : CSSolver (Fin N)) {L : Mat (Fin N)} (hm : m.op = .full L) {B b : ℕ} (hb : b < B)
    {nl : NdArr ℂ → Except PyErr (NdArr ℂ)} {nl' : NlFunc (Fin N)} (hnl : ActsOn [N, B] (NdArr.col N b) nl nl') (rnd : ℝ → ℝ)
    (pyDiv : Bool) (fuel : ℕ) {u : NdArr ℂ} (hu : u.shape = [N, B]) (t0 tf h : ℝ) (storeData : Bool) (freq : ℤ) (s : m.NdSt)
    (s' : m.State) :
    SeenAs [N, B] (NdArr.col N b) (m.ndEvolve nl rnd pyDiv fuel u t0 tf h storeData freq s).1
      (m.ndEvolve nl rnd pyDiv fuel u t0 tf h storeData freq s).2.t (m.ndEvolve nl rnd pyDiv fuel u t0 tf h storeData freq s).2.u
      (m.evolve nl' rnd pyDiv fuel (u.col N b) t0 tf h storeData freq s').1
      (m.evolve nl' rnd pyDiv fuel (u.col N b) t0 tf h storeData freq s').2.t
      (m.evolve nl' rnd pyDiv fuel (u.col N b) t0 tf h storeData freq s').2.u :=
  CSSolver.seen (fun x v hx => by
    have := m.line_step (s := [N, B]) (f := fun j : Fin N => [j.val, b]) (fun _ => rfl) (dots := true) (strict := true)
      (fun _ M x v hx => dot_col hb M hx) m.stages_kinded (fun i hi => .inl (CSSolver.stages_full hm i hi)) (nl := nl) (nl' := nl')
      (by rw [line_col hb]; exact hnl.rel) h (u := x) (v := v) (by rw [line_col hb]; exact hx)
    rwa [line_col hb] at this) rnd pyDiv fuel hu t0 tf storeData freq s s'

theorem map_of_relE {V : Type} {s : List ℕ} {p : NdArr ℂ → V} {r : Except PyErr (NdArr ℂ × NdArr ℂ)} {r' : Except PyErr (V × V)}
    (h : RelE (fun r r' => Part s p r.1 r'.1 ∧ Part s p r.2 r'.2) r r') : r.map (fun r => (p r.1, p r.2)) = r' := by
  cases r <;> cases r' <;> simp only [RelE, Part] at h
  · rw [h]; rfl
  · simp only [Except.map, h]

/-- **C76.** Trials of adaptive solvers with a matrix (not diagonalized) act on columns. -/
theorem C76_cols_as (m : ASSolver (Fin N)) {L : Mat (Fin N)} (hm : m.op = .full L) (hN : N ≠ 0) {B b : ℕ} (hb : b < B)
    {nl : NdArr ℂ → Except PyErr (NdArr ℂ)} {nl' : NlFunc (Fin N)} (hnl : ActsOn [N, B] (NdArr.col N b) nl nl') {u : NdArr ℂ}
    (hu : u.shape = [N, B]) (h : ℝ) :
    (m.ndTrial nl u h m.ndNew).1.map (fun r => (r.1.col N b, r.2.col N b)) = (m.trial nl' (u.col N b) h m.new).1 := by
  rw [m.ndTrial_new, m.trial_new]
  have := m.line_trial (s := [N, B]) (by simp; omega) (f := fun j : Fin N => [j.val, b]) (fun _ => rfl) (dots := true)
    (fun _ M x v hx => dot_col hb M hx) m.init_kinded m.stages_kinded (fun i hi => .inl (ASSolver.stages_full hm i hi)) (nl := nl)
    (nl' := nl') (by rw [line_col hb]; exact hnl.rel) h (u := u) (v := u.col N b) (by rw [line_col hb]; exact ⟨hu, rfl⟩)
  rw [line_col hb] at this
  exact map_of_relE this

/-- **C76.** With `diagonalize=True` this is different: the eigenvalues are applied along the last axis.  Column `b` of an array of shape
`(N, N)` is evolved as if all eigenvalues were equal to the eigenvalue number `b`. -/
theorem C76_eig_cols (m : ASSolver (Fin N)) {lam : Vec (Fin N)} {S T : Mat (Fin N)} {hS : S * T = 1} (hm : m.op = .eig lam S T hS)
    (b : Fin N) {nl : NdArr ℂ → Except PyErr (NdArr ℂ)} {nl' : NlFunc (Fin N)} (hnl : ActsOn [N, N] (NdArr.col N b) nl nl')
    {u : NdArr ℂ} (hu : u.shape = [N, N]) (h : ℝ) :
    (m.ndTrial nl u h m.ndNew).1.map (fun r => (r.1.col N b, r.2.col N b)) =
      ((m.withEigenvalues fun _ => lam b).trial nl' (u.col N b) h (m.withEigenvalues fun _ => lam b).new).1 := by
  rw [m.ndTrial_new, ASSolver.trial_new]
  have := m.eig_trial hm b (nl := nl) (nl' := nl') (by rw [line_col b.2]; exact hnl.rel) h (u := u) (v := u.col N b)
    (by rw [line_col b.2]; exact ⟨hu, rfl⟩)
  rw [line_col b.2] at this
  exact map_of_relE this

/-! ### Shapes of the results -/

/-- **C76.** One-dimensional `lin_op`, and an `nl_func` that keeps shapes: the result of `step` has the shape that `lin_op` and `u` are broadcast
to. -/
theorem C76_shape_cs (m : CSSolver (Fin N)) {lam : Vec (Fin N)} (hm : m.op = .diag lam) {nl : NdArr ℂ → Except PyErr (NdArr ℂ)}
    (hnl : ∀ x, ∃ y, nl x = .ok y ∧ y.shape = x.shape) {u : NdArr ℂ} {S : List ℕ} (hu : bcShape [N] u.shape = some S) {h : ℝ}
    (hh : 0 ≤ h) : ∃ v, (m.ndStep nl u h m.ndNew).1 = .ok v ∧ v.shape = S := by
  rw [m.ndStep_new nl u hh]
  have := m.tag_step hm hu (fun x _ => hnl x) h (u := u) rfl
  cases hx : m.rprog.aStep m.ndEnv nl h u with
  | error e => rw [hx] at this; exact this.elim
  | ok v => rw [hx] at this; exact ⟨v, rfl, this.shape⟩

/-- **C76.** The same for trials of adaptive solvers and arrays that are not empty. -/
theorem C76_shape_as (m : ASSolver (Fin N)) {lam : Vec (Fin N)} (hm : m.op = .diag lam) {nl : NdArr ℂ → Except PyErr (NdArr ℂ)}
    (hnl : ∀ x, ∃ y, nl x = .ok y ∧ y.shape = x.shape) {u : NdArr ℂ} {S : List ℕ} (hu : bcShape [N] u.shape = some S) (h0 : 0 ∉ S)
    (h : ℝ) : ∃ v e, (m.ndTrial nl u h m.ndNew).1 = .ok (v, e) ∧ v.shape = S ∧ e.shape = S := by
  rw [m.ndTrial_new]
  have := m.tag_trial hm hu (fun x _ => hnl x) h (u := u) rfl
  rw [ASSolver.endCheck, if_neg h0] at this
  cases hx : m.rprog.aTrial m.ndEnv checkS nl h u with
  | error e => rw [hx] at this; exact this.elim
  | ok v =>
    rw [hx] at this
    simp only [RelE, Option.some.injEq] at this
    exact ⟨v.1, v.2, rfl, this.1.symm, this.2.symm⟩

/-- **C76.** Adaptive solvers raise `ValueError` on arrays without entries. -/
theorem C76_empty_as (m : ASSolver (Fin N)) {lam : Vec (Fin N)} (hm : m.op = .diag lam) {nl : NdArr ℂ → Except PyErr (NdArr ℂ)}
    (hnl : ∀ x, ∃ y, nl x = .ok y ∧ y.shape = x.shape) {u : NdArr ℂ} {S : List ℕ} (hu : bcShape [N] u.shape = some S) (h0 : 0 ∈ S)
    (h : ℝ) : (m.ndTrial nl u h m.ndNew).1 = .error .valueError := by
  rw [m.ndTrial_new]
  have := m.tag_trial hm hu (fun x _ => hnl x) h (u := u) rfl
  rw [ASSolver.endCheck, if_pos h0] at this
  cases hx : m.rprog.aTrial m.ndEnv checkS nl h u with
  | error e => rw [hx] at this; rw [show e = PyErr.valueError from this]
  | ok v => rw [hx] at this; exact this.elim

/-! ### Mismatches -/

theorem bcShape_mismatch {lead : List ℕ} {M : ℕ} (h1 : M ≠ N) (h2 : M ≠ 1) (h3 : N ≠ 1) : bcShape [N] (lead ++ [M]) = none := by
  simp [bcShape, bcRev, bcDim, h1.symm, h2, h3]

/-- **C76.** One-dimensional `lin_op` of length `N`: if the last axis of `u` has another length, and neither of the two is 1, then `step` raises
`ValueError`. -/
theorem C76_mismatch_cs (m : CSSolver (Fin N)) {lam : Vec (Fin N)} (hm : m.op = .diag lam) {nl : NdArr ℂ → Except PyErr (NdArr ℂ)}
    (hnl : ∀ x, ∃ y, nl x = .ok y ∧ y.shape = x.shape) {lead : List ℕ} {M : ℕ} (h1 : M ≠ N) (h2 : M ≠ 1) (h3 : N ≠ 1) {u : NdArr ℂ}
    (hu : u.shape = lead ++ [M]) {h : ℝ} (hh : 0 ≤ h) : (m.ndStep nl u h m.ndNew).1 = .error .valueError := by
  rw [m.ndStep_new nl u hh]
  have := m.tag_step hm (bcShape_mismatch (lead := lead) h1 h2 h3) (fun x _ => hnl x) h hu
  cases hx : m.rprog.aStep m.ndEnv nl h u with
  | error e => rw [hx] at this; rw [show e = PyErr.valueError from this]
  | ok v => rw [hx] at this; exact this.elim

/-- **C76.** The same for trials of adaptive solvers. -/
theorem C76_mismatch_as (m : ASSolver (Fin N)) {lam : Vec (Fin N)} (hm : m.op = .diag lam) {nl : NdArr ℂ → Except PyErr (NdArr ℂ)}
    (hnl : ∀ x, ∃ y, nl x = .ok y ∧ y.shape = x.shape) {lead : List ℕ} {M : ℕ} (h1 : M ≠ N) (h2 : M ≠ 1) (h3 : N ≠ 1) {u : NdArr ℂ}
    (hu : u.shape = lead ++ [M]) (h : ℝ) : (m.ndTrial nl u h m.ndNew).1 = .error .valueError := by
  rw [m.ndTrial_new]
  have := m.tag_trial hm (bcShape_mismatch (lead := lead) h1 h2 h3) (fun x _ => hnl x) h hu
  cases hx : m.rprog.aTrial m.ndEnv checkS nl h u with
  | error e => rw [hx] at this; rw [show e = PyErr.valueError from this]
  | ok v => rw [hx] at this; exact this.elim

theorem dot_mismatch {s : List ℕ} {k : ℕ} (hk : k ≠ N) (hs : s = [k] ∨ ∃ lead b, s = lead ++ [k, b]) (M : Mat (Fin N)) (x : NdArr ℂ)
    (hx : x.shape = s) : NdArr.matDot M x = .error .valueError := by
  rcases hs with rfl | ⟨lead, b, rfl⟩ <;> simp [NdArr.matDot, hx, hk]

/-- **C76.** A matrix as `lin_op`: if the only axis of `u`, or the last but one, has a length other than `N`, then `step` raises `ValueError`. -/
theorem C76_full_mismatch_cs (m : CSSolver (Fin N)) {L : Mat (Fin N)} (hm : m.op = .full L) {nl : NdArr ℂ → Except PyErr (NdArr ℂ)}
    (hnl : ∀ x, ∃ y, nl x = .ok y ∧ y.shape = x.shape) {u : NdArr ℂ} {k : ℕ} (hk : k ≠ N)
    (hu : u.shape = [k] ∨ ∃ lead b, u.shape = lead ++ [k, b]) {h : ℝ} (hh : 0 ≤ h) (hc : m.CoefOk h) :
    (m.ndStep nl u h m.ndNew).1 = .error .valueError := by
  rw [m.ndStep_new nl u hh]
  exact m.unit_step hm (dot_mismatch hk hu) (fun x hx => by
    obtain ⟨y, h1, h2⟩ := hnl x
    exact ⟨y, h1, h2.trans hx⟩) hc rfl

/-- **C76.** The same for trials of adaptive solvers. -/
theorem C76_full_mismatch_as (m : ASSolver (Fin N)) {L : Mat (Fin N)} (hm : m.op = .full L) {nl : NdArr ℂ → Except PyErr (NdArr ℂ)}
    (hnl : ∀ x, ∃ y, nl x = .ok y ∧ y.shape = x.shape) {u : NdArr ℂ} {k : ℕ} (hk : k ≠ N)
    (hu : u.shape = [k] ∨ ∃ lead b, u.shape = lead ++ [k, b]) {h : ℝ} (hc : m.CoefOk h) :
    (m.ndTrial nl u h m.ndNew).1 = .error .valueError := by
  rw [m.ndTrial_new]
  exact m.unit_trial (by intro lam; rw [hm]; simp) (dot_mismatch hk hu) (ASSolver.stages_full hm) (fun x hx => by
    obtain ⟨y, h1, h2⟩ := hnl x
    exact ⟨y, h1, h2.trans hx⟩) hc rfl

/-- **C76.** With `diagonalize=True` an array of shape `(N, B)`, on which the same solver without diagonalization acts column by column,
raises `ValueError` unless `B` is 1 or `N`. -/
theorem C76_eig_mismatch (m : ASSolver (Fin N)) {lam : Vec (Fin N)} {S T : Mat (Fin N)} {hS : S * T = 1} (hm : m.op = .eig lam S T hS)
    {nl : NdArr ℂ → Except PyErr (NdArr ℂ)} (hnl : ∀ x, ∃ y, nl x = .ok y ∧ y.shape = x.shape) {B : ℕ} (h1 : B ≠ N) (h2 : B ≠ 1)
    (h3 : N ≠ 1) {u : NdArr ℂ} (hu : u.shape = [N, B]) (h : ℝ) : (m.ndTrial nl u h m.ndNew).1 = .error .valueError := by
  rw [m.ndTrial_new]
  have := m.tag_trial_eig (by intro L; rw [hm]; simp) (bcShape_mismatch (lead := [N]) h1 h2 h3) (fun x _ => hnl x) h hu
  cases hx : m.rprog.aTrial m.ndEnv checkS nl h u with
  | error e => rw [hx] at this; rw [show e = PyErr.valueError from this]
  | ok v => rw [hx] at this; exact this.elim

/-! ### Examples -/

/-- `nl_func` that squares all entries. -/
def squareNd (x : NdArr ℂ) : Except PyErr (NdArr ℂ) := .ok ⟨x.shape, fun i => x.get i ^ 2⟩

theorem squareNd_shape (x : NdArr ℂ) : ∃ y, squareNd x = .ok y ∧ y.shape = x.shape := ⟨_, rfl, rfl⟩

theorem squareNd_acts {κ : Type} (s : List ℕ) (f : κ → List ℕ) :
    ActsOn s (fun x j => x.get (f j)) squareNd (fun v : Vec κ => .ok (v ^ 2)) := by
  intro x hx
  refine ⟨rfl, fun y hy => ?_⟩
  simp only [squareNd, Except.ok.injEq] at hy
  rw [← hy]
  exact hx

/-- Three rows of two modes each. -/
def batch : NdArr ℂ := ⟨[3, 2], fun i => i.headD 0 + 2 * i.getLastD 0⟩

/-- Two columns of three modes each. -/
def batchT : NdArr ℂ := ⟨[3, 2], fun i => i.headD 0⟩

/-- A column. -/
def column : NdArr ℂ := ⟨[2, 1], fun i => i.headD 0⟩

/-- An operator for two modes. -/
noncomputable def twoRates : LinOp (Fin 2) := .diag ![-1, -4]

section
variable (rnd : ℝ → ℝ) (cfg : SolverConfig ℝ) (s : CSSolver.NdSt (.if4 twoRates)) (s' : CSSolver.State (.if4 twoRates))

/-- Row 1 of a batch is evolved as it would be alone. -/
example (fuel : ℕ) :
    ((CSSolver.if4 twoRates).ndEvolve squareNd rnd false fuel batch 0 1 (1 / 4) true 2 s).2.u.map (NdArr.row 2 [1]) =
      ((CSSolver.if4 twoRates).evolve (fun v => .ok (v ^ 2)) rnd false fuel (fun j => 1 + 2 * (j.val : ℂ)) 0 1 (1 / 4) true 2 s').2.u := by
  have := (C76_rows_cs (.if4 twoRates) (lam := ![-1, -4]) rfl (B := [3]) (b := [1]) (by decide) (squareNd_acts _ _) rnd false fuel
    (u := batch) rfl 0 1 (1 / 4) true 2 s s').stored
  rw [this]
  congr 3
  funext j
  simp [NdArr.row, batch]

/-- The same for a trial of IF45DP. -/
example : ((ASSolver.if45dp ![-1, -4]).ndTrial squareNd batch (1 / 4) (ASSolver.if45dp ![-1, -4]).ndNew).1.map
      (fun r => (r.1.row 2 [1], r.2.row 2 [1])) =
    ((ASSolver.if45dp ![-1, -4]).trial (fun v => .ok (v ^ 2)) (batch.row 2 [1]) (1 / 4) (ASSolver.if45dp ![-1, -4]).new).1 :=
  C76_rows_as _ rfl (B := [3]) (by decide) (by decide) (squareNd_acts _ _) rfl (1 / 4)

/-- A batch as one array with six modes. -/
example (fuel : ℕ) (st) (st') :
    ((CSSolver.if4 twoRates).ndEvolve squareNd rnd false fuel batch 0 1 (1 / 4) true 2 st).2.u.map (NdArr.flat [3, 2]) =
      ((CSSolver.if4 (.diag fun i : Cells [3, 2] => ![-1, -4] (Cells.last (B := [3]) i))).evolve (fun v => .ok (v ^ 2)) rnd false fuel
        (batch.flat [3, 2]) 0 1 (1 / 4) true 2 st').2.u :=
  (C76_flat_cs (.if4 twoRates) (lam := ![-1, -4]) rfl (B := [3]) (squareNd_acts _ _) rnd false fuel
    (u := batch) rfl 0 1 (1 / 4) true 2 st st').stored

/-- The same for adaptive steps: the step sizes of the batch are those of the long array. -/
example (fuel : ℕ) (st) (st') :
    ((ASSolver.if34 (.diag ![-1, -4])).ndEvolve squareNd rnd false cfg fuel batch 0 1 none true 1 st).2.t =
      ((ASSolver.if34 (.diag fun i : Cells [3, 2] => ![-1, -4] (Cells.last (B := [3]) i))).evolve (fun v => .ok (v ^ 2)) rnd false cfg fuel
        (batch.flat [3, 2]) 0 1 none true 1 st').2.t :=
  (C76_flat_as (.if34 (.diag ![-1, -4])) (lam := ![-1, -4]) rfl (B := [3]) (by decide) (squareNd_acts _ _) rnd false cfg fuel
    (u := batch) rfl 0 1 none true 1 st st').times

/-- An operator of length 1. -/
example (fuel : ℕ) (st) (st') :
    ((CSSolver.if4 (.diag fun _ : Fin 1 => -1)).ndEvolve squareNd rnd false fuel batch 0 1 (1 / 4) true 2 st).2.u.map (NdArr.flat [3, 2]) =
      ((CSSolver.if4 (.diag fun _ : Cells [3, 2] => -1)).evolve (fun v => .ok (v ^ 2)) rnd false fuel
        (batch.flat [3, 2]) 0 1 (1 / 4) true 2 st').2.u :=
  (C76_one_cs (.if4 (.diag fun _ => -1)) (lam := fun _ => -1) rfl (by decide) (squareNd_acts _ _) rnd false fuel
    (u := batch) rfl 0 1 (1 / 4) true 2 st st').stored

/-- An operator of length 1, adaptive steps. -/
example (fuel : ℕ) (st) (st') :
    ((ASSolver.if34 (.diag fun _ : Fin 1 => -1)).ndEvolve squareNd rnd false cfg fuel batch 0 1 none true 1 st).2.t =
      ((ASSolver.if34 (.diag fun _ : Cells [3, 2] => -1)).evolve (fun v => .ok (v ^ 2)) rnd false cfg fuel
        (batch.flat [3, 2]) 0 1 none true 1 st').2.t :=
  (C76_one_as (.if34 (.diag fun _ => -1)) (lam := fun _ => -1) rfl (by decide) (by decide) (squareNd_acts _ _) rnd false cfg fuel
    (u := batch) rfl 0 1 none true 1 st st').times

/-- One-dimensional arrays. -/
example (fuel : ℕ) (M : Mat (Fin 2)) (st) (st') :
    ((CSSolver.if4 (.full M)).ndEvolve squareNd rnd false fuel (NdArr.ofVec ![3, 4]) 0 1 (1 / 4) true 2 st).2.u.map (NdArr.row 2 []) =
      ((CSSolver.if4 (.full M)).evolve (fun v => .ok (v ^ 2)) rnd false fuel ![3, 4] 0 1 (1 / 4) true 2 st').2.u := by
  have := (C76_vec_cs (.if4 (.full M)) (squareNd_acts _ _) rnd false fuel (u := NdArr.ofVec ![3, 4]) rfl 0 1 (1 / 4) true 2 st st').stored
  rw [this]
  congr 3
  funext j
  fin_cases j <;> simp [NdArr.row, NdArr.ofVec]

/-- One-dimensional arrays, adaptive steps. -/
example (fuel : ℕ) (st) (st') :
    ((ASSolver.if45dp ![-1, -4]).ndEvolve squareNd rnd false cfg fuel (NdArr.ofVec ![3, 4]) 0 1 none true 1 st).2.t =
      ((ASSolver.if45dp ![-1, -4]).evolve (fun v => .ok (v ^ 2)) rnd false cfg fuel ![3, 4] 0 1 none true 1 st').2.t := by
  have := (C76_vec_as (.if45dp ![-1, -4]) (by decide) (squareNd_acts _ _) rnd false cfg fuel (u := NdArr.ofVec ![3, 4]) rfl 0 1 none true 1
    st st').times
  rw [this]
  congr 3
  funext j
  fin_cases j <;> simp [NdArr.row, NdArr.ofVec]

/-- A matrix acts on columns. -/
example (fuel : ℕ) (M : Mat (Fin 3)) (st) (st') :
    ((CSSolver.if4 (.full M)).ndEvolve squareNd rnd false fuel batchT 0 1 (1 / 4) true 2 st).2.u.map (NdArr.col 3 1) =
      ((CSSolver.if4 (.full M)).evolve (fun v => .ok (v ^ 2)) rnd false fuel (fun j => (j.val : ℂ)) 0 1 (1 / 4) true 2 st').2.u :=
  (C76_cols_cs (.if4 (.full M)) rfl (B := 2) (b := 1) (by decide) (squareNd_acts _ _) rnd false fuel (u := batchT) rfl 0 1 (1 / 4) true 2
    st st').stored

/-- A matrix acts on columns, adaptive steps. -/
example (M : Mat (Fin 3)) :
    ((ASSolver.if34 (.full M)).ndTrial squareNd batchT (1 / 4) (ASSolver.if34 (.full M)).ndNew).1.map
      (fun r => (r.1.col 3 1, r.2.col 3 1)) =
    ((ASSolver.if34 (.full M)).trial (fun v => .ok (v ^ 2)) (fun j => (j.val : ℂ)) (1 / 4) (ASSolver.if34 (.full M)).new).1 :=
  C76_cols_as _ rfl (by decide) (B := 2) (b := 1) (by decide) (squareNd_acts _ _) (u := batchT) rfl (1 / 4)

/-- A diagonal matrix with `diagonalize=True`: column 1 of a `(2, 2)` array is evolved with the eigenvalue -4 in both entries, although the
operator has the entries -1 and -4. -/
example (u : NdArr ℂ) (hu : u.shape = [2, 2]) :
    ((ASSolver.if34 (.eig ![-1, -4] 1 1 (mul_one 1))).ndTrial squareNd u (1 / 4) (ASSolver.if34 (.eig ![-1, -4] 1 1 (mul_one 1))).ndNew).1.map
      (fun r => (r.1.col 2 1, r.2.col 2 1)) =
    ((ASSolver.if34 (.eig (fun _ => -4) 1 1 (mul_one 1))).trial (fun v => .ok (v ^ 2)) (u.col 2 1) (1 / 4)
      (ASSolver.if34 (.eig (fun _ => -4) 1 1 (mul_one 1))).new).1 :=
  C76_eig_cols (.if34 (.eig ![-1, -4] 1 1 (mul_one 1))) rfl 1 (squareNd_acts _ _) hu (1 / 4)

/-- A column of shape `(2, 1)` with an operator of length 2 becomes an array of shape `(2, 2)`. -/
example : ∃ v, ((CSSolver.if4 twoRates).ndStep squareNd column (1 / 4) (CSSolver.if4 twoRates).ndNew).1 = .ok v ∧ v.shape = [2, 2] :=
  C76_shape_cs _ rfl squareNd_shape (u := column) (S := [2, 2]) (by decide) (by norm_num)

/-- The same for adaptive steps. -/
example : ∃ v e, ((ASSolver.if45dp ![-1, -4]).ndTrial squareNd column (1 / 4) (ASSolver.if45dp ![-1, -4]).ndNew).1 = .ok (v, e) ∧
    v.shape = [2, 2] ∧ e.shape = [2, 2] :=
  C76_shape_as _ rfl squareNd_shape (u := column) (S := [2, 2]) (by decide) (by decide) (1 / 4)

/-- No rows. -/
example : ((ASSolver.if45dp ![-1, -4]).ndTrial squareNd ⟨[0, 2], fun _ => 0⟩ (1 / 4) (ASSolver.if45dp ![-1, -4]).ndNew).1 =
    .error .valueError :=
  C76_empty_as _ rfl squareNd_shape (S := [0, 2]) (by decide) (by decide) (1 / 4)

/-- Three modes, and an operator of length 2. -/
example : ((CSSolver.if4 twoRates).ndStep squareNd ⟨[3], fun _ => 1⟩ (1 / 4) (CSSolver.if4 twoRates).ndNew).1 = .error .valueError :=
  C76_mismatch_cs _ rfl squareNd_shape (lead := []) (M := 3) (by decide) (by decide) (by decide) rfl (by norm_num)

/-- The same for adaptive steps. -/
example : ((ASSolver.if45dp ![-1, -4]).ndTrial squareNd ⟨[2, 3], fun _ => 1⟩ (1 / 4) (ASSolver.if45dp ![-1, -4]).ndNew).1 =
    .error .valueError :=
  C76_mismatch_as _ rfl squareNd_shape (lead := [2]) (M := 3) (by decide) (by decide) (by decide) rfl (1 / 4)

/-- A batch of rows with a matrix. -/
example (M : Mat (Fin 2)) :
    ((CSSolver.if4 (.full M)).ndStep squareNd batch (1 / 4) (CSSolver.if4 (.full M)).ndNew).1 = .error .valueError :=
  C76_full_mismatch_cs _ rfl squareNd_shape (k := 3) (by decide) (.inr ⟨[], 2, rfl⟩) (by norm_num) trivial

/-- The same for adaptive steps. -/
example (M : Mat (Fin 2)) :
    ((ASSolver.if34 (.full M)).ndTrial squareNd batch (1 / 4) (ASSolver.if34 (.full M)).ndNew).1 = .error .valueError :=
  C76_full_mismatch_as _ rfl squareNd_shape (k := 3) (by decide) (.inr ⟨[], 2, rfl⟩) trivial

/-- Three columns of two modes with `diagonalize=True`. -/
example : ((ASSolver.if34 (.eig ![-1, -4] 1 1 (mul_one 1))).ndTrial squareNd ⟨[2, 3], fun _ => 1⟩ (1 / 4)
    (ASSolver.if34 (.eig ![-1, -4] 1 1 (mul_one 1))).ndNew).1 = .error .valueError :=
  C76_eig_mismatch _ rfl squareNd_shape (B := 3) (by decide) (by decide) (by decide) rfl (1 / 4)

end

end Verif
