import Verif.Lemmas.BroadcastAllenCahn
import Verif.Lemmas.FirstRaise
import Verif.Props.Shapes

/-!
# C78: the model problems on batches
-/

set_option linter.unusedSectionVars false

namespace Verif

variable {M N k : ℕ}

/-! ### KdV and Burgers: batches are rows -/

/-- **C78.** With the operators of `kdv_ops`, a constant-step solver evolves the rows of an array of shape `(…, M + 1)` as it would evolve each
of them alone. -/
theorem C78_kdv_cs (m : CSSolver (Fin (M + 1))) (kx : Fin (M + 1) → ℝ) (hm : m.op = .diag (kdvLin kx)) {B b : List ℕ} (hb : b ∈ indices B)
    (rnd : ℝ → ℝ) (pyDiv : Bool) (fuel : ℕ) {u : NdArr ℂ} (hu : u.shape = B ++ [M + 1]) (t0 tf h : ℝ) (storeData : Bool) (freq : ℤ)
    (s : m.NdSt) (s' : m.State) :
    SeenAs (B ++ [M + 1]) (NdArr.row (M + 1) b) (m.ndEvolve (kdvNlNd kx) rnd pyDiv fuel u t0 tf h storeData freq s).1
      (m.ndEvolve (kdvNlNd kx) rnd pyDiv fuel u t0 tf h storeData freq s).2.t
      (m.ndEvolve (kdvNlNd kx) rnd pyDiv fuel u t0 tf h storeData freq s).2.u
      (m.evolve (kdvNl kx) rnd pyDiv fuel (u.row (M + 1) b) t0 tf h storeData freq s').1
      (m.evolve (kdvNl kx) rnd pyDiv fuel (u.row (M + 1) b) t0 tf h storeData freq s').2.t
      (m.evolve (kdvNl kx) rnd pyDiv fuel (u.row (M + 1) b) t0 tf h storeData freq s').2.u :=
  C76_rows_cs m hm hb (kdv_rows hb kx) rnd pyDiv fuel hu t0 tf h storeData freq s s'

/-- **C78.** The same for `burgers_ops`. -/
theorem C78_burgers_cs (m : CSSolver (Fin (M + 1))) (kx : Fin (M + 1) → ℝ) (mu : ℝ) (hm : m.op = .diag (burgersLin kx mu)) {B b : List ℕ}
    (hb : b ∈ indices B) (rnd : ℝ → ℝ) (pyDiv : Bool) (fuel : ℕ) {u : NdArr ℂ} (hu : u.shape = B ++ [M + 1]) (t0 tf h : ℝ)
    (storeData : Bool) (freq : ℤ) (s : m.NdSt) (s' : m.State) :
    SeenAs (B ++ [M + 1]) (NdArr.row (M + 1) b) (m.ndEvolve (burgersNlNd kx) rnd pyDiv fuel u t0 tf h storeData freq s).1
      (m.ndEvolve (burgersNlNd kx) rnd pyDiv fuel u t0 tf h storeData freq s).2.t
      (m.ndEvolve (burgersNlNd kx) rnd pyDiv fuel u t0 tf h storeData freq s).2.u
      (m.evolve (burgersNl kx) rnd pyDiv fuel (u.row (M + 1) b) t0 tf h storeData freq s').1
      (m.evolve (burgersNl kx) rnd pyDiv fuel (u.row (M + 1) b) t0 tf h storeData freq s').2.t
      (m.evolve (burgersNl kx) rnd pyDiv fuel (u.row (M + 1) b) t0 tf h storeData freq s').2.u :=
  C76_rows_cs m hm hb (burgers_rows hb kx) rnd pyDiv fuel hu t0 tf h storeData freq s s'

/-- **C78.** Trials of adaptive solvers act on the rows.  (Step sizes are chosen for the whole batch.) -/
theorem C78_kdv_as (m : ASSolver (Fin (M + 1))) (kx : Fin (M + 1) → ℝ) (hm : m.op = .diag (kdvLin kx)) {B b : List ℕ} (hb : b ∈ indices B)
    (h0 : 0 ∉ B) {u : NdArr ℂ} (hu : u.shape = B ++ [M + 1]) (h : ℝ) :
    (m.ndTrial (kdvNlNd kx) u h m.ndNew).1.map (fun r => (r.1.row (M + 1) b, r.2.row (M + 1) b)) =
      (m.trial (kdvNl kx) (u.row (M + 1) b) h m.new).1 :=
  C76_rows_as m hm hb (by simpa using h0) (kdv_rows hb kx) hu h

/-- **C78.** The same for `burgers_ops`. -/
theorem C78_burgers_as (m : ASSolver (Fin (M + 1))) (kx : Fin (M + 1) → ℝ) (mu : ℝ) (hm : m.op = .diag (burgersLin kx mu)) {B b : List ℕ}
    (hb : b ∈ indices B) (h0 : 0 ∉ B) {u : NdArr ℂ} (hu : u.shape = B ++ [M + 1]) (h : ℝ) :
    (m.ndTrial (burgersNlNd kx) u h m.ndNew).1.map (fun r => (r.1.row (M + 1) b, r.2.row (M + 1) b)) =
      (m.trial (burgersNl kx) (u.row (M + 1) b) h m.new).1 :=
  C76_rows_as m hm hb (by simpa using h0) (burgers_rows hb kx) hu h

theorem advectionNd_cases (hM : M ≠ 0) (kx : Fin (M + 1) → ℝ) (x : NdArr ℂ) :
    (x.shape = [] ∧ advectionNd kx x = .error .indexError) ∨
    (∃ B d, x.shape = B ++ [d] ∧ d ≠ M + 1 ∧ advectionNd kx x = .error .valueError) ∨
    (∃ B y, x.shape = B ++ [M + 1] ∧ advectionNd kx x = .ok y ∧ y.shape = x.shape) := by
  rcases List.eq_nil_or_concat x.shape with h | ⟨B, d, h⟩
  · exact .inl ⟨h, by simp [advectionNd, npIrfft, h, bind, Except.bind]⟩
  · rw [List.concat_eq_append] at h
    right
    by_cases hd : d = M + 1
    · subst hd
      obtain ⟨y, h1, h2, -⟩ := advectionNd_ok kx h hM
      exact .inr ⟨B, y, h, h1, h2.trans h.symm⟩
    · refine .inl ⟨B, d, h, hd, ?_⟩
      by_cases h1 : d ≤ 1
      · simp [advectionNd, npIrfft, h, h1, bind, Except.bind]
      · have h2 : bcShape [M + 1] (B ++ [d]) = none := bcShape_mismatch (N := M + 1) hd (by omega) (by omega)
        simp [advectionNd, npIrfft, h, h1, NdArr.elementwise, NdArr.ofVec, h2, bind, Except.bind]

/-- **C78.** The functions of `kdv_ops` and `burgers_ops` (at least two wavenumbers) return arrays of the shape of their argument if its last axis
has the length of `kx`; a number raises `IndexError`, another last axis `ValueError`, also if it has length 1. -/
theorem C78_spectral_shapes (hM : M ≠ 0) (kx : Fin (M + 1) → ℝ) (nl : NdArr ℂ → Except PyErr (NdArr ℂ))
    (hnl : nl = kdvNlNd kx ∨ nl = burgersNlNd kx) (x : NdArr ℂ) :
    ((∃ y, nl x = .ok y) ↔ x.shape.getLast? = some (M + 1)) ∧ (∀ y, nl x = .ok y → y.shape = x.shape) ∧
    (nl x = .error .indexError ↔ x.shape = []) ∧
    (nl x = .error .valueError ↔ x.shape ≠ [] ∧ x.shape.getLast? ≠ some (M + 1)) := by
  rcases advectionNd_cases hM kx x with ⟨h1, h2⟩ | ⟨B, d, h1, h2, h3⟩ | ⟨B, y, h1, h2, h3⟩ <;> rcases hnl with rfl | rfl
  · simp [kdvNlNd, h1, h2, Except.map]
  · simp [burgersNlNd, h1, h2, Except.map]
  · simp [kdvNlNd, h1, h2, h3, Except.map]
  · simp [burgersNlNd, h1, h2, h3, Except.map]
  · refine ⟨by simp [kdvNlNd, h1, h2, Except.map], ?_, by simp [kdvNlNd, h1, h2, Except.map], by simp [kdvNlNd, h1, h2, Except.map]⟩
    rintro z hz
    rw [kdvNlNd, h2] at hz
    cases hz
    exact h3
  · refine ⟨by simp [burgersNlNd, h1, h2, Except.map], ?_, by simp [burgersNlNd, h1, h2, Except.map], by simp [burgersNlNd, h1, h2, Except.map]⟩
    rintro z hz
    rw [burgersNlNd, h2] at hz
    cases hz
    exact h3

/-! ### Allen–Cahn: no batches -/

/-- **C78.** On arrays of shape `(k,)` the function of `allen_cahn_ops` is the one of C53. -/
theorem C78_allen_cahn_vec (x : Fin (k + 2) → ℝ) : ActsOn [k] (NdArr.row k []) (allenCahnNlNd x) (allenCahnNl x) := by
  intro u hu
  simp only [allenCahnNlNd, NdArr.elementwise, NdArr.ofVec, hu, bcShape_self, bind, Except.bind, pure, Except.pure, Except.map, NdArr.ravel,
    NdArr.size, allenCahnNl]
  refine ⟨?_, ?_⟩
  · congr 1
    funext i
    have h0 : indices [k] = (List.range k).map fun i => [i] := by
      rw [List.map_eq_flatMap]; simp [indices]
    have h1 : (indices [k]).getD i.val [] = [i.val] := by simp [h0]
    rw [List.getD_eq_getElem?_getD] at h1
    simp [NdArr.row, h1, bcIdx_vec]
  · rintro y ⟨rfl⟩
    simp

/-- **C78.** On arrays with two axes every constant-step solver with the matrix of `allen_cahn_ops` raises `ValueError`: the grid is added
along the last axis, the matrix acts on the first, and `ravel` flattens the array. -/
theorem C78_allen_cahn_cs (m : CSSolver (Fin k)) {L : Mat (Fin k)} (hm : m.op = .full L) (hk : 2 ≤ k) (x : Fin (k + 2) → ℝ) {u : NdArr ℂ}
    {a b : ℕ} (hu : u.shape = [a, b]) {h : ℝ} (hh : 0 ≤ h) (hc : m.CoefOk h) :
    (m.ndStep (allenCahnNlNd x) u h m.ndNew).1 = .error .valueError := by
  rw [m.ndStep_new _ u hh]
  have := m.shape_step (allenCahn_shape x) h u
  rw [hu, m.allenCahn_step hm hk a b hc] at this
  cases hx : m.rprog.aStep m.ndEnv (allenCahnNlNd x) h u with
  | error e => rw [hx] at this; rw [show e = PyErr.valueError from this]
  | ok v => rw [hx] at this; exact this.elim

/-- **C78.** The same for trials of adaptive solvers, diagonalized or not. -/
theorem C78_allen_cahn_as (m : ASSolver (Fin k)) (hm : ∀ lam, m.op ≠ .diag lam) (hk : 2 ≤ k) (x : Fin (k + 2) → ℝ) {u : NdArr ℂ}
    {a b : ℕ} (hu : u.shape = [a, b]) {h : ℝ} (hc : m.CoefOk h) :
    (m.ndTrial (allenCahnNlNd x) u h m.ndNew).1 = .error .valueError := by
  rw [m.ndTrial_new]
  have := m.shape_trial (allenCahn_shape x) h u
  rw [hu, m.allenCahn_trial hm hk a b hc] at this
  cases hx : m.rprog.aTrial m.ndEnv checkS (allenCahnNlNd x) h u with
  | error e => rw [hx] at this; rw [show e = PyErr.valueError from this]
  | ok v => rw [hx] at this; exact this.elim

/-! ### `evolve` -/

/-- **C78.** If a step from the initial array raises on a new object, then `evolve` raises the same exception, whatever the object was used for
before, and only the initial state is recorded. -/
theorem C78_evolve_cs (m : CSSolver (Fin N)) (nl : NdArr ℂ → Except PyErr (NdArr ℂ)) {u : NdArr ℂ} {h : ℝ} (hh : 0 ≤ h) {e : PyErr}
    (he : (m.ndStep nl u h m.ndNew).1 = .error e) (rnd : ℝ → ℝ) (pyDiv : Bool) (fuel : ℕ) {t0 tf : ℝ} (hspan : rnd (t0 + h) ≤ tf)
    (hlt : t0 < tf) (storeData : Bool) (freq : ℤ) (s : m.NdSt) :
    (m.ndEvolve nl rnd pyDiv (fuel + 1) u t0 tf h storeData freq s).1 = .error e ∧
    (m.ndEvolve nl rnd pyDiv (fuel + 1) u t0 tf h storeData freq s).2.t = (if storeData then [t0] else []) ∧
    (m.ndEvolve nl rnd pyDiv (fuel + 1) u t0 tf h storeData freq s).2.u = (if storeData then [u] else []) := by
  rw [m.ndStep_new _ _ hh] at he
  exact CSClass.evolve_first (RCSProg.alawful m.rprog_ok m.ndEnv nl) rnd pyDiv fuel storeData freq hh hspan hlt he s

/-- **C78.** The same for adaptive solvers, if a trial raises for all step sizes. -/
theorem C78_evolve_as (m : ASSolver (Fin N)) (nl : NdArr ℂ → Except PyErr (NdArr ℂ)) {u : NdArr ℂ} {e : PyErr}
    (he : ∀ h, (m.ndTrial nl u h m.ndNew).1 = .error e) (rnd : ℝ → ℝ) (hr : ∀ x, 0 ≤ x → 0 ≤ rnd x) (pyDiv : Bool) (cfg : SolverConfig ℝ)
    (fuel : ℕ) {t0 tf : ℝ} (hlt : t0 < tf) (hInit : Option ℝ) (hi : ∀ h ∈ hInit, 0 ≤ h) (storeData : Bool) (freq : ℤ) (s : m.NdSt) :
    (m.ndEvolve nl rnd pyDiv cfg (fuel + 1) u t0 tf hInit storeData freq s).1 = .error e ∧
    (m.ndEvolve nl rnd pyDiv cfg (fuel + 1) u t0 tf hInit storeData freq s).2.t = (if storeData then [t0] else []) ∧
    (m.ndEvolve nl rnd pyDiv cfg (fuel + 1) u t0 tf hInit storeData freq s).2.u = (if storeData then [u] else []) := by
  simp only [m.ndTrial_new] at he
  refine ASClass.evolve_first (RASProg.alawful m.rprog_ok (m.rprog_next _) m.isDP m.ndEnv checkS (ndComputeS m.ndQ) nl) rnd pyDiv cfg fuel
    storeData freq ?_ hlt (he _) s
  have h0 : 0 ≤ rnd (tf - t0) := hr _ (by linarith)
  unfold ASClass.firstSize limitTo
  split_ifs
  · exact h0
  · cases hInit with
    | none => exact hr _ (by positivity)
    | some h => exact hi h rfl

/-! ### Examples -/

/-- Three initial spectra on four points. -/
def spectra : NdArr ℂ := ⟨[3, 3], fun i => i.headD 0 + i.getLastD 0⟩

section
variable (rnd : ℝ → ℝ) (kx : Fin 3 → ℝ) (fuel : ℕ)

/-- Row 2 of a KdV batch. -/
example (st) (st') :
    ((CSSolver.if4 (.diag (kdvLin kx))).ndEvolve (kdvNlNd kx) rnd false fuel spectra 0 1 (1 / 4) true 2 st).2.u.map (NdArr.row 3 [2]) =
      ((CSSolver.if4 (.diag (kdvLin kx))).evolve (kdvNl kx) rnd false fuel (spectra.row 3 [2]) 0 1 (1 / 4) true 2 st').2.u :=
  (C78_kdv_cs (M := 2) (.if4 (.diag (kdvLin kx))) kx rfl (B := [3]) (b := [2]) (by simp [mem_indices]) rnd false fuel (u := spectra) rfl
    0 1 (1 / 4) true 2 st st').stored

/-- Row 2 of a Burgers batch. -/
example (st) (st') :
    ((CSSolver.if4 (.diag (burgersLin kx 1))).ndEvolve (burgersNlNd kx) rnd false fuel spectra 0 1 (1 / 4) true 2 st).2.u.map (NdArr.row 3 [2]) =
      ((CSSolver.if4 (.diag (burgersLin kx 1))).evolve (burgersNl kx) rnd false fuel (spectra.row 3 [2]) 0 1 (1 / 4) true 2 st').2.u :=
  (C78_burgers_cs (M := 2) (.if4 (.diag (burgersLin kx 1))) kx 1 rfl (B := [3]) (b := [2]) (by simp [mem_indices]) rnd false fuel
    (u := spectra) rfl 0 1 (1 / 4) true 2 st st').stored

/-- Row 2 of a trial, KdV. -/
example : ((ASSolver.if45dp (kdvLin kx)).ndTrial (kdvNlNd kx) spectra (1 / 4) (ASSolver.if45dp (kdvLin kx)).ndNew).1.map
    (fun r => (r.1.row 3 [2], r.2.row 3 [2])) =
      ((ASSolver.if45dp (kdvLin kx)).trial (kdvNl kx) (spectra.row 3 [2]) (1 / 4) (ASSolver.if45dp (kdvLin kx)).new).1 :=
  C78_kdv_as (M := 2) (.if45dp (kdvLin kx)) kx rfl (B := [3]) (b := [2]) (by simp [mem_indices]) (by simp) rfl (1 / 4)

/-- Row 2 of a trial, Burgers. -/
example : ((ASSolver.if45dp (burgersLin kx 1)).ndTrial (burgersNlNd kx) spectra (1 / 4) (ASSolver.if45dp (burgersLin kx 1)).ndNew).1.map
    (fun r => (r.1.row 3 [2], r.2.row 3 [2])) =
      ((ASSolver.if45dp (burgersLin kx 1)).trial (burgersNl kx) (spectra.row 3 [2]) (1 / 4) (ASSolver.if45dp (burgersLin kx 1)).new).1 :=
  C78_burgers_as (M := 2) (.if45dp (burgersLin kx 1)) kx 1 rfl (B := [3]) (b := [2]) (by simp [mem_indices]) (by simp) rfl (1 / 4)

/-- Two spectra of length 5 with three wavenumbers. -/
example : kdvNlNd kx ⟨[2, 5], fun _ => 1⟩ = .error .valueError :=
  (C78_spectral_shapes (by norm_num) kx _ (.inl rfl) ⟨[2, 5], fun _ => 1⟩).2.2.2.mpr (by simp)

/-- A spectrum of length 1 is not broadcast. -/
example : burgersNlNd kx ⟨[1], fun _ => 1⟩ = .error .valueError :=
  (C78_spectral_shapes (by norm_num) kx _ (.inr rfl) ⟨[1], fun _ => 1⟩).2.2.2.mpr (by simp)

end

/-- Three interior points. -/
example (x : Fin 5 → ℝ) : (allenCahnNlNd x (NdArr.ofVec ![1, 2, 3])).map (NdArr.row 3 []) =
    allenCahnNl x ((NdArr.ofVec ![1, 2, 3]).row 3 []) := (C78_allen_cahn_vec (k := 3) x _ rfl).1

/-- Two columns of three interior points. -/
example (D : Mat (Fin 3)) (x : Fin 5 → ℝ) :
    ((CSSolver.if4 (.full D)).ndStep (allenCahnNlNd x) ⟨[3, 2], fun _ => 1⟩ (1 / 4) (CSSolver.if4 (.full D)).ndNew).1 = .error .valueError :=
  C78_allen_cahn_cs _ rfl (by norm_num) x rfl (by norm_num) trivial

/-- Three columns, which the grid fits by accident. -/
example (D : Mat (Fin 3)) (x : Fin 5 → ℝ) :
    ((ASSolver.if34 (.full D)).ndTrial (allenCahnNlNd x) ⟨[3, 3], fun _ => 1⟩ (1 / 4) (ASSolver.if34 (.full D)).ndNew).1 = .error .valueError :=
  C78_allen_cahn_as _ (by simp [ASSolver.op]) (by norm_num) x rfl trivial

/-- An `evolve` of two columns: the initial state is recorded. -/
example (D : Mat (Fin 3)) (x : Fin 5 → ℝ) (s) :
    ((CSSolver.if4 (.full D)).ndEvolve (allenCahnNlNd x) id false 100 ⟨[3, 2], fun _ => 1⟩ 0 1 (1 / 4) true 1 s).2.t = [0] :=
  (C78_evolve_cs (.if4 (.full D)) _ (by norm_num) (C78_allen_cahn_cs (.if4 (.full D)) rfl (by norm_num) x rfl (by norm_num) trivial) id false
    99 (by norm_num) (by norm_num) true 1 s).2.1

/-- The same with adaptive steps. -/
example (D : Mat (Fin 3)) (x : Fin 5 → ℝ) (cfg : SolverConfig ℝ) (s) :
    ((ASSolver.if34 (.full D)).ndEvolve (allenCahnNlNd x) id false cfg 100 ⟨[3, 2], fun _ => 1⟩ 0 1 none true 1 s).2.t = [0] :=
  (C78_evolve_as (.if34 (.full D)) _ (fun h => C78_allen_cahn_as (.if34 (.full D)) (by simp [ASSolver.op]) (by norm_num) x rfl trivial) id
    (fun _ h => h) false cfg 99 (by norm_num) none (by simp) true 1 s).2.1

end Verif
