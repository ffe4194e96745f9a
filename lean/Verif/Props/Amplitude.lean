import Verif.Lemmas.Amplitude
import Verif.Lemmas.Reflect
import Verif.Lemmas.Witness
import Verif.Props.Symmetry

/-!
# Units of the solution, phases of its modes, translations and reflections (property C74)

The step size control compares the error with the solution, and the cutoff compares each mode with the largest: no setting
carries a unit of the solution.
-/

set_option linter.unusedSectionVars false

namespace Verif

open Matrix

variable {ι : Type} [Fintype ι] [DecidableEq ι]

/-! ### Another unit -/

theorem const_mul (c : ℂ) : (fun v : Vec ι => (fun _ => c) * v) = fun v => c • v := rfl

/-- **C74.** If all arrays are multiplied by `c`, so are the steps of a constant-step solver (same exceptions). -/
theorem C74_unit_step (c : ℂ) (m : CSSolver ι) (nl nl' : NlFunc ι) (hnl : ∀ w, nl' (c • w) = (nl w).map (c • ·)) (u : Vec ι) (h : ℝ)
    (s s' : m.State) (hs : m.Follows nl u s) (hs' : m.Follows nl' (c • u) s') :
    (m.step nl' (c • u) h s').1 = (m.step nl u h s).1.map (c • ·) :=
  CSSolver.step_times (m.const_rel c) hnl h u hs.inv hs'.inv

/-- **C74.** Constant-step runs. -/
theorem C74_unit_evolve (c : ℂ) (m : CSSolver ι) (nl nl' : NlFunc ι) (hnl : ∀ w, nl' (c • w) = (nl w).map (c • ·)) (rnd : ℝ → ℝ)
    (pyDiv : Bool) (fuel : ℕ) (u : Vec ι) (t0 tf h : ℝ) (storeData : Bool) (freq : ℤ) (s s' : m.State) :
    (m.evolve nl' rnd pyDiv fuel (c • u) t0 tf h storeData freq s').1 =
      (m.evolve nl rnd pyDiv fuel u t0 tf h storeData freq s).1.map (Option.map (c • ·)) ∧
    (m.evolve nl' rnd pyDiv fuel (c • u) t0 tf h storeData freq s').2.t =
      (m.evolve nl rnd pyDiv fuel u t0 tf h storeData freq s).2.t ∧
    (m.evolve nl' rnd pyDiv fuel (c • u) t0 tf h storeData freq s').2.u =
      (m.evolve nl rnd pyDiv fuel u t0 tf h storeData freq s).2.u.map (c • ·) :=
  CSSolver.evolve_times (m.const_rel c) hnl rnd pyDiv fuel u t0 tf h storeData freq s s'

/-- Doubling the unit of `u' = L u + u²`: the nonlinear term becomes `w²/2`, and the run is doubled; first step and whole run. -/
example (L u : Vec (Fin 2)) (s : (CSSolver.if4 (.diag L)).State) :
    let m := CSSolver.if4 (.diag L)
    let nl : NlFunc (Fin 2) := fun w => .ok (w * w)
    let nl' : NlFunc (Fin 2) := fun w => .ok ((1 / 2 : ℂ) • (w * w))
    (m.step nl' ((2 : ℂ) • u) (1 / 10) m.new).1 = (m.step nl u (1 / 10) m.new).1.map ((2 : ℂ) • ·) ∧
    (m.evolve nl' id true 20 ((2 : ℂ) • u) 0 1 (1 / 10) true 3 m.new).2.u =
      (m.evolve nl id true 20 u 0 1 (1 / 10) true 3 s).2.u.map ((2 : ℂ) • ·) := by
  intro m nl nl'
  have hnl : ∀ w, nl' ((2 : ℂ) • w) = (nl w).map ((2 : ℂ) • ·) := by
    intro w
    simp only [nl, nl', Except.map, Except.ok.injEq]
    funext i
    simp [Pi.smul_apply, smul_eq_mul]
  exact ⟨C74_unit_step 2 m nl nl' hnl u (1 / 10) m.new m.new (.new _) (.new _),
    (C74_unit_evolve 2 m nl nl' hnl id true 20 u 0 1 (1 / 10) true 3 s m.new).2.2⟩

/-- **C74.** Adaptive steps: the array multiplied by `c ≠ 0`, the same sizes, the same rejections and exceptions, with the same
settings.  All strategies, also diagonalized ones. -/
theorem C74_unit_adaptive_step {c : ℂ} (hc : c ≠ 0) (m : ASSolver ι) (nl nl' : NlFunc ι) (hnl : ∀ w, nl' (c • w) = (nl w).map (c • ·))
    (rnd : ℝ → ℝ) (cfg : SolverConfig ℝ) (u : Vec ι) (h : ℝ) (s s' : m.State) (hs : m.Follows nl u s)
    (hs' : m.Follows nl' (c • u) s') :
    (m.step nl' rnd cfg (c • u) h s').1 = (m.step nl rnd cfg u h s).1.map fun r => (c • r.1, r.2) :=
  ASSolver.step_times (norm_pos_iff.mpr hc) (fun _ => rfl) (m.const_rel c) hnl rnd cfg h u hs.ready hs'.ready

/-- **C74.** Adaptive runs: the same times. -/
theorem C74_unit_adaptive_evolve {c : ℂ} (hc : c ≠ 0) (m : ASSolver ι) (nl nl' : NlFunc ι)
    (hnl : ∀ w, nl' (c • w) = (nl w).map (c • ·)) (rnd : ℝ → ℝ) (pyDiv : Bool) (cfg : SolverConfig ℝ) (fuel : ℕ) (u : Vec ι)
    (t0 tf : ℝ) (hInit : Option ℝ) (storeData : Bool) (freq : ℤ) (s s' : m.State) :
    (m.evolve nl' rnd pyDiv cfg fuel (c • u) t0 tf hInit storeData freq s').1 =
      (m.evolve nl rnd pyDiv cfg fuel u t0 tf hInit storeData freq s).1.map (Option.map (c • ·)) ∧
    (m.evolve nl' rnd pyDiv cfg fuel (c • u) t0 tf hInit storeData freq s').2.t =
      (m.evolve nl rnd pyDiv cfg fuel u t0 tf hInit storeData freq s).2.t ∧
    (m.evolve nl' rnd pyDiv cfg fuel (c • u) t0 tf hInit storeData freq s').2.u =
      (m.evolve nl rnd pyDiv cfg fuel u t0 tf hInit storeData freq s).2.u.map (c • ·) :=
  ASSolver.evolve_times (norm_pos_iff.mpr hc) (fun _ => rfl) (m.const_rel c) hnl rnd pyDiv cfg fuel u t0 tf hInit storeData freq s s'

/-! ### A factor for each mode -/

/-- **C74.** Diagonal operators: the modes may be multiplied by different numbers. -/
theorem C74_modes_step (p : Vec ι) (m : CSSolver ι) {L : Vec ι} (hm : m.op = .diag L) (nl nl' : NlFunc ι)
    (hnl : ∀ w, nl' (p * w) = (nl w).map (p * ·)) (u : Vec ι) (h : ℝ) (s s' : m.State) (hs : m.Follows nl u s)
    (hs' : m.Follows nl' (p * u) s') : (m.step nl' (p * u) h s').1 = (m.step nl u h s).1.map (p * ·) :=
  CSSolver.step_times (m.times_rel p hm) hnl h u hs.inv hs'.inv

/-- **C74.** Constant-step runs. -/
theorem C74_modes_evolve (p : Vec ι) (m : CSSolver ι) {L : Vec ι} (hm : m.op = .diag L) (nl nl' : NlFunc ι)
    (hnl : ∀ w, nl' (p * w) = (nl w).map (p * ·)) (rnd : ℝ → ℝ) (pyDiv : Bool) (fuel : ℕ) (u : Vec ι) (t0 tf h : ℝ)
    (storeData : Bool) (freq : ℤ) (s s' : m.State) :
    (m.evolve nl' rnd pyDiv fuel (p * u) t0 tf h storeData freq s').1 =
      (m.evolve nl rnd pyDiv fuel u t0 tf h storeData freq s).1.map (Option.map (p * ·)) ∧
    (m.evolve nl' rnd pyDiv fuel (p * u) t0 tf h storeData freq s').2.t =
      (m.evolve nl rnd pyDiv fuel u t0 tf h storeData freq s).2.t ∧
    (m.evolve nl' rnd pyDiv fuel (p * u) t0 tf h storeData freq s').2.u =
      (m.evolve nl rnd pyDiv fuel u t0 tf h storeData freq s).2.u.map (p * ·) :=
  CSSolver.evolve_times (m.times_rel p hm) hnl rnd pyDiv fuel u t0 tf h storeData freq s s'

/-- Two decoupled modes; the second changes sign. -/
example (L u : Vec (Fin 2)) (s : (CSSolver.if4 (.diag L)).State) :
    let m := CSSolver.if4 (.diag L)
    let nl : NlFunc (Fin 2) := fun w => .ok (w * w * w)
    (m.step nl (![1, -1] * u) (1 / 10) m.new).1 = (m.step nl u (1 / 10) m.new).1.map (![1, -1] * ·) ∧
    (m.evolve nl id true 20 (![1, -1] * u) 0 1 (1 / 10) true 3 m.new).2.u =
      (m.evolve nl id true 20 u 0 1 (1 / 10) true 3 s).2.u.map (![1, -1] * ·) := by
  intro m nl
  have hnl : ∀ w, nl (![1, -1] * w) = (nl w).map (![1, -1] * ·) := by
    intro w
    simp only [nl, Except.map, Except.ok.injEq]
    funext i
    fin_cases i <;> simp
  exact ⟨C74_modes_step ![1, -1] m rfl nl nl hnl u (1 / 10) m.new m.new (.new _) (.new _),
    (C74_modes_evolve ![1, -1] m rfl nl nl hnl id true 20 u 0 1 (1 / 10) true 3 s m.new).2.2⟩

/-- **C74.** Adaptive steps: by numbers of the same absolute value. -/
theorem C74_modes_adaptive_step {p : Vec ι} {ρ : ℝ} (hρ : 0 < ρ) (hp : ∀ i, ‖p i‖ = ρ) (m : ASSolver ι) {L : Vec ι}
    (hm : m.op = .diag L) (nl nl' : NlFunc ι) (hnl : ∀ w, nl' (p * w) = (nl w).map (p * ·)) (rnd : ℝ → ℝ) (cfg : SolverConfig ℝ)
    (u : Vec ι) (h : ℝ) (s s' : m.State) (hs : m.Follows nl u s) (hs' : m.Follows nl' (p * u) s') :
    (m.step nl' rnd cfg (p * u) h s').1 = (m.step nl rnd cfg u h s).1.map fun r => (p * r.1, r.2) :=
  ASSolver.step_times hρ hp (m.times_rel p hm) hnl rnd cfg h u hs.ready hs'.ready

/-- **C74.** Adaptive runs. -/
theorem C74_modes_adaptive_evolve {p : Vec ι} {ρ : ℝ} (hρ : 0 < ρ) (hp : ∀ i, ‖p i‖ = ρ) (m : ASSolver ι) {L : Vec ι}
    (hm : m.op = .diag L) (nl nl' : NlFunc ι) (hnl : ∀ w, nl' (p * w) = (nl w).map (p * ·)) (rnd : ℝ → ℝ) (pyDiv : Bool)
    (cfg : SolverConfig ℝ) (fuel : ℕ) (u : Vec ι) (t0 tf : ℝ) (hInit : Option ℝ) (storeData : Bool) (freq : ℤ) (s s' : m.State) :
    (m.evolve nl' rnd pyDiv cfg fuel (p * u) t0 tf hInit storeData freq s').1 =
      (m.evolve nl rnd pyDiv cfg fuel u t0 tf hInit storeData freq s).1.map (Option.map (p * ·)) ∧
    (m.evolve nl' rnd pyDiv cfg fuel (p * u) t0 tf hInit storeData freq s').2.t =
      (m.evolve nl rnd pyDiv cfg fuel u t0 tf hInit storeData freq s).2.t ∧
    (m.evolve nl' rnd pyDiv cfg fuel (p * u) t0 tf hInit storeData freq s').2.u =
      (m.evolve nl rnd pyDiv cfg fuel u t0 tf hInit storeData freq s).2.u.map (p * ·) :=
  ASSolver.evolve_times hρ hp (m.times_rel p hm) hnl rnd pyDiv cfg fuel u t0 tf hInit storeData freq s s'

/-- The same with ETD35, any settings: the same times, the second mode with the other sign. -/
example (L u : Vec (Fin 2)) (e : ETDConfig ℝ) (cfg : SolverConfig ℝ) (s : (ASSolver.etd35 e (.diag L)).State) :
    let m := ASSolver.etd35 e (.diag L)
    let nl : NlFunc (Fin 2) := fun w => .ok (w * w * w)
    (m.step nl id cfg (![1, -1] * u) (1 / 10) m.new).1 = (m.step nl id cfg u (1 / 10) m.new).1.map (fun r => (![1, -1] * r.1, r.2)) ∧
    (m.evolve nl id true cfg 20 (![1, -1] * u) 0 1 none true 3 m.new).2.t = (m.evolve nl id true cfg 20 u 0 1 none true 3 s).2.t := by
  intro m nl
  have hnl : ∀ w, nl (![1, -1] * w) = (nl w).map (![1, -1] * ·) := by
    intro w
    simp only [nl, Except.map, Except.ok.injEq]
    funext i
    fin_cases i <;> simp
  have hp : ∀ i, ‖(![1, -1] : Vec (Fin 2)) i‖ = 1 := by intro i; fin_cases i <;> simp
  exact ⟨C74_modes_adaptive_step one_pos hp m rfl nl nl hnl id cfg u (1 / 10) m.new m.new (.new _) (.new _),
    (C74_modes_adaptive_evolve one_pos hp m rfl nl nl hnl id true cfg 20 u 0 1 none true 3 s m.new).2.1⟩

/-! ### Translation of the initial samples -/

variable {M : ℕ}

theorem models_phases (kx : Fin (M + 1) → ℝ) {nl : NlFunc (Fin (M + 1))} (hnl : nl = kdvNl kx ∨ nl = burgersNl kx) (s : ℕ)
    (v : Vec (Fin (M + 1))) : nl (phases M s * v) = (nl v).map (phases M s * ·) := by
  rcases hnl with rfl | rfl
  · exact kdvNl_phases kx s v
  · exact burgersNl_phases kx s v

theorem samples_comp_phases (hM : M ≠ 0) (k : ℕ) : samples ∘ (phases M k * ·) = roll (2 * M) k ∘ samples :=
  funext fun v => samples_phases hM k v

/-- **C74.** The KdV and Burgers equations with any diagonal-operator constant-step solver: samples that are moved around the grid
give the same run, moved around the grid. -/
theorem C74_translate (hM : M ≠ 0) (kx : Fin (M + 1) → ℝ) (nl : NlFunc (Fin (M + 1))) (hnl : nl = kdvNl kx ∨ nl = burgersNl kx)
    (m : CSSolver (Fin (M + 1))) {L : Vec (Fin (M + 1))} (hm : m.op = .diag L) (k : ℕ) (f : ℕ → ℝ) (rnd : ℝ → ℝ) (pyDiv : Bool)
    (fuel : ℕ) (t0 tf h : ℝ) (storeData : Bool) (freq : ℤ) (s s' : m.State) :
    (m.evolve nl rnd pyDiv fuel (spectrum M (roll (2 * M) k f)) t0 tf h storeData freq s').1.map (Option.map samples) =
      (m.evolve nl rnd pyDiv fuel (spectrum M f) t0 tf h storeData freq s).1.map (Option.map (roll (2 * M) k ∘ samples)) ∧
    (m.evolve nl rnd pyDiv fuel (spectrum M (roll (2 * M) k f)) t0 tf h storeData freq s').2.t =
      (m.evolve nl rnd pyDiv fuel (spectrum M f) t0 tf h storeData freq s).2.t ∧
    (m.evolve nl rnd pyDiv fuel (spectrum M (roll (2 * M) k f)) t0 tf h storeData freq s').2.u.map samples =
      (m.evolve nl rnd pyDiv fuel (spectrum M f) t0 tf h storeData freq s).2.u.map (roll (2 * M) k ∘ samples) := by
  obtain ⟨h1, h2, h3⟩ := C74_modes_evolve (phases M k) m hm nl nl (models_phases kx hnl k) rnd pyDiv fuel (spectrum M f) t0 tf h
    storeData freq s s'
  rw [spectrum_roll hM]
  refine ⟨?_, h2, ?_⟩
  · rw [h1, ← samples_comp_phases hM]
    cases (m.evolve nl rnd pyDiv fuel (spectrum M f) t0 tf h storeData freq s).1 with
    | error e => rfl
    | ok v => simp [Except.map, Option.map_map]
  · rw [h3, List.map_map, samples_comp_phases hM]

/-- **C74.** The same for adaptive solvers: they choose the same steps. -/
theorem C74_translate_adaptive (hM : M ≠ 0) (kx : Fin (M + 1) → ℝ) (nl : NlFunc (Fin (M + 1)))
    (hnl : nl = kdvNl kx ∨ nl = burgersNl kx) (m : ASSolver (Fin (M + 1))) {L : Vec (Fin (M + 1))} (hm : m.op = .diag L) (k : ℕ)
    (f : ℕ → ℝ) (rnd : ℝ → ℝ) (pyDiv : Bool) (cfg : SolverConfig ℝ) (fuel : ℕ) (t0 tf : ℝ) (hInit : Option ℝ) (storeData : Bool)
    (freq : ℤ) (s s' : m.State) :
    (m.evolve nl rnd pyDiv cfg fuel (spectrum M (roll (2 * M) k f)) t0 tf hInit storeData freq s').1.map (Option.map samples) =
      (m.evolve nl rnd pyDiv cfg fuel (spectrum M f) t0 tf hInit storeData freq s).1.map (Option.map (roll (2 * M) k ∘ samples)) ∧
    (m.evolve nl rnd pyDiv cfg fuel (spectrum M (roll (2 * M) k f)) t0 tf hInit storeData freq s').2.t =
      (m.evolve nl rnd pyDiv cfg fuel (spectrum M f) t0 tf hInit storeData freq s).2.t ∧
    (m.evolve nl rnd pyDiv cfg fuel (spectrum M (roll (2 * M) k f)) t0 tf hInit storeData freq s').2.u.map samples =
      (m.evolve nl rnd pyDiv cfg fuel (spectrum M f) t0 tf hInit storeData freq s).2.u.map (roll (2 * M) k ∘ samples) := by
  obtain ⟨h1, h2, h3⟩ := C74_modes_adaptive_evolve one_pos (norm_phases k) m hm nl nl (models_phases kx hnl k) rnd pyDiv cfg fuel
    (spectrum M f) t0 tf hInit storeData freq s s'
  rw [spectrum_roll hM]
  refine ⟨?_, h2, ?_⟩
  · rw [h1, ← samples_comp_phases hM]
    cases (m.evolve nl rnd pyDiv cfg fuel (spectrum M f) t0 tf hInit storeData freq s).1 with
    | error e => rfl
    | ok v => simp [Except.map, Option.map_map]
  · rw [h3, List.map_map, samples_comp_phases hM]

/-! ### Reflection -/

theorem burgersNl_conj_neg (kx : Fin (M + 1) → ℝ) (w : Vec (Fin (M + 1))) :
    burgersNl kx ((-1 : ℂ) • w) = (conjNl (burgersNl kx) w).map ((-1 : ℂ) • ·) := by
  have := burgersNl_neg_star kx (star w)
  rw [star_star] at this
  rw [neg_one_smul, this]
  unfold conjNl
  cases burgersNl kx (star w) with
  | error e => rfl
  | ok v => simp [Except.map]

theorem CSSolver.conj_of_real (m : CSSolver ι) {L : Vec ι} (hm : m.op = .diag L) (hL : ∀ i, (L i).im = 0) : m.conj = m := by
  have hs : star L = L := funext fun i => Complex.conj_eq_iff_im.mpr (hL i)
  rcases m with (L | L) | ⟨cfg, L | L⟩ | ⟨cfg, L | L⟩ <;> simp only [CSSolver.op, LinOp.diag.injEq, reduceCtorEq] at hm <;> subst hm <;>
    simp only [CSSolver.conj, LinOp.conj, hs]

theorem ASSolver.conj_of_real (m : ASSolver ι) {L : Vec ι} (hm : m.op = .diag L) (hL : ∀ i, (L i).im = 0) : m.conj = m := by
  have hs : star L = L := funext fun i => Complex.conj_eq_iff_im.mpr (hL i)
  rcases m with (L | L | ⟨l, S, T, hS⟩) | ⟨cfg, L | L | ⟨l, S, T, hS⟩⟩ | ⟨cfg, L | L | ⟨l, S, T, hS⟩⟩ | L <;>
    simp only [ASSolver.op, ASOp.diag.injEq, reduceCtorEq] at hm <;> subst hm <;> simp only [ASSolver.conj, ASOp.conj, hs]

/-- **C74.** Burgers' equation, or any real diagonal operator with its nonlinear term: the samples `-f(-x)` in place of `f(x)` give
`-u(-x)` in place of `u(x)`. -/
theorem C74_reflect (hM : M ≠ 0) (kx : Fin (M + 1) → ℝ) (m : CSSolver (Fin (M + 1))) {L : Vec (Fin (M + 1))} (hm : m.op = .diag L)
    (hL : ∀ i, (L i).im = 0) (f : ℕ → ℝ) (rnd : ℝ → ℝ) (pyDiv : Bool) (fuel : ℕ) (t0 tf h : ℝ)
    (storeData : Bool) (freq : ℤ) (s s' : m.State) :
    (m.evolve (burgersNl kx) rnd pyDiv fuel (spectrum M fun j => -mirror (2 * M) f j) t0 tf h storeData freq s').1.map (Option.map samples) =
      (m.evolve (burgersNl kx) rnd pyDiv fuel (spectrum M f) t0 tf h storeData freq s).1.map
        (Option.map fun v j => -mirror (2 * M) (samples v) j) ∧
    (m.evolve (burgersNl kx) rnd pyDiv fuel (spectrum M fun j => -mirror (2 * M) f j) t0 tf h storeData freq s').2.t =
      (m.evolve (burgersNl kx) rnd pyDiv fuel (spectrum M f) t0 tf h storeData freq s).2.t ∧
    (m.evolve (burgersNl kx) rnd pyDiv fuel (spectrum M fun j => -mirror (2 * M) f j) t0 tf h storeData freq s').2.u.map samples =
      (m.evolve (burgersNl kx) rnd pyDiv fuel (spectrum M f) t0 tf h storeData freq s).2.u.map fun v j => -mirror (2 * M) (samples v) j := by
  have hc : m.conj = m := m.conj_of_real hm hL
  have e1 := C33_evolve m (burgersNl kx) rnd pyDiv fuel (spectrum M f) t0 tf h storeData freq s m.conj.new
  rw [hc] at e1
  obtain ⟨a1, a2, a3⟩ := e1
  obtain ⟨b1, b2, b3⟩ := C74_unit_evolve (-1) m (conjNl (burgersNl kx)) (burgersNl kx) (burgersNl_conj_neg kx) rnd pyDiv fuel
    (star (spectrum M f)) t0 tf h storeData freq m.new s'
  rw [spectrum_mirror hM, ← neg_one_smul ℂ (star (spectrum M f)), b1, b2, b3, a1, a2, a3]
  refine ⟨?_, rfl, ?_⟩
  · cases (m.evolve (burgersNl kx) rnd pyDiv fuel (spectrum M f) t0 tf h storeData freq s).1 with
    | error e => rfl
    | ok v =>
      cases v with
      | none => rfl
      | some v => simp [Except.map, samples_neg_star hM]
  · simp only [List.map_map]
    refine List.map_congr_left fun v _ => ?_
    simp [samples_neg_star hM]

/-- **C74.** The same for adaptive solvers. -/
theorem C74_reflect_adaptive (hM : M ≠ 0) (kx : Fin (M + 1) → ℝ) (m : ASSolver (Fin (M + 1))) {L : Vec (Fin (M + 1))} (hm : m.op = .diag L)
    (hL : ∀ i, (L i).im = 0) (f : ℕ → ℝ) (rnd : ℝ → ℝ) (pyDiv : Bool) (cfg : SolverConfig ℝ) (fuel : ℕ) (t0 tf : ℝ)
    (hInit : Option ℝ) (storeData : Bool) (freq : ℤ) (s s' : m.State) :
    (m.evolve (burgersNl kx) rnd pyDiv cfg fuel (spectrum M fun j => -mirror (2 * M) f j) t0 tf hInit storeData freq s').1.map (Option.map samples) =
      (m.evolve (burgersNl kx) rnd pyDiv cfg fuel (spectrum M f) t0 tf hInit storeData freq s).1.map
        (Option.map fun v j => -mirror (2 * M) (samples v) j) ∧
    (m.evolve (burgersNl kx) rnd pyDiv cfg fuel (spectrum M fun j => -mirror (2 * M) f j) t0 tf hInit storeData freq s').2.t =
      (m.evolve (burgersNl kx) rnd pyDiv cfg fuel (spectrum M f) t0 tf hInit storeData freq s).2.t ∧
    (m.evolve (burgersNl kx) rnd pyDiv cfg fuel (spectrum M fun j => -mirror (2 * M) f j) t0 tf hInit storeData freq s').2.u.map samples =
      (m.evolve (burgersNl kx) rnd pyDiv cfg fuel (spectrum M f) t0 tf hInit storeData freq s).2.u.map fun v j => -mirror (2 * M) (samples v) j := by
  have hc : m.conj = m := m.conj_of_real hm hL
  have e1 := C33_adaptive_evolve m (burgersNl kx) rnd pyDiv cfg fuel (spectrum M f) t0 tf hInit storeData freq s m.conj.new
  rw [hc] at e1
  obtain ⟨a1, a2, a3⟩ := e1
  obtain ⟨b1, b2, b3⟩ := C74_unit_adaptive_evolve (c := -1) (by simp) m (conjNl (burgersNl kx)) (burgersNl kx) (burgersNl_conj_neg kx) rnd pyDiv cfg fuel
    (star (spectrum M f)) t0 tf hInit storeData freq m.new s'
  rw [spectrum_mirror hM, ← neg_one_smul ℂ (star (spectrum M f)), b1, b2, b3, a1, a2, a3]
  refine ⟨?_, rfl, ?_⟩
  · cases (m.evolve (burgersNl kx) rnd pyDiv cfg fuel (spectrum M f) t0 tf hInit storeData freq s).1 with
    | error e => rfl
    | ok v =>
      cases v with
      | none => rfl
      | some v => simp [Except.map, samples_neg_star hM]
  · simp only [List.map_map]
    refine List.map_congr_left fun v _ => ?_
    simp [samples_neg_star hM]

/-- Burgers' equation on eight points. -/
example (f : ℕ → ℝ) (mu : ℝ) (cfg : SolverConfig ℝ) (e : ETDConfig ℝ) :
    let kx : Fin 5 → ℝ := fun i => (i : ℕ)
    let m := CSSolver.etd4 e (.diag (burgersLin kx mu))
    let m' := ASSolver.etd34 e (.diag (burgersLin kx mu))
    (m.evolve (burgersNl kx) id true 20 (spectrum 4 fun j => -mirror 8 f j) 0 1 (1 / 10) true 1 m.new).2.u.map samples =
      (m.evolve (burgersNl kx) id true 20 (spectrum 4 f) 0 1 (1 / 10) true 1 m.new).2.u.map (fun v j => -mirror 8 (samples v) j) ∧
    (m'.evolve (burgersNl kx) id true cfg 20 (spectrum 4 fun j => -mirror 8 f j) 0 1 none true 1 m'.new).2.t =
      (m'.evolve (burgersNl kx) id true cfg 20 (spectrum 4 f) 0 1 none true 1 m'.new).2.t := by
  intro kx m m'
  have hL : ∀ i, (burgersLin kx mu i).im = 0 := by intro i; simp [burgersLin, ← Complex.ofReal_pow]
  exact ⟨(C74_reflect (M := 4) (by norm_num) kx m rfl hL f id true 20 0 1 (1 / 10) true 1 m.new m.new).2.2,
    (C74_reflect_adaptive (M := 4) (by norm_num) kx m' rfl hL f id true cfg 20 0 1 none true 1 m'.new m'.new).2.1⟩

/-- **C74.** Odd samples stay odd in every snapshot of a constant-step run of Burgers' equation, -/
theorem C74_odd (hM : M ≠ 0) (kx : Fin (M + 1) → ℝ) (mu : ℝ) (m : CSSolver (Fin (M + 1))) (hm : m.op = .diag (burgersLin kx mu))
    (f : ℕ → ℝ) (hf : ∀ j < 2 * M, -mirror (2 * M) f j = f j) (rnd : ℝ → ℝ) (pyDiv : Bool) (fuel : ℕ) (t0 tf h : ℝ)
    (storeData : Bool) (freq : ℤ) (s : m.State) :
    ∀ v ∈ (m.evolve (burgersNl kx) rnd pyDiv fuel (spectrum M f) t0 tf h storeData freq s).2.u, ∀ j,
      samples v j = -mirror (2 * M) (samples v) j := by
  have := (C74_reflect hM kx m hm (burgersLin_real kx mu) f rnd pyDiv fuel t0 tf h storeData freq s s).2.2
  rw [spectrum_congr hf] at this
  intro v hv j
  exact congrFun (List.map_inj_left.mp this v hv) j

/-- **C74.** and of an adaptive run. -/
theorem C74_odd_adaptive (hM : M ≠ 0) (kx : Fin (M + 1) → ℝ) (mu : ℝ) (m : ASSolver (Fin (M + 1)))
    (hm : m.op = .diag (burgersLin kx mu)) (f : ℕ → ℝ) (hf : ∀ j < 2 * M, -mirror (2 * M) f j = f j) (rnd : ℝ → ℝ) (pyDiv : Bool)
    (cfg : SolverConfig ℝ) (fuel : ℕ) (t0 tf : ℝ) (hInit : Option ℝ) (storeData : Bool) (freq : ℤ) (s : m.State) :
    ∀ v ∈ (m.evolve (burgersNl kx) rnd pyDiv cfg fuel (spectrum M f) t0 tf hInit storeData freq s).2.u, ∀ j,
      samples v j = -mirror (2 * M) (samples v) j := by
  have := (C74_reflect_adaptive hM kx m hm (burgersLin_real kx mu) f rnd pyDiv cfg fuel t0 tf hInit storeData freq s s).2.2
  rw [spectrum_congr hf] at this
  intro v hv j
  exact congrFun (List.map_inj_left.mp this v hv) j

/-- The samples `0, 1, 0, -1` are odd on four points. -/
example (mu : ℝ) (cfg : SolverConfig ℝ) (e : ETDConfig ℝ) :
    let kx : Fin 3 → ℝ := fun i => (i : ℕ)
    let m := ASSolver.etd34 e (.diag (burgersLin kx mu))
    let f : ℕ → ℝ := fun j => if j = 1 then 1 else if j = 3 then -1 else 0
    ∀ v ∈ (m.evolve (burgersNl kx) id true cfg 20 (spectrum 2 f) 0 1 none true 1 m.new).2.u, samples v 1 = -samples v 3 := by
  intro kx m f v hv
  have := C74_odd_adaptive (M := 2) (by norm_num) kx mu m rfl f (by
    intro j hj
    interval_cases j <;> simp [mirror, f]) id true cfg 20 0 1 none true 1 m.new v hv 1
  simpa [mirror] using this

/-! ### Examples -/

/-- A quadratic nonlinear function in another unit. -/
example (c : ℂ) (hc : c ≠ 0) (m : ASSolver ι) (rnd : ℝ → ℝ) (cfg : SolverConfig ℝ) (u : Vec ι) (s s' : m.State) :
    (m.evolve (total fun w => c⁻¹ • (w * w)) rnd true cfg 1000 (c • u) 0 1 none true 1 s').2.t =
      (m.evolve (total fun w => w * w) rnd true cfg 1000 u 0 1 none true 1 s).2.t :=
  (C74_unit_adaptive_evolve hc m (total fun w => w * w) (total fun w => c⁻¹ • (w * w)) (fun w => by
    simp only [total, Except.map, smul_mul_smul, smul_smul]
    rw [inv_mul_cancel_left₀ hc]) rnd true cfg 1000 u 0 1 none true 1 s s').2.1

/-- An accepted step from an array a thousand times as large. -/
example (s' : demo.State) (hs' : demo.Follows (fun x => .ok x) ((1000 : ℂ) • 1) s') :
    (demo.step (fun x => .ok x) id demoCfg ((1000 : ℂ) • 1) 1 s').1 = .ok ((1000 : ℂ) • (65 / 24 : ℂ) • 1, 1, 4) := by
  rw [C74_unit_adaptive_step (c := 1000) (by norm_num) demo (fun x => .ok x) (fun x => .ok x) (fun w => rfl) id demoCfg 1 1
    demo.new s' (.new _) hs', demo_step]
  rfl

/-- The cubic nonlinear function `|w|² w` keeps phases: the solution of `i u' = ...` with another phase has the same absolute
values at the same times. -/
example (θ : ℝ) (m : ASSolver ι) (rnd : ℝ → ℝ) (cfg : SolverConfig ℝ) (u : Vec ι) (s s' : m.State) :
    (m.evolve (total fun w i => Complex.I * ((‖w i‖ ^ 2 : ℝ) : ℂ) * w i) rnd true cfg 1000 (Complex.exp (θ * Complex.I) • u) 0 1 none
        true 1 s').2.u =
      (m.evolve (total fun w i => Complex.I * ((‖w i‖ ^ 2 : ℝ) : ℂ) * w i) rnd true cfg 1000 u 0 1 none true 1 s).2.u.map
        (Complex.exp (θ * Complex.I) • ·) :=
  (C74_unit_adaptive_evolve (Complex.exp_ne_zero _) m _ _ (fun w => by
    simp only [total, Except.map]
    congr 1
    funext i
    simp only [Pi.smul_apply, smul_eq_mul, norm_mul, Complex.norm_exp_ofReal_mul_I, one_mul]
    ring) rnd true cfg 1000 u 0 1 none true 1 s s').2.2

/-- Four samples moved by one place, and reflected. -/
example (f : ℕ → ℝ) : (List.range 4).map (roll 4 1 f) = [f 1, f 2, f 3, f 0] ∧
    (List.range 4).map (mirror 4 f) = [f 0, f 3, f 2, f 1] := by
  constructor <;> rfl

/-- One place to the right of a pulse on four points, KdV with ETD35. -/
example (kx : Fin 3 → ℝ) (cfg : ETDConfig ℝ) (c : SolverConfig ℝ)
    (s s' : (ASSolver.etd35 cfg (.diag (kdvLin (M := 2) kx))).State) :
    ((ASSolver.etd35 cfg (.diag (kdvLin (M := 2) kx))).evolve (kdvNl kx) id true c 1000
        (spectrum 2 fun j => if j = 1 then 1 else 0) 0 1 none true 1 s').2.t =
      ((ASSolver.etd35 cfg (.diag (kdvLin (M := 2) kx))).evolve (kdvNl kx) id true c 1000
        (spectrum 2 fun j => if j = 2 then 1 else 0) 0 1 none true 1 s).2.t := by
  have := (C74_translate_adaptive (M := 2) (by norm_num) kx (kdvNl kx) (.inl rfl) (.etd35 cfg (.diag (kdvLin (M := 2) kx)))
    (L := kdvLin kx) rfl 1 (fun j => if j = 2 then 1 else 0) id true c 1000 0 1 none true 1 s s').2.1
  rwa [spectrum_congr (M := 2) (g := fun j => if j = 1 then 1 else 0) (fun j hj => by
    interval_cases j <;> simp [roll])] at this

/-- The odd samples `0, 1, 0, -1`. -/
example (kx : Fin 3 → ℝ) (mu : ℝ) (s : (CSSolver.if4 (.diag (burgersLin (M := 2) kx mu))).State) :
    ∀ v ∈ ((CSSolver.if4 (.diag (burgersLin (M := 2) kx mu))).evolve (burgersNl kx) id true 1000
      (spectrum 2 fun j => if j = 1 then 1 else if j = 3 then -1 else 0) 0 1 (1 / 100) true 1 s).2.u, samples v 0 = 0 := by
  intro v hv
  have := C74_odd (M := 2) (by norm_num) kx mu (.if4 (.diag (burgersLin (M := 2) kx mu))) rfl
    (fun j => if j = 1 then 1 else if j = 3 then -1 else 0) (fun j hj => by interval_cases j <;> simp [mirror])
    id true 1000 0 1 (1 / 100) true 1 s v hv 0
  simp only [mirror] at this
  norm_num at this
  linarith

end Verif
