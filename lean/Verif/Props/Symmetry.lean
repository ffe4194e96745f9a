import Verif.Lemmas.Conj
import Verif.Props.History

/-!
# C32, C33, C55: single modes, complex conjugation, relabelling
-/

set_option linter.unusedSectionVars false

namespace Verif

open Matrix

variable {ι κ : Type} [Fintype ι] [DecidableEq ι] [Fintype κ] [DecidableEq κ]

/-! ### C32: the coefficients of a mode depend only on its eigenvalue -/

/-- **C32.** Two solvers of the same class and configuration with diagonal operators, which may have different modes and
different numbers of modes and have been used before with any step sizes: if mode `i` of one has the eigenvalue of mode
`k` of the other, the arrays agree there, and the nonlinear functions act on this mode alone, then the results of a step
agree in this mode. -/
theorem C32_step {i : ι} {k : κ} {m : CSSolver ι} {m' : CSSolver κ} (hm : m.SameMode i k m') (f : Vec ι → Vec ι)
    (f' : Vec κ → Vec κ) (hf : ∀ w w', w i = w' k → f w i = f' w' k) (u : Vec ι) (u' : Vec κ) (hu : u i = u' k)
    (s : m.State) (s' : m'.State) (hs : m.Follows (total f) u s) (hs' : m'.Follows (total f') u' s') (h : ℝ)
    (hh : 0 ≤ h) :
    ∃ v v', (m.step (total f) u h s).1 = .ok v ∧ (m'.step (total f') u' h s').1 = .ok v' ∧ v i = v' k := by
  have hrel := CSSolver.step_rel (modeRel_linear i k) hm.rel (nl := total f) (nl' := total f') (fun w w' hw => hf w w' hw)
    h u u' hu hs.inv hs'.inv
  have hok : ∃ v, (m.step (total f) u h s).1 = .ok v := by
    rw [C15_step_fresh_cs m (total f) u s hs h, m.step_method (total f) u h hh (by cases hm <;> exact trivial),
      ERK.step_eq_run]
    exact ⟨_, rfl⟩
  obtain ⟨v, hv⟩ := hok
  obtain ⟨v', hv', hr⟩ := hrel.ok hv
  exact ⟨v, v', hv, hv', hr⟩

/-- **C32.** The same for every trial of an adaptive solver: trial solution and error estimate. -/
theorem C32_trial {i : ι} {k : κ} {m : ASSolver ι} {m' : ASSolver κ} (hm : m.SameMode i k m') (f : Vec ι → Vec ι)
    (f' : Vec κ → Vec κ) (hf : ∀ w w', w i = w' k → f w i = f' w' k) (u : Vec ι) (u' : Vec κ) (hu : u i = u' k)
    (s : m.State) (s' : m'.State) (hs : m.Follows (total f) u s) (hs' : m'.Follows (total f') u' s') (h : ℝ) :
    ∃ r r', (m.trial (total f) u h s).1 = .ok r ∧ (m'.trial (total f') u' h s').1 = .ok r' ∧ r.1 i = r'.1 k ∧
      r.2 i = r'.2 k := by
  have hrel := ASSolver.trial_rel (modeRel_linear i k) hm.rel (nl := total f) (nl' := total f') (fun w w' hw => hf w w' hw)
    h u u' hu hs.ready hs'.ready
  have hok : ∃ v, (m.trial (total f) u h s).1 = .ok v := by
    unfold ASSolver.trial
    rw [ASClass.trial_apply]
    simp only
    rw [(m.lawful (total f)).result _ _ _ _ hs.ready, m.oneTrial_user _ _ _ (by cases hm <;> exact trivial),
      ERK.step_eq_run]
    exact ⟨_, rfl⟩
  obtain ⟨v, hv⟩ := hok
  obtain ⟨v', hv', hr⟩ := hrel.ok hv
  exact ⟨v, v', hv, hv', hr⟩

/-- **C32.** Whole runs: `evolve` of two such solvers gives the same values in the common mode, in the result and in all
stored snapshots. -/
theorem C32_evolve {i : ι} {k : κ} {m : CSSolver ι} {m' : CSSolver κ} (hm : m.SameMode i k m') (f : Vec ι → Vec ι)
    (f' : Vec κ → Vec κ) (hf : ∀ w w', w i = w' k → f w i = f' w' k) (u : Vec ι) (u' : Vec κ) (hu : u i = u' k)
    (s : m.State) (s' : m'.State) (rnd : ℝ → ℝ) (pyDiv : Bool) (fuel : ℕ) (t0 tf h : ℝ) (storeData : Bool) (freq : ℤ) :
    RelE (RelO fun v v' => v i = v' k) (m.evolve (total f) rnd pyDiv fuel u t0 tf h storeData freq s).1
      (m'.evolve (total f') rnd pyDiv fuel u' t0 tf h storeData freq s').1 ∧
    List.Forall₂ (fun v v' => v i = v' k) (m.evolve (total f) rnd pyDiv fuel u t0 tf h storeData freq s).2.u
      (m'.evolve (total f') rnd pyDiv fuel u' t0 tf h storeData freq s').2.u := by
  have := CSSolver.evolve_rel (modeRel_linear i k) hm.rel (nl := total f) (nl' := total f') (fun w w' hw => hf w w' hw)
    rnd pyDiv fuel u u' t0 tf h storeData freq s s' hu
  exact ⟨this.1, this.2.2⟩

/-- The mode `z` alone and beside a stiff mode, in adaptive trials and in runs. -/
example (cfg : ETDConfig ℝ) (z : ℂ) (s : (CSSolver.etd4 cfg (.diag ![-1000, z])).State) (s' : (CSSolver.etd4 cfg (.diag ![z])).State) :
    List.Forall₂ (fun (v : Vec (Fin 2)) (v' : Vec (Fin 1)) => v 1 = v' 0)
      ((CSSolver.etd4 cfg (.diag ![-1000, z])).evolve (total fun w => w * w) id true 1000 ![7, 5] 0 1 (1 / 10) true 1 s).2.u
      ((CSSolver.etd4 cfg (.diag ![z])).evolve (total fun w => w * w) id true 1000 ![5] 0 1 (1 / 10) true 1 s').2.u ∧
    ∃ r r', ((ASSolver.etd34 cfg (.diag ![-1000, z])).trial (total fun w => w * w) ![7, 5] 1 (ASSolver.new _)).1 = .ok r ∧
      ((ASSolver.etd34 cfg (.diag ![z])).trial (total fun w => w * w) ![5] 1 (ASSolver.new _)).1 = .ok r' ∧ r.1 (1 : Fin 2) = r'.1 (0 : Fin 1) ∧
      r.2 1 = r'.2 0 :=
  ⟨(C32_evolve (i := (1 : Fin 2)) (k := (0 : Fin 1)) (.etd4 cfg _ _ rfl) _ _ (fun w w' h => by simp only [Pi.mul_apply]; rw [h]) _ _ rfl s s'
      id true 1000 0 1 (1 / 10) true 1).2,
    C32_trial (i := (1 : Fin 2)) (k := (0 : Fin 1)) (.etd34 cfg _ _ rfl) _ _ (fun w w' h => by simp only [Pi.mul_apply]; rw [h]) _ _ rfl _ _
      (.new _) (.new _) 1⟩

/-- A small mode (contour) next to a large mode (closed formula), and the same small mode alone, after a step with another
size. -/
example (cfg : ETDConfig ℝ) (z : ℂ) (s' : (CSSolver.etd4 cfg (.diag ![z])).State)
    (hs' : (CSSolver.etd4 cfg (.diag ![z])).Follows (total fun w => w * w) ![5] s') :
    ∃ v v', ((CSSolver.etd4 cfg (.diag ![-1000, z])).step (total fun w => w * w) ![7, 5] 1
        (CSSolver.etd4 cfg (.diag ![-1000, z])).new).1 = .ok v ∧
      ((CSSolver.etd4 cfg (.diag ![z])).step (total fun w => w * w) ![5] 1 s').1 = .ok v' ∧ v 1 = v' 0 :=
  C32_step (i := (1 : Fin 2)) (k := (0 : Fin 1)) (.etd4 cfg _ _ rfl) _ _
    (fun w w' h => by simp only [Pi.mul_apply]; rw [h]) _ _ rfl _ _ (.new _) hs' 1 (by norm_num)

/-! ### C33: complex conjugation -/

/-- **C33.** A step of the solver for the conjugate operator, nonlinear function and array gives the conjugate result (and
the same exception). -/
theorem C33_step (m : CSSolver ι) (nl : NlFunc ι) (u : Vec ι) (s : m.State) (s' : m.conj.State) (hs : m.Follows nl u s)
    (hs' : m.conj.Follows (conjNl nl) (star u) s') (h : ℝ) :
    (m.conj.step (conjNl nl) (star u) h s').1 = (m.step nl u h s).1.map star :=
  (CSSolver.step_rel conjRel_linear m.conj_rel (conjNl_rel nl) h u (star u) rfl hs.inv hs'.inv).eq_map

/-- **C33.** The same for runs: conjugate result, equal times, conjugate snapshots. -/
theorem C33_evolve (m : CSSolver ι) (nl : NlFunc ι) (rnd : ℝ → ℝ) (pyDiv : Bool) (fuel : ℕ) (u : Vec ι) (t0 tf h : ℝ)
    (storeData : Bool) (freq : ℤ) (s : m.State) (s' : m.conj.State) :
    (m.conj.evolve (conjNl nl) rnd pyDiv fuel (star u) t0 tf h storeData freq s').1 =
      (m.evolve nl rnd pyDiv fuel u t0 tf h storeData freq s).1.map (Option.map star) ∧
    (m.conj.evolve (conjNl nl) rnd pyDiv fuel (star u) t0 tf h storeData freq s').2.t =
      (m.evolve nl rnd pyDiv fuel u t0 tf h storeData freq s).2.t ∧
    (m.conj.evolve (conjNl nl) rnd pyDiv fuel (star u) t0 tf h storeData freq s').2.u =
      (m.evolve nl rnd pyDiv fuel u t0 tf h storeData freq s).2.u.map star := by
  have := CSSolver.evolve_rel conjRel_linear m.conj_rel (conjNl_rel nl) rnd pyDiv fuel u (star u) t0 tf h storeData freq s
    s' rfl
  exact ⟨(this.1.mono fun a b h => RelO.eq_map h).eq_map, this.2.1.symm, forall2_eq_map this.2.2⟩

/-- **C33.** Adaptive steps: conjugate result, the same step sizes. -/
theorem C33_adaptive_step (m : ASSolver ι) (nl : NlFunc ι) (rnd : ℝ → ℝ) (cfg : SolverConfig ℝ) (u : Vec ι) (s : m.State)
    (s' : m.conj.State) (hs : m.Follows nl u s) (hs' : m.conj.Follows (conjNl nl) (star u) s') (h : ℝ) :
    (m.conj.step (conjNl nl) rnd cfg (star u) h s').1 = (m.step nl rnd cfg u h s).1.map fun r => (star r.1, r.2) := by
  have := ASSolver.step_rel conjRel_linear (Equiv.refl ι) conjRel_norm m.conj_rel (conjNl_rel nl) rnd cfg h u (star u) rfl
    hs.ready hs'.ready
  exact (this.mono fun a b h => (Prod.ext h.1 h.2.symm : b = (fun r => (star r.1, r.2)) a)).eq_map

/-- **C33.** Adaptive runs. -/
theorem C33_adaptive_evolve (m : ASSolver ι) (nl : NlFunc ι) (rnd : ℝ → ℝ) (pyDiv : Bool) (cfg : SolverConfig ℝ)
    (fuel : ℕ) (u : Vec ι) (t0 tf : ℝ) (hInit : Option ℝ) (storeData : Bool) (freq : ℤ) (s : m.State)
    (s' : m.conj.State) :
    (m.conj.evolve (conjNl nl) rnd pyDiv cfg fuel (star u) t0 tf hInit storeData freq s').1 =
      (m.evolve nl rnd pyDiv cfg fuel u t0 tf hInit storeData freq s).1.map (Option.map star) ∧
    (m.conj.evolve (conjNl nl) rnd pyDiv cfg fuel (star u) t0 tf hInit storeData freq s').2.t =
      (m.evolve nl rnd pyDiv cfg fuel u t0 tf hInit storeData freq s).2.t ∧
    (m.conj.evolve (conjNl nl) rnd pyDiv cfg fuel (star u) t0 tf hInit storeData freq s').2.u =
      (m.evolve nl rnd pyDiv cfg fuel u t0 tf hInit storeData freq s).2.u.map star := by
  have := ASSolver.evolve_rel conjRel_linear (Equiv.refl ι) conjRel_norm m.conj_rel (conjNl_rel nl) rnd pyDiv cfg fuel u
    (star u) t0 tf hInit storeData freq s s' rfl
  exact ⟨(this.1.mono fun a b h => RelO.eq_map h).eq_map, this.2.1.symm, forall2_eq_map this.2.2⟩

/-- **C33.** Real problems stay real, also with contour-approximated coefficients: for a real operator and an `nl_func`
that maps real arrays to real arrays, a step from a real array gives a real array. -/
theorem C33_real_step (m : CSSolver ι) (hm : m.conj = m) (nl : NlFunc ι)
    (hnl : ∀ w n, IsReal w → nl w = .ok n → IsReal n) (u : Vec ι) (hu : IsReal u) (s : m.State) (hs : m.Follows nl u s)
    (h : ℝ) (v : Vec ι) (hv : (m.step nl u h s).1 = .ok v) : IsReal v := by
  have := CSSolver.step_rel realRel_linear (CSSolver.real_rel hm) (realNl_rel hnl) h u u ⟨rfl, hu⟩ hs.inv hs.inv
  obtain ⟨_, _, hr⟩ := this.ok hv
  exact hr.2

theorem forall2_left {α : Type} {R : α → α → Prop} {P : α → Prop} (hRP : ∀ a b, R a b → P a) {x y : List α}
    (h : List.Forall₂ R x y) : ∀ a ∈ x, P a := by
  induction h with
  | nil => simp
  | cons h1 _ ih =>
    intro a ha
    rcases List.mem_cons.mp ha with rfl | ha
    · exact hRP _ _ h1
    · exact ih a ha

/-- **C33.** Real runs: the returned array and all snapshots are real. -/
theorem C33_real_evolve (m : CSSolver ι) (hm : m.conj = m) (nl : NlFunc ι)
    (hnl : ∀ w n, IsReal w → nl w = .ok n → IsReal n) (u : Vec ι) (hu : IsReal u) (rnd : ℝ → ℝ) (pyDiv : Bool) (fuel : ℕ)
    (t0 tf h : ℝ) (storeData : Bool) (freq : ℤ) (s : m.State) :
    (∀ v, (m.evolve nl rnd pyDiv fuel u t0 tf h storeData freq s).1 = .ok (some v) → IsReal v) ∧
    ∀ v ∈ (m.evolve nl rnd pyDiv fuel u t0 tf h storeData freq s).2.u, IsReal v := by
  have := CSSolver.evolve_rel realRel_linear (CSSolver.real_rel hm) (realNl_rel hnl) rnd pyDiv fuel u u t0 tf h storeData
    freq s s ⟨rfl, hu⟩
  refine ⟨fun v hv => ?_, forall2_left (fun _ _ h => h.2) this.2.2⟩
  obtain ⟨b, hb, hr⟩ := this.1.ok hv
  cases b
  · exact hr.elim
  · exact hr.2

/-- **C33.** Real adaptive steps. -/
theorem C33_real_adaptive_step (m : ASSolver ι) (hm : m.conj = m) (nl : NlFunc ι)
    (hnl : ∀ w n, IsReal w → nl w = .ok n → IsReal n) (rnd : ℝ → ℝ) (cfg : SolverConfig ℝ) (u : Vec ι) (hu : IsReal u)
    (s : m.State) (hs : m.Follows nl u s) (h : ℝ) (v : Vec ι) (hu' hs' : ℝ)
    (hv : (m.step nl rnd cfg u h s).1 = .ok (v, hu', hs')) : IsReal v := by
  have := ASSolver.step_rel realRel_linear (Equiv.refl ι) (fun v v' hr k => by rw [hr.1]; rfl) (ASSolver.real_rel hm)
    (realNl_rel hnl) rnd cfg h u u ⟨rfl, hu⟩ hs.ready hs.ready
  obtain ⟨_, _, hr⟩ := this.ok hv
  exact hr.1.2

/-- **C33.** Real adaptive runs. -/
theorem C33_real_adaptive_evolve (m : ASSolver ι) (hm : m.conj = m) (nl : NlFunc ι)
    (hnl : ∀ w n, IsReal w → nl w = .ok n → IsReal n) (u : Vec ι) (hu : IsReal u) (rnd : ℝ → ℝ) (pyDiv : Bool)
    (cfg : SolverConfig ℝ) (fuel : ℕ) (t0 tf : ℝ) (hInit : Option ℝ) (storeData : Bool) (freq : ℤ) (s : m.State) :
    (∀ v, (m.evolve nl rnd pyDiv cfg fuel u t0 tf hInit storeData freq s).1 = .ok (some v) → IsReal v) ∧
    ∀ v ∈ (m.evolve nl rnd pyDiv cfg fuel u t0 tf hInit storeData freq s).2.u, IsReal v := by
  have := ASSolver.evolve_rel realRel_linear (Equiv.refl ι) (fun v v' hr k => by rw [hr.1]; rfl) (ASSolver.real_rel hm)
    (realNl_rel hnl) rnd pyDiv cfg fuel u u t0 tf hInit storeData freq s s ⟨rfl, hu⟩
  refine ⟨fun v hv => ?_, forall2_left (fun _ _ h => h.2) this.2.2⟩
  obtain ⟨b, hb, hr⟩ := this.1.ok hv
  cases b
  · exact hr.elim
  · exact hr.2

/-- The real operator `diag(-1, 1/3)` and the square: adaptive runs from real values stay real. -/
example (cfg : SolverConfig ℝ) (s : (ASSolver.if34 (.diag (![-1, 1 / 3] : Vec (Fin 2)))).State) :
    (∀ v ∈ ((ASSolver.if34 (.diag ![-1, 1 / 3])).evolve (total fun w => w * w) id true cfg 1000 ![1, 2] 0 1 none true 1 s).2.u, IsReal v) ∧
    ∀ v hu hs, ((ASSolver.if34 (.diag ![-1, 1 / 3])).step (total fun w => w * w) id cfg ![1, 2] 1 (ASSolver.new _)).1 = .ok (v, hu, hs) →
      IsReal v := by
  have hm : (ASSolver.if34 (.diag (![-1, 1 / 3] : Vec (Fin 2)))).conj = .if34 (.diag ![-1, 1 / 3]) := by
    simp only [ASSolver.conj, ASOp.conj]
    congr 2
    funext i
    fin_cases i <;> simp
  have hnl : ∀ w n : Vec (Fin 2), IsReal w → total (fun w => w * w) w = .ok n → IsReal n := by
    intro w n hw hn i
    have : w * w = n := by simpa [total] using hn
    subst this
    simp [hw i]
  have hu : IsReal (![1, 2] : Vec (Fin 2)) := fun i => by fin_cases i <;> simp
  exact ⟨(C33_real_adaptive_evolve _ hm _ hnl _ hu id true cfg 1000 0 1 none true 1 s).2,
    fun v h1 h2 hv => C33_real_adaptive_step _ hm _ hnl id cfg _ hu _ (.new _) 1 v h1 h2 hv⟩

example (s : (CSSolver.if4 (.diag (![-1, 1 / 3] : Vec (Fin 2)))).State) :
    ∀ v ∈ ((CSSolver.if4 (.diag ![-1, 1 / 3])).evolve (total fun w => w * w) id true 1000 ![1, 2] 0 1 (1 / 10) true 1 s).2.u, IsReal v :=
  (C33_real_evolve (CSSolver.if4 (.diag ![-1, 1 / 3])) (by
    simp only [CSSolver.conj, LinOp.conj]
    congr 2
    funext i
    fin_cases i <;> simp) _ (by
    intro w n hw hn i
    have : w * w = n := by simpa [total] using hn
    subst this
    simp [hw i]) _ (fun i => by fin_cases i <;> simp) id true 1000 0 1 (1 / 10) true 1 s).2

/-- The conjugate problem of `u' = i u + i u`. -/
example (cfg : SolverConfig ℝ) (u : Vec (Fin 1)) (s : (ASSolver.if45dp ![Complex.I]).State) (s' : (ASSolver.if45dp ![Complex.I]).conj.State)
    (r : (CSSolver.if4 (.diag ![Complex.I])).State) (r' : (CSSolver.if4 (.diag ![Complex.I])).conj.State) :
    ((ASSolver.if45dp ![Complex.I]).conj.evolve (conjNl (total fun w => Complex.I • w)) id true cfg 1000 (star u) 0 1 none true 1 s').2.u =
      ((ASSolver.if45dp ![Complex.I]).evolve (total fun w => Complex.I • w) id true cfg 1000 u 0 1 none true 1 s).2.u.map star ∧
    ((CSSolver.if4 (.diag ![Complex.I])).conj.evolve (conjNl (total fun w => Complex.I • w)) id true 1000 (star u) 0 1 (1 / 10) true 1 r').2.u =
      ((CSSolver.if4 (.diag ![Complex.I])).evolve (total fun w => Complex.I • w) id true 1000 u 0 1 (1 / 10) true 1 r).2.u.map star ∧
    ((ASSolver.if45dp ![Complex.I]).conj.step (conjNl (total fun w => Complex.I • w)) id cfg (star u) 1 (ASSolver.new _)).1 =
      ((ASSolver.if45dp ![Complex.I]).step (total fun w => Complex.I • w) id cfg u 1 (ASSolver.new _)).1.map fun r => (star r.1, r.2) :=
  ⟨(C33_adaptive_evolve _ _ id true cfg 1000 u 0 1 none true 1 s s').2.2, (C33_evolve _ _ id true 1000 u 0 1 (1 / 10) true 1 r r').2.2,
    C33_adaptive_step _ _ id cfg u _ _ (.new _) (.new _) 1⟩

/-- A real diagonal operator with contour coefficients: the step from a real array exists and is real. -/
example (cfg : ETDConfig ℝ) : let m : CSSolver (Fin 2) := .etd5 cfg (.diag ![-1, 1 / 3])
    ∃ v, (m.step (total fun w => w * w) ![1, 2] 1 m.new).1 = .ok v ∧ IsReal v := by
  intro m
  have hok : (m.step (total fun w => w * w) ![1, 2] 1 m.new).1 = .ok ((m.method 1).run (fun w => w * w) ![1, 2]).1 := by
    rw [m.step_method (total fun w => w * w) ![1, 2] 1 (by norm_num) trivial, ERK.step_eq_run]
    rfl
  refine ⟨_, hok, C33_real_step m ?_ (total fun w => w * w) ?_ ![1, 2] ?_ m.new (.new _) 1 _ hok⟩
  · simp only [m, CSSolver.conj, LinOp.conj]
    congr 2
    funext i
    fin_cases i <;> simp
  · intro w n hw hn i
    have : w * w = n := by simpa [total] using hn
    subst this
    simp [hw i]
  · intro i
    fin_cases i <;> simp

/-- An imaginary operator (as for Schrödinger-type equations) with its conjugate. -/
example (cfg : ETDConfig ℝ) (u : Vec (Fin 2)) (h : ℝ) :
    let m : CSSolver (Fin 2) := .etd4 cfg (.full !![Complex.I, 1; 1, -2 * Complex.I])
    (m.conj.step (conjNl (total fun w => Complex.I • w)) (star u) h m.conj.new).1 =
      (m.step (total fun w => Complex.I • w) u h m.new).1.map star :=
  C33_step _ _ u _ _ (.new _) (.new _) h

/-! ### C55: relabelling the modes -/

/-- **C55.** Relabelling the modes (operator, nonlinear function and array alike) relabels the result of a step. -/
theorem C55_step (σ : κ ≃ ι) (m : CSSolver ι) (nl : NlFunc ι) (u : Vec ι) (s : m.State) (s' : (m.relabel σ).State)
    (hs : m.Follows nl u s) (hs' : (m.relabel σ).Follows (relabelNl σ nl) (u ∘ σ) s') (h : ℝ) :
    ((m.relabel σ).step (relabelNl σ nl) (u ∘ σ) h s').1 = (m.step nl u h s).1.map fun v => v ∘ σ :=
  (CSSolver.step_rel (labelRel_linear σ) (m.relabel_rel σ) (relabelNl_rel σ nl) h u (u ∘ σ) rfl hs.inv hs'.inv).eq_map

/-- **C55.** Runs. -/
theorem C55_evolve (σ : κ ≃ ι) (m : CSSolver ι) (nl : NlFunc ι) (rnd : ℝ → ℝ) (pyDiv : Bool) (fuel : ℕ) (u : Vec ι)
    (t0 tf h : ℝ) (storeData : Bool) (freq : ℤ) (s : m.State) (s' : (m.relabel σ).State) :
    ((m.relabel σ).evolve (relabelNl σ nl) rnd pyDiv fuel (u ∘ σ) t0 tf h storeData freq s').1 =
      (m.evolve nl rnd pyDiv fuel u t0 tf h storeData freq s).1.map (Option.map fun v => v ∘ σ) ∧
    ((m.relabel σ).evolve (relabelNl σ nl) rnd pyDiv fuel (u ∘ σ) t0 tf h storeData freq s').2.t =
      (m.evolve nl rnd pyDiv fuel u t0 tf h storeData freq s).2.t ∧
    ((m.relabel σ).evolve (relabelNl σ nl) rnd pyDiv fuel (u ∘ σ) t0 tf h storeData freq s').2.u =
      (m.evolve nl rnd pyDiv fuel u t0 tf h storeData freq s).2.u.map fun v => v ∘ σ := by
  have := CSSolver.evolve_rel (labelRel_linear σ) (m.relabel_rel σ) (relabelNl_rel σ nl) rnd pyDiv fuel u (u ∘ σ) t0 tf h
    storeData freq s s' rfl
  exact ⟨(this.1.mono fun a b h => RelO.eq_map h).eq_map, this.2.1.symm, forall2_eq_map this.2.2⟩

/-- **C55.** Adaptive steps: relabelled result, the same step sizes. -/
theorem C55_adaptive_step (σ : κ ≃ ι) (m : ASSolver ι) (nl : NlFunc ι) (rnd : ℝ → ℝ) (cfg : SolverConfig ℝ) (u : Vec ι)
    (s : m.State) (s' : (m.relabel σ).State) (hs : m.Follows nl u s)
    (hs' : (m.relabel σ).Follows (relabelNl σ nl) (u ∘ σ) s') (h : ℝ) :
    ((m.relabel σ).step (relabelNl σ nl) rnd cfg (u ∘ σ) h s').1 =
      (m.step nl rnd cfg u h s).1.map fun r => (r.1 ∘ σ, r.2) := by
  have := ASSolver.step_rel (labelRel_linear σ) σ (labelRel_norm σ) (m.relabel_rel σ) (relabelNl_rel σ nl) rnd cfg h u
    (u ∘ σ) rfl hs.ready hs'.ready
  exact (this.mono fun a b h => (Prod.ext h.1 h.2.symm : b = (fun r => (r.1 ∘ σ, r.2)) a)).eq_map

/-- **C55.** Adaptive runs. -/
theorem C55_adaptive_evolve (σ : κ ≃ ι) (m : ASSolver ι) (nl : NlFunc ι) (rnd : ℝ → ℝ) (pyDiv : Bool)
    (cfg : SolverConfig ℝ) (fuel : ℕ) (u : Vec ι) (t0 tf : ℝ) (hInit : Option ℝ) (storeData : Bool) (freq : ℤ)
    (s : m.State) (s' : (m.relabel σ).State) :
    ((m.relabel σ).evolve (relabelNl σ nl) rnd pyDiv cfg fuel (u ∘ σ) t0 tf hInit storeData freq s').1 =
      (m.evolve nl rnd pyDiv cfg fuel u t0 tf hInit storeData freq s).1.map (Option.map fun v => v ∘ σ) ∧
    ((m.relabel σ).evolve (relabelNl σ nl) rnd pyDiv cfg fuel (u ∘ σ) t0 tf hInit storeData freq s').2.t =
      (m.evolve nl rnd pyDiv cfg fuel u t0 tf hInit storeData freq s).2.t ∧
    ((m.relabel σ).evolve (relabelNl σ nl) rnd pyDiv cfg fuel (u ∘ σ) t0 tf hInit storeData freq s').2.u =
      (m.evolve nl rnd pyDiv cfg fuel u t0 tf hInit storeData freq s).2.u.map fun v => v ∘ σ := by
  have := ASSolver.evolve_rel (labelRel_linear σ) σ (labelRel_norm σ) (m.relabel_rel σ) (relabelNl_rel σ nl) rnd pyDiv cfg
    fuel u (u ∘ σ) t0 tf hInit storeData freq s s' rfl
  exact ⟨(this.1.mono fun a b h => RelO.eq_map h).eq_map, this.2.1.symm, forall2_eq_map this.2.2⟩

/-- Three modes in reverse order. -/
example (cfg : SolverConfig ℝ) (u : Vec (Fin 3)) (nl : NlFunc (Fin 3)) (m : CSSolver (Fin 3)) (a : ASSolver (Fin 3))
    (s : m.State) (s' : (m.relabel Fin.revPerm).State) (r : a.State) (r' : (a.relabel Fin.revPerm).State) :
    ((m.relabel Fin.revPerm).step (relabelNl Fin.revPerm nl) (u ∘ Fin.revPerm) 1 (m.relabel Fin.revPerm).new).1 =
      (m.step nl u 1 m.new).1.map (fun v => v ∘ Fin.revPerm) ∧
    ((m.relabel Fin.revPerm).evolve (relabelNl Fin.revPerm nl) id true 1000 (u ∘ Fin.revPerm) 0 1 (1 / 10) true 1 s').2.t =
      (m.evolve nl id true 1000 u 0 1 (1 / 10) true 1 s).2.t ∧
    ((a.relabel Fin.revPerm).evolve (relabelNl Fin.revPerm nl) id true cfg 1000 (u ∘ Fin.revPerm) 0 1 none true 1 r').2.t =
      (a.evolve nl id true cfg 1000 u 0 1 none true 1 r).2.t :=
  ⟨C55_step _ m nl u _ _ (.new _) (.new _) 1, (C55_evolve _ m nl id true 1000 u 0 1 (1 / 10) true 1 s s').2.1,
    (C55_adaptive_evolve _ a nl id true cfg 1000 u 0 1 none true 1 r r').2.1⟩

/-- Reversing the order of three modes of an adaptive solver. -/
example (etd : ETDConfig ℝ) (cfg : SolverConfig ℝ) (u : Vec (Fin 3)) (s : (ASSolver.etd35 etd (.diag ![0, -1, 1 / 2])).State)
    (hs : (ASSolver.etd35 etd (.diag ![0, -1, 1 / 2])).Follows (total fun w => w * w) u s) :
    let m : ASSolver (Fin 3) := .etd35 etd (.diag ![0, -1, 1 / 2])
    ((m.relabel Fin.revPerm).step (relabelNl Fin.revPerm (total fun w => w * w)) id cfg (u ∘ Fin.revPerm) 1
        (m.relabel Fin.revPerm).new).1 =
      (m.step (total fun w => w * w) id cfg u 1 s).1.map fun r => (r.1 ∘ Fin.revPerm, r.2) :=
  C55_adaptive_step _ _ _ _ _ _ _ _ hs (.new _) 1

end Verif
