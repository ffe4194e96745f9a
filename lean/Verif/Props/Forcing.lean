import Verif.Lemmas.Calculus
import Verif.Props.Exact

/-!
# ETD solvers on constant forcing and on equilibria (property C25)
-/

set_option linter.unusedSectionVars false

namespace Verif

open Matrix Filter Topology

variable {ι : Type} [Fintype ι] [DecidableEq ι]

/-- The row-sum conditions of an exponential Runge–Kutta method with abscissae `c`. -/
structure RowSums (M : ERK ι) (L : Mat ι) (h : ℝ) (φ : ℕ → ℝ → Mat ι) (c : ℕ → ℝ) : Prop where
  E : ∀ i < M.s, M.E i = expm L (c i * h)
  A : ∀ i < M.s, ∑ j ∈ Finset.range i, M.A i j = ((c i * h : ℝ) : ℂ) • φ 1 (c i)
  Eout : M.Eout = expm L h
  B : ∑ j ∈ Finset.range M.s, M.B j = (h : ℂ) • φ 1 1
  R : ∑ j ∈ Finset.range M.s, M.R j = 0

theorem krogstad_rowSums (φ : ℕ → ℝ → Mat ι) (L : Mat ι) (h : ℝ) :
    RowSums (krogstad φ L h) L h φ (fun | 1 => 1 / 2 | 2 => 1 / 2 | 3 => 1 | 4 => 1 | _ => 0) := by
  refine ⟨?_, ?_, rfl, ?_, ?_⟩
  · intro i hi
    have hi : i < 5 := hi
    interval_cases i
    · simp [krogstad]
    · simp only [krogstad]; congr 1; ring
    · simp only [krogstad]; congr 1; ring
    · simp only [krogstad]; congr 1; ring
    · simp only [krogstad]; congr 1; ring
  · intro i hi
    have hi : i < 5 := hi
    interval_cases i <;> simp [krogstad, Finset.sum_range_succ] <;> module
  · simp only [krogstad, Finset.sum_range_succ, Finset.sum_range_zero]; module
  · simp only [krogstad, Finset.sum_range_succ, Finset.sum_range_zero]; module

theorem etd5_rowSums (fsal : Bool) (φ : ℕ → ℝ → Mat ι) (L : Mat ι) (h : ℝ) :
    RowSums (etd5Method fsal φ L h) L h φ
      (fun | 1 => 1 / 4 | 2 => 1 / 4 | 3 => 1 / 2 | 4 => 3 / 4 | 5 => 1 | 6 => 1 | _ => 0) := by
  have hs : (etd5Method fsal φ L h).s ≤ 7 := by cases fsal <;> simp [etd5Method]
  refine ⟨?_, ?_, rfl, ?_, ?_⟩
  · intro i hi
    have hi : i < 7 := hi.trans_le hs
    interval_cases i
    · simp [etd5Method]
    all_goals simp only [etd5Method]; congr 1; ring
  · intro i hi
    have hi : i < 7 := hi.trans_le hs
    interval_cases i <;> simp only [etd5Method, Finset.sum_range_succ, Finset.sum_range_zero] <;> push_cast <;> module
  · cases fsal <;> simp only [etd5Method, Finset.sum_range_succ, Finset.sum_range_zero, if_true, if_false, Bool.false_eq_true] <;>
      module
  · cases fsal <;> simp only [etd5Method, Finset.sum_range_succ, Finset.sum_range_zero, if_true, if_false, Bool.false_eq_true] <;>
      module

theorem sum_mulVec_const (A : ℕ → Mat ι) (n : ℕ) (c : Vec ι) :
    ∑ j ∈ Finset.range n, A j *ᵥ c = (∑ j ∈ Finset.range n, A j) *ᵥ c := by
  rw [Matrix.sum_mulVec]

theorem RowSums.const {M : ERK ι} {L : Mat ι} {h : ℝ} {φ : ℕ → ℝ → Mat ι} {x : ℕ → ℝ} (hM : RowSums M L h φ x)
    (c u : Vec ι) : M.run (fun _ => c) u = (expm L h *ᵥ u + ((h : ℂ) • φ 1 1) *ᵥ c, 0) := by
  have h1 := M.step_of (total fun _ => c) u (N := fun _ => c) fun i _ => rfl
  rw [ERK.step_eq_run] at h1
  injection h1 with h1
  rw [h1]
  simp only [ERK.out, ERK.err, sum_mulVec_const, hM.B, hM.R, hM.Eout, zero_mulVec]

theorem RowSums.arg_equilibrium {M : ERK ι} {L : Mat ι} {h : ℝ} {x : ℕ → ℝ} (hM : RowSums M L h (phiExact L h) x)
    (u n : Vec ι) (hu : L *ᵥ u + n = 0) (i : ℕ) (hi : i < M.s) : M.arg u (fun _ => n) i = u := by
  have hn : n = -(L *ᵥ u) := (neg_eq_of_add_eq_zero_right hu).symm
  unfold ERK.arg
  rw [sum_mulVec_const, hM.A i hi, hM.E i hi, ← phiOne_mul, hn, mulVec_neg, mulVec_mulVec]
  have hcomm : Commute L (phiMat 1 (((x i * h : ℝ) : ℂ) • L)) := by
    unfold phiMat
    exact Commute.tsum_right _ fun j => (((Commute.refl L).smul_right _).pow_right j).smul_right _
  have : phiExact L h 1 (x i) = phiMat 1 (((x i * h : ℝ) : ℂ) • L) := rfl
  rw [this, mul_smul_comm, hcomm.eq, add_mulVec, one_mulVec, smul_mul_assoc]
  abel

theorem RowSums.equilibrium {M : ERK ι} {L : Mat ι} {h : ℝ} {x : ℕ → ℝ} (hM : RowSums M L h (phiExact L h) x)
    (f : Vec ι → Vec ι) (u : Vec ι) (hu : L *ᵥ u + f u = 0) : M.run f u = (u, 0) := by
  have h1 := M.step_of (total f) u (N := fun _ => f u) fun i hi => by
    rw [hM.arg_equilibrium u (f u) hu i hi]; rfl
  rw [ERK.step_eq_run] at h1
  injection h1 with h1
  have hn : f u = -(L *ᵥ u) := (neg_eq_of_add_eq_zero_right hu).symm
  have hcomm : Commute L (phiMat 1 (((h : ℝ) : ℂ) • L)) := by
    unfold phiMat
    exact Commute.tsum_right _ fun j => (((Commute.refl L).smul_right _).pow_right j).smul_right _
  have he : phiExact L h 1 1 = phiMat 1 ((h : ℂ) • L) := by unfold phiExact; rw [one_mul]
  rw [h1]
  simp only [ERK.out, ERK.err, sum_mulVec_const, hM.B, hM.R, hM.Eout, zero_mulVec, Prod.mk.injEq, and_true]
  rw [← phiOne_mul, hn, mulVec_neg, mulVec_mulVec, he, mul_smul_comm, hcomm.eq, add_mulVec, one_mulVec, smul_mul_assoc]
  abel

theorem CSSolver.exact_rowSums {m : CSSolver ι} (hm : m.IsETD) (h : ℝ) :
    ∃ x, RowSums (m.exact h) m.op.mat h (phiExact m.op.mat h) x := by
  rcases m with L | ⟨cfg, L⟩ | ⟨cfg, L⟩
  · exact hm.elim
  · exact ⟨_, krogstad_rowSums _ _ _⟩
  · exact ⟨_, etd5_rowSums true _ _ _⟩

theorem ASSolver.exact_rowSums {m : ASSolver ι} (hm : m.IsETD) (h : ℝ) :
    ∃ x, RowSums (m.exact h) m.op.mat h (phiExact m.op.mat h) x := by
  rcases m with L | ⟨cfg, L⟩ | ⟨cfg, L⟩ | L
  · exact hm.elim
  · exact ⟨_, krogstad_rowSums _ _ _⟩
  · exact ⟨_, etd5_rowSums false _ _ _⟩
  · exact hm.elim

theorem forced_of (L : Mat ι) (h : ℝ) (c u : Vec ι) (y : ℝ → Vec ι) (h0 : y 0 = u)
    (hy : ∀ t, HasDerivAt y (L *ᵥ y t + c) t) : expm L h *ᵥ u + ((h : ℂ) • phiExact L h 1 1) *ᵥ c = y h := by
  rw [forced_unique L c u y h0 hy h, forced]
  unfold phiExact
  rw [one_mul]

/-- **C25.** Constant forcing, no contour used: a step of ETD4, ETD5 returns the exact solution of `y' = L y + c`. -/
theorem C25_forcing_step (m : CSSolver ι) (hm : m.IsETD) (c u : Vec ι) (h : ℝ) (hh : 0 ≤ h) (hn : m.NoContour h)
    (y : ℝ → Vec ι) (h0 : y 0 = u) (hy : ∀ t, HasDerivAt y (m.op.mat *ᵥ y t + c) t) :
    (m.step (total fun _ => c) u h m.new).1 = .ok (y h) := by
  obtain ⟨x, hx⟩ := CSSolver.exact_rowSums hm h
  rw [C22_exact_step m _ u h hh hn, ERK.step_eq_run, hx.const, forced_of _ h c u y h0 hy]
  rfl

/-- **C25.** Constant forcing, no contour used: a trial of ETD34, ETD35 is exact, with error estimate zero. -/
theorem C25_forcing_trial (m : ASSolver ι) (hm : m.IsETD) (c u : Vec ι) (h : ℝ) (hn : m.NoContour h)
    (y : ℝ → Vec ι) (h0 : y 0 = u) (hy : ∀ t, HasDerivAt y (m.op.mat *ᵥ y t + c) t) :
    (m.trial (total fun _ => c) u h m.new).1 = .ok (y h, 0) := by
  obtain ⟨x, hx⟩ := ASSolver.exact_rowSums hm h
  rw [C22_exact_trial m _ u h hn, ERK.step_eq_run, hx.const, forced_of _ h c u y h0 hy]
  have hz : m.op.prj 0 = 0 := by cases m.op <;> simp [ASOp.prj]
  show Except.ok (y h, m.op.prj 0) = _
  rw [hz]

/-- **C25.** With contours the step of ETD4, ETD5 converges to the exact solution. -/
theorem C25_forcing_limit (m : CSSolver ι) (hm : m.IsETD) (c u : Vec ι) (h : ℝ) (hh : 0 ≤ h) (hn : m.Resolved h)
    (y : ℝ → Vec ι) (h0 : y 0 = u) (hy : ∀ t, HasDerivAt y (m.op.mat *ᵥ y t + c) t) :
    Approaches (fun N => ((m.withPoints N).step (total fun _ => c) u h (m.withPoints N).new).1) (y h) := by
  obtain ⟨x, hx⟩ := CSSolver.exact_rowSums hm h
  have := C22_limit_step m (fun _ => c) continuous_const u h hh hn
  rwa [hx.const, forced_of _ h c u y h0 hy] at this

/-- **C25.** With contours the trial of ETD34, ETD35 converges to the exact solution. -/
theorem C25_forcing_trial_limit (m : ASSolver ι) (hm : m.IsETD) (c u : Vec ι) (h : ℝ) (hn : m.Resolved h)
    (y : ℝ → Vec ι) (h0 : y 0 = u) (hy : ∀ t, HasDerivAt y (m.op.mat *ᵥ y t + c) t) :
    Approaches (fun N => ((m.withPoints N).trial (total fun _ => c) u h (m.withPoints N).new).1) (y h, 0) := by
  obtain ⟨x, hx⟩ := ASSolver.exact_rowSums hm h
  have := C22_limit_trial m (fun _ => c) continuous_const u h hn
  have hz : m.op.prj 0 = 0 := by cases m.op <;> simp [ASOp.prj]
  rw [hx.const, forced_of _ h c u y h0 hy] at this
  simpa only [hz] using this

/-- **C25.** With approximate coefficients the step on constant forcing is wrong only by the error of `φ_1(h L)`. -/
theorem C25_forcing_approx (cfg : ETDConfig ℝ) (L : LinOp ι) (c u : Vec ι) (h : ℝ) (hh : 0 ≤ h) :
    (L.CoefOk cfg [1 / 2, 1] h →
      ((CSSolver.etd4 cfg L).step (total fun _ => c) u h (CSSolver.etd4 cfg L).new).1 =
        .ok (expm L.mat h *ᵥ u + ((h : ℂ) • L.phi cfg h 1 1) *ᵥ c)) ∧
    (L.CoefOk cfg [1 / 4, 1 / 2, 3 / 4, 1] h →
      ((CSSolver.etd5 cfg L).step (total fun _ => c) u h (CSSolver.etd5 cfg L).new).1 =
        .ok (expm L.mat h *ᵥ u + ((h : ℂ) • L.phi cfg h 1 1) *ᵥ c)) := by
  constructor
  · intro hc
    rw [C22_etd4 cfg L _ u h hh hc, ERK.step_eq_run, (krogstad_rowSums _ _ _).const]; rfl
  · intro hc
    rw [C22_etd5 cfg L _ u h hh hc, ERK.step_eq_run, (etd5_rowSums _ _ _ _).const]; rfl

/-- `u' = -2 u + 6`, `u(0) = 5` has the solution `3 + 2 e^(-2t)`. -/
theorem forced_sol (t : ℝ) : HasDerivAt (fun t : ℝ => (fun _ => ((3 + 2 * Real.exp (-2 * t) : ℝ) : ℂ) : Vec (Fin 1)))
    (Matrix.diagonal ![-2] *ᵥ (fun _ => ((3 + 2 * Real.exp (-2 * t) : ℝ) : ℂ)) + fun _ => 6) t := by
  refine hasDerivAt_pi.mpr fun i => ?_
  have h1 : HasDerivAt (fun t : ℝ => 3 + 2 * Real.exp (-2 * t)) (2 * (Real.exp (-2 * t) * (-2 * 1))) t :=
    (((hasDerivAt_id t).const_mul (-2)).exp.const_mul 2).const_add 3
  have h2 := h1.ofReal_comp
  have h3 : (Matrix.diagonal ![-2] *ᵥ (fun _ => ((3 + 2 * Real.exp (-2 * t) : ℝ) : ℂ)) + (fun _ => 6 : Vec (Fin 1))) i =
      ((2 * (Real.exp (-2 * t) * (-2 * 1)) : ℝ) : ℂ) := by
    fin_cases i
    simp only [Pi.add_apply, mulVec_diagonal]
    push_cast
    simp
    ring
  rw [h3]
  exact h2

/-- ETD4 and ETD35 give it exactly for steps above the cutoff, and in the limit below. -/
example :
    (let m := CSSolver.etd4 ⟨1 / 100, 32, 1⟩ (.diag (![-2] : Vec (Fin 1)))
     (m.step (total fun _ _ => 6) (fun _ => 5) 1 m.new).1 = .ok fun _ => ((3 + 2 * Real.exp (-2 * 1) : ℝ) : ℂ)) ∧
    (let m := ASSolver.etd35 ⟨1 / 100, 32, 1⟩ (.diag (![-2] : Vec (Fin 1)))
     (m.trial (total fun _ _ => 6) (fun _ => 5) 1 m.new).1 = .ok (fun _ => ((3 + 2 * Real.exp (-2 * 1) : ℝ) : ℂ), 0)) ∧
    (let m := CSSolver.etd5 ⟨1 / 100, 32, 1⟩ (.diag (![-2] : Vec (Fin 1)))
     Approaches (fun N => ((m.withPoints N).step (total fun _ _ => 6) (fun _ => 5) (1 / 1000) (m.withPoints N).new).1)
      fun _ => ((3 + 2 * Real.exp (-2 * (1 / 1000)) : ℝ) : ℂ)) ∧
    (let m := ASSolver.etd34 ⟨1 / 100, 32, 1⟩ (.diag (![-2] : Vec (Fin 1)))
     Approaches (fun N => ((m.withPoints N).trial (total fun _ _ => 6) (fun _ => 5) (1 / 1000) (m.withPoints N).new).1)
      (fun _ => ((3 + 2 * Real.exp (-2 * (1 / 1000)) : ℝ) : ℂ), 0)) := by
  have h0 : (fun _ => ((3 + 2 * Real.exp (-2 * 0) : ℝ) : ℂ)) = (fun _ => 5 : Vec (Fin 1)) := by
    funext; norm_num
  have n1 : ∀ i, (1 / 100 : ℝ) ≤ ‖((1 : ℝ) : ℂ) * (![-2] : Vec (Fin 1)) i‖ := fun i => by fin_cases i; norm_num
  have a := C25_forcing_step (.etd4 ⟨1 / 100, 32, 1⟩ (.diag (![-2] : Vec (Fin 1)))) trivial (fun _ => 6) (fun _ => 5) 1 zero_le_one
    ⟨by norm_num, n1⟩ _ h0 forced_sol
  have b := C25_forcing_trial (.etd35 ⟨1 / 100, 32, 1⟩ (.diag (![-2] : Vec (Fin 1)))) trivial (fun _ => 6) (fun _ => 5) 1
    ⟨by norm_num, n1⟩ _ h0 forced_sol
  have c := C25_forcing_limit (.etd5 ⟨1 / 100, 32, 1⟩ (.diag (![-2] : Vec (Fin 1)))) trivial (fun _ => 6) (fun _ => 5) (1 / 1000)
    (by norm_num) ⟨by norm_num, by norm_num⟩ _ h0 forced_sol
  have d := C25_forcing_trial_limit (.etd34 ⟨1 / 100, 32, 1⟩ (.diag (![-2] : Vec (Fin 1)))) trivial (fun _ => 6) (fun _ => 5) (1 / 1000)
    ⟨by norm_num, by norm_num⟩ _ h0 forced_sol
  exact ⟨a, b, c, d⟩

/-- With one contour point, whatever the approximations of φ are. -/
example (c u : Vec (Fin 1)) :
    ((CSSolver.etd4 ⟨1 / 100, 1, 1⟩ (.diag ![0])).step (total fun _ => c) u 1 (CSSolver.etd4 ⟨1 / 100, 1, 1⟩ (.diag ![0])).new).1 =
      .ok (expm (LinOp.diag ![0]).mat 1 *ᵥ u + (((1 : ℝ) : ℂ) • (LinOp.diag ![0]).phi ⟨1 / 100, 1, 1⟩ 1 1 1) *ᵥ c) :=
  (C25_forcing_approx _ _ c u 1 zero_le_one).1 trivial

/-- **C25.** Equilibria are preserved, and all stages are equal to the equilibrium: exact φ functions. -/
theorem C25_stages (m : CSSolver ι) (hm : m.IsETD) (f : Vec ι → Vec ι) (u : Vec ι) (h : ℝ) (hu : m.op.mat *ᵥ u + f u = 0) :
    ∀ i < (m.exact h).s, (m.exact h).arg u ((m.exact h).values f u i) i = u := by
  obtain ⟨x, hx⟩ := CSSolver.exact_rowSums hm h
  have key : ∀ i ≤ (m.exact h).s, ∀ j < i, (m.exact h).values f u i j = f u := by
    intro i
    induction i with
    | zero => intro _ j hj; omega
    | succ i ih =>
      intro hi j hj
      have ih := ih (by omega)
      simp only [ERK.values]
      by_cases hji : j = i
      · subst hji
        rw [Function.update_self, ERK.arg_congr _ _ (N' := fun _ => f u) ih, hx.arg_equilibrium u (f u) hu j (by omega)]
      · rw [Function.update_of_ne hji]
        exact ih j (by omega)
  intro i hi
  rw [ERK.arg_congr _ _ (N' := fun _ => f u) (key i hi.le), hx.arg_equilibrium u (f u) hu i hi]

/-- **C25.** Equilibria are preserved by ETD4, ETD5 when no contour is used. -/
theorem C25_equilibrium_step (m : CSSolver ι) (hm : m.IsETD) (f : Vec ι → Vec ι) (u : Vec ι) (h : ℝ) (hh : 0 ≤ h)
    (hn : m.NoContour h) (hu : m.op.mat *ᵥ u + f u = 0) : (m.step (total f) u h m.new).1 = .ok u := by
  obtain ⟨x, hx⟩ := CSSolver.exact_rowSums hm h
  rw [C22_exact_step m _ u h hh hn, ERK.step_eq_run, hx.equilibrium f u hu]
  rfl

/-- **C25.** Equilibria are preserved by ETD34, ETD35 when no contour is used, with error estimate zero. -/
theorem C25_equilibrium_trial (m : ASSolver ι) (hm : m.IsETD) (f : Vec ι → Vec ι) (u : Vec ι) (h : ℝ)
    (hn : m.NoContour h) (hu : m.op.mat *ᵥ u + f u = 0) : (m.trial (total f) u h m.new).1 = .ok (u, 0) := by
  obtain ⟨x, hx⟩ := ASSolver.exact_rowSums hm h
  have hz : m.op.prj 0 = 0 := by cases m.op <;> simp [ASOp.prj]
  rw [C22_exact_trial m _ u h hn, ERK.step_eq_run, hx.equilibrium f u hu]
  show Except.ok (u, m.op.prj 0) = _
  rw [hz]

/-- **C25.** With contours the step from an equilibrium converges to the equilibrium. -/
theorem C25_equilibrium_limit (m : CSSolver ι) (hm : m.IsETD) (f : Vec ι → Vec ι) (hf : Continuous f) (u : Vec ι) (h : ℝ)
    (hh : 0 ≤ h) (hn : m.Resolved h) (hu : m.op.mat *ᵥ u + f u = 0) :
    Approaches (fun N => ((m.withPoints N).step (total f) u h (m.withPoints N).new).1) u := by
  obtain ⟨x, hx⟩ := CSSolver.exact_rowSums hm h
  have := C22_limit_step m f hf u h hh hn
  rwa [hx.equilibrium f u hu] at this

/-- **C25.** The same for trials. -/
theorem C25_equilibrium_trial_limit (m : ASSolver ι) (hm : m.IsETD) (f : Vec ι → Vec ι) (hf : Continuous f) (u : Vec ι) (h : ℝ)
    (hn : m.Resolved h) (hu : m.op.mat *ᵥ u + f u = 0) :
    Approaches (fun N => ((m.withPoints N).trial (total f) u h (m.withPoints N).new).1) (u, 0) := by
  obtain ⟨x, hx⟩ := ASSolver.exact_rowSums hm h
  have := C22_limit_trial m f hf u h hn
  have hz : m.op.prj 0 = 0 := by cases m.op <;> simp [ASOp.prj]
  rw [hx.equilibrium f u hu] at this
  simpa only [hz] using this

/-- The fixed point 1 of `u' = u - u^2`. -/
example :
    (let m := CSSolver.etd5 ⟨1 / 100, 32, 1⟩ (.diag (1 : Vec (Fin 1)))
     (m.step (total fun v => -(v * v)) 1 1 m.new).1 = .ok 1 ∧
     ∀ i < (m.exact 1).s, (m.exact 1).arg 1 ((m.exact 1).values (fun v => -(v * v)) 1 i) i = 1) ∧
    (let m := ASSolver.etd34 ⟨1 / 100, 32, 1⟩ (.diag (1 : Vec (Fin 1)))
     (m.trial (total fun v => -(v * v)) 1 1 m.new).1 = .ok (1, 0)) ∧
    (let m := CSSolver.etd5 ⟨1 / 100, 32, 1⟩ (.diag (1 : Vec (Fin 1)))
     Approaches (fun N => ((m.withPoints N).step (total fun v => -(v * v)) 1 (1 / 1000) (m.withPoints N).new).1) 1) ∧
    (let m := ASSolver.etd34 ⟨1 / 100, 32, 1⟩ (.diag (1 : Vec (Fin 1)))
     Approaches (fun N => ((m.withPoints N).trial (total fun v => -(v * v)) 1 (1 / 1000) (m.withPoints N).new).1) (1, 0)) := by
  have h0 : (LinOp.diag (1 : Vec (Fin 1))).mat *ᵥ (1 : Vec (Fin 1)) + (fun v : Vec (Fin 1) => -(v * v)) 1 = 0 := by simp [LinOp.mat]
  have n1 : ∀ i, (1 / 100 : ℝ) ≤ ‖((1 : ℝ) : ℂ) * (1 : Vec (Fin 1)) i‖ := fun i => by simp; norm_num
  have hc : Continuous (fun v : Vec (Fin 1) => -(v * v)) := (continuous_id.mul continuous_id).neg
  exact ⟨⟨C25_equilibrium_step (.etd5 ⟨1 / 100, 32, 1⟩ (.diag 1)) trivial _ 1 1 zero_le_one ⟨by norm_num, n1⟩ h0,
    C25_stages (.etd5 ⟨1 / 100, 32, 1⟩ (.diag 1)) trivial _ 1 1 h0⟩,
    C25_equilibrium_trial (.etd34 ⟨1 / 100, 32, 1⟩ (.diag 1)) trivial _ 1 1 ⟨by norm_num, n1⟩ h0,
    C25_equilibrium_limit (.etd5 ⟨1 / 100, 32, 1⟩ (.diag 1)) trivial _ hc 1 (1 / 1000) (by norm_num) ⟨by norm_num, by norm_num⟩ h0,
    C25_equilibrium_trial_limit (.etd34 ⟨1 / 100, 32, 1⟩ (.diag 1)) trivial _ hc 1 (1 / 1000) ⟨by norm_num, by norm_num⟩ h0⟩

/-- Every problem with constant forcing has an exact solution. -/
example (L : Mat ι) (c u : Vec ι) : ∃ y : ℝ → Vec ι, y 0 = u ∧ ∀ t, HasDerivAt y (L *ᵥ y t + c) t :=
  ⟨forced L c u, forced_zero L c u, forced_hasDerivAt L c u⟩

/-- The logistic equation `u' = u - u²` in one mode has the equilibrium `1`. -/
example : (LinOp.diag (1 : Vec (Fin 1))).mat *ᵥ (1 : Vec (Fin 1)) + (fun v : Vec (Fin 1) => -(v * v)) 1 = 0 := by
  simp [LinOp.mat]

end Verif
