import Verif.Lemmas.OrderCond
import Verif.Props.Exact

/-!
# Classical order (property C34)

At a zero linear operator every solver is a classical explicit Runge–Kutta method; the method satisfies all order
conditions of Butcher's theory up to the order in the name of the solver.  The contour integrals of the exponential time
differencing solvers are not exact at zero, so for them the statement is about the limit of many contour points.
-/

set_option linter.unusedSectionVars false

namespace Verif

open Matrix Filter

section
variable {ι : Type} [Fintype ι] [DecidableEq ι]

theorem expm_zero_op (θ : ℝ) : expm (0 : Mat ι) θ = 1 := by simp [expm]

theorem lawson_zero (T : Tableau) (h : ℝ) : lawson T (0 : Mat ι) h = T.rk h := by
  simp [lawson, Tableau.rk, expm_zero_op]

theorem phiExact_zero_op (h : ℝ) (k : ℕ) (c : ℝ) : phiExact (0 : Mat ι) h k c = (k.factorial : ℂ)⁻¹ • 1 := by
  rw [phiExact, smul_zero, phiMat_at_zero]

theorem krogstad_zero (h : ℝ) : krogstad (phiExact (0 : Mat ι) h) 0 h = rk4.rk h := by
  simp only [krogstad, Tableau.rk, expm_zero_op, phiExact_zero_op, ERK.mk.injEq]
  refine ⟨rfl, ?_, ?_, trivial, ?_, ?_⟩
  · funext i; split <;> rfl
  · funext i j
    rw [show ((h * rk4.a i j : ℝ) : ℂ) • (1 : Mat ι) = (h : ℂ) • (rk4.a i j : ℂ) • 1 by rw [smul_smul]; push_cast; rfl]
    congr 1
    simp only [rk4]
    split <;> simp [Nat.factorial] <;> module
  · funext j
    rw [show ((h * rk4.b j : ℝ) : ℂ) • (1 : Mat ι) = (h : ℂ) • (rk4.b j : ℂ) • 1 by rw [smul_smul]; push_cast; rfl]
    congr 1
    simp only [rk4]
    split <;> simp [Nat.factorial] <;> module
  · funext j
    rw [show ((h * rk4.r j : ℝ) : ℂ) • (1 : Mat ι) = (h : ℂ) • (rk4.r j : ℂ) • 1 by rw [smul_smul]; push_cast; rfl]
    congr 1
    simp only [rk4]
    split <;> simp [Nat.factorial] <;> module

theorem etd5_zero (h : ℝ) : etd5Method true (phiExact (0 : Mat ι) h) 0 h = butcher5.rk h := by
  simp only [etd5Method, Tableau.rk, expm_zero_op, phiExact_zero_op, ERK.mk.injEq]
  refine ⟨rfl, ?_, ?_, trivial, ?_, ?_⟩
  · funext i; split <;> rfl
  · funext i j
    rw [show ((h * butcher5.a i j : ℝ) : ℂ) • (1 : Mat ι) = (h : ℂ) • (butcher5.a i j : ℂ) • 1 by
      rw [smul_smul]; push_cast; rfl]
    congr 1
    simp only [butcher5]
    split
    case h_15 =>
      rcases j with _ | _ | _ | _ | _ | _ | j <;> simp [Nat.factorial] <;> module
    case h_16 => split <;> simp_all
    all_goals simp [Nat.factorial] <;> module
  · funext j
    rw [show ((h * butcher5.b j : ℝ) : ℂ) • (1 : Mat ι) = (h : ℂ) • (butcher5.b j : ℂ) • 1 by
      rw [smul_smul]; push_cast; rfl]
    congr 1
    simp only [butcher5]
    split <;> simp [Nat.factorial] <;> module
  · funext j
    rw [show ((h * butcher5.r j : ℝ) : ℂ) • (1 : Mat ι) = (h : ℂ) • (butcher5.r j : ℂ) • 1 by
      rw [smul_smul]; push_cast; rfl]
    congr 1
    simp only [butcher5]
    split <;> simp [Nat.factorial] <;> module

/-- The unused evaluation at the new solution does not matter. -/
theorem etd5_run_fsal (φ : ℕ → ℝ → Mat ι) (L : Mat ι) (h : ℝ) (f : Vec ι → Vec ι) (u : Vec ι) :
    (etd5Method false φ L h).run f u = (etd5Method true φ L h).run f u := by
  have hv : ∀ n, (etd5Method false φ L h).values f u n = (etd5Method true φ L h).values f u n := by
    intro n
    induction n with
    | zero => rfl
    | succ n ih => simp only [ERK.values, ih]; rfl
  have h7 : ∀ j < 6, (etd5Method true φ L h).values f u 7 j = (etd5Method true φ L h).values f u 6 j := by
    intro j hj
    exact Function.update_of_ne (show j ≠ 6 by omega) _ _
  have hs : ∀ B : ℕ → Mat ι, B 6 = 0 → ∑ j ∈ Finset.range 6, B j *ᵥ (etd5Method false φ L h).values f u 6 j =
      ∑ j ∈ Finset.range 7, B j *ᵥ (etd5Method true φ L h).values f u 7 j := by
    intro B hB
    rw [Finset.sum_range_succ _ 6, hB, zero_mulVec, add_zero]
    exact Finset.sum_congr rfl fun j hj => by rw [hv, h7 j (Finset.mem_range.1 hj)]
  refine Prod.ext ?_ ?_
  · exact congrArg (expm L h *ᵥ u + ·) (hs (etd5Method true φ L h).B (smul_zero _))
  · exact hs (etd5Method true φ L h).R (smul_zero _)

end

/-- **C34.** IF4 with zero linear operator is a classical method of order 4. -/
theorem C34_if4 : ∃ T : Tableau, T.HasOrder 4 ∧
    ∀ (ι : Type) [Fintype ι] [DecidableEq ι] (L : LinOp ι) (nl : NlFunc ι) (u : Vec ι) (h : ℝ), L.mat = 0 → 0 ≤ h →
      ((CSSolver.if4 L).step nl u h (CSSolver.if4 L).new).1 = ((T.rk h).step nl u).map Prod.fst := by
  refine ⟨rk4, rk4_hasOrder, fun ι _ _ L nl u h hL hh => ?_⟩
  rw [CSSolver.step_method _ _ _ _ hh (show (CSSolver.if4 L).CoefOk h from trivial)]
  show ((lawson rk4 L.mat h).step nl u).map _ = _
  rw [hL, lawson_zero]

/-- **C34.** A trial of IF34 with zero linear operator is that of a classical method of order 4, whose error weights are
those of a pair of orders 4 and 3. -/
theorem C34_if34 : ∃ T : Tableau, T.HasOrder 4 ∧ T.ErrOrder 3 ∧
    ∀ (ι : Type) [Fintype ι] [DecidableEq ι] (L : ASOp ι) (nl : NlFunc ι) (u : Vec ι) (h : ℝ), L.mat = 0 →
      ((ASSolver.if34 L).trial nl u h (ASSolver.if34 L).new).1 =
        ((T.rk h).step nl u).map fun r => (r.1, L.prj r.2) := by
  refine ⟨rk4, rk4_hasOrder, rk4_errOrder, fun ι _ _ L nl u h hL => ?_⟩
  rw [ASSolver.trial_if34, hL, lawson_zero]

/-- **C34.** A trial of IF45DP with zero linear operator is that of a classical method of order 5.  Its error weights do
not even sum to zero: the error estimate is that of no pair of consistent methods (see C54). -/
theorem C34_if45dp : ∃ T : Tableau, T.HasOrder 5 ∧ ¬ T.ErrOrder 1 ∧
    ∀ (ι : Type) [Fintype ι] [DecidableEq ι] (nl : NlFunc ι) (u : Vec ι) (h : ℝ),
      ((ASSolver.if45dp (0 : Vec ι)).trial nl u h (ASSolver.if45dp (0 : Vec ι)).new).1 = (T.rk h).step nl u := by
  refine ⟨dpWith (17 / 1920), dormandPrince_hasOrder, fun hc => ?_, fun ι _ _ nl u h => ?_⟩
  · have := hc .leaf le_rfl
    rw [show (dpWith (17 / 1920)).s = 7 from rfl] at this
    simp only [Finset.sum_range_succ, Finset.sum_range_zero, RTree.weight, dpWith, dormandPrince] at this
    norm_num at this
  · rw [ASSolver.trial_if45dp, show Matrix.diagonal (0 : Vec ι) = 0 from Matrix.diagonal_zero, lawson_zero]

/-- **C34.** With the error weight `71/1920` of Dormand and Prince in place of `17/1920` the error weights would be those
of a pair of orders 5 and 4. -/
theorem C34_if45dp_corrected : (dpWith (71 / 1920)).HasOrder 5 ∧ (dpWith (71 / 1920)).ErrOrder 4 := by
  have : dpWith (71 / 1920) = dormandPrince := by
    have hr : (fun j => if j = 3 then (71 / 1920 : ℝ) else dormandPrince.r j) = dormandPrince.r := by
      funext j
      split
      · subst j; norm_num [dormandPrince]
      · rfl
    show ({ dormandPrince with r := fun j => if j = 3 then (71 / 1920 : ℝ) else dormandPrince.r j } : Tableau) = _
    rw [hr]
  rw [this]
  exact ⟨dormandPrince_hasOrder, dormandPrince_errOrder⟩

/-- **C34.** ETD4 with zero linear operator approaches a classical method of order 4. -/
theorem C34_etd4 : ∃ T : Tableau, T.HasOrder 4 ∧
    ∀ (ι : Type) [Fintype ι] [DecidableEq ι] (cfg : ETDConfig ℝ) (L : LinOp ι) (f : Vec ι → Vec ι) (u : Vec ι) (h : ℝ),
      L.mat = 0 → 0 ≤ h → Continuous f → (CSSolver.etd4 cfg L).Resolved h →
      Approaches (fun N => (((CSSolver.etd4 cfg L).withPoints N).step (total f) u h ((CSSolver.etd4 cfg L).withPoints N).new).1)
        ((T.rk h).run f u).1 := by
  refine ⟨rk4, rk4_hasOrder, fun ι _ _ cfg L f u h hL hh hf hm => ?_⟩
  have := C22_limit_step _ f hf u h hh hm
  rwa [show (CSSolver.etd4 cfg L).exact h = rk4.rk h by
    show krogstad (phiExact L.mat h) L.mat h = _
    rw [hL, krogstad_zero]] at this

/-- **C34.** ETD5 with zero linear operator approaches a classical method of order 5. -/
theorem C34_etd5 : ∃ T : Tableau, T.HasOrder 5 ∧
    ∀ (ι : Type) [Fintype ι] [DecidableEq ι] (cfg : ETDConfig ℝ) (L : LinOp ι) (f : Vec ι → Vec ι) (u : Vec ι) (h : ℝ),
      L.mat = 0 → 0 ≤ h → Continuous f → (CSSolver.etd5 cfg L).Resolved h →
      Approaches (fun N => (((CSSolver.etd5 cfg L).withPoints N).step (total f) u h ((CSSolver.etd5 cfg L).withPoints N).new).1)
        ((T.rk h).run f u).1 := by
  refine ⟨butcher5, butcher5_hasOrder, fun ι _ _ cfg L f u h hL hh hf hm => ?_⟩
  have := C22_limit_step _ f hf u h hh hm
  rwa [show (CSSolver.etd5 cfg L).exact h = butcher5.rk h by
    show etd5Method true (phiExact L.mat h) L.mat h = _
    rw [hL, etd5_zero]] at this

/-- **C34.** A trial of ETD34 with zero linear operator approaches that of a classical pair of orders 4 and 3. -/
theorem C34_etd34 : ∃ T : Tableau, T.HasOrder 4 ∧ T.ErrOrder 3 ∧
    ∀ (ι : Type) [Fintype ι] [DecidableEq ι] (cfg : ETDConfig ℝ) (L : ASOp ι) (f : Vec ι → Vec ι) (u : Vec ι) (h : ℝ),
      L.mat = 0 → Continuous f → (ASSolver.etd34 cfg L).Resolved h →
      Approaches (fun N => (((ASSolver.etd34 cfg L).withPoints N).trial (total f) u h ((ASSolver.etd34 cfg L).withPoints N).new).1)
        (((T.rk h).run f u).1, L.prj ((T.rk h).run f u).2) := by
  refine ⟨rk4, rk4_hasOrder, rk4_errOrder, fun ι _ _ cfg L f u h hL hf hm => ?_⟩
  have := C22_limit_trial _ f hf u h hm
  rwa [show (ASSolver.etd34 cfg L).exact h = rk4.rk h by
    show krogstad (phiExact L.mat h) L.mat h = _
    rw [hL, krogstad_zero]] at this

/-- **C34.** A trial of ETD35 with zero linear operator approaches that of a classical pair of orders 5 and 3. -/
theorem C34_etd35 : ∃ T : Tableau, T.HasOrder 5 ∧ T.ErrOrder 3 ∧
    ∀ (ι : Type) [Fintype ι] [DecidableEq ι] (cfg : ETDConfig ℝ) (L : ASOp ι) (f : Vec ι → Vec ι) (u : Vec ι) (h : ℝ),
      L.mat = 0 → Continuous f → (ASSolver.etd35 cfg L).Resolved h →
      Approaches (fun N => (((ASSolver.etd35 cfg L).withPoints N).trial (total f) u h ((ASSolver.etd35 cfg L).withPoints N).new).1)
        (((T.rk h).run f u).1, L.prj ((T.rk h).run f u).2) := by
  refine ⟨butcher5, butcher5_hasOrder, butcher5_errOrder, fun ι _ _ cfg L f u h hL hf hm => ?_⟩
  have := C22_limit_trial _ f hf u h hm
  rwa [show ((ASSolver.etd35 cfg L).exact h).run f u = (butcher5.rk h).run f u by
    show (etd5Method false (phiExact L.mat h) L.mat h).run f u = _
    rw [hL, etd5_run_fsal, etd5_zero]] at this

/-- Zero operators that meet the hypotheses, one of them given by eigenvectors. -/
example : (LinOp.full (0 : Mat (Fin 2))).mat = 0 ∧ (ASOp.diag (0 : Vec (Fin 2))).mat = 0 ∧
    (ASOp.eig (0 : Vec (Fin 2)) !![1, 1; 0, 1] !![1, -1; 0, 1] (by ext i j; fin_cases i <;> fin_cases j <;> simp)).mat = 0 ∧
    (CSSolver.etd5 ⟨1 / 100, 32, 1⟩ (.full (0 : Mat (Fin 2)))).Resolved (1 / 10) ∧
    (ASSolver.etd35 ⟨1 / 100, 32, 1⟩ (.diag (0 : Vec (Fin 2)))).Resolved (1 / 10) := by
  refine ⟨rfl, by simp [ASOp.mat], by simp [ASOp.mat], ⟨by norm_num, fun μ hμ => ?_⟩, by norm_num, by norm_num⟩
  rw [smul_zero, spectrum.zero_eq] at hμ
  rw [Set.mem_singleton_iff.1 hμ]; norm_num

/-- A tree on which the order conditions are not trivial: the chain of three vertices, with density 6. -/
example : (RTree.graft .leaf (.graft .leaf .leaf)).order = 3 ∧ (RTree.graft .leaf (.graft .leaf .leaf)).invDensity = 1 / 6 := by
  refine ⟨rfl, ?_⟩
  simp only [RTree.invDensity, RTree.order]
  norm_num

/-- The theorems at a nonlinear problem without linear part. -/
example : (∃ T : Tableau, T.HasOrder 4 ∧ ∀ u : Vec (Fin 2),
      ((CSSolver.if4 (.full (0 : Mat (Fin 2)))).step (fun v => .ok fun i => v i ^ 2) u (1 / 10) (CSSolver.if4 (.full 0)).new).1 =
        ((T.rk (1 / 10)).step (fun v => .ok fun i => v i ^ 2) u).map Prod.fst) ∧
    (∃ T : Tableau, T.HasOrder 4 ∧ T.ErrOrder 3 ∧ ∀ u : Vec (Fin 2),
      ((ASSolver.if34 (.full (0 : Mat (Fin 2)))).trial (fun v => .ok fun i => v i ^ 2) u (1 / 10) (ASSolver.if34 (.full 0)).new).1 =
        ((T.rk (1 / 10)).step (fun v => .ok fun i => v i ^ 2) u).map fun r => (r.1, r.2)) ∧
    ∃ T : Tableau, T.HasOrder 5 ∧ ¬ T.ErrOrder 1 ∧ ∀ u : Vec (Fin 2),
      ((ASSolver.if45dp (0 : Vec (Fin 2))).trial (fun v => .ok fun i => v i ^ 2) u (1 / 10) (ASSolver.if45dp 0).new).1 =
        (T.rk (1 / 10)).step (fun v => .ok fun i => v i ^ 2) u := by
  obtain ⟨T1, h1, k1⟩ := C34_if4
  obtain ⟨T2, h2, e2, k2⟩ := C34_if34
  obtain ⟨T3, h3, e3, k3⟩ := C34_if45dp
  exact ⟨⟨T1, h1, fun u => k1 _ _ _ u _ rfl (by norm_num)⟩, ⟨T2, h2, e2, fun u => k2 _ (.full 0) _ u _ rfl⟩,
    T3, h3, e3, fun u => k3 _ _ u _⟩

example : (∃ T : Tableau, T.HasOrder 4 ∧ ∀ u : Vec (Fin 2),
      Approaches (fun N => (((CSSolver.etd4 ⟨1 / 100, 32, 1⟩ (.diag (0 : Vec (Fin 2)))).withPoints N).step (total fun v i => v i ^ 2) u (1 / 10)
        ((CSSolver.etd4 ⟨1 / 100, 32, 1⟩ (.diag (0 : Vec (Fin 2)))).withPoints N).new).1) ((T.rk (1 / 10)).run (fun v i => v i ^ 2) u).1) ∧
    (∃ T : Tableau, T.HasOrder 5 ∧ ∀ u : Vec (Fin 2),
      Approaches (fun N => (((CSSolver.etd5 ⟨1 / 100, 32, 1⟩ (.diag (0 : Vec (Fin 2)))).withPoints N).step (total fun v i => v i ^ 2) u (1 / 10)
        ((CSSolver.etd5 ⟨1 / 100, 32, 1⟩ (.diag (0 : Vec (Fin 2)))).withPoints N).new).1) ((T.rk (1 / 10)).run (fun v i => v i ^ 2) u).1) ∧
    (∃ T : Tableau, T.HasOrder 4 ∧ T.ErrOrder 3 ∧ ∀ u : Vec (Fin 2),
      Approaches (fun N => (((ASSolver.etd34 ⟨1 / 100, 32, 1⟩ (.diag (0 : Vec (Fin 2)))).withPoints N).trial (total fun v i => v i ^ 2) u (1 / 10)
        ((ASSolver.etd34 ⟨1 / 100, 32, 1⟩ (.diag (0 : Vec (Fin 2)))).withPoints N).new).1) ((T.rk (1 / 10)).run (fun v i => v i ^ 2) u)) ∧
    ∃ T : Tableau, T.HasOrder 5 ∧ T.ErrOrder 3 ∧ ∀ u : Vec (Fin 2),
      Approaches (fun N => (((ASSolver.etd35 ⟨1 / 100, 32, 1⟩ (.diag (0 : Vec (Fin 2)))).withPoints N).trial (total fun v i => v i ^ 2) u (1 / 10)
        ((ASSolver.etd35 ⟨1 / 100, 32, 1⟩ (.diag (0 : Vec (Fin 2)))).withPoints N).new).1) ((T.rk (1 / 10)).run (fun v i => v i ^ 2) u) := by
  have hz : (Matrix.diagonal (0 : Vec (Fin 2)) : Mat (Fin 2)) = 0 := Matrix.diagonal_zero
  have hc : Continuous fun (v : Vec (Fin 2)) i => v i ^ 2 := by fun_prop
  obtain ⟨T1, h1, k1⟩ := C34_etd4
  obtain ⟨T2, h2, k2⟩ := C34_etd5
  obtain ⟨T3, h3, e3, k3⟩ := C34_etd34
  obtain ⟨T4, h4, e4, k4⟩ := C34_etd35
  exact ⟨⟨T1, h1, fun u => k1 _ _ _ _ u _ hz (by norm_num) hc ⟨by norm_num, by norm_num⟩⟩,
    ⟨T2, h2, fun u => k2 _ _ _ _ u _ hz (by norm_num) hc ⟨by norm_num, by norm_num⟩⟩,
    ⟨T3, h3, e3, fun u => k3 _ _ (.diag 0) _ u _ hz hc ⟨by norm_num, by norm_num⟩⟩,
    T4, h4, e4, fun u => k4 _ _ (.diag 0) _ u _ hz hc ⟨by norm_num, by norm_num⟩⟩

end Verif
