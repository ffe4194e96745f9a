import Verif.Lemmas.FloatMatExact
import Verif.Lemmas.FloatArith
import Verif.Props.Rounded

/-!
# Rounding errors of the coefficients and of whole runs (property C82)

`flCoefs A B` are the coefficients that `update_coeffs` computes with the operations `A` on numbers and `B` in the places of `expm` and
`np.linalg.inv`.  C67 assumes that the coefficients are nearly exact; here this is proved.
-/

set_option linter.unusedSectionVars false

namespace Verif

open Matrix CoefRun
open scoped Matrix.Norms.Operator ContDiff

variable {ι : Type} [Fintype ι] [DecidableEq ι] {f : Vec ι → Vec ι}

/-! ### Exact operations -/

open Classical in
theorem CSSolver.flCoefs_exact (m : CSSolver ι) (h : ℝ) :
    m.flCoefs CArith.exact LinAlg.exact h = if m.CoefOk h then .ok (m.coefsAt h) else .error .linAlgError := by
  by_cases hc : m.CoefOk h
  · rw [if_pos hc, m.coefsAt_eq (fun _ => .ok 0) hc]
    rcases m with (L | L) | ⟨cfg, L | L⟩ | ⟨cfg, L | L⟩
    · exact congrArg Except.ok (IF4.flCoefs_exact L h)
    · exact congrArg Except.ok (IF4.flCoefsMat_exact L h)
    · exact congrArg Except.ok (ETD4.flCoefs_exact cfg L h)
    · exact (ETD4.flCoefsMat_exact cfg L h).1 hc
    · exact congrArg Except.ok (ETD5.flCoefs_exact cfg L h)
    · exact (ETD5.flCoefsMat_exact cfg L h).1 hc
  · rw [if_neg hc]
    rcases m with (L | L) | ⟨cfg, L | L⟩ | ⟨cfg, L | L⟩
    · exact absurd trivial hc
    · exact absurd trivial hc
    · exact absurd trivial hc
    · exact (ETD4.flCoefsMat_exact cfg L h).2 hc
    · exact absurd trivial hc
    · exact (ETD5.flCoefsMat_exact cfg L h).2 hc

open Classical in
theorem ASSolver.flCoefs_exact (m : ASSolver ι) (h : ℝ) :
    m.flCoefs CArith.exact LinAlg.exact h = if m.CoefOk h then .ok (m.coefsAt h) else .error .linAlgError := by
  by_cases hc : m.CoefOk h
  · rw [if_pos hc, m.coefsAt_eq (fun _ => .ok 0) hc]
    rcases m with (L | L | ⟨l, S, T, hS⟩) | ⟨cfg, L | L | ⟨l, S, T, hS⟩⟩ | ⟨cfg, L | L | ⟨l, S, T, hS⟩⟩ | L
    · exact congrArg Except.ok (IF4.flCoefs_exact L h)
    · exact congrArg Except.ok (IF4.flCoefsMat_exact L h)
    · exact congrArg Except.ok (IF4.flCoefs_exact l h)
    · exact congrArg Except.ok (ETD34.flCoefs_exact cfg L h)
    · exact (ETD34.flCoefsMat_exact cfg L h).1 hc
    · exact congrArg Except.ok (ETD34.flCoefs_exact cfg l h)
    · exact congrArg Except.ok (ETD35.flCoefs_exact cfg L h)
    · exact (ETD35.flCoefsMat_exact cfg L h).1 hc
    · exact congrArg Except.ok (ETD35.flCoefs_exact cfg l h)
    · exact congrArg Except.ok (IF45DP.flCoefs_exact L h)
  · rw [if_neg hc]
    rcases m with (L | L | ⟨l, S, T, hS⟩) | ⟨cfg, L | L | ⟨l, S, T, hS⟩⟩ | ⟨cfg, L | L | ⟨l, S, T, hS⟩⟩ | L
    all_goals first
      | exact absurd trivial hc
      | exact (ETD34.flCoefsMat_exact cfg L h).2 hc
      | exact (ETD35.flCoefsMat_exact cfg L h).2 hc

theorem CSSolver.flEnv_exact (m : CSSolver ι) (ar : Arith ι) : m.flEnv ar CArith.exact LinAlg.exact = m.env ar := by
  unfold CSSolver.flEnv CSSolver.env
  congr 1
  funext h
  exact m.flCoefs_exact h

theorem ASSolver.flEnv_exact (m : ASSolver ι) (ar : Arith ι) : m.flEnv ar CArith.exact LinAlg.exact = m.env ar := by
  unfold ASSolver.flEnv ASSolver.env
  congr 1
  funext h
  exact m.flCoefs_exact h

/-- **C82.** With exact operations on arrays and on the entries of the coefficients, `evolve` returns and records what the exact model
does; a matrix that cannot be inverted raises in both. -/
theorem C82_exact_cs (m : CSSolver ι) (nl : NlFunc ι) (rnd : ℝ → ℝ) (pyDiv : Bool) (fuel : ℕ) (u : Vec ι) (t0 tf h : ℝ)
    (storeData : Bool) (freq : ℤ) (s : m.RSt) (s' : m.State) :
    (m.fpEvolve (m.flEnv Arith.exact CArith.exact LinAlg.exact) nl rnd pyDiv fuel u t0 tf h storeData freq s).1 =
      (m.evolve nl rnd pyDiv fuel u t0 tf h storeData freq s').1 ∧
    (m.fpEvolve (m.flEnv Arith.exact CArith.exact LinAlg.exact) nl rnd pyDiv fuel u t0 tf h storeData freq s).2.t =
      (m.evolve nl rnd pyDiv fuel u t0 tf h storeData freq s').2.t ∧
    (m.fpEvolve (m.flEnv Arith.exact CArith.exact LinAlg.exact) nl rnd pyDiv fuel u t0 tf h storeData freq s).2.u =
      (m.evolve nl rnd pyDiv fuel u t0 tf h storeData freq s').2.u := by
  rw [m.flEnv_exact]
  exact C67_exact_cs m nl rnd pyDiv fuel u t0 tf h storeData freq s s'

/-- **C82.** The same for adaptive solvers with the exact error factor. -/
theorem C82_exact_as (m : ASSolver ι) (nl : NlFunc ι) (rnd : ℝ → ℝ) (pyDiv : Bool) (cfg : SolverConfig ℝ) (fuel : ℕ) (u : Vec ι)
    (t0 tf : ℝ) (hInit : Option ℝ) (storeData : Bool) (freq : ℤ) (s : m.RSt) (s' : m.State) :
    (m.fpEvolve (m.flEnv Arith.exact CArith.exact LinAlg.exact) (fun cfg v e => m.factor nl cfg (v, e)) nl rnd pyDiv cfg fuel u t0 tf hInit storeData
      freq s).1 = (m.evolve nl rnd pyDiv cfg fuel u t0 tf hInit storeData freq s').1 ∧
    (m.fpEvolve (m.flEnv Arith.exact CArith.exact LinAlg.exact) (fun cfg v e => m.factor nl cfg (v, e)) nl rnd pyDiv cfg fuel u t0 tf hInit storeData
      freq s).2.t = (m.evolve nl rnd pyDiv cfg fuel u t0 tf hInit storeData freq s').2.t ∧
    (m.fpEvolve (m.flEnv Arith.exact CArith.exact LinAlg.exact) (fun cfg v e => m.factor nl cfg (v, e)) nl rnd pyDiv cfg fuel u t0 tf hInit storeData
      freq s).2.u = (m.evolve nl rnd pyDiv cfg fuel u t0 tf hInit storeData freq s').2.u := by
  rw [m.flEnv_exact]
  exact C67_exact_as m nl rnd pyDiv cfg fuel u t0 tf hInit storeData freq s s'

/-! ### Coefficients -/

theorem CSSolver.ClearContour.good {m : CSSolver ι} (hm : m.ClearContour 0) : m.GoodContour := by
  rcases m with (L | L) | ⟨cfg, L | L⟩ | ⟨cfg, L | L⟩ <;> first | trivial | exact hm.1 | exact ⟨hm.1, hm.2.le⟩

theorem ASSolver.ClearContour.good {m : ASSolver ι} (hm : m.ClearContour 0) : m.GoodContour := by
  rcases m with (L | L | ⟨l, S, T, hS⟩) | ⟨cfg, L | L | ⟨l, S, T, hS⟩⟩ | ⟨cfg, L | L | ⟨l, S, T, hS⟩⟩ | L <;>
    first | trivial | exact hm.1 | exact ⟨hm.1, hm.2.le⟩

/-- Small multiples of a matrix have their eigenvalues inside the contour. -/
theorem LinOp.ClearContour.small {cfg : ETDConfig ℝ} {L : LinOp ι} (hm : L.ClearContour cfg 0) : ∃ H > 0, L.ClearContour cfg H := by
  rcases L with L | L
  · exact ⟨1, one_pos, hm⟩
  · refine ⟨cfg.contour_radius / (‖L‖ * ‖(1 : Mat ι)‖ + 1), div_pos hm.1 (by positivity), hm.1, fun μ hμ => ?_⟩
    have h1 : ‖μ‖ ≤ ‖L‖ * ‖(1 : Mat ι)‖ := spectrum.norm_le_norm_mul_of_mem hμ
    rw [div_mul_eq_mul_div, div_lt_iff₀ (by positivity)]
    have := hm.1
    nlinarith

theorem CSSolver.ClearContour.small {m : CSSolver ι} (hm : m.ClearContour 0) : ∃ H > 0, m.ClearContour H := by
  rcases m with L | ⟨cfg, L⟩ | ⟨cfg, L⟩
  · exact ⟨1, one_pos, trivial⟩
  · exact LinOp.ClearContour.small hm
  · exact LinOp.ClearContour.small hm

theorem ASSolver.ClearContour.small {m : ASSolver ι} (hm : m.ClearContour 0) : ∃ H > 0, m.ClearContour H := by
  rcases m with L | ⟨cfg, L⟩ | ⟨cfg, L⟩ | L
  · exact ⟨1, one_pos, trivial⟩
  · exact LinOp.ClearContour.small hm
  · exact LinOp.ClearContour.small hm
  · exact ⟨1, one_pos, trivial⟩

theorem CoefNear.of_le {Coef : Type} {is : List (RInstr Coef ι)} {ε ε' : ℝ} {c c' : Coef} (h : CoefNear is ε c c') (hε : ε ≤ ε') :
    CoefNear is ε' c c' := fun i hi => ⟨fun p hp => ((h i hi).1 p hp).trans hε, fun p hp => ((h i hi).2 p hp).trans hε⟩

/-- Limits as explicit bounds. -/
theorem CoefRun.bounds {R0 : ℝ} {P : CoefRun ι → Prop} (h : ∀ᶠ t in lim R0, P t) :
    ∃ R δ : ℝ, 0 < δ ∧ ∀ (N : ℕ) (A : CArith) (B : LinAlg ι) (ρ h : ℝ) (dv : Vec ι) (dM : Mat ι), 0 < N → 0 ≤ ρ → N * ρ ≤ δ →
      A.Within ρ (R * N) → B.Within ρ R → 0 < h → h ≤ R0 → ‖dv‖ ≤ ρ → ‖dM‖ ≤ ρ → P ⟨A, B, ρ, N, h, dv, dM⟩ := by
  obtain ⟨n, hn⟩ := eventually_lim.1 h
  exact ⟨n, 1 / (n + 1), by positivity, fun N A B ρ h dv dM h1 h2 h3 h4 h5 h6 h7 h8 h9 => hn _ ⟨h1, h2, h3, h4, h5, h6, h7, h8, h9⟩⟩

theorem gap_norm {N : ℕ} {A : CArith} {B : LinAlg ι} {ρ h C : ℝ} {dv : Vec ι} {dM : Mat ι} (hρ : 0 ≤ ρ) :
    C * ‖gap (fun t : CoefRun ι => t.N) (fun t => t.ρ) ⟨A, B, ρ, N, h, dv, dM⟩‖ = C * (N * ρ + (1 / 2) ^ N) := by
  rw [gap, Real.norm_of_nonneg (by positivity)]

theorem CSSolver.coefsOf_near (m : CSSolver ι) (R0 : ℝ) (hm : m.ClearContour R0) :
    ∃ K R δ : ℝ, 0 < δ ∧ ∀ (N : ℕ) (A : CArith) (B : LinAlg ι) (ρ h : ℝ) (dv : Vec ι) (dM : Mat ι), 0 < N → 0 ≤ ρ → N * ρ ≤ δ →
      A.Within ρ (R * N) → B.Within ρ R → 0 < h → h ≤ R0 → ‖dv‖ ≤ ρ → ‖dM‖ ≤ ρ → ∃ c, (m.withPoints N).flCoefsOf A B h dv dM = .ok c ∧
        CoefNear (m.withPoints N).rprog.stages (K * (N * ρ + (1 / 2) ^ N)) ((m.withPoints N).coefsAt h) c := by
  obtain ⟨C, hC⟩ := m.flCoefs_near R0 hm
  obtain ⟨R, δ, hδ, h1⟩ := CoefRun.bounds hC
  refine ⟨C, R, δ, hδ, fun N A B ρ h dv dM hN hρ hNρ hA hB h0 hR hv hM => ?_⟩
  obtain ⟨-, c, hc, hn⟩ := h1 N A B ρ h dv dM hN hρ hNρ hA hB h0 hR hv hM
  exact ⟨c, hc, by rw [← gap_norm (A := A) (B := B) (h := h) (dv := dv) (dM := dM) hρ]; exact hn⟩

/-- **C82.** The coefficients of constant-step solvers, computed with operations of relative accuracy `ρ` (for numbers of size up to `R N`
and matrices of size up to `R`) and step sizes up to `R0`, differ from the exact ones by at most `K (N ρ + 2^-N)`; in particular the
inverses can be computed.  `N` is the number of contour points; `R`, `K` and the bound `δ` for `N ρ` depend on the operator, the settings of
the contour and `R0` only.  Computed absolute values may put a mode on the other side of `modecutoff`, hence `2^-N`. -/
theorem C82_coefs_cs (m : CSSolver ι) (R0 : ℝ) (hm : m.ClearContour R0) :
    ∃ K R δ : ℝ, 0 < δ ∧ ∀ (N : ℕ) (A : CArith) (B : LinAlg ι) (ρ h : ℝ), 0 < N → 0 ≤ ρ → N * ρ ≤ δ → A.Within ρ (R * N) → B.Within ρ R →
      0 < h → h ≤ R0 → ∃ c, (m.withPoints N).flCoefs A B h = .ok c ∧
        CoefNear (m.withPoints N).rprog.stages (K * (N * ρ + (1 / 2) ^ N)) ((m.withPoints N).coefsAt h) c := by
  obtain ⟨K, R, δ, hδ, h1⟩ := m.coefsOf_near R0 hm
  refine ⟨K, R, δ, hδ, fun N A B ρ h hN hρ hNρ hA hB h0 hR => ?_⟩
  simpa only [CSSolver.flCoefsOf_zero] using h1 N A B ρ h 0 0 hN hρ hNρ hA hB h0 hR (by simpa using hρ) (by simpa using hρ)

theorem ASSolver.coefsOf_near (m : ASSolver ι) (R0 : ℝ) (hm : m.ClearContour R0) :
    ∃ K R δ : ℝ, 0 < δ ∧ ∀ (N : ℕ) (A : CArith) (B : LinAlg ι) (ρ h : ℝ) (dv : Vec ι) (dM : Mat ι), 0 < N → 0 ≤ ρ → N * ρ ≤ δ →
      A.Within ρ (R * N) → B.Within ρ R → 0 < h → h ≤ R0 → ‖dv‖ ≤ ρ → ‖dM‖ ≤ ρ → ∃ c, (m.withPoints N).flCoefsOf A B h dv dM = .ok c ∧
        CoefNear (m.withPoints N).rprog.stages (K * (N * ρ + (1 / 2) ^ N)) ((m.withPoints N).coefsAt h) c := by
  obtain ⟨C, hC⟩ := m.flCoefs_near R0 hm
  obtain ⟨R, δ, hδ, h1⟩ := CoefRun.bounds hC
  refine ⟨C, R, δ, hδ, fun N A B ρ h dv dM hN hρ hNρ hA hB h0 hR hv hM => ?_⟩
  obtain ⟨-, c, hc, hn⟩ := h1 N A B ρ h dv dM hN hρ hNρ hA hB h0 hR hv hM
  exact ⟨c, hc, by rw [← gap_norm (A := A) (B := B) (h := h) (dv := dv) (dM := dM) hρ]; exact hn⟩

/-- **C82.** The same for adaptive solvers, the diagonalized strategies included. -/
theorem C82_coefs_as (m : ASSolver ι) (R0 : ℝ) (hm : m.ClearContour R0) :
    ∃ K R δ : ℝ, 0 < δ ∧ ∀ (N : ℕ) (A : CArith) (B : LinAlg ι) (ρ h : ℝ), 0 < N → 0 ≤ ρ → N * ρ ≤ δ → A.Within ρ (R * N) → B.Within ρ R →
      0 < h → h ≤ R0 → ∃ c, (m.withPoints N).flCoefs A B h = .ok c ∧
        CoefNear (m.withPoints N).rprog.stages (K * (N * ρ + (1 / 2) ^ N)) ((m.withPoints N).coefsAt h) c := by
  obtain ⟨K, R, δ, hδ, h1⟩ := m.coefsOf_near R0 hm
  refine ⟨K, R, δ, hδ, fun N A B ρ h hN hρ hNρ hA hB h0 hR => ?_⟩
  simpa only [ASSolver.flCoefsOf_zero] using h1 N A B ρ h 0 0 hN hρ hNρ hA hB h0 hR (by simpa using hρ) (by simpa using hρ)

/-- Methods without contour. -/
theorem CoefRun.bounds_one {R0 C : ℝ} {P : CArith → LinAlg ι → ℝ → ℝ → Vec ι → Mat ι → Prop}
    (h : ∀ᶠ t in lim R0, P t.A t.B (C * ‖t.ρ‖) t.h t.dv t.dM) :
    ∃ K R δ : ℝ, 0 < δ ∧ ∀ (A : CArith) (B : LinAlg ι) (ρ h : ℝ), 0 ≤ ρ → ρ ≤ δ → A.Within ρ R → B.Within ρ R → 0 < h → h ≤ R0 →
      P A B (K * ρ) h 0 0 := by
  obtain ⟨R, δ, hδ, h1⟩ := CoefRun.bounds h
  refine ⟨C, R, δ, hδ, fun A B ρ h hρ h2 h3 h6 h4 h5 => ?_⟩
  have := h1 1 A B ρ h 0 0 one_pos hρ (by simpa using h2) (by simpa using h3) h6 h4 h5 (by simpa using hρ) (by simpa using hρ)
  simpa only [Real.norm_of_nonneg hρ] using this

/-- **C82.** The coefficients of IF4 differ from the exact ones by at most `K ρ`. -/
theorem C82_if4 (L : LinOp ι) (R0 : ℝ) :
    ∃ K R δ : ℝ, 0 < δ ∧ ∀ (A : CArith) (B : LinAlg ι) (ρ h : ℝ), 0 ≤ ρ → ρ ≤ δ → A.Within ρ R → B.Within ρ R → 0 < h → h ≤ R0 →
      ∃ c, (CSSolver.if4 L).flCoefs A B h = .ok c ∧
        CoefNear (CSSolver.if4 L).rprog.stages (K * ρ) ((CSSolver.if4 L).coefsAt h) c := by
  rcases L with L | L
  · obtain ⟨C, hC⟩ := IF4.flCoefs_near (rho_fine (ι := ι) R0) L (fun t => L + t.dv) (mode_near R0 (rho_fine R0) L)
    obtain ⟨K, R, δ, hδ, h1⟩ := CoefRun.bounds_one (P := fun A _ ε h dv _ => CoefNear (IF4.rProgDiagonal (ι := ι)).stages ε
      ⟨npExp (bc (h : ℂ) * L), npExp (bc (h : ℂ) * L / 2)⟩ (IF4.flCoefs A (L + dv) h)) hC
    exact ⟨K, R, δ, hδ, fun A B ρ h h2 h3 h4 h5 h6 h7 => ⟨_, rfl, CSSolver.near_coefs _ trivial (by
      have q := h1 A B ρ h h2 h3 h4 h5 h6 h7
      simp only [add_zero] at q
      exact q)⟩⟩
  · obtain ⟨C, hC⟩ := IF4.flMat_near (rho_fine R0) (fineMat R0) (h_bdd R0) L (mat_near R0 (rho_fine R0).le L)
    obtain ⟨K, R, δ, hδ, h1⟩ := CoefRun.bounds_one (P := fun A B ε h _ dM => CoefNear (IF4.rProgNonDiagonal (ι := ι)).stages ε
      ⟨expm L h, expm L (h / 2)⟩ (IF4.flCoefsMat A B (L + dM) h)) hC
    exact ⟨K, R, δ, hδ, fun A B ρ h h2 h3 h4 h5 h6 h7 => ⟨_, rfl, CSSolver.near_coefs _ trivial (by
      have q := h1 A B ρ h h2 h3 h4 h5 h6 h7
      simp only [add_zero] at q
      exact q)⟩⟩

/-- **C82.** The same for IF34, with and without diagonalization. -/
theorem C82_if34 (L : ASOp ι) (R0 : ℝ) :
    ∃ K R δ : ℝ, 0 < δ ∧ ∀ (A : CArith) (B : LinAlg ι) (ρ h : ℝ), 0 ≤ ρ → ρ ≤ δ → A.Within ρ R → B.Within ρ R → 0 < h → h ≤ R0 →
      ∃ c, (ASSolver.if34 L).flCoefs A B h = .ok c ∧
        CoefNear (ASSolver.if34 L).rprog.stages (K * ρ) ((ASSolver.if34 L).coefsAt h) c := by
  rcases L with L | L | ⟨l, S, T, hS⟩
  · obtain ⟨C, hC⟩ := IF34.flCoefs_near (rho_fine (ι := ι) R0) L (fun t => L + t.dv) (mode_near R0 (rho_fine R0) L)
    obtain ⟨K, R, δ, hδ, h1⟩ := CoefRun.bounds_one (P := fun A _ ε h dv _ => CoefNear (IF34.rProgDiagonal (ι := ι)).stages ε
      ⟨npExp (bc (h : ℂ) * L), npExp (bc (h : ℂ) * L / 2)⟩ (IF4.flCoefs A (L + dv) h)) hC
    exact ⟨K, R, δ, hδ, fun A B ρ h h2 h3 h4 h5 h6 h7 => ⟨_, rfl, ASSolver.near_coefs _ trivial (by
      have q := h1 A B ρ h h2 h3 h4 h5 h6 h7
      simp only [add_zero] at q
      exact q)⟩⟩
  · obtain ⟨C, hC⟩ := IF34.flMat_near (rho_fine R0) (fineMat R0) (h_bdd R0) L (mat_near R0 (rho_fine R0).le L)
    obtain ⟨K, R, δ, hδ, h1⟩ := CoefRun.bounds_one (P := fun A B ε h _ dM => CoefNear (IF34.rProgNonDiagonal (ι := ι)).stages ε
      ⟨expm L h, expm L (h / 2)⟩ (IF4.flCoefsMat A B (L + dM) h)) hC
    exact ⟨K, R, δ, hδ, fun A B ρ h h2 h3 h4 h5 h6 h7 => ⟨_, rfl, ASSolver.near_coefs _ trivial (by
      have q := h1 A B ρ h h2 h3 h4 h5 h6 h7
      simp only [add_zero] at q
      exact q)⟩⟩
  · obtain ⟨C, hC⟩ := IF34.flCoefs_near_eig (rho_fine (ι := ι) R0) l (fun t => l + t.dv) S T (mode_near R0 (rho_fine R0) l)
    obtain ⟨K, R, δ, hδ, h1⟩ := CoefRun.bounds_one (P := fun A _ ε h dv _ => CoefNear (IF34.rProgDiagonalized S T).stages ε
      ⟨npExp (bc (h : ℂ) * l), npExp (bc (h : ℂ) * l / 2)⟩ (IF4.flCoefs A (l + dv) h)) hC
    exact ⟨K, R, δ, hδ, fun A B ρ h h2 h3 h4 h5 h6 h7 =>
      ⟨_, rfl, ASSolver.near_coefs (.if34 (.eig l S T hS)) trivial (by
      have q := h1 A B ρ h h2 h3 h4 h5 h6 h7
      simp only [add_zero] at q
      exact q)⟩⟩

/-- **C82.** The same for IF45DP. -/
theorem C82_if45dp (L : Vec ι) (R0 : ℝ) :
    ∃ K R δ : ℝ, 0 < δ ∧ ∀ (A : CArith) (B : LinAlg ι) (ρ h : ℝ), 0 ≤ ρ → ρ ≤ δ → A.Within ρ R → B.Within ρ R → 0 < h → h ≤ R0 →
      ∃ c, (ASSolver.if45dp L).flCoefs A B h = .ok c ∧
        CoefNear (ASSolver.if45dp L).rprog.stages (K * ρ) ((ASSolver.if45dp L).coefsAt h) c := by
  obtain ⟨C, hC⟩ := IF45DP.flCoefs_near (rho_fine (ι := ι) R0) L (fun t => L + t.dv) (FlNear.lit (rho_fine R0) (h_bdd R0)) (mode_near R0 (rho_fine R0) L)
  obtain ⟨K, R, δ, hδ, h1⟩ := CoefRun.bounds_one (P := fun A _ ε h dv _ => CoefNear (IF45DP.rProg (ι := ι)).stages ε (IF45DP.coefs L h)
    (IF45DP.flCoefs A (L + dv) h)) hC
  exact ⟨K, R, δ, hδ, fun A B ρ h h2 h3 h4 h5 h6 h7 => ⟨_, rfl, ASSolver.near_coefs _ trivial (by
      have q := h1 A B ρ h h2 h3 h4 h5 h6 h7
      simp only [add_zero] at q
      exact q)⟩⟩

/-! ### Runs -/

/-- Everything is computed up to `K (N ρ + 2^-N)`. -/
theorem CSSolver.fl_accurate (m : CSSolver ι) {H : ℝ} (hm : m.ClearContour H) (R0 : ℝ) :
    ∃ K R δ : ℝ, 1 ≤ K ∧ 0 < δ ∧ ∀ (N : ℕ) (ar : Arith ι) (A : CArith) (B : LinAlg ι) (nl : NlFunc ι) (ρ : ℝ) (dv : Vec ι) (dM : Mat ι), 0 < N → 0 ≤ ρ →
      N * ρ ≤ δ → ‖dv‖ ≤ ρ → ‖dM‖ ≤ ρ → A.Within ρ (R * N) → B.Within ρ R → ar.Within ρ R0 → NlNear nl f ρ R0 →
      (m.withPoints N).Accurate ((m.withPoints N).flEnvOf ar A B dv dM) nl f (K * (N * ρ + (1 / 2) ^ N)) R0 H ∧ ρ ≤ K * (N * ρ + (1 / 2) ^ N) := by
  obtain ⟨K, R, δ, hδ, h1⟩ := m.coefsOf_near H hm
  refine ⟨max K 1, R, δ, le_max_right _ _, hδ, fun N ar A B nl ρ dv dM hN hρ hNρ hv hM hA hB har hnl => ?_⟩
  have hN1 : (1 : ℝ) ≤ N := by exact_mod_cast hN
  have hg : 0 ≤ N * ρ + (1 / 2 : ℝ) ^ N := by positivity
  have hle : ρ ≤ max K 1 * (N * ρ + (1 / 2) ^ N) := by
    have h2 : (0 : ℝ) ≤ (1 / 2) ^ N := by positivity
    nlinarith [le_max_right K 1]
  refine ⟨⟨har.of_le hle, fun h h0 hh _ => ?_, hnl.of_le hle⟩, hle⟩
  obtain ⟨c, hc, hn⟩ := h1 N A B ρ h dv dM hN hρ hNρ hA hB h0 hh hv hM
  exact ⟨c, hc, hn.of_le (mul_le_mul_of_nonneg_right (le_max_left _ _) hg)⟩

theorem ASSolver.fl_accurate (m : ASSolver ι) {H : ℝ} (hm : m.ClearContour H) (R0 : ℝ) :
    ∃ K R δ : ℝ, 1 ≤ K ∧ 0 < δ ∧ ∀ (N : ℕ) (ar : Arith ι) (A : CArith) (B : LinAlg ι) (nl : NlFunc ι) (ρ : ℝ) (dv : Vec ι) (dM : Mat ι), 0 < N → 0 ≤ ρ →
      N * ρ ≤ δ → ‖dv‖ ≤ ρ → ‖dM‖ ≤ ρ → A.Within ρ (R * N) → B.Within ρ R → ar.Within ρ R0 → NlNear nl f ρ R0 →
      (m.withPoints N).Accurate ((m.withPoints N).flEnvOf ar A B dv dM) nl f (K * (N * ρ + (1 / 2) ^ N)) R0 H ∧ ρ ≤ K * (N * ρ + (1 / 2) ^ N) := by
  obtain ⟨K, R, δ, hδ, h1⟩ := m.coefsOf_near H hm
  refine ⟨max K 1, R, δ, le_max_right _ _, hδ, fun N ar A B nl ρ dv dM hN hρ hNρ hv hM hA hB har hnl => ?_⟩
  have hN1 : (1 : ℝ) ≤ N := by exact_mod_cast hN
  have hg : 0 ≤ N * ρ + (1 / 2 : ℝ) ^ N := by positivity
  have hle : ρ ≤ max K 1 * (N * ρ + (1 / 2) ^ N) := by
    have h2 : (0 : ℝ) ≤ (1 / 2) ^ N := by positivity
    nlinarith [le_max_right K 1]
  refine ⟨⟨har.of_le hle, fun h h0 hh _ => ?_, hnl.of_le hle⟩, hle⟩
  obtain ⟨c, hc, hn⟩ := h1 N A B ρ h dv dM hN hρ hNρ hA hB h0 hh hv hM
  exact ⟨c, hc, hn.of_le (mul_le_mul_of_nonneg_right (le_max_left _ _) hg)⟩

/-- Bounds with another constant. -/
theorem bound_le {C K a b g : ℝ} (hK : 1 ≤ K) (ha : 0 ≤ a) (hb : 0 ≤ b) (hg : 0 ≤ g) (hab : b ≤ g) :
    C * (a + b + K * g) ≤ |C| * (2 * K) * (a + g) := by
  have h1 : 0 ≤ K * g := by positivity
  have h2 : a + b + K * g ≤ 2 * K * (a + g) := by nlinarith
  calc C * (a + b + K * g) ≤ |C| * (a + b + K * g) := mul_le_mul_of_nonneg_right (le_abs_self C) (by positivity)
    _ ≤ |C| * (2 * K * (a + g)) := mul_le_mul_of_nonneg_left h2 (abs_nonneg C)
    _ = |C| * (2 * K) * (a + g) := by ring

variable {Y : ℝ → Vec ι} {t0 tf : ℝ}

/-- Runs with a perturbed operator. -/
theorem CSSolver.evolve_of (m : CSSolver ι) (hm : m.ClearContour 0) (hf : ContDiff ℝ ∞ f) (ht : t0 < tf) (hY : Solves m.op.mat f t0 tf Y) :
    ∃ (C η R : ℝ) (N0 : ℕ), 0 < η ∧ ∀ (N : ℕ) (ar : Arith ι) (A : CArith) (B : LinAlg ι) (nl : NlFunc ι) (rnd : ℝ → ℝ) (ρ h : ℝ) (u dv : Vec ι) (dM : Mat ι),
      N0 ≤ N → 0 ≤ ρ → ‖dv‖ ≤ ρ → ‖dM‖ ≤ ρ → ar.Within ρ R → A.Within ρ (R * N) → B.Within ρ R → NlNear nl f ρ R → (∀ x, |rnd x - x| ≤ ρ * |x|) → 0 < h → h < η →
      N * ρ + (1 / 2) ^ N ≤ η * h → ‖u - Y t0‖ ≤ η →
      ∀ (pyDiv storeData : Bool) (freq : ℤ) (s : (m.withPoints N).RSt) (fuel : ℕ), (pyDiv = true → tf ≠ 0) →
        freq ≠ 0 → 2 * (tf - t0) / h + 1 < fuel →
        (∃ v, ((m.withPoints N).fpEvolve ((m.withPoints N).flEnvOf ar A B dv dM) nl rnd pyDiv fuel u t0 tf h storeData freq s).1 = .ok (some v) ∧
          ‖v - Y ((m.withPoints N).fpEvolve ((m.withPoints N).flEnvOf ar A B dv dM) nl rnd pyDiv fuel u t0 tf h storeData freq s).2.tc‖ ≤
            C * (‖u - Y t0‖ + h ^ 4 + (N * ρ + (1 / 2) ^ N) / h)) ∧
        (tf ≤ ((m.withPoints N).fpEvolve ((m.withPoints N).flEnvOf ar A B dv dM) nl rnd pyDiv fuel u t0 tf h storeData freq s).2.tc ∧
          ((m.withPoints N).fpEvolve ((m.withPoints N).flEnvOf ar A B dv dM) nl rnd pyDiv fuel u t0 tf h storeData freq s).2.tc < tf + 2 * h) ∧
        ((m.withPoints N).fpEvolve ((m.withPoints N).flEnvOf ar A B dv dM) nl rnd pyDiv fuel u t0 tf h storeData freq s).2.u.length =
          ((m.withPoints N).fpEvolve ((m.withPoints N).flEnvOf ar A B dv dM) nl rnd pyDiv fuel u t0 tf h storeData freq s).2.t.length ∧
        ∀ p ∈ ((m.withPoints N).fpEvolve ((m.withPoints N).flEnvOf ar A B dv dM) nl rnd pyDiv fuel u t0 tf h storeData freq s).2.t.zip
          ((m.withPoints N).fpEvolve ((m.withPoints N).flEnvOf ar A B dv dM) nl rnd pyDiv fuel u t0 tf h storeData freq s).2.u,
          ‖p.2 - Y p.1‖ ≤ C * (‖u - Y t0‖ + h ^ 4 + (N * ρ + (1 / 2) ^ N) / h) := by
  obtain ⟨H1, hH1, hm1⟩ := hm.small
  obtain ⟨C, η, R, N0, hη, h1⟩ := C67_evolve m hm.good hf ht hY hH1
  obtain ⟨K, R', δ, hK, hδ, h2⟩ := m.fl_accurate (f := f) hm1 R
  have hK0 : 0 < K := by linarith
  set η' := min (min η 1) (min (η / K) δ) with hη'
  have e1 : η' ≤ η := (min_le_left _ _).trans (min_le_left _ _)
  have e2 : η' ≤ 1 := (min_le_left _ _).trans (min_le_right _ _)
  have e3 : K * η' ≤ η := by
    have : η' ≤ η / K := (min_le_right _ _).trans (min_le_left _ _)
    rw [le_div_iff₀ hK0] at this
    linarith
  have e4 : η' ≤ δ := (min_le_right _ _).trans (min_le_right _ _)
  have hη0 : 0 < η' := lt_min (lt_min hη one_pos) (lt_min (by positivity) hδ)
  refine ⟨|C| * (2 * K), η', max R (max R' 0), N0 + 1, hη0, fun N ar A B nl rnd ρ h u dv dM hN hρ hv hM har hA hB hnl hr h0 hh hg hu pyDiv storeData freq s fuel
    hp hfr hfu => ?_⟩
  have hN0 : 0 < N := by omega
  have hN1 : (0 : ℝ) ≤ N := Nat.cast_nonneg N
  have hpow : (0 : ℝ) ≤ (1 / 2) ^ N := by positivity
  have hg0 : 0 ≤ N * ρ + (1 / 2 : ℝ) ^ N := by positivity
  have hh1 : h < 1 := hh.trans_le e2
  have hNρ : N * ρ ≤ δ := by nlinarith
  obtain ⟨hacc, hle⟩ := h2 N ar A B nl ρ dv dM hN0 hρ hNρ hv hM
    (hA.mono (mul_le_mul_of_nonneg_right ((le_max_left _ _).trans (le_max_right _ _)) hN1)) (hB.mono ((le_max_left _ _).trans (le_max_right _ _))) (har.mono (le_max_left _ _))
    (hnl.mono (le_max_left _ _))
  have hC : ∀ x, x ≤ C * (‖u - Y t0‖ + h ^ 4 + (1 / 2) ^ N + K * (N * ρ + (1 / 2) ^ N) / h) →
      x ≤ |C| * (2 * K) * (‖u - Y t0‖ + h ^ 4 + (N * ρ + (1 / 2) ^ N) / h) := by
    intro x hx
    refine hx.trans ?_
    rw [mul_div_assoc]
    refine bound_le hK (by positivity) hpow (by positivity) ?_
    rw [le_div_iff₀ h0]
    nlinarith [mul_nonneg hN1 hρ]
  obtain ⟨⟨v, b1, b2⟩, b3, b4, b5⟩ := h1 N _ nl rnd (K * (N * ρ + (1 / 2) ^ N)) h u (by omega) (by positivity) hacc
    (fun x => (hr x).trans (mul_le_mul_of_nonneg_right hle (abs_nonneg x))) h0 (hh.trans_le e1) (by nlinarith) (hu.trans e1) pyDiv storeData
    freq s fuel hp hfr hfu
  exact ⟨⟨v, b1, hC _ b2⟩, b3, b4, fun p hp' => hC _ (b5 p hp')⟩

/-- Runs with a perturbed operator. -/
theorem ASSolver.stored_of (m : ASSolver ι) (hm : m.ClearContour 0) (hf : ContDiff ℝ ∞ f) (ht : t0 ≤ tf) (hY : Solves m.op.mat f t0 tf Y) :
    ∃ (C η R : ℝ) (N0 : ℕ), 0 < η ∧ ∀ (N : ℕ) (ar : Arith ι) (A : CArith) (B : LinAlg ι) (fac : SolverConfig ℝ → Vec ι → Vec ι → Ext ℝ) (nl : NlFunc ι)
      (rnd : ℝ → ℝ) (ρ : ℝ) (u dv : Vec ι) (dM : Mat ι), N0 ≤ N → 0 ≤ ρ → ‖dv‖ ≤ ρ → ‖dM‖ ≤ ρ → ar.Within ρ R → A.Within ρ (R * N) → B.Within ρ R → NlNear nl f ρ R →
      (∀ x, |rnd x - x| ≤ ρ * |x|) → ‖u - Y t0‖ ≤ η →
      ∀ (cfg : SolverConfig ℝ) (hInit : Option ℝ) (pyDiv : Bool) (s : (m.withPoints N).RSt) (fuel : ℕ),
        0 < cfg.minh → (∀ h, hInit = some h → 0 < h) → ∀ H, N * ρ + (1 / 2) ^ N ≤ η * H → 0 < H → H < η →
        ((m.withPoints N).fpEvolve ((m.withPoints N).flEnvOf ar A B dv dM) fac nl rnd pyDiv cfg fuel u t0 tf hInit true 1 s).2.t.IsChain
          (fun a b => b - a ≤ H) →
        ((m.withPoints N).fpEvolve ((m.withPoints N).flEnvOf ar A B dv dM) fac nl rnd pyDiv cfg fuel u t0 tf hInit true 1 s).2.t.length *
          (N * ρ + (1 / 2) ^ N) ≤ η →
        (∀ p ∈ ((m.withPoints N).fpEvolve ((m.withPoints N).flEnvOf ar A B dv dM) fac nl rnd pyDiv cfg fuel u t0 tf hInit true 1 s).2.t.zip
            ((m.withPoints N).fpEvolve ((m.withPoints N).flEnvOf ar A B dv dM) fac nl rnd pyDiv cfg fuel u t0 tf hInit true 1 s).2.u,
          ‖p.2 - Y p.1‖ ≤ C * (‖u - Y t0‖ + H ^ m.orderOf +
            ((m.withPoints N).fpEvolve ((m.withPoints N).flEnvOf ar A B dv dM) fac nl rnd pyDiv cfg fuel u t0 tf hInit true 1 s).2.t.length *
              (N * ρ + (1 / 2) ^ N))) ∧
        ∀ v, ((m.withPoints N).fpEvolve ((m.withPoints N).flEnvOf ar A B dv dM) fac nl rnd pyDiv cfg fuel u t0 tf hInit true 1 s).1 = .ok (some v) →
          tf ≤ ((m.withPoints N).fpEvolve ((m.withPoints N).flEnvOf ar A B dv dM) fac nl rnd pyDiv cfg fuel u t0 tf hInit true 1 s).2.tc ∧
          ‖v - Y ((m.withPoints N).fpEvolve ((m.withPoints N).flEnvOf ar A B dv dM) fac nl rnd pyDiv cfg fuel u t0 tf hInit true 1 s).2.tc‖ ≤
            C * (‖u - Y t0‖ + H ^ m.orderOf +
              ((m.withPoints N).fpEvolve ((m.withPoints N).flEnvOf ar A B dv dM) fac nl rnd pyDiv cfg fuel u t0 tf hInit true 1 s).2.t.length *
                (N * ρ + (1 / 2) ^ N)) := by
  obtain ⟨H1, hH1, hm1⟩ := hm.small
  obtain ⟨C, η, R, N0, hη, h1⟩ := C67_stored m hm.good hf ht hY hH1
  obtain ⟨K, R', δ, hK, hδ, h2⟩ := m.fl_accurate (f := f) hm1 R
  have hK0 : 0 < K := by linarith
  set η' := min (min η 1) (min (min (η / K) (1 / K)) δ) with hη'
  have e1 : η' ≤ η := (min_le_left _ _).trans (min_le_left _ _)
  have e2 : η' ≤ 1 := (min_le_left _ _).trans (min_le_right _ _)
  have e3 : K * η' ≤ η := by
    have : η' ≤ η / K := (min_le_right _ _).trans ((min_le_left _ _).trans (min_le_left _ _))
    rw [le_div_iff₀ hK0] at this
    linarith
  have e5 : K * η' ≤ 1 := by
    have : η' ≤ 1 / K := (min_le_right _ _).trans ((min_le_left _ _).trans (min_le_right _ _))
    rw [le_div_iff₀ hK0] at this
    linarith
  have e4 : η' ≤ δ := (min_le_right _ _).trans (min_le_right _ _)
  have hη0 : 0 < η' := lt_min (lt_min hη one_pos) (lt_min (lt_min (by positivity) (by positivity)) hδ)
  refine ⟨|C| * (2 * K), η', max R (max R' 0), N0 + 1, hη0, fun N ar A B fac nl rnd ρ u dv dM hN hρ hv hM har hA hB hnl hr hu cfg hInit pyDiv s fuel
    hmin hpos H hg H0 hH hch hlen => ?_⟩
  have hN0 : 0 < N := by omega
  have hN1 : (0 : ℝ) ≤ N := Nat.cast_nonneg N
  have hpow : (0 : ℝ) ≤ (1 / 2) ^ N := by positivity
  have hg0 : 0 ≤ N * ρ + (1 / 2 : ℝ) ^ N := by positivity
  have hH1 : H < 1 := hH.trans_le e2
  have hNρ : N * ρ ≤ δ := by nlinarith
  obtain ⟨hacc, hle⟩ := h2 N ar A B nl ρ dv dM hN0 hρ hNρ hv hM
    (hA.mono (mul_le_mul_of_nonneg_right ((le_max_left _ _).trans (le_max_right _ _)) hN1)) (hB.mono ((le_max_left _ _).trans (le_max_right _ _))) (har.mono (le_max_left _ _))
    (hnl.mono (le_max_left _ _))
  set r := (m.withPoints N).fpEvolve ((m.withPoints N).flEnvOf ar A B dv dM) fac nl rnd pyDiv cfg fuel u t0 tf hInit true 1 s with hrun
  obtain ⟨b1, b2⟩ := h1 N _ fac nl rnd (K * (N * ρ + (1 / 2) ^ N)) u (by omega) (by positivity) hacc
    (fun x => (hr x).trans (mul_le_mul_of_nonneg_right hle (abs_nonneg x))) (hu.trans e1) cfg hInit pyDiv s fuel hmin hpos H
    (by nlinarith) H0 (hH.trans_le e1) hch (by
      rw [← hrun]
      have := mul_le_mul_of_nonneg_left hlen hK0.le
      linarith)
  rw [← hrun] at b1 b2
  have hl : 1 ≤ (r.2.t.length : ℝ) := by
    obtain ⟨n, tm, st, hp, hu', -, -, -, -, a5, -⟩ :=
      ASClass.evolve_run (RASProg.lawful (m.withPoints N).rprog_ok (m.withPoints N).isDP ((m.withPoints N).flEnvOf ar A B dv dM) fac nl) rnd pyDiv cfg
        fuel u t0 tf hInit true 1 s
    have a5' : r.2.t = (storedUpTo 1 n).map tm := a5
    rw [a5', List.length_map]
    exact_mod_cast List.length_pos_of_ne_nil (by simp [storedUpTo])
  have hC : ∀ x, x ≤ C * (‖u - Y t0‖ + H ^ m.orderOf + (1 / 2) ^ N + r.2.t.length * (K * (N * ρ + (1 / 2) ^ N))) →
      x ≤ |C| * (2 * K) * (‖u - Y t0‖ + H ^ m.orderOf + r.2.t.length * (N * ρ + (1 / 2) ^ N)) := by
    intro x hx
    refine hx.trans ?_
    rw [mul_left_comm]
    refine bound_le hK (by positivity) hpow (by positivity) ?_
    nlinarith [mul_nonneg hN1 hρ]
  exact ⟨fun p hp => hC _ (b1 p hp), fun v hv => ⟨(b2 v hv).1, hC _ (b2 v hv).2⟩⟩

/-- **C82.** `evolve` of a constant-step solver when everything is computed with relative accuracy `ρ`: the coefficients (with `N`
contour points), the operations on arrays, the values of the nonlinear part and the clock.  The run finishes, ends in
`[tf, tf + 2 h)`, and the returned and recorded states are within a constant times `‖u - Y t0‖ + h^4 + (N ρ + 2^-N) / h` of the
solution `Y`. -/
theorem C82_evolve (m : CSSolver ι) (hm : m.ClearContour 0) (hf : ContDiff ℝ ∞ f) (ht : t0 < tf) (hY : Solves m.op.mat f t0 tf Y) :
    ∃ (C η R : ℝ) (N0 : ℕ), 0 < η ∧ ∀ (N : ℕ) (ar : Arith ι) (A : CArith) (B : LinAlg ι) (nl : NlFunc ι) (rnd : ℝ → ℝ) (ρ h : ℝ) (u : Vec ι),
      N0 ≤ N → 0 ≤ ρ → ar.Within ρ R → A.Within ρ (R * N) → B.Within ρ R → NlNear nl f ρ R → (∀ x, |rnd x - x| ≤ ρ * |x|) → 0 < h → h < η →
      N * ρ + (1 / 2) ^ N ≤ η * h → ‖u - Y t0‖ ≤ η →
      ∀ (pyDiv storeData : Bool) (freq : ℤ) (s : (m.withPoints N).RSt) (fuel : ℕ), (pyDiv = true → tf ≠ 0) →
        freq ≠ 0 → 2 * (tf - t0) / h + 1 < fuel →
        (∃ v, ((m.withPoints N).fpEvolve ((m.withPoints N).flEnv ar A B) nl rnd pyDiv fuel u t0 tf h storeData freq s).1 = .ok (some v) ∧
          ‖v - Y ((m.withPoints N).fpEvolve ((m.withPoints N).flEnv ar A B) nl rnd pyDiv fuel u t0 tf h storeData freq s).2.tc‖ ≤
            C * (‖u - Y t0‖ + h ^ 4 + (N * ρ + (1 / 2) ^ N) / h)) ∧
        (tf ≤ ((m.withPoints N).fpEvolve ((m.withPoints N).flEnv ar A B) nl rnd pyDiv fuel u t0 tf h storeData freq s).2.tc ∧
          ((m.withPoints N).fpEvolve ((m.withPoints N).flEnv ar A B) nl rnd pyDiv fuel u t0 tf h storeData freq s).2.tc < tf + 2 * h) ∧
        ((m.withPoints N).fpEvolve ((m.withPoints N).flEnv ar A B) nl rnd pyDiv fuel u t0 tf h storeData freq s).2.u.length =
          ((m.withPoints N).fpEvolve ((m.withPoints N).flEnv ar A B) nl rnd pyDiv fuel u t0 tf h storeData freq s).2.t.length ∧
        ∀ p ∈ ((m.withPoints N).fpEvolve ((m.withPoints N).flEnv ar A B) nl rnd pyDiv fuel u t0 tf h storeData freq s).2.t.zip
          ((m.withPoints N).fpEvolve ((m.withPoints N).flEnv ar A B) nl rnd pyDiv fuel u t0 tf h storeData freq s).2.u,
          ‖p.2 - Y p.1‖ ≤ C * (‖u - Y t0‖ + h ^ 4 + (N * ρ + (1 / 2) ^ N) / h) := by
  obtain ⟨C, η, R, N0, hη, h1⟩ := m.evolve_of hm hf ht hY
  refine ⟨C, η, R, N0, hη, fun N ar A B nl rnd ρ h u hN hρ => ?_⟩
  have := h1 N ar A B nl rnd ρ h u 0 0 hN hρ (by simpa using hρ) (by simpa using hρ)
  rwa [CSSolver.flEnvOf_zero] at this

/-- **C82.** `evolve` of an adaptive solver when everything is computed with relative accuracy `ρ`, for any error factor: while recorded
times are at most `H` apart and their number times `N ρ + 2^-N` is small, the recorded states and the returned state are within
`C (‖u - Y t0‖ + H^p + n (N ρ + 2^-N))` of the solution. -/
theorem C82_stored (m : ASSolver ι) (hm : m.ClearContour 0) (hf : ContDiff ℝ ∞ f) (ht : t0 ≤ tf) (hY : Solves m.op.mat f t0 tf Y) :
    ∃ (C η R : ℝ) (N0 : ℕ), 0 < η ∧ ∀ (N : ℕ) (ar : Arith ι) (A : CArith) (B : LinAlg ι) (fac : SolverConfig ℝ → Vec ι → Vec ι → Ext ℝ) (nl : NlFunc ι)
      (rnd : ℝ → ℝ) (ρ : ℝ) (u : Vec ι), N0 ≤ N → 0 ≤ ρ → ar.Within ρ R → A.Within ρ (R * N) → B.Within ρ R → NlNear nl f ρ R →
      (∀ x, |rnd x - x| ≤ ρ * |x|) → ‖u - Y t0‖ ≤ η →
      ∀ (cfg : SolverConfig ℝ) (hInit : Option ℝ) (pyDiv : Bool) (s : (m.withPoints N).RSt) (fuel : ℕ),
        0 < cfg.minh → (∀ h, hInit = some h → 0 < h) → ∀ H, N * ρ + (1 / 2) ^ N ≤ η * H → 0 < H → H < η →
        ((m.withPoints N).fpEvolve ((m.withPoints N).flEnv ar A B) fac nl rnd pyDiv cfg fuel u t0 tf hInit true 1 s).2.t.IsChain
          (fun a b => b - a ≤ H) →
        ((m.withPoints N).fpEvolve ((m.withPoints N).flEnv ar A B) fac nl rnd pyDiv cfg fuel u t0 tf hInit true 1 s).2.t.length *
          (N * ρ + (1 / 2) ^ N) ≤ η →
        (∀ p ∈ ((m.withPoints N).fpEvolve ((m.withPoints N).flEnv ar A B) fac nl rnd pyDiv cfg fuel u t0 tf hInit true 1 s).2.t.zip
            ((m.withPoints N).fpEvolve ((m.withPoints N).flEnv ar A B) fac nl rnd pyDiv cfg fuel u t0 tf hInit true 1 s).2.u,
          ‖p.2 - Y p.1‖ ≤ C * (‖u - Y t0‖ + H ^ m.orderOf +
            ((m.withPoints N).fpEvolve ((m.withPoints N).flEnv ar A B) fac nl rnd pyDiv cfg fuel u t0 tf hInit true 1 s).2.t.length *
              (N * ρ + (1 / 2) ^ N))) ∧
        ∀ v, ((m.withPoints N).fpEvolve ((m.withPoints N).flEnv ar A B) fac nl rnd pyDiv cfg fuel u t0 tf hInit true 1 s).1 = .ok (some v) →
          tf ≤ ((m.withPoints N).fpEvolve ((m.withPoints N).flEnv ar A B) fac nl rnd pyDiv cfg fuel u t0 tf hInit true 1 s).2.tc ∧
          ‖v - Y ((m.withPoints N).fpEvolve ((m.withPoints N).flEnv ar A B) fac nl rnd pyDiv cfg fuel u t0 tf hInit true 1 s).2.tc‖ ≤
            C * (‖u - Y t0‖ + H ^ m.orderOf +
              ((m.withPoints N).fpEvolve ((m.withPoints N).flEnv ar A B) fac nl rnd pyDiv cfg fuel u t0 tf hInit true 1 s).2.t.length *
                (N * ρ + (1 / 2) ^ N)) := by
  obtain ⟨C, η, R, N0, hη, h1⟩ := m.stored_of hm hf ht hY
  refine ⟨C, η, R, N0, hη, fun N ar A B fac nl rnd ρ u hN hρ => ?_⟩
  have := h1 N ar A B fac nl rnd ρ u 0 0 hN hρ (by simpa using hρ) (by simpa using hρ)
  rwa [ASSolver.flEnvOf_zero] at this

/-! ### NumPy's arithmetic -/

theorem CArith.Within.of_le {A : CArith} {ρ ρ' R : ℝ} (h : A.Within ρ R) (hρ : ρ ≤ ρ') : A.Within ρ' R where
  add x y h1 h2 h3 := (h.add x y h1 h2 h3).trans (mul_le_mul_of_nonneg_right hρ (by positivity))
  sub x y h1 h2 h3 := (h.sub x y h1 h2 h3).trans (mul_le_mul_of_nonneg_right hρ (by positivity))
  mul x y h1 h2 h3 := (h.mul x y h1 h2 h3).trans (mul_le_mul_of_nonneg_right hρ (by positivity))
  div x y h0 h1 h2 h3 h4 := (h.div x y h0 h1 h2 h3 h4).trans (mul_le_mul_of_nonneg_right hρ (by positivity))
  pow x n h1 h2 h3 := (h.pow x n h1 h2 h3).trans (mul_le_mul_of_nonneg_right hρ (by positivity))
  exp x h1 h2 := (h.exp x h1 h2).trans (mul_le_mul_of_nonneg_right hρ (by positivity))
  abs x h1 := (h.abs x h1).trans (mul_le_mul_of_nonneg_right hρ (by positivity))
  sum l h1 h2 := by
    have hS : 0 ≤ (l.map norm).sum := List.sum_nonneg (by simp)
    have h3 : l.length * ρ ≤ l.length * ρ' := mul_le_mul_of_nonneg_left hρ (Nat.cast_nonneg _)
    exact (h.sum l h1 (h3.trans h2)).trans (mul_le_mul_of_nonneg_right h3 (by positivity))
  tau := h.tau.trans (mul_le_mul_of_nonneg_right hρ (by positivity))

theorem LinAlg.Within.of_le {B : LinAlg ι} {ρ ρ' R : ℝ} (h : B.Within ρ R) (hρ : ρ ≤ ρ') : B.Within ρ' R where
  expm M h1 := (h.expm M h1).trans (mul_le_mul_of_nonneg_right hρ (by positivity))
  inv M h0 h1 h2 := by
    obtain ⟨Q, hQ, hn⟩ := h.inv M h0 h1 h2
    exact ⟨Q, hQ, hn.trans (mul_le_mul_of_nonneg_right hρ (by positivity))⟩

/-- **C82.** `evolve` of a constant-step solver entirely in NumPy's arithmetic: coefficients, stages, values of the nonlinear part and clock,
where `rnd` rounds real numbers with relative error `ρ`, `sum` adds rounded numbers in some order and `B` computes exponentials and inverses
of matrices with accuracy `ρ`. -/
theorem C82_numpy (m : CSSolver ι) (hm : m.ClearContour 0) (hf : ContDiff ℝ ∞ f) (ht : t0 < tf) (hY : Solves m.op.mat f t0 tf Y) :
    ∃ (C η R : ℝ) (N0 : ℕ), 0 < η ∧ ∀ (N : ℕ) (rnd : ℝ → ℝ) (sum : List ℂ → ℂ) (B : LinAlg ι) (ρ h : ℝ), N0 ≤ N → 0 ≤ ρ →
      (∀ x, |rnd x - x| ≤ ρ * |x|) → (∀ l, SumsTo rnd l (sum l)) → B.Within ρ R → 0 < h → h < η → N * ρ + (1 / 2) ^ N ≤ η * h →
      ∀ (pyDiv storeData : Bool) (freq : ℤ) (s : (m.withPoints N).RSt) (fuel : ℕ), (pyDiv = true → tf ≠ 0) →
        freq ≠ 0 → 2 * (tf - t0) / h + 1 < fuel →
        ∃ v, ((m.withPoints N).fpEvolve ((m.withPoints N).flEnv (Arith.numpy rnd) (CArith.numpy rnd sum) B) (roundedNl rnd f) rnd pyDiv fuel
            (Y t0) t0 tf h storeData freq s).1 = .ok (some v) ∧
          ‖v - Y ((m.withPoints N).fpEvolve ((m.withPoints N).flEnv (Arith.numpy rnd) (CArith.numpy rnd sum) B) (roundedNl rnd f) rnd pyDiv fuel
            (Y t0) t0 tf h storeData freq s).2.tc‖ ≤ C * (h ^ 4 + (N * ρ + (1 / 2) ^ N) / h) := by
  obtain ⟨C, η, R, N0, hη, h1⟩ := C82_evolve m hm hf ht hY
  obtain ⟨K', hK', hacc⟩ := numpy_accurate (f := f) (hf.of_le (by exact_mod_cast le_top)) R
  set K := max K' 120 with hK
  have hK120 : 120 ≤ K := le_max_right _ _
  refine ⟨|C| * K, min (min η (1 / 14)) (η / K), R, N0 + 1, lt_min (lt_min hη (by norm_num)) (by positivity),
    fun N rnd sum B ρ h hN hρ hr hs hB h0 hh hg pyDiv storeData freq s fuel hp hfr hfu => ?_⟩
  have e1 : h < η := hh.trans_le ((min_le_left _ _).trans (min_le_left _ _))
  have e2 : h < 1 / 14 := hh.trans_le ((min_le_left _ _).trans (min_le_right _ _))
  have hN1 : (1 : ℝ) ≤ N := by exact_mod_cast (show 1 ≤ N by omega)
  have hpow : (0 : ℝ) ≤ (1 / 2) ^ N := by positivity
  have hNρ : 0 ≤ N * ρ := by positivity
  have hρ1 : ρ ≤ 1 / 14 := by
    have h2 : min (min η (1 / 14)) (η / K) ≤ 1 / 14 := (min_le_left _ _).trans (min_le_right _ _)
    have h3 : min (min η (1 / 14)) (η / K) * h ≤ 1 / 14 * h := mul_le_mul_of_nonneg_right h2 h0.le
    nlinarith
  have hg' : N * (K * ρ) + (1 / 2) ^ N ≤ K * (N * ρ + (1 / 2) ^ N) := by nlinarith
  have e3 : N * (K * ρ) + (1 / 2) ^ N ≤ η * h := by
    have h2 : N * ρ + (1 / 2) ^ N ≤ η / K * h := hg.trans (mul_le_mul_of_nonneg_right (min_le_right _ _) h0.le)
    rw [div_mul_eq_mul_div, le_div_iff₀ (by linarith)] at h2
    linarith
  obtain ⟨a1, a2⟩ := hacc rnd ρ hρ (by linarith) hr
  have hle : K' * ρ ≤ K * ρ := mul_le_mul_of_nonneg_right (le_max_left _ _) hρ
  obtain ⟨⟨v, hv, he⟩, -⟩ := h1 N (Arith.numpy rnd) (CArith.numpy rnd sum) B (roundedNl rnd f) rnd (K * ρ) h (Y t0) (by omega) (by positivity)
    (a1.of_le hle) ((CArith.numpy_within hr hρ hρ1 hs _).of_le (mul_le_mul_of_nonneg_right hK120 hρ)) (hB.of_le (by nlinarith)) (a2.of_le hle)
    (fun x => (hr x).trans (mul_le_mul_of_nonneg_right (by nlinarith) (abs_nonneg x))) h0 e1 e3
    (by rw [sub_self, norm_zero]; exact hη.le) pyDiv storeData freq s fuel hp hfr hfu
  refine ⟨v, hv, he.trans ?_⟩
  rw [sub_self, norm_zero, zero_add]
  have d1 : h ^ 4 + (N * (K * ρ) + (1 / 2) ^ N) / h ≤ K * (h ^ 4 + (N * ρ + (1 / 2) ^ N) / h) := by
    have h2 : (N * (K * ρ) + (1 / 2) ^ N) / h ≤ K * (N * ρ + (1 / 2) ^ N) / h := div_le_div_of_nonneg_right hg' h0.le
    have h3 : h ^ 4 ≤ K * h ^ 4 := le_mul_of_one_le_left (by positivity) (by linarith)
    rw [mul_div_assoc] at h2
    linarith
  have d2 : 0 ≤ h ^ 4 + (N * (K * ρ) + (1 / 2) ^ N) / h := by positivity
  calc C * (h ^ 4 + (N * (K * ρ) + (1 / 2) ^ N) / h) ≤ |C| * (h ^ 4 + (N * (K * ρ) + (1 / 2) ^ N) / h) :=
        mul_le_mul_of_nonneg_right (le_abs_self C) d2
    _ ≤ |C| * (K * (h ^ 4 + (N * ρ + (1 / 2) ^ N) / h)) := mul_le_mul_of_nonneg_left d1 (abs_nonneg C)
    _ = |C| * K * (h ^ 4 + (N * ρ + (1 / 2) ^ N) / h) := by ring

/-! ### Concrete cases -/

/-- Adding from the right. -/
noncomputable def seqSum (rnd : ℝ → ℝ) : List ℂ → ℂ
  | [] => 0
  | [z] => z
  | z :: w :: l => cround rnd (z + seqSum rnd (w :: l))

theorem seqSum_sumsTo (rnd : ℝ → ℝ) : ∀ l, SumsTo rnd l (seqSum rnd l)
  | [] => .nil
  | [z] => .single z
  | z :: w :: l => .add (.single z) (seqSum_sumsTo rnd (w :: l)) (by simp) (by simp) (by simp)

/-- NumPy's complex arithmetic with rounding to 53 bits has relative accuracy `120 / 2^53`. -/
example : (CArith.numpy rnd64 (seqSum rnd64)).Within (120 * (1 / 2 ^ 53)) 1000 :=
  CArith.numpy_within rnd64_error (by positivity) (by norm_num) (seqSum_sumsTo _) 1000

/-- Exact operations have accuracy zero. -/
example : CArith.exact.Within 0 1000 :=
  ⟨fun x y _ _ _ => by simp [CArith.exact], fun x y _ _ _ => by simp [CArith.exact], fun x y _ _ _ => by simp [CArith.exact],
    fun x y _ _ _ _ _ => by simp [CArith.exact], fun x n _ _ _ => by simp [CArith.exact], fun x _ _ => by simp [CArith.exact],
    fun x _ => by simp [CArith.exact], fun l _ _ => by simp [CArith.exact], by simp [CArith.exact]⟩

/-- `expm` and `inv` with results rounded to `rnd`. -/
noncomputable def LinAlg.rounded (rnd : ℝ → ℝ) : LinAlg ι where
  expm M := (NormedSpace.exp M).map (cround rnd)
  inv M := open Classical in if IsUnit M.det then .ok (M⁻¹.map (cround rnd)) else .error .linAlgError

theorem norm_map_cround {rnd : ℝ → ℝ} {ρ : ℝ} (hr : ∀ x, |rnd x - x| ≤ ρ * |x|) (hρ : 0 ≤ ρ) (M : Mat ι) :
    ‖M.map (cround rnd) - M‖ ≤ 2 * ρ * ‖M‖ := by
  have h1 : ∀ N : Mat ι, ∀ i, ∑ j, ‖N i j‖ ≤ ‖N‖ := fun N i => by
    rw [Matrix.linfty_opNorm_def]
    have := Finset.le_sup (f := fun i => ∑ j, ‖N i j‖₊) (Finset.mem_univ i)
    rw [← NNReal.coe_le_coe] at this
    push_cast at this ⊢
    exact this
  rw [Matrix.linfty_opNorm_def, ← NNReal.coe_mk (2 * ρ * ‖M‖) (by positivity), NNReal.coe_le_coe]
  refine Finset.sup_le fun i _ => ?_
  rw [← NNReal.coe_le_coe]
  push_cast
  calc ∑ j, ‖(M.map (cround rnd) - M) i j‖ ≤ ∑ j, 2 * ρ * ‖M i j‖ := Finset.sum_le_sum fun j _ => cround_error hr hρ (M i j)
    _ = 2 * ρ * ∑ j, ‖M i j‖ := by rw [Finset.mul_sum]
    _ ≤ 2 * ρ * ‖M‖ := mul_le_mul_of_nonneg_left (h1 M i) (by positivity)

theorem LinAlg.rounded_within [Nonempty ι] {rnd : ℝ → ℝ} {ρ : ℝ} (hr : ∀ x, |rnd x - x| ≤ ρ * |x|) (hρ : 0 ≤ ρ) (R : ℝ) :
    (LinAlg.rounded (ι := ι) rnd).Within (2 * ρ) R where
  expm M _ := by
    have h1 : ‖(NormedSpace.exp M : Mat ι)‖ ≤ Real.exp ‖M‖ := by
      have := expm_norm_le_one M (θ := 1) (by simp)
      simpa [Verif.expm] using this
    refine (norm_map_cround hr hρ _).trans (mul_le_mul_of_nonneg_left (by linarith) (by positivity))
  inv M h0 _ _ := by
    refine ⟨_, by unfold LinAlg.rounded; exact if_pos h0, (norm_map_cround hr hρ _).trans (mul_le_mul_of_nonneg_left ?_ (by positivity))⟩
    have h1 : ‖M⁻¹ * M * M⁻¹‖ ≤ ‖M⁻¹‖ * ‖M‖ * ‖M⁻¹‖ :=
      (norm_mul_le _ _).trans (mul_le_mul_of_nonneg_right (norm_mul_le _ _) (norm_nonneg _))
    rw [Matrix.nonsing_inv_mul M h0, Matrix.one_mul] at h1
    linarith [mul_comm ‖M‖ ‖M⁻¹‖ ▸ h1]

/-- The exponential and the inverse with entries rounded to 53 bits. -/
example : (LinAlg.rounded (ι := Fin 3) rnd64).Within (2 * (1 / 2 ^ 53)) 1000 := LinAlg.rounded_within rnd64_error (by positivity) 1000

/-- The default settings of the ETD solvers are covered, for arrays and for a matrix with steps up to `1/2`. -/
example : (CSSolver.etd4 ⟨1 / 100, 32, 1⟩ (.diag ![-1, -4])).ClearContour 10 ∧
    (ASSolver.etd35 ⟨1 / 100, 32, 1⟩ (.full !![0, 1; -1, 0])).ClearContour (1 / 2) ∧ (ASSolver.if45dp ![-1, -4]).ClearContour 10 := by
  refine ⟨⟨by norm_num, by norm_num⟩, ⟨by norm_num, fun μ hμ => ?_⟩, trivial⟩
  have h1 := spectrum.norm_le_norm_of_mem hμ
  have h2 : ‖(!![0, 1; -1, 0] : Mat (Fin 2))‖ ≤ 1 := by
    rw [Matrix.linfty_opNorm_def]
    simp [Fin.univ_succ]
  show 1 / 2 * ‖μ‖ < 1
  linarith

/-- Rounded coefficients are not exact: when every operation is too large by one half, IF4 with operator `0` has the wrong coefficient. -/
example : (CSSolver.if4 (.diag ![0])).flCoefs (CArith.numpy (fun x => 3 / 2 * x) (seqSum fun x => 3 / 2 * x)) LinAlg.exact 1 ≠
    (CSSolver.if4 (.diag ![0])).flCoefs CArith.exact LinAlg.exact 1 := by
  intro h
  have h1 := congrArg IFCoef.EL (Except.ok.inj h)
  have h2 : (cexp (fun x => 3 / 2 * x) (cmul (fun x => 3 / 2 * x) ((1 : ℝ) : ℂ) 0)).re = (Complex.exp (((1 : ℝ) : ℂ) * 0)).re :=
    congrArg Complex.re (congrFun h1 0)
  simp [cexp, cmul] at h2
  norm_num at h2

/-- C82 for ETD4 with the operator as an array or a matrix and the logistic equation, when every real operation has the relative error
`ρ > 0`. -/
example (L : LinOp (Fin 1)) (hL : L = .diag ![-1] ∨ L = .full !![-1]) :
    ∃ (η : ℝ) (N0 : ℕ), 0 < η ∧ ∀ (N : ℕ) (ρ h : ℝ), N0 ≤ N → 0 < ρ → 0 < h → h < η → N * ρ + (1 / 2) ^ N ≤ η * h →
    ∃ v, (((CSSolver.etd4 ⟨1 / 100, 32, 1⟩ L).withPoints N).fpEvolve
      (((CSSolver.etd4 ⟨1 / 100, 32, 1⟩ L).withPoints N).flEnv (Arith.numpy fun x => (1 + ρ / 2) * x)
        (CArith.numpy (fun x => (1 + ρ / 2) * x) (seqSum fun x => (1 + ρ / 2) * x)) (LinAlg.rounded fun x => (1 + ρ / 2) * x))
      (roundedNl (fun x => (1 + ρ / 2) * x) logisticN) (fun x => (1 + ρ / 2) * x) true (⌈2 * (2 - 0) / h + 1⌉₊ + 1) (logisticY 0) 0 2 h true 1
      ((CSSolver.etd4 ⟨1 / 100, 32, 1⟩ L).withPoints N).fpNew).1 = .ok (some v) := by
  have hm : (CSSolver.etd4 ⟨1 / 100, 32, 1⟩ L).ClearContour 0 := by
    rcases hL with rfl | rfl
    · constructor <;> norm_num
    · exact ⟨by norm_num, fun μ _ => by norm_num⟩
  have hY : (CSSolver.etd4 ⟨1 / 100, 32, 1⟩ L).op.mat = Matrix.diagonal ![-1] := by
    rcases hL with rfl | rfl
    · rfl
    · ext i j
      fin_cases i; fin_cases j
      rfl
  obtain ⟨C, η, R, N0, hη, h1⟩ := C82_numpy (.etd4 ⟨1 / 100, 32, 1⟩ L) hm logisticN_smooth
    (show (0 : ℝ) < 2 by norm_num) (hY ▸ logistic_solves 0 2)
  refine ⟨η, N0, hη, fun N ρ h hN hρ h0 hh hρh => ?_⟩
  have hr : ∀ x, |(1 + ρ / 2) * x - x| ≤ ρ / 2 * |x| := fun x => le_of_eq (by
    rw [show (1 + ρ / 2) * x - x = ρ / 2 * x by ring, abs_mul, abs_of_pos (by linarith)])
  obtain ⟨v, hv, -⟩ := h1 N (fun x => (1 + ρ / 2) * x) _ (LinAlg.rounded fun x => (1 + ρ / 2) * x) ρ h hN hρ.le
    (fun x => (hr x).trans (mul_le_mul_of_nonneg_right (by linarith) (abs_nonneg x))) (seqSum_sumsTo _)
    ((LinAlg.rounded_within hr (by linarith) R).of_le (by linarith)) h0 hh hρh true true 1 _
    (⌈2 * (2 - 0) / h + 1⌉₊ + 1) (by norm_num) one_ne_zero (by push_cast; linarith [Nat.le_ceil (2 * (2 - 0) / h + 1)])
  exact ⟨v, hv⟩

end Verif
