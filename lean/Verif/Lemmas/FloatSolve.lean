import Verif.Lemmas.FloatMatCoefs
import Verif.Lemmas.RoundedTie

/-!
# All solvers compute coefficients near the exact ones
-/

set_option linter.unusedSectionVars false

namespace Verif

open Asymptotics Filter
open scoped Matrix.Norms.Operator

variable {ι : Type} [Fintype ι] [DecidableEq ι]

theorem CArith.Within.mono {A : CArith} {ρ R R' : ℝ} (hA : A.Within ρ R) (h : R' ≤ R) : A.Within ρ R' where
  add x y h1 h2 h3 := hA.add x y (h1.trans h) (h2.trans h) (h3.trans h)
  sub x y h1 h2 h3 := hA.sub x y (h1.trans h) (h2.trans h) (h3.trans h)
  mul x y h1 h2 h3 := hA.mul x y (h1.trans h) (h2.trans h) (h3.trans h)
  div x y h0 h1 h2 h3 h4 := hA.div x y h0 (h1.trans h) (h2.trans h) (h3.trans h) (h4.trans h)
  pow x n h1 h2 h3 := hA.pow x n (h1.trans h) (h2.trans h) h3
  exp x h1 h2 := hA.exp x (h1.trans h) (h2.trans h)
  abs x h1 := hA.abs x (h1.trans h)
  sum l h1 h2 := hA.sum l (h1.trans h) h2
  tau := hA.tau

theorem LinAlg.Within.mono {B : LinAlg ι} {ρ R R' : ℝ} (hB : B.Within ρ R) (h : R' ≤ R) : B.Within ρ R' where
  expm M h1 := hB.expm M (h1.trans h)
  inv M h0 h1 h2 := hB.inv M h0 (h1.trans h) (h2.trans h)

/-- A way to compute coefficients: operations, their accuracy, number of contour points, step size, and how far the operator is from the
exact one. -/
structure CoefRun (ι : Type) where
  A : CArith
  B : LinAlg ι
  ρ : ℝ
  N : ℕ
  h : ℝ
  dv : Vec ι
  dM : Mat ι

/-- Arithmetics that are more and more accurate on larger and larger numbers, for step sizes up to `R0`. -/
def CoefRun.good (R0 : ℝ) (n : ℕ) : Set (CoefRun ι) :=
  {t | 0 < t.N ∧ 0 ≤ t.ρ ∧ t.N * t.ρ ≤ 1 / (n + 1) ∧ t.A.Within t.ρ (n * t.N) ∧ t.B.Within t.ρ n ∧ 0 < t.h ∧ t.h ≤ R0 ∧
    ‖t.dv‖ ≤ t.ρ ∧ ‖t.dM‖ ≤ t.ρ}

theorem CoefRun.good_antitone (R0 : ℝ) : Antitone (good (ι := ι) R0) := by
  rintro m n h t ⟨h1, h2, h3, h4, h7, h5, h6⟩
  have hmn : (m : ℝ) ≤ n := by exact_mod_cast h
  refine ⟨h1, h2, h3.trans ?_, h4.mono ?_, h7.mono hmn, h5, h6⟩
  · exact one_div_le_one_div_of_le (by positivity) (by linarith)
  · gcongr

/-- Limits of computations. -/
def CoefRun.lim (R0 : ℝ) : Filter (CoefRun ι) := ⨅ n, 𝓟 (good R0 n)

theorem CoefRun.eventually_lim {R0 : ℝ} {P : CoefRun ι → Prop} : (∀ᶠ t in lim R0, P t) ↔ ∃ n, ∀ t ∈ good R0 n, P t := by
  unfold lim
  rw [(hasBasis_iInf_principal (good_antitone R0).directed_ge).eventually_iff]
  simp

theorem CoefRun.lim_good (R0 : ℝ) (n : ℕ) : ∀ᶠ t in lim (ι := ι) R0, t ∈ good R0 n := eventually_lim.2 ⟨n, fun _ h => h⟩

namespace CoefRun

variable (R0 : ℝ)

theorem lim_tendsto : Tendsto (fun t : CoefRun ι => (t.N : ℝ) * t.ρ) (lim R0) (nhds 0) := by
  rw [Metric.tendsto_nhds]
  intro ε hε
  obtain ⟨n, hn⟩ := exists_nat_one_div_lt hε
  filter_upwards [lim_good R0 n] with t ht
  rw [Real.dist_eq, sub_zero, abs_of_nonneg (mul_nonneg (Nat.cast_nonneg _) ht.2.1)]
  exact ht.2.2.1.trans_lt hn

theorem lim_within (R : ℝ) : ∀ᶠ t in lim (ι := ι) R0, t.A.Within t.ρ (R * t.N) := by
  obtain ⟨n, hn⟩ := exists_nat_ge R
  filter_upwards [lim_good R0 n] with t ht
  exact ht.2.2.2.1.mono (by gcongr)

theorem rho_le : (fun t : CoefRun ι => t.ρ) =O[lim R0] fun t => (t.N : ℝ) * t.ρ := by
  refine IsBigO.of_bound 1 ?_
  filter_upwards [lim_good R0 0] with t ht
  have h1 : (1 : ℝ) ≤ t.N := by exact_mod_cast ht.1
  have := ht.2.1
  rw [Real.norm_of_nonneg this, Real.norm_of_nonneg (by positivity)]
  nlinarith

theorem mul_one' : (fun t : CoefRun ι => (t.N : ℝ) * t.ρ) =O[lim R0] (1 : CoefRun ι → ℝ) :=
  (lim_tendsto R0).isBigO_one ℝ

theorem long : Long (lim (ι := ι) R0) (fun t => t.A) (fun t => t.ρ) (fun t => t.N) (fun t => (t.N : ℝ) * t.ρ) where
  fine := by
    refine ⟨fun R => ?_, (lim_good R0 0).mono fun t ht => ht.2.1, rho_le R0, mul_one' R0⟩
    filter_upwards [lim_within R0 |R|, lim_good R0 0] with t h1 h2
    have h3 : (1 : ℝ) ≤ t.N := by exact_mod_cast h2.1
    exact h1.mono ((le_abs_self R).trans (by nlinarith [abs_nonneg R]))
  pos := (lim_good R0 0).mono fun t ht => ht.1
  within := lim_within R0
  mul_le := isBigO_refl _ _
  le_one := (lim_good R0 0).mono fun t ht => by simpa using ht.2.2.1

theorem le_gap : (fun t : CoefRun ι => (t.N : ℝ) * t.ρ) =O[lim R0] gap (fun t => t.N) (fun t => t.ρ) := by
  refine IsBigO.of_bound 1 ?_
  filter_upwards [lim_good R0 0] with t ht
  have h2 := ht.2.1
  rw [gap, Real.norm_of_nonneg (by positivity), Real.norm_of_nonneg (by positivity)]
  have : (0 : ℝ) ≤ (1 / 2) ^ t.N := by positivity
  linarith

theorem gap_fine : Fine (lim (ι := ι) R0) (fun t => t.A) (fun t => t.ρ) (gap (fun t => t.N) (fun t => t.ρ)) := by
  refine ⟨(long R0).fine.within, (long R0).fine.nonneg, (long R0).fine.le.trans (le_gap R0), ?_⟩
  refine IsBigO.of_bound 2 ?_
  filter_upwards [(long R0).le_one, (long R0).fine.nonneg] with t h1 h2
  rw [gap, Real.norm_of_nonneg (by positivity), Pi.one_apply, norm_one]
  have : (1 / 2 : ℝ) ^ t.N ≤ 1 := pow_le_one₀ (by norm_num) (by norm_num)
  linarith

theorem rho_fine : Fine (lim (ι := ι) R0) (fun t => t.A) (fun t => t.ρ) (fun t => t.ρ) :=
  ⟨(long R0).fine.within, (long R0).fine.nonneg, isBigO_refl _ _, (rho_le R0).trans (mul_one' R0)⟩

theorem h_bdd : (fun t : CoefRun ι => (t.h : ℂ)) =O[lim R0] (1 : CoefRun ι → ℝ) := by
  refine IsBigO.of_bound R0 ?_
  filter_upwards [lim_good R0 0] with t ht
  rw [Complex.norm_real, Real.norm_of_nonneg ht.2.2.2.2.2.1.le, Pi.one_apply, norm_one, mul_one]
  exact ht.2.2.2.2.2.2.1

theorem dv_le {g : CoefRun ι → ℝ} (hg : (fun t : CoefRun ι => t.ρ) =O[lim R0] g) (i : ι) : (fun t : CoefRun ι => t.dv i) =O[lim R0] g := by
  refine (IsBigO.of_bound 1 ?_).trans hg
  filter_upwards [lim_good R0 0] with t ht
  rw [one_mul, Real.norm_of_nonneg ht.2.1]
  exact (norm_le_pi_norm t.dv i).trans ht.2.2.2.2.2.2.2.1

theorem dM_le {g : CoefRun ι → ℝ} (hg : (fun t : CoefRun ι => t.ρ) =O[lim R0] g) (i j : ι) : (fun t : CoefRun ι => t.dM i j) =O[lim R0] g := by
  refine isBigO_mat.1 ((IsBigO.of_bound 1 ?_ : (fun t : CoefRun ι => t.dM) =O[lim R0] fun t => t.ρ).trans hg) i j
  filter_upwards [lim_good R0 0] with t ht
  rw [one_mul, Real.norm_of_nonneg ht.2.1]
  exact ht.2.2.2.2.2.2.2.2

theorem mode_near {g : CoefRun ι → ℝ} (hf : Fine (lim R0) (fun t => t.A) (fun t => t.ρ) g) (L : Vec ι) (i : ι) :
    FlNear (lim R0) (fun t => t.A) g (fun t => Fl.lit (t.h : ℂ) * Fl.lit ((L + t.dv) i)) (fun t => t.h * L i) :=
  (FlNear.lit hf (h_bdd R0)).mul hf ⟨isBigO_const_const (L i) (one_ne_zero (α := ℝ)) _, by
    simpa [Fl.lit, Fl.val] using dv_le R0 hf.le i⟩

theorem mat_near {g : CoefRun ι → ℝ} (hf : (fun t : CoefRun ι => t.ρ) =O[lim R0] g) (L : Mat ι) (i j : ι) :
    (fun t : CoefRun ι => (L + t.dM) i j - L i j) =O[lim R0] g := by
  simpa using dM_le R0 hf i j

theorem fineMat : FineMat (lim (ι := ι) R0) (fun t => t.B) (fun t => t.ρ) := fun R => by
  obtain ⟨n, hn⟩ := exists_nat_ge R
  filter_upwards [lim_good R0 n] with t ht
  exact ht.2.2.2.2.1.mono hn

theorem h_nonneg : ∀ᶠ t in lim (ι := ι) R0, 0 ≤ t.h := (lim_good R0 0).mono fun t ht => ht.2.2.2.2.2.1.le

theorem h_le : ∀ᶠ t in lim (ι := ι) R0, t.h ≤ R0 := (lim_good R0 0).mono fun t ht => ht.2.2.2.2.2.2.1

end CoefRun

open CoefRun

theorem flPsis_near (R0 : ℝ) (cfg : ETDConfig ℝ) (hc : 0 < cfg.modecutoff ∧ cfg.modecutoff < cfg.contour_radius) (L : Vec ι) (i : ι) :
    NearPsis (lim (ι := ι) R0) (fun t => t.A) (gap (fun t => t.N) (fun t => t.ρ)) (fun t => Fl.psis (cfg.withPoints t.N) (Fl.averages (cfg.withPoints t.N))
      (Fl.lit (t.h : ℂ)) (Fl.lit (t.h : ℂ) * Fl.lit ((L + t.dv) i))) (fun t => Psis.ofPhi (fun k c => (cfg.withPoints t.N).phiM k c (t.h * L i)) t.h) ∧
    NearPsis (lim (ι := ι) R0) (fun t => t.A) (gap (fun t => t.N) (fun t => t.ρ)) (fun t => Fl.psis (cfg.withPoints t.N) (Fl.averages35 (cfg.withPoints t.N))
      (Fl.lit (t.h : ℂ)) (Fl.lit (t.h : ℂ) * Fl.lit ((L + t.dv) i))) (fun t => Psis.ofPhi (fun k c => (cfg.withPoints t.N).phiM k c (t.h * L i)) t.h) :=
  psis_near (long R0) (lim_tendsto R0) (le_gap R0) cfg (h_bdd R0) (mode_near R0 (long R0).fine L i) hc.1 hc.2

theorem CSSolver.near_coefs (m : CSSolver ι) {h ε : ℝ} {c : m.Coef} (hc : m.CoefOk h)
    (hn : CoefNear m.rprog.stages ε ((m.law fun _ => .ok 0).coefs h) c) : CoefNear m.rprog.stages ε (m.coefsAt h) c := by
  rwa [m.coefsAt_eq (fun _ => .ok 0) hc]

theorem ASSolver.near_coefs (m : ASSolver ι) {h ε : ℝ} {c : m.Coef} (hc : m.CoefOk h)
    (hn : CoefNear m.rprog.stages ε ((m.aslaw fun _ => .ok 0).coefs h) c) : CoefNear m.rprog.stages ε (m.coefsAt h) c := by
  rwa [m.coefsAt_eq (fun _ => .ok 0) hc]

/-- The matrices on the contour are invertible. -/
theorem contourOk_near (R0 : ℝ) (cfg : ETDConfig ℝ) (L : Mat ι)
    (hm : 0 < cfg.contour_radius ∧ ∀ μ ∈ spectrum ℂ L, R0 * ‖μ‖ < cfg.contour_radius) (cs : List ℝ) (hcs : ∀ c ∈ cs, 0 ≤ c ∧ c ≤ 1) :
    ∀ᶠ t in lim (ι := ι) R0, ContourOk (cfg.withPoints t.N).contour_radius (cfg.withPoints t.N).contour_points.toNat L cs t.h := by
  filter_upwards [h_nonneg R0, h_le R0] with t h1 h2 k _ c hc
  exact (resolvent_bdd L hm.1 hm.2).1 _ (norm_node _ _ _ hm.1.le) _ (mul_nonneg (hcs c hc).1 h1) ((mul_le_of_le_one_left h1 (hcs c hc).2).trans h2)

/-- The coefficients that are computed from a perturbed operator. -/
noncomputable def CSSolver.flCoefsOf (A : CArith) (B : LinAlg ι) (h : ℝ) (dv : Vec ι) (dM : Mat ι) : (m : CSSolver ι) → Except PyErr m.Coef
  | if4 (.diag L) => .ok (IF4.flCoefs A (L + dv) h)
  | if4 (.full L) => .ok (IF4.flCoefsMat A B (L + dM) h)
  | etd4 cfg (.diag L) => .ok (ETD4.flCoefs A cfg (L + dv) h)
  | etd4 cfg (.full L) => ETD4.flCoefsMat A B cfg (L + dM) h
  | etd5 cfg (.diag L) => .ok (ETD5.flCoefs A cfg (L + dv) h)
  | etd5 cfg (.full L) => ETD5.flCoefsMat A B cfg (L + dM) h

noncomputable def ASSolver.flCoefsOf (A : CArith) (B : LinAlg ι) (h : ℝ) (dv : Vec ι) (dM : Mat ι) : (m : ASSolver ι) → Except PyErr m.Coef
  | if34 (.diag L) => .ok (IF4.flCoefs A (L + dv) h)
  | if34 (.full L) => .ok (IF4.flCoefsMat A B (L + dM) h)
  | if34 (.eig lam _ _ _) => .ok (IF4.flCoefs A (lam + dv) h)
  | etd34 cfg (.diag L) => .ok (ETD34.flCoefs A cfg (L + dv) h)
  | etd34 cfg (.full L) => ETD34.flCoefsMat A B cfg (L + dM) h
  | etd34 cfg (.eig lam _ _ _) => .ok (ETD34.flCoefs A cfg (lam + dv) h)
  | etd35 cfg (.diag L) => .ok (ETD35.flCoefs A cfg (L + dv) h)
  | etd35 cfg (.full L) => ETD35.flCoefsMat A B cfg (L + dM) h
  | etd35 cfg (.eig lam _ _ _) => .ok (ETD35.flCoefs A cfg (lam + dv) h)
  | if45dp L => .ok (IF45DP.flCoefs A (L + dv) h)

theorem CSSolver.flCoefsOf_zero (A : CArith) (B : LinAlg ι) (h : ℝ) (m : CSSolver ι) : m.flCoefsOf A B h 0 0 = m.flCoefs A B h := by
  rcases m with (L | L) | ⟨cfg, L | L⟩ | ⟨cfg, L | L⟩ <;> simp only [flCoefsOf, flCoefs, add_zero] <;> rfl

theorem ASSolver.flCoefsOf_zero (A : CArith) (B : LinAlg ι) (h : ℝ) (m : ASSolver ι) : m.flCoefsOf A B h 0 0 = m.flCoefs A B h := by
  rcases m with (L | L | ⟨l, S, T, hS⟩) | ⟨cfg, L | L | ⟨l, S, T, hS⟩⟩ | ⟨cfg, L | L | ⟨l, S, T, hS⟩⟩ | L <;>
    simp only [flCoefsOf, flCoefs, add_zero] <;> rfl

noncomputable def CSSolver.flEnvOf (m : CSSolver ι) (ar : Arith ι) (A : CArith) (B : LinAlg ι) (dv : Vec ι) (dM : Mat ι) : FPEnv m.Coef ι :=
  ⟨ar, fun h => m.flCoefsOf A B h dv dM⟩

noncomputable def ASSolver.flEnvOf (m : ASSolver ι) (ar : Arith ι) (A : CArith) (B : LinAlg ι) (dv : Vec ι) (dM : Mat ι) : FPEnv m.Coef ι :=
  ⟨ar, fun h => m.flCoefsOf A B h dv dM⟩

theorem CSSolver.flEnvOf_zero (m : CSSolver ι) (ar : Arith ι) (A : CArith) (B : LinAlg ι) : m.flEnvOf ar A B 0 0 = m.flEnv ar A B := by
  simp only [flEnvOf, flEnv, flCoefsOf_zero]

theorem ASSolver.flEnvOf_zero (m : ASSolver ι) (ar : Arith ι) (A : CArith) (B : LinAlg ι) : m.flEnvOf ar A B 0 0 = m.flEnv ar A B := by
  simp only [flEnvOf, flEnv, flCoefsOf_zero]

/-- Coefficients of constant-step solvers. -/
theorem CSSolver.flCoefs_near (m : CSSolver ι) (R0 : ℝ) (hm : m.ClearContour R0) :
    ∃ C : ℝ, ∀ᶠ t in lim R0, (m.withPoints t.N).CoefOk t.h ∧ ∃ c, (m.withPoints t.N).flCoefsOf t.A t.B t.h t.dv t.dM = .ok c ∧
      CoefNear (m.withPoints t.N).rprog.stages (C * ‖gap (fun t : CoefRun ι => t.N) (fun t => t.ρ) t‖) ((m.withPoints t.N).coefsAt t.h) c := by
  have hz := mode_near (ι := ι) R0 (gap_fine R0)
  have hM := mat_near (ι := ι) R0 (gap_fine R0).le
  have hM1 := mat_near (ι := ι) R0 (long R0).fine.le
  rcases m with (L | L) | ⟨cfg, L | L⟩ | ⟨cfg, L | L⟩
  · obtain ⟨C, hC⟩ := IF4.flCoefs_near (gap_fine R0) L (fun t => L + t.dv) (hz L)
    exact ⟨C, hC.mono fun t ht => ⟨trivial, _, rfl, CSSolver.near_coefs _ trivial ht⟩⟩
  · obtain ⟨C, hC⟩ := IF4.flMat_near (gap_fine R0) (fineMat R0) (h_bdd R0) L (hM L)
    exact ⟨C, hC.mono fun t ht => ⟨trivial, _, rfl, CSSolver.near_coefs _ trivial ht⟩⟩
  · obtain ⟨C, hC⟩ := ETD4.flCoefs_near (gap_fine R0) cfg L (fun t => L + t.dv) (hz L) fun i => (flPsis_near (ι := ι) R0 cfg hm L i).1
    exact ⟨C, hC.mono fun t ht => ⟨trivial, _, rfl, CSSolver.near_coefs _ trivial ht⟩⟩
  · obtain ⟨P, hP, nP⟩ := round4_near (long R0) (lim_tendsto R0) (fineMat R0) cfg hm.1 (h_nonneg R0) (h_le R0) L (hM1 L) hm.2
    obtain ⟨C, hC⟩ := ETD4.flMat_near (gap_fine R0) (fineMat R0) cfg (h_bdd R0) L (hM L) fun i j => (nP i j).mono (le_gap R0)
    refine ⟨C, ?_⟩
    filter_upwards [hC, hP, contourOk_near R0 cfg L hm [1 / 2, 1] (by simp; norm_num)] with t h1 h2 h3
    refine ⟨h3, ETD4.flMatOf t.A t.B (L + t.dM) t.h (P t), ?_, CSSolver.near_coefs _ h3 h1⟩
    change ETD4.flCoefsMat t.A t.B (cfg.withPoints t.N) (L + t.dM) t.h = _
    unfold ETD4.flCoefsMat
    rw [h2]
    rfl
  · obtain ⟨C, hC⟩ := ETD5.flCoefs_near (gap_fine R0) cfg L (fun t => L + t.dv) (hz L) fun i => (flPsis_near (ι := ι) R0 cfg hm L i).1
    exact ⟨C, hC.mono fun t ht => ⟨trivial, _, rfl, CSSolver.near_coefs _ trivial ht⟩⟩
  · obtain ⟨P, hP, nP⟩ := round5_near (long R0) (lim_tendsto R0) (fineMat R0) cfg hm.1 (h_nonneg R0) (h_le R0) L (hM1 L) hm.2
    obtain ⟨C, hC⟩ := ETD5.flMat_near (gap_fine R0) (fineMat R0) cfg (h_bdd R0) L (hM L) fun i j => (nP i j).mono (le_gap R0)
    refine ⟨C, ?_⟩
    filter_upwards [hC, hP, contourOk_near R0 cfg L hm [1 / 4, 1 / 2, 3 / 4, 1] (by simp; norm_num)] with t h1 h2 h3
    refine ⟨h3, ETD5.flMatOf t.A t.B (L + t.dM) t.h (P t), ?_, CSSolver.near_coefs _ h3 h1⟩
    change ETD5.flCoefsMat t.A t.B (cfg.withPoints t.N) (L + t.dM) t.h = _
    unfold ETD5.flCoefsMat
    rw [h2]
    rfl

/-- Coefficients of adaptive solvers. -/
theorem ASSolver.flCoefs_near (m : ASSolver ι) (R0 : ℝ) (hm : m.ClearContour R0) :
    ∃ C : ℝ, ∀ᶠ t in lim R0, (m.withPoints t.N).CoefOk t.h ∧ ∃ c, (m.withPoints t.N).flCoefsOf t.A t.B t.h t.dv t.dM = .ok c ∧
      CoefNear (m.withPoints t.N).rprog.stages (C * ‖gap (fun t : CoefRun ι => t.N) (fun t => t.ρ) t‖) ((m.withPoints t.N).coefsAt t.h) c := by
  have hz := mode_near (ι := ι) R0 (gap_fine R0)
  have hM := mat_near (ι := ι) R0 (gap_fine R0).le
  have hM1 := mat_near (ι := ι) R0 (long R0).fine.le
  rcases m with (L | L | ⟨l, S, T, hS⟩) | ⟨cfg, L | L | ⟨l, S, T, hS⟩⟩ | ⟨cfg, L | L | ⟨l, S, T, hS⟩⟩ | L
  · obtain ⟨C, hC⟩ := IF34.flCoefs_near (gap_fine R0) L (fun t => L + t.dv) (hz L)
    exact ⟨C, hC.mono fun t ht => ⟨trivial, _, rfl, ASSolver.near_coefs _ trivial ht⟩⟩
  · obtain ⟨C, hC⟩ := IF34.flMat_near (gap_fine R0) (fineMat R0) (h_bdd R0) L (hM L)
    exact ⟨C, hC.mono fun t ht => ⟨trivial, _, rfl, ASSolver.near_coefs _ trivial ht⟩⟩
  · obtain ⟨C, hC⟩ := IF34.flCoefs_near_eig (gap_fine R0) l (fun t => l + t.dv) S T (hz l)
    exact ⟨C, hC.mono fun t ht => ⟨trivial, _, rfl, ASSolver.near_coefs _ trivial ht⟩⟩
  · obtain ⟨C, hC⟩ := ETD34.flCoefs_near (gap_fine R0) cfg L (fun t => L + t.dv) (hz L) fun i => (flPsis_near (ι := ι) R0 cfg hm L i).1
    exact ⟨C, hC.mono fun t ht => ⟨trivial, _, rfl, ASSolver.near_coefs _ trivial ht⟩⟩
  · obtain ⟨P, hP, nP⟩ := round4_near (long R0) (lim_tendsto R0) (fineMat R0) cfg hm.1 (h_nonneg R0) (h_le R0) L (hM1 L) hm.2
    obtain ⟨C, hC⟩ := ETD34.flMat_near (gap_fine R0) (fineMat R0) cfg (h_bdd R0) L (hM L) fun i j => (nP i j).mono (le_gap R0)
    refine ⟨C, ?_⟩
    filter_upwards [hC, hP, contourOk_near R0 cfg L hm [1 / 2, 1] (by simp; norm_num)] with t h1 h2 h3
    refine ⟨h3, ETD34.flMatOf t.A t.B (L + t.dM) t.h (P t), ?_, ASSolver.near_coefs _ h3 h1⟩
    change ETD34.flCoefsMat t.A t.B (cfg.withPoints t.N) (L + t.dM) t.h = _
    unfold ETD34.flCoefsMat
    rw [h2]
    rfl
  · obtain ⟨C, hC⟩ := ETD34.flCoefs_near_eig (gap_fine R0) cfg l (fun t => l + t.dv) S T (hz l) fun i => (flPsis_near (ι := ι) R0 cfg hm l i).1
    exact ⟨C, hC.mono fun t ht => ⟨trivial, _, rfl, ASSolver.near_coefs _ trivial ht⟩⟩
  · obtain ⟨C, hC⟩ := ETD35.flCoefs_near (gap_fine R0) cfg L (fun t => L + t.dv) (hz L) fun i => (flPsis_near (ι := ι) R0 cfg hm L i).2
    exact ⟨C, hC.mono fun t ht => ⟨trivial, _, rfl, ASSolver.near_coefs _ trivial ht⟩⟩
  · obtain ⟨P, hP, nP⟩ := round5_near (long R0) (lim_tendsto R0) (fineMat R0) cfg hm.1 (h_nonneg R0) (h_le R0) L (hM1 L) hm.2
    obtain ⟨C, hC⟩ := ETD35.flMat_near (gap_fine R0) (fineMat R0) cfg (h_bdd R0) L (hM L) fun i j => (nP i j).mono (le_gap R0)
    refine ⟨C, ?_⟩
    filter_upwards [hC, hP, contourOk_near R0 cfg L hm [1 / 4, 1 / 2, 3 / 4, 1] (by simp; norm_num)] with t h1 h2 h3
    refine ⟨h3, ETD35.flMatOf t.A t.B (L + t.dM) t.h (P t), ?_, ASSolver.near_coefs _ h3 h1⟩
    change ETD35.flCoefsMat t.A t.B (cfg.withPoints t.N) (L + t.dM) t.h = _
    unfold ETD35.flCoefsMat
    rw [h2]
    rfl
  · obtain ⟨C, hC⟩ := ETD35.flCoefs_near_eig (gap_fine R0) cfg l (fun t => l + t.dv) S T (hz l) fun i => (flPsis_near (ι := ι) R0 cfg hm l i).2
    exact ⟨C, hC.mono fun t ht => ⟨trivial, _, rfl, ASSolver.near_coefs _ trivial ht⟩⟩
  · obtain ⟨C, hC⟩ := IF45DP.flCoefs_near (gap_fine R0) L (fun t => L + t.dv) (FlNear.lit (gap_fine R0) (h_bdd R0)) (hz L)
    exact ⟨C, hC.mono fun t ht => ⟨trivial, _, rfl, ASSolver.near_coefs _ trivial ht⟩⟩

end Verif
