import Verif.Props.Schemes
import Verif.Props.Liveness
import Mathlib.Analysis.SpecificLimits.Normed
import Verif.Lemmas.Intertwine
import Verif.Spec.TestEquation

/-!
# C89: the integrating factor solvers on linear problems `u' = L u + A u`
-/

set_option linter.unusedSectionVars false

namespace Verif

open Matrix

variable {ι : Type} [Fintype ι] [DecidableEq ι]

theorem interaction_commute {L A : Mat ι} (hA : A * L = L * A) : interaction L (fun v => A *ᵥ v) = fun _ v => A *ᵥ v := by
  funext t v
  rw [interaction, mulVec_mulVec _ A, expm_intertw hA t, ← mulVec_mulVec, expm_mulVec_add, neg_add_cancel, expm_zero, one_mulVec]

theorem rk4_linear (A : Mat ι) (h : ℝ) (u v' e : Vec ι) (hv : IsRKStep rk4 (fun _ v => A *ᵥ v) h u v' e) :
    v' = (1 + (h : ℂ) • A + (1 / 2 : ℂ) • ((h : ℂ) • A) ^ 2 + (1 / 6 : ℂ) • ((h : ℂ) • A) ^ 3 + (1 / 24 : ℂ) • ((h : ℂ) • A) ^ 4) *ᵥ u ∧
    e = ((1 / 72 : ℂ) • ((h : ℂ) • A) ^ 4 - (1 / 144 : ℂ) • ((h : ℂ) • A) ^ 5) *ᵥ u := by
  obtain ⟨k1, k2, k3, k4, rfl, rfl, rfl, rfl, rfl, rfl⟩ := (C21_rk4_textbook _ _ _ _ _).1 hv
  have hp : ∀ k, A *ᵥ (A ^ k *ᵥ u) = A ^ (k + 1) *ᵥ u := fun k => by rw [mulVec_mulVec, ← pow_succ']
  have h1 : A *ᵥ u = A ^ 1 *ᵥ u := by rw [pow_one]
  simp only [smul_pow, add_mulVec, sub_mulVec, smul_mulVec, one_mulVec, mulVec_add, mulVec_smul]
  simp only [h1, hp]
  constructor <;> module

theorem dp_linear (A : Mat ι) (h : ℝ) (u v' e : Vec ι) (K : ℕ → Vec ι)
    (hK : ∀ i < 7, K i = A *ᵥ (u + (h : ℂ) • ∑ j ∈ Finset.range i, (dormandPrince.a i j : ℂ) • K j))
    (h1 : v' = u + (h : ℂ) • ∑ j ∈ Finset.range 7, (dormandPrince.b j : ℂ) • K j)
    (h2 : e = (h : ℂ) • ∑ j ∈ Finset.range 7, (dormandPrince.r j : ℂ) • K j) :
    v' = (1 + (h : ℂ) • A + (1 / 2 : ℂ) • ((h : ℂ) • A) ^ 2 + (1 / 6 : ℂ) • ((h : ℂ) • A) ^ 3 + (1 / 24 : ℂ) • ((h : ℂ) • A) ^ 4 +
      (1 / 120 : ℂ) • ((h : ℂ) • A) ^ 5 + (1 / 600 : ℂ) • ((h : ℂ) • A) ^ 6) *ᵥ u ∧
    e - (9 / 320 * h : ℂ) • K 3 = -((9 / 320 : ℂ) • ((h : ℂ) • A) + (9 / 400 : ℂ) • ((h : ℂ) • A) ^ 2 + (9 / 1000 : ℂ) • ((h : ℂ) • A) ^ 3 +
      (9 / 2000 : ℂ) • ((h : ℂ) • A) ^ 4 + (97 / 120000 : ℂ) • ((h : ℂ) • A) ^ 5 - (13 / 40000 : ℂ) • ((h : ℂ) • A) ^ 6 +
      (1 / 24000 : ℂ) • ((h : ℂ) • A) ^ 7) *ᵥ u := by
  have hp : ∀ k, A *ᵥ (A ^ k *ᵥ u) = A ^ (k + 1) *ᵥ u := fun k => by rw [mulVec_mulVec, ← pow_succ']
  have hu : A *ᵥ u = A ^ 1 *ᵥ u := by rw [pow_one]
  have e0 : K 0 = A ^ 1 *ᵥ u := by rw [hK 0 (by norm_num [dormandPrince]), ← hu]; simp
  have e1 : K 1 = A ^ 1 *ᵥ u + (1 / 5 * h ^ 1 : ℂ) • A ^ 2 *ᵥ u := by
    rw [hK 1 (by norm_num [dormandPrince])]
    simp only [dormandPrince, Finset.sum_range_succ, Finset.sum_range_zero, e0, mulVec_add, mulVec_smul, hu, hp, mulVec_zero]
    push_cast; module
  have e2 : K 2 = A ^ 1 *ᵥ u + (3 / 10 * h ^ 1 : ℂ) • A ^ 2 *ᵥ u + (9 / 200 * h ^ 2 : ℂ) • A ^ 3 *ᵥ u := by
    rw [hK 2 (by norm_num [dormandPrince])]
    simp only [dormandPrince, Finset.sum_range_succ, Finset.sum_range_zero, e0, e1, mulVec_add, mulVec_smul, hu, hp, mulVec_zero]
    push_cast; module
  have e3 : K 3 = A ^ 1 *ᵥ u + (4 / 5 * h ^ 1 : ℂ) • A ^ 2 *ᵥ u + (8 / 25 * h ^ 2 : ℂ) • A ^ 3 *ᵥ u + (4 / 25 * h ^ 3 : ℂ) • A ^ 4 *ᵥ u := by
    rw [hK 3 (by norm_num [dormandPrince])]
    simp only [dormandPrince, Finset.sum_range_succ, Finset.sum_range_zero, e0, e1, e2, mulVec_add, mulVec_smul, hu, hp, mulVec_zero]
    push_cast; module
  have e4 : K 4 = A ^ 1 *ᵥ u + (8 / 9 * h ^ 1 : ℂ) • A ^ 2 *ᵥ u + (32 / 81 * h ^ 2 : ℂ) • A ^ 3 *ᵥ u + (424 / 1215 * h ^ 3 : ℂ) • A ^ 4 *ᵥ u + (-848 / 18225 * h ^ 4 : ℂ) • A ^ 5 *ᵥ u := by
    rw [hK 4 (by norm_num [dormandPrince])]
    simp only [dormandPrince, Finset.sum_range_succ, Finset.sum_range_zero, e0, e1, e2, e3, mulVec_add, mulVec_smul, hu, hp, mulVec_zero]
    push_cast; module
  have e5 : K 5 = A ^ 1 *ᵥ u + (1 / 1 * h ^ 1 : ℂ) • A ^ 2 *ᵥ u + (1 / 2 * h ^ 2 : ℂ) • A ^ 3 *ᵥ u + (21 / 55 * h ^ 3 : ℂ) • A ^ 4 *ᵥ u + (-14 / 275 * h ^ 4 : ℂ) • A ^ 5 *ᵥ u + (7 / 550 * h ^ 5 : ℂ) • A ^ 6 *ᵥ u := by
    rw [hK 5 (by norm_num [dormandPrince])]
    simp only [dormandPrince, Finset.sum_range_succ, Finset.sum_range_zero, e0, e1, e2, e3, e4, mulVec_add, mulVec_smul, hu, hp, mulVec_zero]
    push_cast; module
  have e6 : K 6 = A ^ 1 *ᵥ u + (h : ℂ) • A ^ 2 *ᵥ u + (1 / 2 * h ^ 2 : ℂ) • A ^ 3 *ᵥ u + (1 / 6 * h ^ 3 : ℂ) • A ^ 4 *ᵥ u +
      (1 / 24 * h ^ 4 : ℂ) • A ^ 5 *ᵥ u + (1 / 120 * h ^ 5 : ℂ) • A ^ 6 *ᵥ u + (1 / 600 * h ^ 6 : ℂ) • A ^ 7 *ᵥ u := by
    rw [hK 6 (by norm_num)]
    simp only [dormandPrince, Finset.sum_range_succ, Finset.sum_range_zero, e0, e1, e2, e3, e4, e5, mulVec_add, mulVec_smul, hu, hp, mulVec_zero]
    push_cast; module
  constructor
  · rw [h1]
    simp only [smul_pow, add_mulVec, smul_mulVec, one_mulVec]
    simp only [dormandPrince, Finset.sum_range_succ, Finset.sum_range_zero, e0, e1, e2, e3, e4, e5, hu]
    push_cast; module
  · rw [h2]
    simp only [smul_pow, neg_mulVec, sub_mulVec, add_mulVec, smul_mulVec, one_mulVec]
    simp only [dormandPrince, Finset.sum_range_succ, Finset.sum_range_zero, e0, e1, e2, e3, e4, e5, e6, hu]
    push_cast; module

/-! ### Steps -/

/-- **C89.** A step of IF4 for `u' = L u + A u` with commuting `L` and `A`: the linear part is exact, the other one is treated by the Taylor
polynomial of degree 4 of the exponential function. -/
theorem C89_if4_step (L : LinOp ι) (A : Mat ι) (hA : A * L.mat = L.mat * A) (u : Vec ι) (h : ℝ) (hh : 0 ≤ h) :
    ((CSSolver.if4 L).step (total fun v => A *ᵥ v) u h (CSSolver.if4 L).new).1 = .ok (expm L.mat h *ᵥ
      ((1 + (h : ℂ) • A + (1 / 2 : ℂ) • ((h : ℂ) • A) ^ 2 + (1 / 6 : ℂ) • ((h : ℂ) • A) ^ 3 + (1 / 24 : ℂ) • ((h : ℂ) • A) ^ 4) *ᵥ u)) := by
  obtain ⟨v', e, hv⟩ := IsRKStep.exists rk4 (interaction L.mat fun v => A *ᵥ v) h u
  rw [C21_if4 L _ u h hh v' e hv]
  rw [interaction_commute hA] at hv
  rw [(rk4_linear A h u v' e hv).1]

/-- **C89.** A trial of IF34: the same solution, and an error estimate of order 4 that vanishes also for the eigenvalue `2/h` of `A`. -/
theorem C89_if34_trial (L : ASOp ι) (A : Mat ι) (hA : A * L.mat = L.mat * A) (u : Vec ι) (h : ℝ) :
    ((ASSolver.if34 L).trial (total fun v => A *ᵥ v) u h (ASSolver.if34 L).new).1 = .ok (expm L.mat h *ᵥ
      ((1 + (h : ℂ) • A + (1 / 2 : ℂ) • ((h : ℂ) • A) ^ 2 + (1 / 6 : ℂ) • ((h : ℂ) • A) ^ 3 + (1 / 24 : ℂ) • ((h : ℂ) • A) ^ 4) *ᵥ u),
      L.prj (expm L.mat h *ᵥ (((1 / 72 : ℂ) • ((h : ℂ) • A) ^ 4 - (1 / 144 : ℂ) • ((h : ℂ) • A) ^ 5) *ᵥ u))) := by
  obtain ⟨v', e, hv⟩ := IsRKStep.exists rk4 (interaction L.mat fun v => A *ᵥ v) h u
  rw [C21_if34 L _ u h v' e hv]
  rw [interaction_commute hA] at hv
  rw [(rk4_linear A h u v' e hv).1, (rk4_linear A h u v' e hv).2]

/-- **C89.** A trial of IF45DP: the Taylor polynomial of degree 5 and a term of degree 6; the error estimate, which should have order 5, has order 1. -/
theorem C89_if45dp_trial (L : Vec ι) (A : Mat ι) (hA : A * diagonal L = diagonal L * A) (u : Vec ι) (h : ℝ) :
    ((ASSolver.if45dp L).trial (total fun v => A *ᵥ v) u h (ASSolver.if45dp L).new).1 = .ok (expm (diagonal L) h *ᵥ
      ((1 + (h : ℂ) • A + (1 / 2 : ℂ) • ((h : ℂ) • A) ^ 2 + (1 / 6 : ℂ) • ((h : ℂ) • A) ^ 3 + (1 / 24 : ℂ) • ((h : ℂ) • A) ^ 4 +
        (1 / 120 : ℂ) • ((h : ℂ) • A) ^ 5 + (1 / 600 : ℂ) • ((h : ℂ) • A) ^ 6) *ᵥ u),
      expm (diagonal L) h *ᵥ (-((9 / 320 : ℂ) • ((h : ℂ) • A) + (9 / 400 : ℂ) • ((h : ℂ) • A) ^ 2 + (9 / 1000 : ℂ) • ((h : ℂ) • A) ^ 3 +
        (9 / 2000 : ℂ) • ((h : ℂ) • A) ^ 4 + (97 / 120000 : ℂ) • ((h : ℂ) • A) ^ 5 - (13 / 40000 : ℂ) • ((h : ℂ) • A) ^ 6 +
        (1 / 24000 : ℂ) • ((h : ℂ) • A) ^ 7) *ᵥ u)) := by
  obtain ⟨v', e, K, hK, h1, h2⟩ := IsRKStep.exists dormandPrince (interaction (diagonal L) fun v => A *ᵥ v) h u
  rw [C54_error L _ u h v' e K hK h1 h2]
  rw [interaction_commute hA] at hK
  obtain ⟨r1, r2⟩ := dp_linear A h u v' e K hK h1 h2
  rw [r2, r1]

/-! ### Modes -/

theorem if4_mode (L lam u : Vec ι) (h : ℝ) (hh : 0 ≤ h) :
    ((CSSolver.if4 (.diag L)).step (total fun v i => lam i * v i) u h (CSSolver.if4 (.diag L)).new).1 =
      .ok fun i => Complex.exp (h * L i) * ampRK4 (h * lam i) * u i := by
  have e : (fun v : Vec ι => fun i => lam i * v i) = fun v => diagonal lam *ᵥ v := by funext v i; rw [mulVec_diagonal]
  rw [e, C89_if4_step (.diag L) (diagonal lam) (by
    show diagonal lam * diagonal L = diagonal L * diagonal lam
    rw [diagonal_mul_diagonal, diagonal_mul_diagonal]; congr 1; funext i; ring) u h hh]
  congr 1
  funext i
  show (expm (diagonal L) h *ᵥ _) i = _
  rw [expm_diagonal, mulVec_diagonal, mul_assoc]
  congr 1
  simp only [add_mulVec, smul_mulVec, one_mulVec, smul_pow, diagonal_pow, Pi.add_apply, Pi.smul_apply, mulVec_diagonal, Pi.pow_apply, smul_eq_mul]
  rw [ampRK4]; ring

/-- **C89.** A run of IF4 with a diagonal operator for `N(u) = λ u`, mode by mode: `n` steps multiply mode `i` by
`(exp(h L_i) R(h λ_i))^n`, `R` the stability function of the classical method. -/
theorem C89_if4_evolve (L lam u : Vec ι) (t0 tf h : ℝ) (hh : 0 < h) (hspan : t0 + h ≤ tf) (n : ℕ) (hn : IsLeast {n : ℕ | tf ≤ t0 + n * h} n)
    (s : (CSSolver.if4 (.diag L)).State) (fuel : ℕ) (hfuel : n < fuel) :
    ((CSSolver.if4 (.diag L)).evolve (total fun v i => lam i * v i) id false fuel u t0 tf h true 1 s).1 =
      .ok (some fun i => (Complex.exp (h * L i) * ampRK4 (h * lam i)) ^ n * u i) ∧
    ((CSSolver.if4 (.diag L)).evolve (total fun v i => lam i * v i) id false fuel u t0 tf h true 1 s).2.u =
      (List.range (n + 1)).map fun k i => (Complex.exp (h * L i) * ampRK4 (h * lam i)) ^ k * u i := by
  have := (CSSolver.if4 (.diag L)).evolve_ok (total fun v i => lam i * v i) false u t0 tf h true 1 hh hspan (by simp) n hn (by simp)
    (fun k i => (Complex.exp (h * L i) * ampRK4 (h * lam i)) ^ k * u i) (by simp) (fun k _ => by
      rw [← CSSolver.step_new _ _ _ _ hh.le, if4_mode L lam _ h hh.le]
      congr 1; funext i; ring) s fuel hfuel
  refine ⟨this.1, this.2.2.1.trans ?_⟩
  rw [if_pos rfl]
  congr 1
  exact List.filter_eq_self.2 fun k _ => by simp

/-! ### Stability limits -/

theorem ampRK4_imag (y : ℝ) : ‖ampRK4 (y * Complex.I)‖ ^ 2 = 1 - y ^ 6 / 72 + y ^ 8 / 576 := by
  have e : ampRK4 (y * Complex.I) = ((1 - y ^ 2 / 2 + y ^ 4 / 24 : ℝ) : ℂ) + ((y - y ^ 3 / 6 : ℝ) : ℂ) * Complex.I := by
    rw [ampRK4]
    push_cast
    linear_combination (y ^ 2 / 2 + y ^ 3 / 6 * Complex.I + y ^ 4 / 24 * (Complex.I ^ 2 - 1)) * Complex.I_sq
  rw [e, ← Complex.normSq_eq_norm_sq, Complex.normSq_add_mul_I]; ring

theorem ampRK4_real (x : ℝ) : ‖ampRK4 (-x)‖ = 1 - x + x ^ 2 / 2 - x ^ 3 / 6 + x ^ 4 / 24 := by
  have e : ampRK4 (-x) = ((1 - x + x ^ 2 / 2 - x ^ 3 / 6 + x ^ 4 / 24 : ℝ) : ℂ) := by rw [ampRK4]; push_cast; ring
  rw [e, Complex.norm_real, Real.norm_eq_abs, abs_of_nonneg]
  nlinarith [sq_nonneg (x ^ 2 - 2 * x), sq_nonneg (x - 2), sq_nonneg (x - 1), sq_nonneg (x ^ 2 - 2 * x + 1)]

theorem ampDP_imag (y : ℝ) : ‖ampDP (y * Complex.I)‖ ^ 2 = 1 + y ^ 6 * (y ^ 6 - 25 * y ^ 4 + 225 * y ^ 2 - 200) / 360000 := by
  have e : ampDP (y * Complex.I) = ((1 - y ^ 2 / 2 + y ^ 4 / 24 - y ^ 6 / 600 : ℝ) : ℂ) + ((y - y ^ 3 / 6 + y ^ 5 / 120 : ℝ) : ℂ) * Complex.I := by
    rw [ampDP]
    push_cast
    linear_combination (y ^ 2 / 2 + y ^ 3 / 6 * Complex.I + y ^ 4 / 24 * (Complex.I ^ 2 - 1) + y ^ 5 / 120 * Complex.I * (Complex.I ^ 2 - 1) +
      y ^ 6 / 600 * (Complex.I ^ 4 - Complex.I ^ 2 + 1)) * Complex.I_sq
  rw [e, ← Complex.normSq_eq_norm_sq, Complex.normSq_add_mul_I]; ring

theorem norm_le_one_iff_sq (z : ℂ) : ‖z‖ ≤ 1 ↔ ‖z‖ ^ 2 ≤ 1 := by
  rw [sq_le_one_iff₀ (norm_nonneg _)]

/-- **C89.** Stability limits: the classical method does not amplify oscillations `λ = i y / h` exactly for `|y| ≤ 2 √2`, nor decay `λ = - x / h`,
`x ≥ 0`, exactly for `x^3 - 4 x^2 + 12 x ≤ 24`, as for `x ≤ 2.785`, not for `x ≥ 2.786`; Dormand and Prince's does not amplify oscillations exactly for
`y^6 - 25 y^4 + 225 y^2 ≤ 200`, as for `|y| ≤ 0.99`, not for `|y| ≥ 1`. -/
theorem C89_limits (y x : ℝ) (hx : 0 ≤ x) :
    (‖ampRK4 (y * Complex.I)‖ ≤ 1 ↔ |y| ≤ 2 * Real.sqrt 2) ∧
    (‖ampRK4 (-x)‖ ≤ 1 ↔ x ^ 3 - 4 * x ^ 2 + 12 * x ≤ 24) ∧ (x ≤ 2.785 → ‖ampRK4 (-x)‖ ≤ 1) ∧ (2.786 ≤ x → 1 < ‖ampRK4 (-x)‖) ∧
    (‖ampDP (y * Complex.I)‖ ≤ 1 ↔ y ^ 6 - 25 * y ^ 4 + 225 * y ^ 2 ≤ 200) ∧
    (|y| ≤ 0.99 → ‖ampDP (y * Complex.I)‖ ≤ 1) ∧ (1 ≤ |y| → 1 < ‖ampDP (y * Complex.I)‖) := by
  have hreal : ‖ampRK4 (-x)‖ ≤ 1 ↔ x ^ 3 - 4 * x ^ 2 + 12 * x ≤ 24 := by
    rw [ampRK4_real]
    rcases hx.eq_or_lt with rfl | hx
    · norm_num
    · have e : 1 - x + x ^ 2 / 2 - x ^ 3 / 6 + x ^ 4 / 24 - 1 = x * (x ^ 3 - 4 * x ^ 2 + 12 * x - 24) / 24 := by ring
      constructor
      · intro h
        by_contra hc
        have := mul_pos hx (show 0 < x ^ 3 - 4 * x ^ 2 + 12 * x - 24 by linarith)
        linarith
      · intro h
        have := mul_nonpos_of_nonneg_of_nonpos hx.le (show x ^ 3 - 4 * x ^ 2 + 12 * x - 24 ≤ 0 by linarith)
        linarith
  have hdp : ‖ampDP (y * Complex.I)‖ ≤ 1 ↔ y ^ 6 - 25 * y ^ 4 + 225 * y ^ 2 ≤ 200 := by
    rw [norm_le_one_iff_sq, ampDP_imag]
    by_cases h0 : y = 0
    · subst h0; norm_num
    · have h6 : 0 < y ^ 6 := by positivity
      constructor
      · intro h
        by_contra hc
        have := mul_pos h6 (show 0 < y ^ 6 - 25 * y ^ 4 + 225 * y ^ 2 - 200 by linarith)
        linarith
      · intro h
        have := mul_nonpos_of_nonneg_of_nonpos h6.le (show y ^ 6 - 25 * y ^ 4 + 225 * y ^ 2 - 200 ≤ 0 by linarith)
        linarith
  have mono : ∀ a b : ℝ, a ≤ b → a ^ 3 - 25 * a ^ 2 + 225 * a ≤ b ^ 3 - 25 * b ^ 2 + 225 * b := fun a b hab => by
    have : 0 ≤ (b - a) * (b ^ 2 + a * b + a ^ 2 - 25 * (a + b) + 225) :=
      mul_nonneg (by linarith) (by nlinarith [sq_nonneg (a - b), sq_nonneg (a + b - 50 / 3)])
    nlinarith
  have mono' : ∀ a b : ℝ, a ≤ b → a ^ 3 - 4 * a ^ 2 + 12 * a ≤ b ^ 3 - 4 * b ^ 2 + 12 * b := fun a b hab => by
    have : 0 ≤ (b - a) * (b ^ 2 + a * b + a ^ 2 - 4 * (a + b) + 12) :=
      mul_nonneg (by linarith) (by nlinarith [sq_nonneg (a - b), sq_nonneg (a + b - 8 / 3)])
    nlinarith
  refine ⟨?_, hreal, fun h => hreal.2 ?_, fun h => ?_, hdp, fun h => hdp.2 ?_, fun h => ?_⟩
  · rw [norm_le_one_iff_sq, ampRK4_imag]
    have h8 : |y| ≤ 2 * Real.sqrt 2 ↔ y ^ 2 ≤ 8 := by
      rw [← abs_of_nonneg (show 0 ≤ 2 * Real.sqrt 2 by positivity), ← sq_le_sq, mul_pow, Real.sq_sqrt (by norm_num)]; norm_num
    rw [h8]
    by_cases h0 : y = 0
    · subst h0; norm_num
    · have h6 : 0 < y ^ 6 := by positivity
      have e : 1 - y ^ 6 / 72 + y ^ 8 / 576 - 1 = y ^ 6 * (y ^ 2 - 8) / 576 := by ring
      constructor
      · intro h
        by_contra hc
        have := mul_pos h6 (show 0 < y ^ 2 - 8 by linarith)
        linarith
      · intro h
        have := mul_nonpos_of_nonneg_of_nonpos h6.le (show y ^ 2 - 8 ≤ 0 by linarith)
        linarith
  · have := mono' _ _ h; norm_num at this ⊢; linarith
  · rw [← not_le, hreal, not_le]
    have := mono' _ _ h; norm_num at this ⊢; linarith
  · have h2 : y ^ 2 ≤ 0.99 ^ 2 := by rw [← sq_abs]; exact pow_le_pow_left₀ (abs_nonneg _) h 2
    have := mono _ _ h2; norm_num at this ⊢; linarith
  · rw [← not_le, hdp, not_le]
    have h2 : (1 : ℝ) ^ 2 ≤ y ^ 2 := by rw [← sq_abs y]; exact pow_le_pow_left₀ (by norm_num) h 2
    have := mono _ _ h2; norm_num at this ⊢; linarith

/-- **C89.** IF4 with `Re L_i ≤ 0` and `|R(h λ_i)| ≤ 1`: mode `i` does not grow in runs of any length; in particular for oscillations `λ_i = i y` with
`h |y| ≤ 2 √2`, whatever `L` is. -/
theorem C89_if4_bounded (L lam u : Vec ι) (t0 tf h : ℝ) (hh : 0 < h) (hspan : t0 + h ≤ tf) (n : ℕ) (hn : IsLeast {n : ℕ | tf ≤ t0 + n * h} n)
    (s : (CSSolver.if4 (.diag L)).State) (fuel : ℕ) (hfuel : n < fuel) (i : ι) (hL : (L i).re ≤ 0)
    (hlam : ‖ampRK4 (h * lam i)‖ ≤ 1 ∨ ∃ y : ℝ, lam i = y * Complex.I ∧ h * |y| ≤ 2 * Real.sqrt 2) :
    ∀ w ∈ ((CSSolver.if4 (.diag L)).evolve (total fun v i => lam i * v i) id false fuel u t0 tf h true 1 s).2.u, ‖w i‖ ≤ ‖u i‖ := by
  have ha : ‖ampRK4 (h * lam i)‖ ≤ 1 := by
    rcases hlam with ha | ⟨y, hy, hyh⟩
    · exact ha
    · rw [hy, ← mul_assoc, ← Complex.ofReal_mul]
      refine (C89_limits (h * y) 0 le_rfl).1.2 ?_
      rwa [abs_mul, abs_of_pos hh]
  have he : ‖Complex.exp (h * L i)‖ ≤ 1 := by
    rw [Complex.norm_exp, Real.exp_le_one_iff, Complex.re_ofReal_mul]
    exact mul_nonpos_of_nonneg_of_nonpos hh.le hL
  intro w hw
  rw [(C89_if4_evolve L lam u t0 tf h hh hspan n hn s fuel hfuel).2] at hw
  obtain ⟨k, -, rfl⟩ := List.mem_map.1 hw
  simp only [norm_mul, norm_pow]
  exact mul_le_of_le_one_left (norm_nonneg _) (pow_le_one₀ (by positivity) (mul_le_one₀ he (norm_nonneg _) ha))

/-- **C89.** Beyond the limit modes with `Re L_i = 0` grow without bound: for `λ_i = i y` and `h |y| > 2 √2` there is `ρ > 1` such that `n` steps
multiply the modulus of mode `i` by `ρ^n`. -/
theorem C89_if4_unstable (L lam : Vec ι) (h : ℝ) (hh : 0 < h) (i : ι) (hL : (L i).re = 0) (y : ℝ) (hy : lam i = y * Complex.I)
    (hlim : 2 * Real.sqrt 2 < h * |y|) : ∃ ρ : ℝ, 1 < ρ ∧ ∀ (u : Vec ι) (t0 tf : ℝ), t0 + h ≤ tf → ∀ n : ℕ, IsLeast {n : ℕ | tf ≤ t0 + n * h} n →
      ∀ (s : (CSSolver.if4 (.diag L)).State) (fuel : ℕ), n < fuel → ∃ v,
      ((CSSolver.if4 (.diag L)).evolve (total fun v i => lam i * v i) id false fuel u t0 tf h true 1 s).1 = .ok (some v) ∧
      ‖v i‖ = ρ ^ n * ‖u i‖ := by
  refine ⟨‖ampRK4 (h * lam i)‖, ?_, fun u t0 tf hspan n hn s fuel hfuel => ⟨_, (C89_if4_evolve L lam u t0 tf h hh hspan n hn s fuel hfuel).1, ?_⟩⟩
  · rw [hy, ← mul_assoc, ← Complex.ofReal_mul, ← not_le, (C89_limits (h * y) 0 le_rfl).1, not_le, abs_mul, abs_of_pos hh]
    exact hlim
  · have he : ‖Complex.exp (h * L i)‖ = 1 := by
      rw [Complex.norm_exp, Complex.re_ofReal_mul, hL, mul_zero, Real.exp_zero]
    simp only [norm_mul, norm_pow, he, one_mul]

/-! ### Step sizes -/

theorem selNorm_const (c : ℝ) (v w : Vec ι) (a : ℂ) : selNorm c v (a • w) = ‖a‖ * selNorm c v w := by
  rw [selNorm, selNorm]
  simp only [Pi.smul_apply, smul_eq_mul, norm_mul, mul_pow]
  rw [← Finset.mul_sum, Real.sqrt_mul (sq_nonneg _), Real.sqrt_sq (norm_nonneg _)]

theorem accept_scalar {q : ℕ} (hq : 0 < q) {cfg : SolverConfig ℝ} (heps : 0 < cfg.epsilon) (hs : 0 < cfg.safety_f) (hc : cfg.adapt_cutoff < 1)
    {x : Vec ι} (hx : x ≠ 0) (R E : ℂ) :
    Acceptable (computeS q cfg (R • x) (E • x)) ↔ 0 < ‖E‖ ∧ ‖E‖ ≤ cfg.safety_f ^ q * cfg.epsilon * ‖R‖ := by
  rw [acceptable_iff hq heps hs, selNorm_const]
  rw [show selNorm cfg.adapt_cutoff (R • x) (R • x) = ‖R‖ * selNorm cfg.adapt_cutoff (R • x) x from selNorm_const _ _ _ _]
  by_cases hR : R = 0
  · subst hR
    have : selNorm cfg.adapt_cutoff ((0 : ℂ) • x) x = 0 := selNorm_eq_zero fun i hi => by simp [maxAbs_zero] at hi
    rw [this]
    simp only [mul_zero, lt_irrefl, false_and, norm_zero, false_iff, not_and, not_le, imp_self]
  · have hp : 0 < selNorm cfg.adapt_cutoff (R • x) x := by
      have h1 := selNorm_self hc (R • x)
      rw [selNorm_const, norm_smul] at h1
      have h2 : 0 < ‖R‖ * ‖x‖ := mul_pos (norm_pos_iff.2 hR) (norm_pos_iff.2 hx)
      exact pos_of_mul_pos_right (lt_of_lt_of_le h2 h1) (norm_nonneg _)
    rw [mul_pos_iff_of_pos_right hp, ← mul_assoc, mul_le_mul_iff_left₀ hp]

theorem expm_ne_zero (L : Mat ι) (h : ℝ) {u : Vec ι} (hu : u ≠ 0) : expm L h *ᵥ u ≠ 0 := fun h0 => hu (by
  have := expm_mulVec_add L (-h) h u
  rw [h0, mulVec_zero, neg_add_cancel, expm_zero, one_mulVec] at this
  exact this.symm)

/-- **C89.** IF34 for `N(u) = λ u` (not the diagonalized strategy): whether a trial is accepted depends neither on `L` nor on the solution nor on the
cutoff. With `w = λ h` it is if `0 < |w^4/72 - w^5/144| ≤ safety_f^4 ε |R(w)|`. -/
theorem C89_if34_accepts (L : ASOp ι) (hL : L.prj = id) (lam : ℂ) (cfg : SolverConfig ℝ) (heps : 0 < cfg.epsilon) (hs : 0 < cfg.safety_f)
    (hc : cfg.adapt_cutoff < 1) (u : Vec ι) (hu : u ≠ 0) (h : ℝ) :
    ∃ r, ((ASSolver.if34 L).trial (total fun v => lam • v) u h (ASSolver.if34 L).new).1 = .ok r ∧
      (Acceptable ((ASSolver.if34 L).factor (total fun v => lam • v) cfg r) ↔ 0 < ‖(h * lam) ^ 4 / 72 - (h * lam) ^ 5 / 144‖ ∧
        ‖(h * lam) ^ 4 / 72 - (h * lam) ^ 5 / 144‖ ≤ cfg.safety_f ^ 4 * cfg.epsilon * ‖ampRK4 (h * lam)‖) := by
  have e : (fun v : Vec ι => lam • v) = fun v => (lam • (1 : Mat ι)) *ᵥ v := by funext v; rw [smul_mulVec, one_mulVec]
  refine ⟨(ampRK4 (h * lam) • (expm L.mat h *ᵥ u), ((h * lam) ^ 4 / 72 - (h * lam) ^ 5 / 144) • (expm L.mat h *ᵥ u)), ?_, ?_⟩
  · rw [e, C89_if34_trial L (lam • 1) (by simp) u h, hL]
    simp only [Except.ok.injEq, Prod.mk.injEq, id]
    constructor
    · rw [← mulVec_smul]
      congr 1
      simp only [smul_smul, smul_pow, one_pow, add_mulVec, smul_mulVec, one_mulVec]
      rw [ampRK4]; module
    · rw [← mulVec_smul]
      congr 1
      simp only [smul_smul, smul_pow, one_pow, sub_mulVec, smul_mulVec, one_mulVec]
      module
  · rw [ASSolver.factor_eq]
    exact accept_scalar (by norm_num [ASSolver.q]) heps hs hc (expm_ne_zero _ _ hu) _ _

/-- **C89.** IF45DP for `N(u) = λ u`, in the same way; its estimate is `9/320 w` to first order. -/
theorem C89_if45dp_accepts (L : Vec ι) (lam : ℂ) (cfg : SolverConfig ℝ) (heps : 0 < cfg.epsilon) (hs : 0 < cfg.safety_f)
    (hc : cfg.adapt_cutoff < 1) (u : Vec ι) (hu : u ≠ 0) (h : ℝ) :
    let w := h * lam
    let E := 9 / 320 * w + 9 / 400 * w ^ 2 + 9 / 1000 * w ^ 3 + 9 / 2000 * w ^ 4 + 97 / 120000 * w ^ 5 - 13 / 40000 * w ^ 6 + 1 / 24000 * w ^ 7
    ∃ r, ((ASSolver.if45dp L).trial (total fun v => lam • v) u h (ASSolver.if45dp L).new).1 = .ok r ∧
      (Acceptable ((ASSolver.if45dp L).factor (total fun v => lam • v) cfg r) ↔ 0 < ‖E‖ ∧ ‖E‖ ≤ cfg.safety_f ^ 5 * cfg.epsilon * ‖ampDP w‖) := by
  intro w E
  have e : (fun v : Vec ι => lam • v) = fun v => (lam • (1 : Mat ι)) *ᵥ v := by funext v; rw [smul_mulVec, one_mulVec]
  refine ⟨(ampDP w • (expm (diagonal L) h *ᵥ u), (-E) • (expm (diagonal L) h *ᵥ u)), ?_, ?_⟩
  · rw [e, C89_if45dp_trial L (lam • 1) (by simp) u h]
    simp only [Except.ok.injEq, Prod.mk.injEq]
    constructor
    · rw [← mulVec_smul]
      congr 1
      simp only [smul_smul, smul_pow, one_pow, add_mulVec, smul_mulVec, one_mulVec]
      simp only [ampDP, w]; module
    · rw [← mulVec_smul]
      congr 1
      simp only [smul_smul, smul_pow, one_pow, neg_mulVec, sub_mulVec, add_mulVec, smul_mulVec, one_mulVec]
      simp only [E, w]; module
  · rw [ASSolver.factor_eq, ← norm_neg E]
    exact accept_scalar (by norm_num [ASSolver.q]) heps hs hc (expm_ne_zero _ _ hu) _ _

/-! ### Concrete cases -/

/-- `u' = 2 u`, `h = 1`: IF4 multiplies by 7. -/
example : ((CSSolver.if4 (.diag (0 : Vec (Fin 1)))).step (total fun v => ((2 : ℂ) • (1 : Mat (Fin 1))) *ᵥ v) 1 1 (CSSolver.if4 (.diag 0)).new).1 = .ok fun _ => 7 := by
  rw [C89_if4_step (.diag 0) ((2 : ℂ) • (1 : Mat (Fin 1))) (by simp) 1 1 (by norm_num)]
  congr 1
  funext i
  simp only [LinOp.mat, expm_zeroMat, one_mulVec, smul_smul, smul_pow, one_pow, add_mulVec, smul_mulVec]
  simp; norm_num

/-- Two modes, one with a strongly damping operator: for `h y = 2` they stay bounded, for `h y = 3` the undamped one explodes. -/
example (u : Vec (Fin 2)) (s : (CSSolver.if4 (.diag ![Complex.I, -1000])).State) :
    (∀ w ∈ ((CSSolver.if4 (.diag ![Complex.I, -1000])).evolve (total fun v i => (![2 * Complex.I, 2 * Complex.I] : Vec (Fin 2)) i * v i) id false 101 u 0 100 1 true 1 s).2.u,
      ∀ i, ‖w i‖ ≤ ‖u i‖) ∧
    ∃ ρ : ℝ, 1 < ρ ∧ ∃ v, ((CSSolver.if4 (.diag ![Complex.I, -1000])).evolve (total fun v i => (![3 * Complex.I, 2 * Complex.I] : Vec (Fin 2)) i * v i) id false 101 u 0 100 1
      true 1 s).1 = .ok (some v) ∧ ‖v 0‖ = ρ ^ 100 * ‖u 0‖ := by
  have hn : IsLeast {n : ℕ | (100 : ℝ) ≤ 0 + n * 1} 100 := ⟨by norm_num, fun n hn => by
    have : (100 : ℝ) ≤ n := by simpa using hn
    exact_mod_cast this⟩
  have hsq : (1.4 : ℝ) ≤ Real.sqrt 2 := Real.le_sqrt_of_sq_le (by norm_num)
  have hsq' : Real.sqrt 2 < 1.5 := by rw [Real.sqrt_lt' (by norm_num)]; norm_num
  constructor
  · intro w hw i
    refine C89_if4_bounded _ _ u 0 100 1 one_pos (by norm_num) 100 hn s 101 (by norm_num) i ?_ (.inr ⟨2, ?_, ?_⟩) w hw
    · fin_cases i <;> simp
    · fin_cases i <;> simp
    · rw [abs_of_pos (by norm_num)]; linarith
  · obtain ⟨ρ, h1, h2⟩ := C89_if4_unstable ![Complex.I, -1000] ![3 * Complex.I, 2 * Complex.I] 1 one_pos 0 (by simp) 3 (by simp)
      (by rw [abs_of_pos (by norm_num)]; linarith)
    exact ⟨ρ, h1, h2 u 0 100 (by norm_num) 100 hn s 101 (by norm_num)⟩

/-- Two steps of size 1/2. -/
example (L lam u : Vec (Fin 3)) (s : (CSSolver.if4 (.diag L)).State) : ((CSSolver.if4 (.diag L)).evolve (total fun v i => lam i * v i) id false 3 u 0 1 (1 / 2)
    true 1 s).1 = .ok (some fun i => (Complex.exp (((1 / 2 : ℝ) : ℂ) * L i) * ampRK4 (((1 / 2 : ℝ) : ℂ) * lam i)) ^ 2 * u i) :=
  (C89_if4_evolve L lam u 0 1 (1 / 2) (by norm_num) (by norm_num) 2 ⟨by norm_num, fun n hn => by
    have h1 : (1 : ℝ) ≤ 0 + n * (1 / 2) := hn
    have : (2 : ℝ) ≤ n := by linarith
    exact_mod_cast this⟩ s 3 (by norm_num)).1

/-- Matrices: a trial of IF34 and of IF45DP, `L` a multiple of the identity, `A` arbitrary. -/
example (A : Mat (Fin 2)) (u : Vec (Fin 2)) : (∃ r, ((ASSolver.if34 (.full (3 • 1))).trial (total fun v => A *ᵥ v) u 1 (ASSolver.if34 (.full (3 • 1))).new).1 = .ok r) ∧
    ∃ r, ((ASSolver.if45dp (fun _ => 3)).trial (total fun v => A *ᵥ v) u 1 (ASSolver.if45dp (fun _ => 3)).new).1 = .ok r := by
  refine ⟨⟨_, C89_if34_trial (.full (3 • 1)) A (by show A * (3 • 1) = (3 • 1) * A; rw [mul_smul_comm, smul_mul_assoc, mul_one, one_mul]) u 1⟩, ⟨_, C89_if45dp_trial (fun _ => 3) A ?_ u 1⟩⟩
  ext i j
  rw [mul_diagonal, diagonal_mul, mul_comm]

/-- Limits in numbers. -/
example : ‖ampRK4 ((2.8 : ℝ) * Complex.I)‖ ≤ 1 ∧ ‖ampRK4 (-(2.7 : ℝ))‖ ≤ 1 ∧ 1 < ‖ampRK4 (-(3 : ℝ))‖ ∧ ‖ampDP ((0.9 : ℝ) * Complex.I)‖ ≤ 1 ∧
    1 < ‖ampDP ((1.1 : ℝ) * Complex.I)‖ := by
  have hsq : (1.41 : ℝ) ≤ Real.sqrt 2 := Real.le_sqrt_of_sq_le (by norm_num)
  refine ⟨(C89_limits 2.8 0 le_rfl).1.2 ?_, (C89_limits 0 2.7 (by norm_num)).2.2.1 (by norm_num),
    (C89_limits 0 3 (by norm_num)).2.2.2.1 (by norm_num), (C89_limits 0.9 0 le_rfl).2.2.2.2.2.1 ?_, (C89_limits 1.1 0 le_rfl).2.2.2.2.2.2 ?_⟩
  · rw [abs_of_pos (by norm_num)]; linarith
  · rw [abs_of_pos (by norm_num)]; norm_num
  · rw [abs_of_pos (by norm_num)]; norm_num

/-- `λ = 1`, `h = 1`, `epsilon = 1`: IF34 and IF45DP accept; IF34 refuses `h = 2`, where its estimate vanishes. -/
example (u : Vec (Fin 2)) (hu : u ≠ 0) (L : Vec (Fin 2)) :
    (∃ r, ((ASSolver.if34 (.diag L)).trial (total fun v => (1 : ℂ) • v) u 1 (ASSolver.if34 (.diag L)).new).1 = .ok r ∧
      Acceptable ((ASSolver.if34 (.diag L)).factor (total fun v => (1 : ℂ) • v) demoCfg r)) ∧
    (∃ r, ((ASSolver.if34 (.diag L)).trial (total fun v => (1 : ℂ) • v) u 2 (ASSolver.if34 (.diag L)).new).1 = .ok r ∧
      ¬ Acceptable ((ASSolver.if34 (.diag L)).factor (total fun v => (1 : ℂ) • v) demoCfg r)) ∧
    ∃ r, ((ASSolver.if45dp L).trial (total fun v => (1 : ℂ) • v) u 1 (ASSolver.if45dp L).new).1 = .ok r ∧
      Acceptable ((ASSolver.if45dp L).factor (total fun v => (1 : ℂ) • v) demoCfg r) := by
  refine ⟨?_, ?_, ?_⟩
  · obtain ⟨r, h1, h2⟩ := C89_if34_accepts (.diag L) rfl 1 demoCfg (by norm_num [demoCfg]) (by norm_num [demoCfg]) (by norm_num [demoCfg]) u hu 1
    refine ⟨r, h1, h2.2 ?_⟩
    norm_num [demoCfg, ampRK4]
  · obtain ⟨r, h1, h2⟩ := C89_if34_accepts (.diag L) rfl 1 demoCfg (by norm_num [demoCfg]) (by norm_num [demoCfg]) (by norm_num [demoCfg]) u hu 2
    refine ⟨r, h1, fun h => ?_⟩
    have := (h2.1 h).1
    norm_num at this
  · obtain ⟨r, h1, h2⟩ := C89_if45dp_accepts L 1 demoCfg (by norm_num [demoCfg]) (by norm_num [demoCfg]) (by norm_num [demoCfg]) u hu 1
    refine ⟨r, h1, h2.2 ?_⟩
    norm_num [demoCfg, ampDP]

end Verif
