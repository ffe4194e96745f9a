import Verif.Props.ContourBounds
import Verif.Lemmas.Calculus
import Mathlib.Analysis.SpecialFunctions.ExpDeriv

/-!
# Bounds that do not depend on the size of the linear operator

For numbers `z` with real part at most `ω ≥ 0` the functions `φ_k(z)` are at most `e^ω`.  Duhamel's principle: the solution of
`y' = λ y + g` is given by the φ functions up to errors that depend on `g` and `ω` only.
-/

set_option linter.unusedSectionVars false

namespace Verif

open Matrix Finset
open scoped Matrix.Norms.Operator

variable {ι : Type} [Fintype ι] [DecidableEq ι]

theorem norm_cexp_le {z : ℂ} {ω : ℝ} (hz : z.re ≤ ω) : ‖Complex.exp z‖ ≤ Real.exp ω := by
  rw [Complex.norm_exp]; exact Real.exp_le_exp.mpr hz

/-- The φ functions are bounded on half planes. -/
theorem norm_phi_le_of_re {z : ℂ} {ω : ℝ} (hω : 0 ≤ ω) (hz : z.re ≤ ω) (k : ℕ) : ‖phi k z‖ ≤ Real.exp ω := by
  cases k with
  | zero => rw [phi_zero]; exact norm_cexp_le hz
  | succ r =>
    rw [C28_phi_integral]
    have := intervalIntegral.norm_integral_le_of_norm_le_const (a := (0 : ℝ)) (b := 1) (C := Real.exp ω)
      (f := fun θ : ℝ => Complex.exp ((1 - θ) * z) * (θ : ℂ) ^ r / (r.factorial : ℂ)) (by
      intro θ hθ
      rw [Set.uIoc_of_le zero_le_one] at hθ
      rw [norm_div, norm_mul, norm_pow, Complex.norm_real, Real.norm_of_nonneg hθ.1.le, Complex.norm_natCast]
      have h1 : ‖Complex.exp ((1 - θ) * z)‖ ≤ Real.exp ω := by
        refine norm_cexp_le ?_
        have : ((1 - (θ : ℂ)) * z).re = (1 - θ) * z.re := by
          rw [← Complex.ofReal_one, ← Complex.ofReal_sub, Complex.re_ofReal_mul]
        rw [this]
        calc (1 - θ) * z.re ≤ (1 - θ) * ω := mul_le_mul_of_nonneg_left hz (by linarith [hθ.2])
          _ ≤ ω := mul_le_of_le_one_left hω (by linarith [hθ.1])
      have h2 : θ ^ r ≤ 1 := pow_le_one₀ hθ.1.le hθ.2
      have h3 : (1 : ℝ) ≤ r.factorial := by exact_mod_cast Nat.one_le_iff_ne_zero.mpr (Nat.factorial_ne_zero r)
      rw [div_le_iff₀ (by linarith)]
      calc _ ≤ Real.exp ω * 1 := mul_le_mul h1 h2 (pow_nonneg hθ.1.le r) (Real.exp_pos _).le
        _ ≤ _ := mul_le_mul_of_nonneg_left h3 (Real.exp_pos _).le)
    simpa using this

theorem smul_diagonal' (a : ℂ) (L : Vec ι) : a • Matrix.diagonal L = Matrix.diagonal fun i => a * L i := by
  rw [← Matrix.diagonal_smul]; rfl

theorem expm_diag (L : Vec ι) (θ : ℝ) : expm (Matrix.diagonal L) θ = Matrix.diagonal fun i => Complex.exp (θ * L i) := by
  unfold expm
  rw [← phiMat_zero, smul_diagonal', phiMat_diagonal]
  simp only [phi_zero]

theorem phiExact_diag (L : Vec ι) (h : ℝ) (k : ℕ) (c : ℝ) :
    phiExact (Matrix.diagonal L) h k c = Matrix.diagonal fun i => phi k (((c * h : ℝ) : ℂ) * L i) := by
  unfold phiExact
  rw [smul_diagonal', phiMat_diagonal]

theorem norm_diagonal_le {v : Vec ι} {b : ℝ} (hb : 0 ≤ b) (h : ∀ i, ‖v i‖ ≤ b) : ‖Matrix.diagonal v‖ ≤ b := by
  rw [Matrix.linfty_opNorm_diagonal]
  exact (pi_norm_le_iff_of_nonneg hb).mpr h

theorem re_smul_le {z : ℂ} {ω θ : ℝ} (hω : 0 ≤ ω) (hz : z.re ≤ ω) (h0 : 0 ≤ θ) (h1 : θ ≤ 1) : ((θ : ℂ) * z).re ≤ ω := by
  rw [Complex.re_ofReal_mul]
  calc θ * z.re ≤ θ * ω := mul_le_mul_of_nonneg_left hz h0
    _ ≤ ω := mul_le_of_le_one_left hω h1

/-- `exp(θ L)` for a diagonal operator. -/
theorem expm_diag_le {L : Vec ι} {ω θ : ℝ} (hL : ∀ i, (L i).re ≤ ω) (h0 : 0 ≤ θ) :
    ‖expm (Matrix.diagonal L) θ‖ ≤ Real.exp (ω * θ) := by
  rw [expm_diag]
  refine norm_diagonal_le (Real.exp_pos _).le fun i => norm_cexp_le ?_
  rw [Complex.re_ofReal_mul, mul_comm]
  exact mul_le_mul_of_nonneg_right (hL i) h0

theorem phiExact_diag_le {L : Vec ι} {ω : ℝ} (hω : 0 ≤ ω) (hL : ∀ i, (L i).re ≤ ω) {h c : ℝ} (h0 : 0 ≤ c * h) (h1 : c * h ≤ 1)
    (k : ℕ) : ‖phiExact (Matrix.diagonal L) h k c‖ ≤ Real.exp ω := by
  rw [phiExact_diag]
  exact norm_diagonal_le (Real.exp_pos _).le fun i => norm_phi_le_of_re hω (re_smul_le hω (hL i) h0 h1) k

/-- Growth of `e^{ω h}` for steps of length at most one. -/
theorem exp_le_one_add {ω h : ℝ} (hω : 0 ≤ ω) (h0 : 0 ≤ h) (h1 : h ≤ 1) : Real.exp (ω * h) ≤ 1 + ω * Real.exp ω * h := by
  have h2 := Real.one_sub_le_exp_neg (ω * h)
  have h3 : 0 < Real.exp (ω * h) := Real.exp_pos _
  have h4 : Real.exp (ω * h) ≤ Real.exp ω := Real.exp_le_exp.mpr (mul_le_of_le_one_right hω h1)
  rw [Real.exp_neg] at h2
  have h6 := mul_le_mul_of_nonneg_left h2 h3.le
  rw [mul_inv_cancel₀ h3.ne'] at h6
  have h7 : ω * h * Real.exp (ω * h) ≤ ω * h * Real.exp ω := mul_le_mul_of_nonneg_left h4 (by positivity)
  linarith

/-! ### Duhamel's principle -/

/-- A solution of `r' = λ r + ρ` that starts at zero. -/
theorem duhamel {lam : ℂ} {ω : ℝ} (hω : 0 ≤ ω) (hl : lam.re ≤ ω) {r ρ : ℝ → ℂ} {σ D : ℝ} (hσ : 0 ≤ σ) (hr0 : r 0 = 0)
    (hr : ∀ s ∈ Set.Icc 0 σ, HasDerivWithinAt r (lam * r s + ρ s) (Set.Icc 0 σ) s) (hρ : ∀ s ∈ Set.Icc 0 σ, ‖ρ s‖ ≤ D) :
    ‖r σ‖ ≤ Real.exp (ω * σ) * D * σ := by
  have hD : 0 ≤ D := (norm_nonneg _).trans (hρ 0 ⟨le_rfl, hσ⟩)
  have hd : ∀ s ∈ Set.Icc 0 σ, HasDerivWithinAt (fun s : ℝ => Complex.exp (lam * ((σ : ℂ) - s)) * r s)
      (Complex.exp (lam * ((σ : ℂ) - s)) * ρ s) (Set.Icc 0 σ) s := by
    intro s hs
    have h1 : HasDerivAt (fun s : ℝ => lam * ((σ : ℂ) - s)) (lam * -1) s := by
      have := (Complex.ofRealCLM.hasDerivAt (x := s)).const_sub (σ : ℂ) |>.const_mul lam
      simpa using this
    refine (h1.cexp.hasDerivWithinAt.mul (hr s hs)).congr_deriv ?_
    ring
  have hb : ∀ s ∈ Set.Icc 0 σ, ‖Complex.exp (lam * ((σ : ℂ) - s)) * ρ s‖ ≤ Real.exp (ω * σ) * D := by
    intro s hs
    rw [norm_mul]
    refine mul_le_mul (norm_cexp_le ?_) (hρ s hs) (norm_nonneg _) (Real.exp_pos _).le
    rw [mul_comm, ← Complex.ofReal_sub, Complex.re_ofReal_mul, mul_comm]
    calc lam.re * (σ - s) ≤ ω * (σ - s) := mul_le_mul_of_nonneg_right hl (by linarith [hs.2])
      _ ≤ ω * σ := mul_le_mul_of_nonneg_left (by linarith [hs.1]) hω
  have := (convex_Icc (0 : ℝ) σ).norm_image_sub_le_of_norm_hasDerivWithin_le hd hb ⟨le_rfl, hσ⟩ ⟨hσ, le_rfl⟩
  simp only [hr0, mul_zero, sub_zero, sub_self, Complex.exp_zero, one_mul, Real.norm_of_nonneg hσ] at this
  exact this

theorem phiOne_deriv (lam : ℂ) (t : ℝ) :
    HasDerivAt (fun s : ℝ => (s : ℂ) * phi 1 (s * lam)) (lam * ((t : ℂ) * phi 1 (t * lam)) + 1) t := by
  have h1 : ∀ s : ℝ, lam * ((s : ℂ) * phi 1 (s * lam)) = Complex.exp (s * lam) - 1 := by
    intro s
    have := phi_succ 0 (s * lam)
    rw [phi_zero] at this
    rw [this]
    simp only [Nat.factorial_zero, Nat.cast_one, inv_one, zero_add]
    ring
  have hs : HasDerivAt (fun s : ℝ => (s : ℂ)) 1 t := by simpa using (hasDerivAt_id' t).ofReal_comp
  by_cases hl : lam = 0
  · subst hl
    simp only [mul_zero, phi_at_zero, zero_mul, zero_add]
    simpa using hs
  · have h2 : (fun s : ℝ => (s : ℂ) * phi 1 (s * lam)) = fun s : ℝ => (Complex.exp (s * lam) - 1) / lam := by
      funext s
      rw [← h1 s, mul_div_cancel_left₀ _ hl]
    rw [h2, h1 t]
    have h3 : HasDerivAt (fun s : ℝ => (s : ℂ) * lam) lam t := by simpa using hs.mul_const lam
    refine ((h3.cexp.sub_const 1).div_const lam).congr_deriv ?_
    rw [mul_div_assoc, div_self hl]; ring

theorem phiTwo_deriv (lam : ℂ) (t : ℝ) :
    HasDerivAt (fun s : ℝ => (s : ℂ) ^ 2 * phi 2 (s * lam)) (lam * ((t : ℂ) ^ 2 * phi 2 (t * lam)) + t) t := by
  have h1 : ∀ s : ℝ, lam * ((s : ℂ) ^ 2 * phi 2 (s * lam)) = (s : ℂ) * phi 1 (s * lam) - s := by
    intro s
    rw [phi_succ 1 (s * lam)]
    simp only [Nat.factorial_one, Nat.cast_one, inv_one]
    ring
  have hs : HasDerivAt (fun s : ℝ => (s : ℂ)) 1 t := by simpa using (hasDerivAt_id' t).ofReal_comp
  by_cases hl : lam = 0
  · subst hl
    have h2 := (hs.fun_pow 2).mul_const (2 : ℂ)⁻¹
    simp only [mul_zero, phi_at_zero, zero_mul, zero_add]
    refine (h2.congr_deriv ?_)
    simp; ring
  · have h2 : (fun s : ℝ => (s : ℂ) ^ 2 * phi 2 (s * lam)) = fun s : ℝ => ((s : ℂ) * phi 1 (s * lam) - s) / lam := by
      funext s
      rw [← h1 s, mul_div_cancel_left₀ _ hl]
    rw [h2, h1 t]
    refine (((phiOne_deriv lam t).sub hs).div_const lam).congr_deriv ?_
    rw [add_sub_cancel_right, mul_div_cancel_left₀ _ hl]; ring

end Verif
