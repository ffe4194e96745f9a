import Verif.Lemmas.StiffStable

/-!
# Integrating factor methods near the equilibrium of a stiff problem

The problem is `y' = -μ y + 1` with equilibrium `1 / μ`.
-/

set_option linter.unusedSectionVars false

namespace Verif

open Matrix Finset
open scoped Matrix.Norms.Operator

variable {ι : Type} [Fintype ι] [DecidableEq ι]

theorem values_const (M : ERK ι) (w u : Vec ι) (n j : ℕ) : M.values (fun _ => w) u n j = if j < n then w else 0 := by
  induction n with
  | zero => simp [ERK.values]
  | succ n ih =>
    by_cases hj : j = n
    · subst hj; simp [ERK.values]
    · simp only [ERK.values, Function.update_of_ne hj, ih]
      have : j < n ↔ j < n + 1 := by omega
      simp [this]

theorem expm_const_mulVec (μ θ : ℝ) (x : ℂ) :
    expm (Matrix.diagonal fun _ : ι => -(μ : ℂ)) θ *ᵥ bc x = bc (Real.exp (-(μ * θ)) * x) := by
  rw [expm_diag]
  funext i
  rw [Matrix.mulVec_diagonal]
  simp only [bc, Complex.ofReal_exp]
  congr 2
  push_cast; ring

/-- A step of an integrating factor method. -/
theorem lawson_const (T : Tableau) (μ h r : ℝ) :
    ((lawson T (Matrix.diagonal fun _ : ι => -(μ : ℂ)) h).run (fun _ => bc 1) (bc (r : ℂ))).1 =
      bc ((Real.exp (-(μ * h)) * r + ∑ j ∈ range T.s, h * T.b j * Real.exp (-(μ * ((1 - T.c j) * h))) : ℝ) : ℂ) := by
  simp only [ERK.run, ERK.out]
  have h1 : ∀ j ∈ range (lawson T (Matrix.diagonal fun _ : ι => -(μ : ℂ)) h).s,
      (lawson T (Matrix.diagonal fun _ : ι => -(μ : ℂ)) h).B j *ᵥ
        (lawson T (Matrix.diagonal fun _ : ι => -(μ : ℂ)) h).values (fun _ => bc 1) (bc (r : ℂ)) (lawson T (Matrix.diagonal fun _ : ι => -(μ : ℂ)) h).s j =
      (bc ((h * T.b j * Real.exp (-(μ * ((1 - T.c j) * h))) : ℝ) : ℂ) : Vec ι) := by
    intro j hj
    rw [values_const, if_pos (mem_range.mp hj)]
    show (((h * T.b j : ℝ) : ℂ) • expm (Matrix.diagonal fun _ : ι => -(μ : ℂ)) ((1 - T.c j) * h)) *ᵥ bc 1 = _
    rw [Matrix.smul_mulVec, expm_const_mulVec]
    funext i
    simp [bc]
  rw [sum_congr rfl h1]
  show expm (Matrix.diagonal fun _ : ι => -(μ : ℂ)) h *ᵥ bc (r : ℂ) + _ = _
  rw [expm_const_mulVec]
  funext i
  rw [Pi.add_apply, Finset.sum_apply]
  simp only [bc]
  push_cast
  rfl

/-- The defect of the method in the equilibrium. -/
theorem rk4_defect {h : ℝ} (h0 : 0 < h) :
    h / 108 + h / 12 ≤ Real.exp (-(108 / h * h)) * (h / 108) + ∑ j ∈ range rk4.s, h * rk4.b j * Real.exp (-(108 / h * ((1 - rk4.c j) * h))) := by
  have e1 : ∀ x : ℝ, 108 / h * (x * h) = 108 * x := fun x => by field_simp
  have e2 : 108 / h * h = 108 := by field_simp
  have p := Real.exp_pos (-(108 / h * h))
  simp only [e1]
  show _ ≤ _ + ∑ j ∈ range 5, _
  simp only [sum_range_succ, range_zero, sum_empty, rk4]
  norm_num
  have p1 := Real.exp_pos (-108)
  have p2 := Real.exp_pos (-54)
  have q1 := mul_pos h0 p1
  have q2 := mul_pos h0 p2
  nlinarith

theorem dp_defect (r : ℝ) {h : ℝ} (h0 : 0 < h) :
    h / 108 + h / 12 ≤ Real.exp (-(108 / h * h)) * (h / 108) +
      ∑ j ∈ range (dpWith r).s, h * (dpWith r).b j * Real.exp (-(108 / h * ((1 - (dpWith r).c j) * h))) := by
  have e1 : ∀ x : ℝ, 108 / h * (x * h) = 108 * x := fun x => by field_simp
  have e2 : 108 / h * h = 108 := by field_simp
  simp only [e1, e2]
  show _ ≤ _ + ∑ j ∈ range 7, _
  simp only [sum_range_succ, range_zero, sum_empty, dpWith, dormandPrince]
  norm_num
  have p1 := mul_pos h0 (Real.exp_pos (-108))
  have p2 := mul_pos h0 (Real.exp_pos (-(378 / 5)))
  have p3 := mul_pos h0 (Real.exp_pos (-(108 / 5)))
  have p4 : Real.exp (-12) ≤ 1 / 13 := by
    rw [Real.exp_neg, ← one_div]
    exact one_div_le_one_div_of_le (by norm_num) (by have := Real.add_one_le_exp (12 : ℝ); linarith)
  have p5 := mul_le_mul_of_nonneg_left p4 h0.le
  linarith

end Verif
