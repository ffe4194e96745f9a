import Verif.Model.RoundedArith
import Verif.Lemmas.RoundedError

/-!
# NumPy's arithmetic is nearly exact
-/

set_option linter.unusedSectionVars false

namespace Verif

open Matrix
open scoped Matrix.Norms.Operator

variable {ι : Type} [Fintype ι] [DecidableEq ι] {rnd : ℝ → ℝ} {u : ℝ}

theorem cround_error (hr : ∀ x, |rnd x - x| ≤ u * |x|) (hu : 0 ≤ u) (z : ℂ) : ‖cround rnd z - z‖ ≤ 2 * u * ‖z‖ := by
  have h1 := Complex.norm_le_abs_re_add_abs_im (cround rnd z - z)
  have h2 : |(cround rnd z - z).re| ≤ u * |z.re| := hr z.re
  have h3 : |(cround rnd z - z).im| ≤ u * |z.im| := hr z.im
  have h4 := mul_le_mul_of_nonneg_left (Complex.abs_re_le_norm z) hu
  have h5 := mul_le_mul_of_nonneg_left (Complex.abs_im_le_norm z) hu
  linarith

/-- A rounded sum of two rounded numbers. -/
theorem rnd_two (hr : ∀ x, |rnd x - x| ≤ u * |x|) (hu : 0 ≤ u) (hu1 : u ≤ 1) (x y : ℝ) :
    |rnd (rnd x + rnd y) - (x + y)| ≤ 3 * u * (|x| + |y|) := by
  have h1 := hr x
  have h2 := hr y
  have h3 := hr (rnd x + rnd y)
  have h4 : |rnd x + rnd y| ≤ 2 * (|x| + |y|) := by
    have a1 : |rnd x| ≤ |rnd x - x| + |x| := by have := abs_add_le (rnd x - x) x; rwa [sub_add_cancel] at this
    have a2 : |rnd y| ≤ |rnd y - y| + |y| := by have := abs_add_le (rnd y - y) y; rwa [sub_add_cancel] at this
    have a3 : u * |x| ≤ |x| := by nlinarith [abs_nonneg x]
    have a4 : u * |y| ≤ |y| := by nlinarith [abs_nonneg y]
    have := abs_add_le (rnd x) (rnd y)
    linarith
  have h5 := mul_le_mul_of_nonneg_left h4 hu
  have h6 : rnd (rnd x + rnd y) - (x + y) = (rnd (rnd x + rnd y) - (rnd x + rnd y)) + ((rnd x - x) + (rnd y - y)) := by ring
  rw [h6]
  have h7 := abs_add_le (rnd (rnd x + rnd y) - (rnd x + rnd y)) ((rnd x - x) + (rnd y - y))
  have h8 := abs_add_le (rnd x - x) (rnd y - y)
  linarith

/-- A rounded difference of two rounded numbers. -/
theorem rnd_two_sub (hr : ∀ x, |rnd x - x| ≤ u * |x|) (hu : 0 ≤ u) (hu1 : u ≤ 1) (x y : ℝ) :
    |rnd (rnd x - rnd y) - (x - y)| ≤ 3 * u * (|x| + |y|) := by
  have h1 := hr x
  have h2 := hr y
  have h3 := hr (rnd x - rnd y)
  have h4 : |rnd x - rnd y| ≤ 2 * (|x| + |y|) := by
    have a1 : |rnd x| ≤ |rnd x - x| + |x| := by have := abs_add_le (rnd x - x) x; rwa [sub_add_cancel] at this
    have a2 : |rnd y| ≤ |rnd y - y| + |y| := by have := abs_add_le (rnd y - y) y; rwa [sub_add_cancel] at this
    have a3 : u * |x| ≤ |x| := by nlinarith [abs_nonneg x]
    have a4 : u * |y| ≤ |y| := by nlinarith [abs_nonneg y]
    have := abs_sub (rnd x) (rnd y)
    linarith
  have h5 := mul_le_mul_of_nonneg_left h4 hu
  have h6 : rnd (rnd x - rnd y) - (x - y) = (rnd (rnd x - rnd y) - (rnd x - rnd y)) + ((rnd x - x) - (rnd y - y)) := by ring
  rw [h6]
  have h7 := abs_add_le (rnd (rnd x - rnd y) - (rnd x - rnd y)) ((rnd x - x) - (rnd y - y))
  have h8 := abs_sub (rnd x - x) (rnd y - y)
  linarith

theorem cmul_error (hr : ∀ x, |rnd x - x| ≤ u * |x|) (hu : 0 ≤ u) (hu1 : u ≤ 1) (z w : ℂ) :
    ‖cmul rnd z w - z * w‖ ≤ 12 * u * (‖z‖ * ‖w‖) := by
  have h1 := Complex.norm_le_abs_re_add_abs_im (cmul rnd z w - z * w)
  have h2 : |(cmul rnd z w - z * w).re| ≤ 3 * u * (|z.re * w.re| + |z.im * w.im|) := by
    simp only [Complex.sub_re, Complex.mul_re, cmul]
    exact rnd_two_sub hr hu hu1 _ _
  have h3 : |(cmul rnd z w - z * w).im| ≤ 3 * u * (|z.re * w.im| + |z.im * w.re|) := by
    simp only [Complex.sub_im, Complex.mul_im, cmul]
    exact rnd_two hr hu hu1 _ _
  have a1 := Complex.abs_re_le_norm z
  have a2 := Complex.abs_im_le_norm z
  have a3 := Complex.abs_re_le_norm w
  have a4 := Complex.abs_im_le_norm w
  have b : ∀ x y : ℝ, |x| ≤ ‖z‖ → |y| ≤ ‖w‖ → |x * y| ≤ ‖z‖ * ‖w‖ := fun x y hx hy => by
    rw [abs_mul]; exact mul_le_mul hx hy (abs_nonneg _) (norm_nonneg _)
  have c1 := b _ _ a1 a3
  have c2 := b _ _ a2 a4
  have c3 := b _ _ a1 a4
  have c4 := b _ _ a2 a3
  have d1 : 3 * u * (|z.re * w.re| + |z.im * w.im|) ≤ 3 * u * (2 * (‖z‖ * ‖w‖)) :=
    mul_le_mul_of_nonneg_left (by linarith) (by positivity)
  have d2 : 3 * u * (|z.re * w.im| + |z.im * w.re|) ≤ 3 * u * (2 * (‖z‖ * ‖w‖)) :=
    mul_le_mul_of_nonneg_left (by linarith) (by positivity)
  linarith

/-- The factor in the error of a sum of `n` products. -/
def dotFactor : ℕ → ℝ
  | 0 => 0
  | n + 1 => 40 + 3 * dotFactor n

theorem dotFactor_nonneg (n : ℕ) : 0 ≤ dotFactor n := by
  induction n with
  | zero => exact le_rfl
  | succ n ih => simp only [dotFactor]; linarith

theorem norm_list_dot_le (a x : ι → ℂ) (l : List ι) :
    ‖(l.map fun j => a j * x j).sum‖ ≤ (l.map fun j => ‖a j‖ * ‖x j‖).sum := by
  induction l with
  | nil => simp
  | cons j l ih =>
    simp only [List.map_cons, List.sum_cons]
    refine (norm_add_le _ _).trans (add_le_add ?_ ih)
    rw [norm_mul]

theorem cdot_error (hr : ∀ x, |rnd x - x| ≤ u * |x|) (hu : 0 ≤ u) (hu1 : u ≤ 1) (a x : ι → ℂ) (l : List ι) :
    ‖cdot rnd a x l - (l.map fun j => a j * x j).sum‖ ≤ u * dotFactor l.length * (l.map fun j => ‖a j‖ * ‖x j‖).sum := by
  induction l with
  | nil => simp [cdot, dotFactor]
  | cons j l ih =>
    simp only [cdot, List.map_cons, List.sum_cons, List.length_cons, dotFactor]
    set S := (l.map fun j => a j * x j).sum
    set T := (l.map fun j => ‖a j‖ * ‖x j‖).sum
    set D := cdot rnd a x l
    set P := cmul rnd (a j) (x j)
    set q := ‖a j‖ * ‖x j‖ with hq
    set c := dotFactor l.length with hc'
    have hc : 0 ≤ c := dotFactor_nonneg _
    have q0 : 0 ≤ q := by positivity
    have hT : 0 ≤ T := List.sum_nonneg (by simp only [List.mem_map]; rintro _ ⟨j, -, rfl⟩; positivity)
    have hST : ‖S‖ ≤ T := norm_list_dot_le a x l
    have h1 := cround_error hr hu (P + D)
    have h2 : ‖P - a j * x j‖ ≤ 12 * u * q := cmul_error hr hu hu1 _ _
    have h3 : ‖P‖ ≤ 13 * q := by
      have := norm_le_norm_add_norm_sub' P (a j * x j)
      rw [norm_mul] at this
      have : u * q ≤ q := by nlinarith
      linarith
    have h4 : ‖D‖ ≤ T + c * T := by
      have := norm_le_norm_add_norm_sub' D S
      have : u * c * T ≤ c * T := by
        have : 0 ≤ c * T := by positivity
        nlinarith
      linarith
    have h5 : ‖P + D‖ ≤ 13 * q + (T + c * T) := (norm_add_le _ _).trans (add_le_add h3 h4)
    have h6 := mul_le_mul_of_nonneg_left h5 (show 0 ≤ 2 * u by positivity)
    have e : cround rnd (P + D) - (a j * x j + S) = (cround rnd (P + D) - (P + D)) + ((P - a j * x j) + (D - S)) := by ring
    rw [e]
    have h7 := norm_add_le (cround rnd (P + D) - (P + D)) ((P - a j * x j) + (D - S))
    have h8 := norm_add_le (P - a j * x j) (D - S)
    have h9 : 0 ≤ u * c * q := by positivity
    have h10 : 0 ≤ u * T := by positivity
    have h11 : 0 ≤ u * q := by positivity
    linarith

/-- A row of a matrix applied to an array. -/
theorem row_le (A : Mat ι) (v : Vec ι) (i : ι) : ∑ j, ‖A i j‖ * ‖v j‖ ≤ ‖A‖ * ‖v‖ := by
  have h1 : ∑ j, ‖A i j‖ ≤ ‖A‖ := by
    have h : (∑ j, ‖A i j‖₊) ≤ ‖A‖₊ := by
      rw [Matrix.linfty_opNNNorm_def]
      exact Finset.le_sup (f := fun i => ∑ j, ‖A i j‖₊) (Finset.mem_univ i)
    have h' : ((∑ j, ‖A i j‖₊ : NNReal) : ℝ) ≤ (‖A‖₊ : ℝ) := NNReal.coe_le_coe.mpr h
    rw [NNReal.coe_sum] at h'
    exact h'
  calc ∑ j, ‖A i j‖ * ‖v j‖ ≤ ∑ j, ‖A i j‖ * ‖v‖ :=
        Finset.sum_le_sum fun j _ => mul_le_mul_of_nonneg_left (norm_le_pi_norm v j) (norm_nonneg _)
    _ = (∑ j, ‖A i j‖) * ‖v‖ := by rw [Finset.sum_mul]
    _ ≤ ‖A‖ * ‖v‖ := mul_le_mul_of_nonneg_right h1 (norm_nonneg _)

/-- Rounded complex arithmetic is exact up to a multiple of the rounding unit. -/
theorem Arith.numpy_within (hr : ∀ x, |rnd x - x| ≤ u * |x|) (hu : 0 ≤ u) (hu1 : u ≤ 1) (R : ℝ) :
    (Arith.numpy (ι := ι) rnd).Within ((12 + dotFactor (Fintype.card ι)) * u) R := by
  have hd := dotFactor_nonneg (Fintype.card ι)
  have hK : 2 * u ≤ (12 + dotFactor (Fintype.card ι)) * u := mul_le_mul_of_nonneg_right (by linarith) hu
  have hK' : 12 * u ≤ (12 + dotFactor (Fintype.card ι)) * u := mul_le_mul_of_nonneg_right (by linarith) hu
  have hK0 : 0 ≤ (12 + dotFactor (Fintype.card ι)) * u := by positivity
  refine ⟨fun v w _ _ => ?_, fun v w _ _ => ?_, fun v w _ _ => ?_, fun v n _ hn => ?_, fun A v _ _ => ?_⟩
  · refine (pi_norm_le_iff_of_nonneg (by positivity)).mpr fun i => (cround_error hr hu _).trans ?_
    refine mul_le_mul hK ?_ (norm_nonneg _) hK0
    linarith [norm_add_le (v i) (w i), norm_le_pi_norm v i, norm_le_pi_norm w i]
  · refine (pi_norm_le_iff_of_nonneg (by positivity)).mpr fun i => (cround_error hr hu _).trans ?_
    refine mul_le_mul hK ?_ (norm_nonneg _) hK0
    linarith [norm_sub_le (v i) (w i), norm_le_pi_norm v i, norm_le_pi_norm w i]
  · refine (pi_norm_le_iff_of_nonneg (by positivity)).mpr fun i => (cmul_error hr hu hu1 _ _).trans ?_
    refine mul_le_mul hK' ?_ (by positivity) hK0
    have := mul_le_mul (norm_le_pi_norm v i) (norm_le_pi_norm w i) (norm_nonneg _) (norm_nonneg _)
    linarith
  · refine (pi_norm_le_iff_of_nonneg (by positivity)).mpr fun i => ?_
    have h1 : |1 / (n : ℝ)| ≤ 1 := by
      rw [abs_of_nonneg (by positivity)]
      exact (div_le_one (by exact_mod_cast Nat.pos_of_ne_zero hn)).mpr (by exact_mod_cast Nat.one_le_iff_ne_zero.mpr hn)
    have h2 : |rnd (1 / n) - 1 / n| ≤ u := (hr _).trans (mul_le_of_le_one_right hu h1)
    have h3 : |rnd (1 / n)| ≤ 2 := by
      have := abs_add_le (rnd (1 / n) - 1 / n) (1 / (n : ℝ))
      rw [sub_add_cancel] at this
      linarith
    have h4 := cround_error hr hu (v i * rnd (1 / n))
    have h5 : (cround rnd (v i * rnd (1 / n)) - v i / n : ℂ) =
        (cround rnd (v i * rnd (1 / n)) - v i * rnd (1 / n)) + v i * ((rnd (1 / n) - 1 / n : ℝ) : ℂ) := by
      push_cast
      ring
    have h6 : ‖v i * (rnd (1 / n) : ℂ)‖ ≤ 2 * ‖v i‖ := by
      rw [norm_mul, Complex.norm_real, Real.norm_eq_abs, mul_comm]
      exact mul_le_mul_of_nonneg_right h3 (norm_nonneg _)
    have h7 : ‖v i * ((rnd (1 / n) - 1 / n : ℝ) : ℂ)‖ ≤ u * ‖v i‖ := by
      rw [norm_mul, Complex.norm_real, Real.norm_eq_abs, mul_comm]
      exact mul_le_mul_of_nonneg_right h2 (norm_nonneg _)
    have h8 := mul_le_mul_of_nonneg_left h6 (by linarith : (0 : ℝ) ≤ 2 * u)
    have h9 : ‖cround rnd (v i * rnd (1 / n)) - v i / n‖ ≤ 12 * u * ‖v i‖ := by
      rw [h5]
      refine (norm_add_le _ _).trans ?_
      nlinarith [norm_nonneg (v i)]
    exact h9.trans (mul_le_mul hK' (by linarith [norm_le_pi_norm v i]) (norm_nonneg _) hK0)
  · refine (pi_norm_le_iff_of_nonneg (by positivity)).mpr fun i => ?_
    have h1 := cdot_error hr hu hu1 (A i) v Finset.univ.toList
    rw [Finset.sum_map_toList, Finset.sum_map_toList, Finset.length_toList, Finset.card_univ] at h1
    refine h1.trans ?_
    have h2 := row_le A v i
    have h3 : 0 ≤ ∑ j, ‖A i j‖ * ‖v j‖ := Finset.sum_nonneg fun j _ => by positivity
    refine mul_le_mul ?_ (by linarith) h3 hK0
    rw [mul_comm]
    exact mul_le_mul_of_nonneg_right (by linarith) hu

end Verif
