import Verif.Lemmas.FloatArith

/-!
# NumPy's arithmetic with underflow

Rounding errors `v (1 + |x|)` instead of `u |x|`.
-/

set_option linter.unusedSectionVars false

namespace Verif

open Matrix
open scoped Matrix.Norms.Operator

variable {ι : Type} [Fintype ι] [DecidableEq ι] {rnd : ℝ → ℝ} {v u τ : ℝ}

theorem cround_mixed (hr : ∀ x, |rnd x - x| ≤ v * (1 + |x|)) (hv : 0 ≤ v) (z : ℂ) : ‖cround rnd z - z‖ ≤ 2 * v * (1 + ‖z‖) := by
  have h1 := Complex.norm_le_abs_re_add_abs_im (cround rnd z - z)
  have h2 : |(cround rnd z - z).re| ≤ v * (1 + |z.re|) := hr z.re
  have h3 : |(cround rnd z - z).im| ≤ v * (1 + |z.im|) := hr z.im
  have h4 := mul_le_mul_of_nonneg_left (Complex.abs_re_le_norm z) hv
  have h5 := mul_le_mul_of_nonneg_left (Complex.abs_im_le_norm z) hv
  linarith

theorem abs_le_of_near {a b c : ℝ} (h : |a - b| ≤ c) : |a| ≤ |b| + c := by
  have := abs_add_le (a - b) b
  rw [sub_add_cancel] at this
  linarith

/-- A rounded sum of two rounded numbers. -/
theorem two_mixed (hr : ∀ x, |rnd x - x| ≤ v * (1 + |x|)) (hv : 0 ≤ v) (hv1 : v ≤ 1) {x y x' y' : ℝ} (hx : |x' - x| ≤ v * (1 + |x|))
    (hy : |y' - y| ≤ v * (1 + |y|)) : |rnd (x' + y') - (x + y)| ≤ 5 * v * (1 + (|x| + |y|)) := by
  have h1 := hr (x' + y')
  have h2 : |x' + y' - (x + y)| ≤ v * (2 + (|x| + |y|)) := by
    have := abs_add_le (x' - x) (y' - y)
    rw [show x' - x + (y' - y) = x' + y' - (x + y) by ring] at this
    linarith
  have h3 := abs_le_of_near h2
  have h4 := abs_add_le x y
  have h5 : v * (2 + (|x| + |y|)) ≤ 2 + (|x| + |y|) := mul_le_of_le_one_left (by positivity) hv1
  have h6 := mul_le_mul_of_nonneg_left (show 1 + |x' + y'| ≤ 3 + 2 * (|x| + |y|) by linarith) hv
  have h7 := abs_add_le (rnd (x' + y') - (x' + y')) (x' + y' - (x + y))
  rw [sub_add_sub_cancel] at h7
  have h8 : 0 ≤ v * (|x| + |y|) := by positivity
  linarith

theorem cmul_mixed (hr : ∀ x, |rnd x - x| ≤ v * (1 + |x|)) (hv : 0 ≤ v) (hv1 : v ≤ 1) (z w : ℂ) :
    ‖cmul rnd z w - z * w‖ ≤ 20 * v * (1 + ‖z‖ * ‖w‖) := by
  have h1 := Complex.norm_le_abs_re_add_abs_im (cmul rnd z w - z * w)
  have h2 : |(cmul rnd z w - z * w).re| ≤ 5 * v * (1 + (|z.re * w.re| + |z.im * w.im|)) := by
    simp only [Complex.sub_re, Complex.mul_re, cmul]
    have := two_mixed hr hv hv1 (x := z.re * w.re) (y := -(z.im * w.im)) (x' := rnd (z.re * w.re)) (y' := -rnd (z.im * w.im)) (hr _) (by
      rw [abs_neg, neg_sub_neg, abs_sub_comm]
      exact hr _)
    rwa [abs_neg, ← sub_eq_add_neg, ← sub_eq_add_neg] at this
  have h3 : |(cmul rnd z w - z * w).im| ≤ 5 * v * (1 + (|z.re * w.im| + |z.im * w.re|)) := by
    simp only [Complex.sub_im, Complex.mul_im, cmul]
    exact two_mixed hr hv hv1 (hr _) (hr _)
  have a1 := Complex.abs_re_le_norm z
  have a2 := Complex.abs_im_le_norm z
  have a3 := Complex.abs_re_le_norm w
  have a4 := Complex.abs_im_le_norm w
  have b : ∀ x y : ℝ, |x| ≤ ‖z‖ → |y| ≤ ‖w‖ → |x * y| ≤ ‖z‖ * ‖w‖ := fun x y hx hy => by
    rw [abs_mul]; exact mul_le_mul hx hy (abs_nonneg _) (norm_nonneg _)
  have c1 := b _ _ a1 a3
  have c2 := b _ _ a2 a4
  have c3 := b _ _ a1 a4
  have c4 := b _ _ a2 a3
  have d1 : 5 * v * (1 + (|z.re * w.re| + |z.im * w.im|)) ≤ 5 * v * (1 + 2 * (‖z‖ * ‖w‖)) :=
    mul_le_mul_of_nonneg_left (by linarith) (by positivity)
  have d2 : 5 * v * (1 + (|z.re * w.im| + |z.im * w.re|)) ≤ 5 * v * (1 + 2 * (‖z‖ * ‖w‖)) :=
    mul_le_mul_of_nonneg_left (by linarith) (by positivity)
  linarith

/-- The factor in the error of a sum of `n` products. -/
def dotFactorU : ℕ → ℝ
  | 0 => 0
  | n + 1 => 64 + 3 * dotFactorU n

theorem dotFactorU_nonneg (n : ℕ) : 0 ≤ dotFactorU n := by
  induction n with
  | zero => exact le_rfl
  | succ n ih => simp only [dotFactorU]; linarith

theorem cdot_mixed (hr : ∀ x, |rnd x - x| ≤ v * (1 + |x|)) (hv : 0 ≤ v) (hv1 : v ≤ 1) (a x : ι → ℂ) (l : List ι) :
    ‖cdot rnd a x l - (l.map fun j => a j * x j).sum‖ ≤ v * dotFactorU l.length * (1 + (l.map fun j => ‖a j‖ * ‖x j‖).sum) := by
  induction l with
  | nil => simp [cdot, dotFactorU]
  | cons j l ih =>
    simp only [cdot, List.map_cons, List.sum_cons, List.length_cons, dotFactorU]
    set S := (l.map fun j => a j * x j).sum
    set T := (l.map fun j => ‖a j‖ * ‖x j‖).sum
    set D := cdot rnd a x l
    set P := cmul rnd (a j) (x j)
    set q := ‖a j‖ * ‖x j‖ with hq
    set c := dotFactorU l.length with hc'
    have hc : 0 ≤ c := dotFactorU_nonneg _
    have q0 : 0 ≤ q := by positivity
    have hT : 0 ≤ T := List.sum_nonneg (by simp only [List.mem_map]; rintro _ ⟨j, -, rfl⟩; positivity)
    have hST : ‖S‖ ≤ T := norm_list_dot_le a x l
    have h1 := cround_mixed hr hv (P + D)
    have h2 : ‖P - a j * x j‖ ≤ 20 * v * (1 + q) := cmul_mixed hr hv hv1 _ _
    have h3 : ‖P‖ ≤ 20 + 21 * q := by
      have := norm_le_norm_add_norm_sub' P (a j * x j)
      rw [norm_mul] at this
      have : v * (1 + q) ≤ 1 + q := mul_le_of_le_one_left (by positivity) hv1
      linarith
    have h4 : ‖D‖ ≤ T + c * (1 + T) := by
      have := norm_le_norm_add_norm_sub' D S
      have : v * (c * (1 + T)) ≤ c * (1 + T) := mul_le_of_le_one_left (by positivity) hv1
      linarith
    have h5 : ‖P + D‖ ≤ 20 + 21 * q + (T + c * (1 + T)) := (norm_add_le _ _).trans (add_le_add h3 h4)
    have h6 := mul_le_mul_of_nonneg_left h5 (show 0 ≤ 2 * v by positivity)
    have e : cround rnd (P + D) - (a j * x j + S) = (cround rnd (P + D) - (P + D)) + ((P - a j * x j) + (D - S)) := by ring
    rw [e]
    have h7 := norm_add_le (cround rnd (P + D) - (P + D)) ((P - a j * x j) + (D - S))
    have h8 := norm_add_le (P - a j * x j) (D - S)
    have h9 : 0 ≤ v * c * q := by positivity
    have h10 : 0 ≤ v * T := by positivity
    have h11 : 0 ≤ v * q := by positivity
    linarith

/-- Operations on arrays, with underflow. -/
theorem Arith.numpy_mixed (hr : ∀ x, |rnd x - x| ≤ v * (1 + |x|)) (hv : 0 ≤ v) (hv1 : v ≤ 1) (R : ℝ) :
    (Arith.numpy (ι := ι) rnd).Within ((20 + dotFactorU (Fintype.card ι)) * v) R := by
  have hd := dotFactorU_nonneg (Fintype.card ι)
  have hK : 2 * v ≤ (20 + dotFactorU (Fintype.card ι)) * v := mul_le_mul_of_nonneg_right (by linarith) hv
  have hK' : 20 * v ≤ (20 + dotFactorU (Fintype.card ι)) * v := mul_le_mul_of_nonneg_right (by linarith) hv
  have hK0 : 0 ≤ (20 + dotFactorU (Fintype.card ι)) * v := by positivity
  refine ⟨fun v w _ _ => ?_, fun v w _ _ => ?_, fun v w _ _ => ?_, fun w n _ hn => ?_, fun A v _ _ => ?_⟩
  · refine (pi_norm_le_iff_of_nonneg (by positivity)).mpr fun i => (cround_mixed hr hv _).trans ?_
    refine mul_le_mul hK ?_ (by positivity) hK0
    linarith [norm_add_le (v i) (w i), norm_le_pi_norm v i, norm_le_pi_norm w i]
  · refine (pi_norm_le_iff_of_nonneg (by positivity)).mpr fun i => (cround_mixed hr hv _).trans ?_
    refine mul_le_mul hK ?_ (by positivity) hK0
    linarith [norm_sub_le (v i) (w i), norm_le_pi_norm v i, norm_le_pi_norm w i]
  · refine (pi_norm_le_iff_of_nonneg (by positivity)).mpr fun i => (cmul_mixed hr hv hv1 _ _).trans ?_
    refine mul_le_mul hK' ?_ (by positivity) hK0
    have := mul_le_mul (norm_le_pi_norm v i) (norm_le_pi_norm w i) (norm_nonneg _) (norm_nonneg _)
    linarith
  · refine (pi_norm_le_iff_of_nonneg (by positivity)).mpr fun i => ?_
    have h1 : |1 / (n : ℝ)| ≤ 1 := by
      rw [abs_of_nonneg (by positivity)]
      exact (div_le_one (by exact_mod_cast Nat.pos_of_ne_zero hn)).mpr (by exact_mod_cast Nat.one_le_iff_ne_zero.mpr hn)
    have h2 : |rnd (1 / n) - 1 / n| ≤ 2 * v := (hr _).trans (by nlinarith)
    have h3 : |rnd (1 / n)| ≤ 3 := by
      have := abs_le_of_near h2
      linarith
    have h4 := cround_mixed hr hv (w i * rnd (1 / n))
    have h5 : (cround rnd (w i * rnd (1 / n)) - w i / n : ℂ) =
        (cround rnd (w i * rnd (1 / n)) - w i * rnd (1 / n)) + w i * ((rnd (1 / n) - 1 / n : ℝ) : ℂ) := by
      push_cast
      ring
    have h6 : ‖w i * (rnd (1 / n) : ℂ)‖ ≤ 3 * ‖w i‖ := by
      rw [norm_mul, Complex.norm_real, Real.norm_eq_abs, mul_comm]
      exact mul_le_mul_of_nonneg_right h3 (norm_nonneg _)
    have h7 : ‖w i * ((rnd (1 / n) - 1 / n : ℝ) : ℂ)‖ ≤ 2 * v * ‖w i‖ := by
      rw [norm_mul, Complex.norm_real, Real.norm_eq_abs, mul_comm]
      exact mul_le_mul_of_nonneg_right h2 (norm_nonneg _)
    have h8 := mul_le_mul_of_nonneg_left h6 (by linarith : (0 : ℝ) ≤ 2 * v)
    have h9 : ‖cround rnd (w i * rnd (1 / n)) - w i / n‖ ≤ 20 * v * (1 + ‖w i‖) := by
      rw [h5]
      refine (norm_add_le _ _).trans ?_
      nlinarith [norm_nonneg (w i), mul_nonneg hv (norm_nonneg (w i))]
    exact h9.trans (mul_le_mul hK' (by linarith [norm_le_pi_norm w i]) (by positivity) hK0)
  · refine (pi_norm_le_iff_of_nonneg (by positivity)).mpr fun i => ?_
    have h1 := cdot_mixed hr hv hv1 (A i) v Finset.univ.toList
    rw [Finset.sum_map_toList, Finset.sum_map_toList, Finset.length_toList, Finset.card_univ] at h1
    refine h1.trans ?_
    have h2 := row_le A v i
    have h3 : 0 ≤ ∑ j, ‖A i j‖ * ‖v j‖ := Finset.sum_nonneg fun j _ => by positivity
    refine mul_le_mul ?_ (by linarith) (by positivity) hK0
    rw [mul_comm]
    exact mul_le_mul_of_nonneg_right (by linarith) hv

theorem cpow_mixed (hr : ∀ x, |rnd x - x| ≤ v * (1 + |x|)) (hv : 0 ≤ v) (hv1 : v ≤ 1 / 64) (z : ℂ) {n : ℕ} (hn : n ≤ 3) :
    ‖cpow rnd z n - z ^ n‖ ≤ 100 * v * (1 + ‖z ^ n‖) := by
  have hc := fun w => cmul_mixed hr hv (hv1.trans (by norm_num)) z w
  have h2 : ‖cmul rnd z z - z ^ 2‖ ≤ 20 * v * (1 + ‖z ^ 2‖) := by
    have := hc z
    rwa [← norm_mul, ← pow_two] at this
  have hz : 0 ≤ v * ‖z ^ n‖ := by positivity
  interval_cases n
  · simp [cpow]; positivity
  · simp [cpow]; positivity
  · refine (show ‖cpow rnd z 2 - z ^ 2‖ ≤ _ from h2).trans ?_
    linarith
  · have h3 := hc (cmul rnd z z)
    have h0 : 0 ≤ 1 + ‖z ^ 2‖ := by positivity
    have h4 : ‖cmul rnd z z‖ ≤ 1 + 2 * ‖z ^ 2‖ := by
      have := norm_add_le (z ^ 2) (cmul rnd z z - z ^ 2)
      rw [add_sub_cancel] at this
      have h5 : 20 * v * (1 + ‖z ^ 2‖) ≤ 1 * (1 + ‖z ^ 2‖) := mul_le_mul_of_nonneg_right (by linarith) h0
      linarith
    have e : cpow rnd z 3 - z ^ 3 = (cmul rnd z (cmul rnd z z) - z * cmul rnd z z) + z * (cmul rnd z z - z ^ 2) := by
      simp only [cpow]
      ring
    rw [e]
    refine (norm_add_le _ _).trans ?_
    rw [norm_mul z (_ - _)]
    have h5 := mul_le_mul_of_nonneg_left h4 (norm_nonneg z)
    have h6 := mul_le_mul_of_nonneg_left h2 (norm_nonneg z)
    have h7 : ‖z ^ 3‖ = ‖z‖ * ‖z ^ 2‖ := by rw [← norm_mul]; ring_nf
    have h8 : ‖z‖ ≤ 1 + ‖z ^ 3‖ := by
      rw [norm_pow]
      have := norm_nonneg z
      nlinarith [mul_nonneg this (sq_nonneg (‖z‖ - 1)), sq_nonneg (‖z‖ - 1)]
    have h9 : 20 * v * (1 + ‖z‖ * ‖cmul rnd z z‖) ≤ 20 * v * (2 + 3 * ‖z ^ 3‖) := mul_le_mul_of_nonneg_left (by linarith) (by positivity)
    have h10 : ‖z‖ * (20 * v * (1 + ‖z ^ 2‖)) ≤ 20 * v * (1 + 2 * ‖z ^ 3‖) := by
      have : 20 * v * (‖z‖ * (1 + ‖z ^ 2‖)) ≤ 20 * v * (1 + 2 * ‖z ^ 3‖) := mul_le_mul_of_nonneg_left (by linarith) (by positivity)
      linarith
    linarith

/-- Products of two rounded numbers, one of them at most one. -/
theorem mul_mixed (hr : ∀ x, |rnd x - x| ≤ v * (1 + |x|)) (hv : 0 ≤ v) (hv1 : v ≤ 1 / 64) {x y : ℝ} (hx : 0 ≤ x) (hy : |y| ≤ 1) :
    |rnd (rnd x * rnd y) - x * y| ≤ 6 * v * (1 + x) := by
  have h1 := hr x
  rw [abs_of_nonneg hx] at h1
  have h2 : |rnd y - y| ≤ 2 * v := (hr y).trans (by nlinarith)
  have h3 : |rnd y| ≤ 2 := by have := abs_le_of_near h2; linarith
  have h4 : |rnd x * rnd y - x * y| ≤ 4 * v * (1 + x) := by
    have e : rnd x * rnd y - x * y = (rnd x - x) * rnd y + x * (rnd y - y) := by ring
    rw [e]
    refine (abs_add_le _ _).trans ?_
    rw [abs_mul, abs_mul, abs_of_nonneg hx]
    have h5 := mul_le_mul h1 h3 (abs_nonneg _) (by positivity)
    have h6 := mul_le_mul_of_nonneg_left h2 hx
    linarith
  have h5 := abs_le_of_near h4
  have h6 : |x * y| ≤ x := by rw [abs_mul, abs_of_nonneg hx]; exact mul_le_of_le_one_right hx hy
  have h7 := hr (rnd x * rnd y)
  have h8 : 4 * v * (1 + x) ≤ 1 * (1 + x) := mul_le_mul_of_nonneg_right (by linarith) (by positivity)
  have h9 := mul_le_mul_of_nonneg_left (show 1 + |rnd x * rnd y| ≤ 2 * (1 + x) by linarith) hv
  have h10 := abs_add_le (rnd (rnd x * rnd y) - rnd x * rnd y) (rnd x * rnd y - x * y)
  rw [sub_add_sub_cancel] at h10
  linarith

theorem cexp_mixed (hr : ∀ x, |rnd x - x| ≤ v * (1 + |x|)) (hv : 0 ≤ v) (hv1 : v ≤ 1 / 64) (z : ℂ) :
    ‖cexp rnd z - Complex.exp z‖ ≤ 12 * v * (1 + ‖Complex.exp z‖) := by
  rw [Complex.norm_exp]
  have h1 : |(cexp rnd z - Complex.exp z).re| ≤ 6 * v * (1 + Real.exp z.re) := by
    rw [Complex.sub_re, Complex.exp_re]
    exact mul_mixed hr hv hv1 (Real.exp_pos _).le (Real.abs_cos_le_one _)
  have h2 : |(cexp rnd z - Complex.exp z).im| ≤ 6 * v * (1 + Real.exp z.re) := by
    rw [Complex.sub_im, Complex.exp_im]
    exact mul_mixed hr hv hv1 (Real.exp_pos _).le (Real.abs_sin_le_one _)
  have h3 := Complex.norm_le_abs_re_add_abs_im (cexp rnd z - Complex.exp z)
  linarith

/-- Sums by rounded additions in any order. -/
theorem SumsTo.mixed (hr : ∀ x, |rnd x - x| ≤ v * (1 + |x|)) (hv : 0 ≤ v) {l : List ℂ} {s : ℂ} (h : SumsTo rnd l s) (hl : l ≠ []) :
    ‖s - l.sum‖ ≤ ((1 + 2 * v) ^ l.length - 1) * (l.map norm).sum + 2 * v * (l.length - 1) * (1 + 2 * v) ^ l.length := by
  have hpos : ∀ l : List ℂ, 0 ≤ (l.map norm).sum := fun l => List.sum_nonneg (by simp)
  have hbig : ∀ {m n : ℕ}, m ≤ n → (1 + 2 * v) ^ m ≤ (1 + 2 * v) ^ n := fun h => pow_le_pow_right₀ (by linarith) h
  have hle : ∀ l : List ℂ, ‖l.sum‖ ≤ (l.map norm).sum := by
    intro l
    induction l with
    | nil => simp
    | cons a l ih =>
      rw [List.sum_cons, List.map_cons, List.sum_cons]
      exact (norm_add_le _ _).trans (by linarith)
  induction h with
  | nil => exact absurd rfl hl
  | single z =>
    simp only [List.sum_singleton, sub_self, norm_zero, List.length_singleton, pow_one, List.map_cons, List.map_nil, Nat.cast_one]
    have := mul_nonneg hv (norm_nonneg z)
    linarith
  | @add l l' l'' a b _ _ h1 h2 hp iha ihb =>
    rw [← hp.length_eq, ← hp.sum_eq, ← (hp.map norm).sum_eq, List.sum_append, List.map_append, List.sum_append, List.length_append]
    have hl : 1 ≤ l.length := List.length_pos_of_ne_nil h1
    have hl' : 1 ≤ l'.length := List.length_pos_of_ne_nil h2
    have k1 : (0 : ℝ) ≤ l.length - 1 := sub_nonneg.2 (by exact_mod_cast hl)
    have k2 : (0 : ℝ) ≤ l'.length - 1 := sub_nonneg.2 (by exact_mod_cast hl')
    obtain ⟨n, hn⟩ : ∃ n, l.length + l'.length = n + 1 := ⟨l.length + l'.length - 1, by omega⟩
    have e1 : ‖a - l.sum‖ ≤ ((1 + 2 * v) ^ n - 1) * (l.map norm).sum + 2 * v * (l.length - 1) * (1 + 2 * v) ^ n :=
      (iha h1).trans (add_le_add (mul_le_mul_of_nonneg_right (sub_le_sub_right (hbig (by omega)) 1) (hpos l))
        (mul_le_mul_of_nonneg_left (hbig (by omega)) (by positivity)))
    have e2 : ‖b - l'.sum‖ ≤ ((1 + 2 * v) ^ n - 1) * (l'.map norm).sum + 2 * v * (l'.length - 1) * (1 + 2 * v) ^ n :=
      (ihb h2).trans (add_le_add (mul_le_mul_of_nonneg_right (sub_le_sub_right (hbig (by omega)) 1) (hpos l'))
        (mul_le_mul_of_nonneg_left (hbig (by omega)) (by positivity)))
    have e3 := cround_mixed hr hv (a + b)
    have hq1 : 1 ≤ (1 + 2 * v) ^ (n + 1) := one_le_pow₀ (by linarith)
    set q := (1 + 2 * v) ^ n with hq
    set S := (l.map norm).sum
    set S' := (l'.map norm).sum
    have hm : (l.length : ℝ) + l'.length = n + 1 := by exact_mod_cast hn
    have e12 : ‖(a - l.sum) + (b - l'.sum)‖ ≤ (q - 1) * (S + S') + 2 * v * (n - 1) * q := by
      refine (norm_add_le _ _).trans ((add_le_add e1 e2).trans (le_of_eq ?_))
      rw [show (n : ℝ) - 1 = (l.length - 1) + (l'.length - 1) by linarith]
      ring
    have e4 : ‖a + b‖ ≤ (S + S') + ((q - 1) * (S + S') + 2 * v * (n - 1) * q) := by
      have h3 : a + b = (l.sum + l'.sum) + ((a - l.sum) + (b - l'.sum)) := by ring
      rw [h3]
      refine (norm_add_le _ _).trans (add_le_add ?_ e12)
      exact (norm_add_le _ _).trans (add_le_add (hle l) (hle l'))
    have h3 : cround rnd (a + b) - (l.sum + l'.sum) = (cround rnd (a + b) - (a + b)) + ((a - l.sum) + (b - l'.sum)) := by ring
    rw [h3, hn, Nat.cast_add, Nat.cast_one, add_sub_cancel_right, pow_succ]
    rw [pow_succ] at hq1
    refine (norm_add_le _ _).trans ?_
    have h6 := mul_le_mul_of_nonneg_left e4 (show 0 ≤ 2 * v by linarith)
    have h7 := mul_le_mul_of_nonneg_left hq1 (show 0 ≤ 2 * v by linarith)
    linarith

/-- Rounding a number near `b`. -/
theorem rnd_nearU (hr : ∀ x, |rnd x - x| ≤ u * |x| + τ) (hu : 0 ≤ u) {a b c : ℝ} (h : |a - b| ≤ c) : |rnd a - b| ≤ c + u * (|b| + c) + τ := by
  have h1 := hr a
  have h2 := mul_le_mul_of_nonneg_left (abs_le_of_near h) hu
  have h3 := abs_add_le (rnd a - a) (a - b)
  rw [sub_add_sub_cancel] at h3
  linarith

/-- The products with the ratio in Smith's method. -/
theorem smith_numU (hr : ∀ x, |rnd x - x| ≤ u * |x| + τ) (hu : 0 ≤ u) {e : ℝ} (hue : u ≤ e) (he : e ≤ 1 / 64)
    {r' r : ℝ} (h1 : |r' - r| ≤ e) (hr1 : |r| ≤ 1) (q : ℝ) : |rnd (q * r') - q * r| ≤ 3 * e * |q| + τ := by
  have hq := abs_nonneg q
  have h2 : |q * r' - q * r| ≤ e * |q| := by
    rw [← mul_sub, abs_mul, mul_comm]
    exact mul_le_mul_of_nonneg_right h1 hq
  have h3 := rnd_nearU hr hu h2
  have h4 : |q * r| ≤ |q| := by
    rw [abs_mul]
    exact mul_le_of_le_one_right hq hr1
  have h5 : e * |q| ≤ |q| := mul_le_of_le_one_left hq (by linarith)
  have h6 : u * (|q * r| + e * |q|) ≤ e * (2 * |q|) := mul_le_mul hue (by linarith) (by have := hu.trans hue; positivity) (hu.trans hue)
  linarith

/-- A component of Smith's quotient, with underflow. -/
theorem smith_mixed (hr : ∀ x, |rnd x - x| ≤ u * |x| + τ) (hu : 0 ≤ u) (hτ : 0 ≤ τ) {e : ℝ} (hue : u + τ ≤ e) (he : e ≤ 1 / 64)
    {x y : ℝ} (hx : x ≠ 0) (hxy : |y| ≤ |x|) (h1 : τ ≤ e * |x|) (h2 : 2 * |x| * τ ≤ e) (p q : ℝ) {n' : ℝ}
    (hn : |n' - (p + q * (y / x))| ≤ 7 * e * (|p| + |q|) + 4 * τ) :
    |rnd (n' * rnd (1 / rnd (x + rnd (y * rnd (y / x))))) - (p + q * (y / x)) * (1 / (x + y * (y / x)))| ≤
      33 * e * (1 + (|p| + |q|) * (1 / |x + y * (y / x)|)) := by
  have he0 : 0 ≤ e := by linarith
  have hue' : u ≤ e := by linarith
  have hx0 : 0 < |x| := abs_pos.mpr hx
  have hr1 : |y / x| ≤ 1 := by
    rw [abs_div]
    exact div_le_one_of_le₀ hxy (abs_nonneg x)
  obtain ⟨hd1, hd2, -⟩ := smith_den (y := y) hx
  have hr' : |rnd (y / x) - y / x| ≤ e := (hr _).trans (by nlinarith)
  have hp := smith_numU hr hu hue' he hr' hr1 y
  have hd3 : |x + y * (y / x)| ≤ 2 * |x| := by
    refine (abs_add_le _ _).trans ?_
    rw [abs_mul]
    nlinarith [abs_nonneg y]
  set d := x + y * (y / x) with hd
  set S := 1 / |d| with hS
  set M := |p| + |q| with hM
  have hd0 : 0 < |d| := hx0.trans_le hd2
  have hS0 : 0 < S := by positivity
  have hSd1 : S * |d| = 1 := by rw [hS]; field_simp
  have hM0 : 0 ≤ M := by positivity
  have hdne : d ≠ 0 := abs_pos.mp hd0
  have hed : 0 ≤ e * |d| := by positivity
  have hxd : e * |x| ≤ e * |d| := mul_le_mul_of_nonneg_left hd2 he0
  have hyx : e * |y| ≤ e * |x| := mul_le_mul_of_nonneg_left hxy he0
  have e1 : |x + rnd (y * rnd (y / x)) - d| ≤ 4 * e * |d| := by
    rw [hd, add_sub_add_left_eq_sub]
    refine hp.trans ?_
    linarith
  have e2 : |rnd (x + rnd (y * rnd (y / x))) - d| ≤ 7 * e * |d| := by
    have := rnd_nearU hr hu e1
    have h3 : 4 * e * |d| ≤ |d| := mul_le_of_le_one_left hd0.le (by linarith)
    have h4 : u * (|d| + 4 * e * |d|) ≤ e * (2 * |d|) := mul_le_mul hue' (by linarith) (by positivity) he0
    linarith
  set d' := rnd (x + rnd (y * rnd (y / x))) with hd'
  have e3 : |d| / 2 ≤ |d'| := by
    have := abs_sub_abs_le_abs_sub d d'
    rw [abs_sub_comm] at e2
    nlinarith
  have hd'0 : 0 < |d'| := by linarith
  have hd'ne : d' ≠ 0 := abs_pos.mp hd'0
  have e4 : |1 / d' - 1 / d| ≤ 14 * e * S := by
    rw [div_sub_div _ _ hd'ne hdne, one_mul, mul_one, abs_div, abs_mul, abs_sub_comm, hS, mul_one_div, div_le_div_iff₀ (by positivity) hd0]
    calc |d' - d| * |d| ≤ 7 * e * |d| * |d| := mul_le_mul_of_nonneg_right e2 hd0.le
      _ = 14 * e * (|d| / 2 * |d|) := by ring
      _ ≤ 14 * e * (|d'| * |d|) := by gcongr
  have hSd : |1 / d| = S := by rw [abs_div, abs_one]
  have heS : 0 ≤ e * S := by positivity
  have hτS : τ ≤ e * S := by
    have h3 : |d| * τ ≤ e := (mul_le_mul_of_nonneg_right hd3 hτ).trans h2
    rw [hS, mul_one_div, le_div_iff₀ hd0, mul_comm]
    exact h3
  have hτS' : τ * S ≤ e := by
    rw [hS, mul_one_div, div_le_iff₀ hd0]
    exact h1.trans hxd
  have e5 : |rnd (1 / d') - 1 / d| ≤ 17 * e * S := by
    have := rnd_nearU hr hu e4
    rw [hSd] at this
    have h3 : 14 * e * S ≤ S := mul_le_of_le_one_left hS0.le (by linarith)
    have h4 : u * (S + 14 * e * S) ≤ e * (2 * S) := mul_le_mul hue' (by linarith) (by positivity) he0
    linarith
  have e6 : |rnd (1 / d')| ≤ 2 * S := by
    have := abs_le_of_near e5
    rw [hSd] at this
    have h3 : 17 * e * S ≤ S := mul_le_of_le_one_left hS0.le (by linarith)
    linarith
  have e7 : |p + q * (y / x)| ≤ M := by
    refine (abs_add_le _ _).trans ?_
    rw [abs_mul]
    nlinarith [abs_nonneg q]
  have heMS : 0 ≤ e * (M * S) := by positivity
  have e8 : |n' * rnd (1 / d') - (p + q * (y / x)) * (1 / d)| ≤ 31 * e * (M * S) + 8 * e := by
    have h1 : n' * rnd (1 / d') - (p + q * (y / x)) * (1 / d) =
        (n' - (p + q * (y / x))) * rnd (1 / d') + (p + q * (y / x)) * (rnd (1 / d') - 1 / d) := by ring
    rw [h1]
    refine (abs_add_le _ _).trans ?_
    rw [abs_mul, abs_mul]
    have h2 := mul_le_mul hn e6 (abs_nonneg _) (by positivity)
    have h3 := mul_le_mul e7 e5 (abs_nonneg _) hM0
    linarith
  have e9 : |(p + q * (y / x)) * (1 / d)| ≤ M * S := by
    rw [abs_mul, hSd]
    exact mul_le_mul_of_nonneg_right e7 hS0.le
  have h3 := rnd_nearU hr hu e8
  have h4 : 31 * e * (M * S) ≤ 1 * (M * S) := mul_le_mul_of_nonneg_right (by linarith) (by positivity)
  have h5 : u * (|(p + q * (y / x)) * (1 / d)| + (31 * e * (M * S) + 8 * e)) ≤ e * (2 * (M * S) + 1) :=
    mul_le_mul hue' (by linarith) (by positivity) he0
  linarith

/-- Smith's quotient, with underflow. -/
theorem cdiv_mixed (hr : ∀ x, |rnd x - x| ≤ u * |x| + τ) (hu : 0 ≤ u) (hτ : 0 ≤ τ) {R : ℝ} (he : u + 4 * (1 + |R|) * τ ≤ 1 / 64)
    (a b : ℂ) (hb : b ≠ 0) (hbR : ‖b‖ ≤ R) (hbR' : ‖b⁻¹‖ ≤ R) :
    ‖cdiv rnd a b - a / b‖ ≤ 140 * (u + 4 * (1 + |R|) * τ) * (1 + ‖a / b‖) := by
  set e := u + 4 * (1 + |R|) * τ with hedef
  have hb0 : 0 < ‖b‖ := norm_pos_iff.mpr hb
  have hR : 0 < R := hb0.trans_le hbR
  have hRτ : 0 ≤ R * τ := by positivity
  have hee : e = u + 4 * τ + 4 * (R * τ) := by rw [hedef, abs_of_pos hR]; ring
  have he0 : 0 ≤ e := by rw [hee]; positivity
  have hue : u + τ ≤ e := by rw [hee]; linarith
  have hue' : u ≤ e := by linarith
  have hq : ‖a / b‖ = ‖a‖ * (1 / ‖b‖) := by rw [norm_div, mul_one_div]
  have hN : b.re ^ 2 + b.im ^ 2 = ‖b‖ ^ 2 := by rw [← Complex.normSq_eq_norm_sq, Complex.normSq_apply]; ring
  have hN0 : b.re ^ 2 + b.im ^ 2 ≠ 0 := by rw [hN]; positivity
  have ha1 := Complex.abs_re_le_norm a
  have ha2 := Complex.abs_im_le_norm a
  have hbR1 : 1 ≤ R * ‖b‖ := by
    rw [norm_inv, inv_le_comm₀ hb0 hR, inv_le_iff_one_le_mul₀ hR, mul_comm] at hbR'
    exact hbR'
  -- the larger component
  have big : ∀ {x y : ℝ}, x ^ 2 + y ^ 2 = ‖b‖ ^ 2 → |y| ≤ |x| → τ ≤ e * |x| ∧ 2 * |x| * τ ≤ e := by
    intro x y hxy h
    have h1 : |x| ≤ ‖b‖ := abs_le_of_sq_le_sq (by nlinarith [sq_nonneg y]) hb0.le
    have h2 : ‖b‖ ≤ 2 * |x| := by
      have h3 : y ^ 2 ≤ x ^ 2 := sq_le_sq.mpr h
      have h4 : ‖b‖ ^ 2 ≤ (2 * |x|) ^ 2 := by rw [mul_pow, sq_abs]; nlinarith
      exact (sq_le_sq₀ hb0.le (by positivity)).mp h4
    have h3 : 0 ≤ |x| := abs_nonneg x
    constructor
    · have h4 : 1 ≤ R * (2 * |x|) := hbR1.trans (mul_le_mul_of_nonneg_left h2 hR.le)
      have h5 := mul_le_mul_of_nonneg_right h4 hτ
      have h6 : 4 * (R * τ) * |x| ≤ e * |x| := mul_le_mul_of_nonneg_right (by rw [hee]; linarith) h3
      have h7 : 0 ≤ R * τ * |x| := by positivity
      linarith
    · have h4 := mul_le_mul_of_nonneg_right (h1.trans hbR) hτ
      rw [hee]
      linarith
  -- the numerator
  have num : ∀ {x y p q s : ℝ}, x ≠ 0 → |y| ≤ |x| → |s - q * (y / x)| ≤ 3 * e * |q| + τ →
      |rnd (p + s) - (p + q * (y / x))| ≤ 7 * e * (|p| + |q|) + 4 * τ := by
    intro x y p q s hx hxy hs
    have hr1 : |y / x| ≤ 1 := by
      rw [abs_div]
      exact div_le_one_of_le₀ hxy (abs_nonneg x)
    have h1 : |q * (y / x)| ≤ |q| := by
      rw [abs_mul]
      nlinarith [abs_nonneg q]
    have h2 : |p + s - (p + q * (y / x))| ≤ 3 * e * |q| + τ := by
      rw [add_sub_add_left_eq_sub]
      exact hs
    have h3 := rnd_nearU hr hu h2
    have h4 := (abs_add_le p (q * (y / x))).trans (add_le_add_right h1 _)
    have h5 : 0 ≤ e * |q| := by positivity
    have h6 : 0 ≤ e * |p| := by positivity
    have h7 : 3 * e * |q| ≤ |q| := mul_le_of_le_one_left (abs_nonneg q) (by linarith)
    have h8 : u * (|p + q * (y / x)| + (3 * e * |q| + τ)) ≤ e * (|p| + |q| + |q| + τ) :=
      mul_le_mul hue' (by linarith) (by positivity) he0
    have h9 : e * τ ≤ τ := mul_le_of_le_one_left hτ (by linarith)
    linarith
  -- the bound
  have fin : ∀ {x y p q : ℝ}, x ≠ 0 → x ^ 2 + y ^ 2 = ‖b‖ ^ 2 → |p| ≤ ‖a‖ → |q| ≤ ‖a‖ →
      33 * e * (1 + (|p| + |q|) * (1 / |x + y * (y / x)|)) ≤ 66 * e * (1 + ‖a‖ * (1 / ‖b‖)) := by
    intro x y p q hx hxy hp hq
    have h1 : ‖b‖ ≤ |x + y * (y / x)| := by
      have hx' : 0 < |x| := abs_pos.mpr hx
      rw [(smith_den (y := y) hx).2.2, hxy, abs_div, abs_of_nonneg (by positivity), le_div_iff₀ hx']
      have : |x| ≤ ‖b‖ := abs_le_of_sq_le_sq (by nlinarith [sq_nonneg y]) hb0.le
      nlinarith
    have h2 : 1 / |x + y * (y / x)| ≤ 1 / ‖b‖ := one_div_le_one_div_of_le hb0 h1
    have h3 : (|p| + |q|) * (1 / |x + y * (y / x)|) ≤ (2 * ‖a‖) * (1 / ‖b‖) :=
      mul_le_mul (by linarith) h2 (by positivity) (by positivity)
    have h4 := mul_le_mul_of_nonneg_left h3 he0
    linarith
  have rat : ∀ {x y : ℝ}, |y / x| ≤ 1 → |rnd (y / x) - y / x| ≤ e := fun h => (hr _).trans (by nlinarith)
  have key : |(cdiv rnd a b - a / b).re| ≤ 66 * e * (1 + ‖a‖ * (1 / ‖b‖)) ∧ |(cdiv rnd a b - a / b).im| ≤ 66 * e * (1 + ‖a‖ * (1 / ‖b‖)) := by
    by_cases h : |b.im| ≤ |b.re|
    · have hx : b.re ≠ 0 := by
        intro h0
        rw [h0, abs_zero] at h
        exact hN0 (by rw [h0, abs_nonpos_iff.mp h]; ring)
      have hr1 : |b.im / b.re| ≤ 1 := by
        rw [abs_div]
        exact div_le_one_of_le₀ h (abs_nonneg _)
      have s1 := smith_numU hr hu hue' he (rat hr1) hr1 a.im
      have s2 := smith_numU hr hu hue' he (rat hr1) hr1 a.re
      obtain ⟨b1, b2⟩ := big hN h
      constructor
      · have := smith_mixed hr hu hτ hue he hx h b1 b2 a.re a.im (num hx h s1)
        have e : (a.re + a.im * (b.im / b.re)) * (1 / (b.re + b.im * (b.im / b.re))) = (a / b).re := by
          rw [(smith_den (y := b.im) hx).2.2, Complex.div_re, Complex.normSq_apply]
          field_simp
        rw [e] at this
        simp only [Complex.sub_re, cdiv, if_pos h]
        exact this.trans (fin hx hN ha1 ha2)
      · have s3 : |-rnd (a.re * rnd (b.im / b.re)) - -a.re * (b.im / b.re)| ≤ 3 * e * |-a.re| + τ := by
          rw [abs_neg a.re, ← abs_neg]
          convert s2 using 2
          ring
        have := smith_mixed hr hu hτ hue he hx h b1 b2 a.im (-a.re) (num hx h s3)
        have e : (a.im + -a.re * (b.im / b.re)) * (1 / (b.re + b.im * (b.im / b.re))) = (a / b).im := by
          rw [(smith_den (y := b.im) hx).2.2, Complex.div_im, Complex.normSq_apply]
          field_simp
          ring
        rw [e, ← sub_eq_add_neg] at this
        simp only [Complex.sub_im, cdiv, if_pos h]
        exact this.trans (fin hx hN ha2 (by rwa [abs_neg]))
    · have h' := le_of_not_ge h
      have hx : b.im ≠ 0 := by
        intro h0
        rw [h0, abs_zero] at h
        exact h (abs_nonneg _)
      have hr1 : |b.re / b.im| ≤ 1 := by
        rw [abs_div]
        exact div_le_one_of_le₀ h' (abs_nonneg _)
      have hN' : b.im ^ 2 + b.re ^ 2 = ‖b‖ ^ 2 := by rw [add_comm, hN]
      have s1 := smith_numU hr hu hue' he (rat hr1) hr1 a.im
      have s2 := smith_numU hr hu hue' he (rat hr1) hr1 a.re
      obtain ⟨b1, b2⟩ := big hN' h'
      constructor
      · have := smith_mixed hr hu hτ hue he hx h' b1 b2 a.im a.re (num hx h' s2)
        have e : (a.im + a.re * (b.re / b.im)) * (1 / (b.im + b.re * (b.re / b.im))) = (a / b).re := by
          rw [(smith_den (y := b.re) hx).2.2, Complex.div_re, Complex.normSq_apply]
          field_simp
          ring
        rw [e, add_comm a.im] at this
        simp only [Complex.sub_re, cdiv, if_neg h]
        exact this.trans (fin hx hN' ha2 ha1)
      · have := smith_mixed hr hu hτ hue he hx h' b1 b2 (-a.re) a.im (num hx h' s1)
        have e : (-a.re + a.im * (b.re / b.im)) * (1 / (b.im + b.re * (b.re / b.im))) = (a / b).im := by
          rw [(smith_den (y := b.re) hx).2.2, Complex.div_im, Complex.normSq_apply]
          field_simp
          ring
        rw [e, neg_add_eq_sub] at this
        simp only [Complex.sub_im, cdiv, if_neg h]
        exact this.trans (fin hx hN' (by rwa [abs_neg]) ha2)
  have := Complex.norm_le_abs_re_add_abs_im (cdiv rnd a b - a / b)
  have h0 : 0 ≤ e * (1 + ‖a‖ * (1 / ‖b‖)) := by positivity
  rw [hq]
  linarith [key.1, key.2]

theorem mixed_of (hr : ∀ x, |rnd x - x| ≤ u * |x| + τ) (hu : 0 ≤ u) (hτ : 0 ≤ τ) (x : ℝ) : |rnd x - x| ≤ (u + τ) * (1 + |x|) := by
  have := mul_nonneg hτ (abs_nonneg x)
  linarith [hr x]

/-- NumPy's complex arithmetic, with underflow. -/
theorem CArith.numpy_mixed (hr : ∀ x, |rnd x - x| ≤ u * |x| + τ) (hu : 0 ≤ u) (hτ : 0 ≤ τ) {R : ℝ} (he : u + 4 * (1 + |R|) * τ ≤ 1 / 64)
    {sum : List ℂ → ℂ} (hs : ∀ l, SumsTo rnd l (sum l)) : (CArith.numpy rnd sum).Within (140 * (u + 4 * (1 + |R|) * τ)) R := by
  have hm := mixed_of hr hu hτ
  have hRτ : 0 ≤ |R| * τ := by positivity
  have hle : u + τ ≤ u + 4 * (1 + |R|) * τ := by linarith
  have hv : 0 ≤ u + τ := by positivity
  have hdiv := fun a b => cdiv_mixed hr hu hτ he a b
  set e := u + 4 * (1 + |R|) * τ with hedef
  set v := u + τ with hvdef
  have he0 : 0 ≤ e := hv.trans hle
  have hv1 : v ≤ 1 / 64 := hle.trans he
  have up : ∀ {c x : ℝ}, 0 ≤ x → 0 ≤ c → c ≤ 140 → c * v * x ≤ 140 * e * x := fun hx hc hc' =>
    mul_le_mul_of_nonneg_right (mul_le_mul hc' hle hv (by norm_num)) hx
  refine ⟨fun x y _ _ _ => ?_, fun x y _ _ _ => ?_, fun x y _ _ _ => ?_, fun x y h0 _ h1 h2 _ => hdiv x y h0 h1 h2, fun x n _ _ hn => ?_,
    fun x _ _ => ?_, fun x _ => ?_, fun l _ h1 => ?_, ?_⟩
  · refine (cround_mixed hm hv _).trans ((mul_le_mul_of_nonneg_left ?_ (by positivity)).trans
      (up (x := 1 + ‖x‖ + ‖y‖) (by positivity) (by norm_num) (by norm_num)))
    linarith [norm_add_le x y]
  · refine (cround_mixed hm hv _).trans ((mul_le_mul_of_nonneg_left ?_ (by positivity)).trans
      (up (x := 1 + ‖x‖ + ‖y‖) (by positivity) (by norm_num) (by norm_num)))
    linarith [norm_sub_le x y]
  · refine (cmul_mixed hm hv (hv1.trans (by norm_num)) x y).trans ?_
    rw [← norm_mul]
    exact up (by positivity) (by norm_num) (by norm_num)
  · exact (cpow_mixed hm hv hv1 x hn).trans (up (by positivity) (by norm_num) (by norm_num))
  · exact (cexp_mixed hm hv hv1 x).trans (up (by positivity) (by norm_num) (by norm_num))
  · have := hm ‖x‖
    rw [abs_of_nonneg (norm_nonneg x)] at this
    refine this.trans ?_
    have := up (c := 1) (x := 1 + ‖x‖) (by positivity) (by norm_num) (by norm_num)
    rwa [one_mul] at this
  · by_cases hl : l = []
    · subst hl
      have h2 : sum [] = 0 := by
        have := hs []
        generalize sum [] = s at this
        cases this with
        | nil => rfl
        | add _ _ h _ hp => simp at hp; exact absurd hp.1 h
      simp [CArith.numpy, h2]
    · refine ((hs l).mixed hm hv hl).trans ?_
      have hS : 0 ≤ (l.map norm).sum := List.sum_nonneg (by simp)
      have hn : (0 : ℝ) ≤ l.length := Nat.cast_nonneg _
      have hnv : l.length * v ≤ l.length * e := mul_le_mul_of_nonneg_left hle hn
      have h2 : (1 + 2 * v) ^ l.length ≤ Real.exp (l.length * (2 * v)) := by
        rw [Real.exp_nat_mul]
        refine pow_le_pow_left₀ (by linarith) ?_ _
        linarith [Real.add_one_le_exp (2 * v)]
      have h3 : Real.exp (l.length * (2 * v)) - 1 ≤ 2 * (l.length * (2 * v)) := by
        have h0 : 0 ≤ l.length * (2 * v) := by positivity
        have := Real.abs_exp_sub_one_le (x := l.length * (2 * v)) (by rw [abs_of_nonneg h0]; linarith)
        rw [abs_of_nonneg h0] at this
        exact (le_abs_self _).trans this
      have h4 : 0 ≤ l.length * v := by positivity
      have h5 : ((1 + 2 * v) ^ l.length - 1) * (l.map norm).sum ≤ 4 * (l.length * v) * (l.map norm).sum :=
        mul_le_mul_of_nonneg_right (by linarith) hS
      have h6 : (2 * (v * (l.length - 1))) * (1 + 2 * v) ^ l.length ≤ (2 * (l.length * v)) * 2 :=
        mul_le_mul (by linarith) (by linarith) (by positivity) (by positivity)
      have h7 : l.length * v * (l.map norm).sum ≤ l.length * e * (l.map norm).sum := mul_le_mul_of_nonneg_right hnv hS
      have h8 : 0 ≤ l.length * e * (l.map norm).sum := by positivity
      linarith
  · have h2 := hm Real.pi
    have hpi := Real.pi_pos
    rw [abs_of_pos hpi] at h2
    have h3 : |2 * rnd Real.pi - 2 * Real.pi| ≤ 2 * (v * (1 + Real.pi)) := by
      rw [← mul_sub, abs_mul, abs_of_pos two_pos]
      linarith
    have h4 := abs_le_of_near h3
    rw [abs_of_pos (show 0 < 2 * Real.pi by positivity)] at h4
    have h5 := hm (2 * rnd Real.pi)
    have h6 := abs_add_le (rnd (2 * rnd Real.pi) - 2 * rnd Real.pi) (2 * rnd Real.pi - 2 * Real.pi)
    rw [sub_add_sub_cancel] at h6
    have h7 : v * (1 + Real.pi) ≤ 1 / 64 * (1 + Real.pi) := mul_le_mul_of_nonneg_right hv1 (by positivity)
    have h8 : v * (1 + |2 * rnd Real.pi|) ≤ v * (2 + 3 * Real.pi) := mul_le_mul_of_nonneg_left (by linarith) hv
    have h9 : |rnd (2 * rnd Real.pi) - 2 * Real.pi| ≤ 5 * v * (1 + 2 * Real.pi) := by
      have : 0 ≤ v * Real.pi := by positivity
      linarith
    have e : (CArith.numpy rnd sum).tau - 2 * Real.pi * Complex.I = ((rnd (2 * rnd Real.pi) - 2 * Real.pi : ℝ) : ℂ) * Complex.I := by
      apply Complex.ext <;> simp [CArith.numpy]
    rw [e, norm_mul, Complex.norm_I, mul_one, Complex.norm_real]
    exact h9.trans (up (by positivity) (by norm_num) (by norm_num))

end Verif
