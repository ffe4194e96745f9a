import Verif.Model.Grids
import Mathlib.LinearAlgebra.Lagrange
import Mathlib.RingTheory.Polynomial.Chebyshev
import Mathlib.Analysis.SpecialFunctions.Trigonometric.Chebyshev.Basic

/-! # Differentiation matrices from barycentric weights, and the weights of the Chebyshev points -/

set_option linter.unusedSectionVars false

namespace Verif

open Polynomial Finset

section General

variable {n : ℕ} (x : Fin (n + 1) → ℝ)

/-- `c_i / c_j / (x_i - x_j)` off the diagonal; minus the sum of the rest of the row on it. -/
noncomputable def baryD (c : Fin (n + 1) → ℝ) : Matrix (Fin (n + 1)) (Fin (n + 1)) ℝ :=
  fun i j => if i = j then - ∑ k ∈ univ.erase i, c i / c k / (x i - x k) else c i / c j / (x i - x j)

variable {x}

theorem derivative_basis_off (hx : Function.Injective x) {i j : Fin (n + 1)} (hij : i ≠ j) :
    (derivative (Lagrange.basis univ x j)).eval (x i) =
      (derivative (Lagrange.nodal univ x)).eval (x i) / (derivative (Lagrange.nodal univ x)).eval (x j) / (x i - x j) := by
  have hw := Lagrange.nodalWeight_eq_eval_derivative_nodal (s := univ) (v := x) (mem_univ j)
  have h1 : (X - C (x j)) * Lagrange.basis univ x j = C (Lagrange.nodalWeight univ x j) * Lagrange.nodal univ x := by
    rw [Lagrange.basis_eq_prod_sub_inv_mul_nodal_div (mem_univ j), ← Lagrange.nodal_erase_eq_nodal_div (mem_univ j),
      Lagrange.nodal_eq_mul_nodal_erase (mem_univ j)]
    ring
  have h2 := congrArg (fun p => (derivative p).eval (x i)) h1
  simp only [derivative_mul, derivative_sub, derivative_X, derivative_C, sub_zero, one_mul, zero_mul, zero_add, eval_add,
    eval_mul, eval_sub, eval_X, eval_C, Lagrange.eval_basis_of_ne hij.symm (mem_univ i)] at h2
  have h3 : x i - x j ≠ 0 := sub_ne_zero.2 fun h => hij (hx h)
  rw [hw] at h2
  rw [eq_div_iff h3, mul_comm, h2, div_eq_inv_mul]

/-- The matrix built from multiples of the derivatives of the node polynomial differentiates polynomials exactly. -/
theorem baryD_exact (hx : Function.Injective x) {c : Fin (n + 1) → ℝ} {K : ℝ} (hK : K ≠ 0)
    (hc : ∀ j, (derivative (Lagrange.nodal univ x)).eval (x j) = K * c j) (p : ℝ[X]) (hp : p.degree ≤ n) (i : Fin (n + 1)) :
    ∑ j, baryD x c i j * p.eval (x j) = (derivative p).eval (x i) := by
  have hinj : Set.InjOn x (univ : Finset (Fin (n + 1))) := hx.injOn
  have hoff : ∀ i j, i ≠ j → (derivative (Lagrange.basis univ x j)).eval (x i) = c i / c j / (x i - x j) := by
    intro i j hij
    rw [derivative_basis_off hx hij, hc, hc, mul_div_mul_left _ _ hK]
  have hdiag : ∀ i, (derivative (Lagrange.basis univ x i)).eval (x i) = - ∑ k ∈ univ.erase i, c i / c k / (x i - x k) := by
    intro i
    have h1 := congrArg (fun p => (derivative p).eval (x i)) (Lagrange.sum_basis hinj univ_nonempty)
    simp only [derivative_sum, eval_finsetSum, derivative_one, eval_zero] at h1
    rw [← add_sum_erase univ _ (mem_univ i)] at h1
    rw [eq_neg_iff_add_eq_zero, ← h1]
    congr 1
    refine sum_congr rfl fun k hk => ?_
    rw [hoff i k (ne_of_mem_erase hk).symm]
  have hD : ∀ i j, baryD x c i j = (derivative (Lagrange.basis univ x j)).eval (x i) := by
    intro i j
    unfold baryD
    split
    · next h => subst h; exact (hdiag i).symm
    · next h => exact (hoff i j h).symm
  have hpi : p = Lagrange.interpolate univ x fun j => p.eval (x j) :=
    Lagrange.eq_interpolate hinj (lt_of_le_of_lt hp (by simp only [card_univ, Fintype.card_fin]; exact_mod_cast Nat.lt_succ_self n))
  conv_rhs => rw [hpi]
  rw [Lagrange.interpolate_apply, derivative_sum, eval_finsetSum]
  refine sum_congr rfl fun j _ => ?_
  rw [hD, derivative_C_mul, eval_mul, eval_C, mul_comm]

end General

section Points

theorem chebpts2_eq (n : ℕ) (j : Fin (n + 1)) : chebpts2 n j = - Real.cos (j * (Real.pi / n)) := by
  rw [chebpts2, add_comm, ← sub_eq_add_neg, Real.cos_sub_pi]

theorem angle_mem {n : ℕ} (hn : n ≠ 0) (j : Fin (n + 1)) : (j : ℝ) * (Real.pi / n) ∈ Set.Icc 0 Real.pi := by
  have hn' : (0 : ℝ) < n := by positivity
  have hj : (j : ℝ) ≤ n := by exact_mod_cast Nat.lt_succ_iff.1 j.2
  refine ⟨by positivity, ?_⟩
  calc (j : ℝ) * (Real.pi / n) ≤ n * (Real.pi / n) := mul_le_mul_of_nonneg_right hj (by positivity)
    _ = Real.pi := by field_simp

theorem chebpts2_strictMono {n : ℕ} (hn : n ≠ 0) : StrictMono (chebpts2 n) := by
  intro i j hij
  rw [chebpts2_eq, chebpts2_eq, neg_lt_neg_iff]
  apply Real.strictAntiOn_cos (angle_mem hn i) (angle_mem hn j)
  have hn' : (0 : ℝ) < n := by positivity
  apply mul_lt_mul_of_pos_right _ (by positivity)
  exact_mod_cast hij

theorem chebX_strictMono {n : ℕ} (hn : n ≠ 0) {a b : ℝ} (hab : a < b) : StrictMono (chebX n a b) := by
  intro i j hij
  have := chebpts2_strictMono hn hij
  simp only [chebX]
  have hb : 0 < b - a := by linarith
  nlinarith

theorem chebX_injective {n : ℕ} (hn : n ≠ 0) {a b : ℝ} (hab : a ≠ b) : Function.Injective (chebX n a b) := by
  intro i j hij
  apply (chebpts2_strictMono hn).injective
  simp only [chebX] at hij
  have hb : b - a ≠ 0 := sub_ne_zero.2 hab.symm
  have : (b - a) * (chebpts2 n i - chebpts2 n j) = 0 := by linarith
  rcases mul_eq_zero.1 this with h | h
  · exact absurd h hb
  · linarith

/-- `(X² - 1) U_{n-1}` -/
noncomputable def chebQ (n : ℕ) : ℝ[X] := (X ^ 2 - 1) * Chebyshev.U ℝ ((n : ℤ) - 1)

theorem derivative_chebQ (n : ℕ) (hn : n ≠ 0) : derivative (chebQ n) = X * Chebyshev.U ℝ ((n : ℤ) - 1) + (n : ℝ[X]) * Chebyshev.T ℝ n := by
  have h1 := Chebyshev.one_sub_X_sq_mul_derivative_derivative_T_eq_poly_in_T (R := ℝ) (n : ℤ)
  have h2 := Chebyshev.T_derivative_eq_U (R := ℝ) (n : ℤ)
  have hn' : (C (n : ℝ) : ℝ[X]) ≠ 0 := by simpa using hn
  apply mul_left_cancel₀ hn'
  have h3 : C (n : ℝ) * chebQ n = (X ^ 2 - 1) * derivative (Chebyshev.T ℝ n) := by
    rw [h2, chebQ]; simp; ring
  have h4 : C (n : ℝ) * derivative (chebQ n) = derivative (C (n : ℝ) * chebQ n) := by simp
  rw [h4, h3]
  simp only [derivative_mul, derivative_sub, derivative_one, sub_zero]
  have h5 : derivative (X ^ 2 : ℝ[X]) = 2 * X := by simp; norm_num
  rw [h5]
  have h6 : (X ^ 2 - 1) * derivative (derivative (Chebyshev.T ℝ n)) = - ((1 - X ^ 2) * derivative (derivative (Chebyshev.T ℝ n))) := by
    ring
  rw [h6]
  simp only [Function.iterate_succ, Function.iterate_zero, Function.comp, id] at h1
  rw [h1, h2]
  simp
  ring

theorem chebQ_eval {n : ℕ} (hn : n ≠ 0) (j : Fin (n + 1)) : (chebQ n).eval (chebpts2 n j) = 0 := by
  have hn' : (n : ℝ) ≠ 0 := by positivity
  have hs : Real.sin ((n : ℝ) * (-Real.pi + j * (Real.pi / n))) = 0 := by
    rw [show (n : ℝ) * (-Real.pi + j * (Real.pi / n)) = ((-(n : ℤ) + (j.val : ℤ) : ℤ) : ℝ) * Real.pi by
      push_cast; field_simp]
    exact Real.sin_int_mul_pi _
  have h1 := Chebyshev.U_real_cos (θ := -Real.pi + j * (Real.pi / n)) (n := (n : ℤ) - 1)
  push_cast at h1
  rw [sub_add_cancel, hs] at h1
  have h2 : (chebpts2 n j) ^ 2 - 1 = - Real.sin (-Real.pi + j * (Real.pi / n)) ^ 2 := by
    rw [chebpts2, Real.sin_sq]; ring
  rw [chebQ, eval_mul, eval_sub, eval_pow, eval_X, eval_one, h2, chebpts2]
  linear_combination (- Real.sin (-Real.pi + j * (Real.pi / n))) * h1

theorem derivative_chebQ_eval {n : ℕ} (hn : n ≠ 0) (j : Fin (n + 1)) :
    (derivative (chebQ n)).eval (chebpts2 n j) = (n * (-1) ^ n : ℝ) * chebC n j := by
  have hn' : (n : ℝ) ≠ 0 := by positivity
  have hT : (Chebyshev.T ℝ n).eval (chebpts2 n j) = (-1) ^ n * (-1) ^ j.val := by
    rw [chebpts2, Chebyshev.T_real_cos]
    rw [show ((n : ℤ) : ℝ) * (-Real.pi + j * (Real.pi / n)) = (j.val : ℝ) * Real.pi - (n : ℝ) * Real.pi by
      push_cast; field_simp; ring]
    rw [Real.cos_sub_nat_mul_pi, Real.cos_nat_mul_pi]
  rw [derivative_chebQ n hn, eval_add, eval_mul, eval_mul, eval_X, hT, eval_natCast]
  by_cases h0 : j.val = 0
  · have hx : chebpts2 n j = -1 := by rw [chebpts2_eq]; simp [h0]
    rw [hx, Chebyshev.U_eval_neg_one, chebC, if_pos (Or.inl h0), h0]
    have hm : (((n : ℤ) - 1).negOnePow : ℝ) = - (-1) ^ n := by
      rw [Int.negOnePow_sub]; simp [Int.negOnePow]
    rw [hm]; push_cast; ring
  · by_cases h1 : j.val = n
    · have hx : chebpts2 n j = 1 := by
        rw [chebpts2_eq, h1, mul_div_cancel₀ _ hn', Real.cos_pi, neg_neg]
      rw [hx, Chebyshev.U_eval_one, chebC, if_pos (Or.inr h1), h1]
      have hm : ((-1 : ℝ) ^ n) * (-1) ^ n = 1 := by rw [← mul_pow]; simp
      push_cast
      linear_combination (n : ℝ) * hm - 2 * n * hm
    · have hs : (chebpts2 n j) ^ 2 - 1 ≠ 0 := by
        have hlt : j.val < n := by omega
        have hm := chebpts2_strictMono hn
        have hlo : chebpts2 n 0 < chebpts2 n j := hm (Fin.pos_iff_ne_zero.2 fun h => h0 (by rw [h]; rfl))
        have hhi : chebpts2 n j < chebpts2 n (Fin.last n) := hm (Fin.lt_def.2 (by simpa using hlt))
        have e0 : chebpts2 n 0 = -1 := by rw [chebpts2_eq]; simp
        have e1 : chebpts2 n (Fin.last n) = 1 := by
          rw [chebpts2_eq, Fin.val_last, mul_div_cancel₀ _ hn', Real.cos_pi, neg_neg]
        rw [e0] at hlo; rw [e1] at hhi
        nlinarith
      have hU : (Chebyshev.U ℝ ((n : ℤ) - 1)).eval (chebpts2 n j) = 0 := by
        have := chebQ_eval hn j
        rw [chebQ, eval_mul, eval_sub, eval_pow, eval_X, eval_one] at this
        exact (mul_eq_zero.1 this).resolve_left hs
      rw [hU, chebC, if_neg (by tauto)]
      ring

theorem derivative_nodal_chebpts2 {n : ℕ} (hn : n ≠ 0) : ∃ K : ℝ, K ≠ 0 ∧ ∀ j : Fin (n + 1),
    (derivative (Lagrange.nodal univ (chebpts2 n))).eval (chebpts2 n j) = K * chebC n j := by
  have hn' : (n : ℝ) ≠ 0 := by positivity
  have hinj := (chebpts2_strictMono hn).injective
  obtain ⟨R, hR⟩ : Lagrange.nodal univ (chebpts2 n) ∣ chebQ n := by
    rw [Lagrange.nodal_eq]
    apply Finset.prod_dvd_of_coprime
    · intro i _ j _ hij
      exact pairwise_coprime_X_sub_C hinj hij
    · intro i _
      rw [dvd_iff_isRoot]
      exact chebQ_eval hn i
  have hQ0 : chebQ n ≠ 0 := by
    intro h
    have := derivative_chebQ_eval hn (0 : Fin (n + 1))
    rw [h] at this
    simp [chebC, hn'] at this
  have hR0 : R ≠ 0 := by rintro rfl; rw [mul_zero] at hR; exact hQ0 hR
  have hdegQ : (chebQ n).natDegree ≤ n + 1 := by
    refine (natDegree_mul_le (p := X ^ 2 - 1) (q := Chebyshev.U ℝ ((n : ℤ) - 1))).trans ?_
    have h1 : (X ^ 2 - 1 : ℝ[X]).natDegree ≤ 2 := by
      refine (natDegree_sub_le _ _).trans ?_
      simp
    obtain ⟨m, rfl⟩ : ∃ m, n = m + 1 := ⟨n - 1, by omega⟩
    have h2 : (Chebyshev.U ℝ (((m + 1 : ℕ) : ℤ) - 1)).natDegree = m := by
      rw [show (((m + 1 : ℕ) : ℤ) - 1) = (m : ℤ) by push_cast; ring]
      exact Chebyshev.natDegree_U_natCast ℝ m
    omega
  have hdegR : R.natDegree = 0 := by
    rw [hR, natDegree_mul Lagrange.nodal_ne_zero hR0, Lagrange.natDegree_nodal] at hdegQ
    simp only [card_univ, Fintype.card_fin] at hdegQ
    omega
  obtain ⟨r, rfl⟩ : ∃ r, R = C r := ⟨_, eq_C_of_natDegree_eq_zero hdegR⟩
  have hr : r ≠ 0 := by rintro rfl; simp at hR0
  refine ⟨n * (-1) ^ n / r, by positivity, fun j => ?_⟩
  have h1 := derivative_chebQ_eval hn j
  rw [hR] at h1
  simp only [derivative_mul, derivative_C, mul_zero, add_zero, eval_mul, eval_C] at h1
  field_simp
  rw [← h1]

theorem derivative_nodal_chebX {n : ℕ} (hn : n ≠ 0) {a b : ℝ} (hab : a ≠ b) : ∃ K : ℝ, K ≠ 0 ∧ ∀ j : Fin (n + 1),
    (derivative (Lagrange.nodal univ (chebX n a b))).eval (chebX n a b j) = K * chebC n j := by
  obtain ⟨K, hK, h⟩ := derivative_nodal_chebpts2 hn
  have hb : b - a ≠ 0 := sub_ne_zero.2 hab.symm
  refine ⟨((b - a) / 2) ^ n * K, by positivity, fun j => ?_⟩
  rw [mul_assoc, ← h j, Lagrange.eval_nodal_derivative_eval_node_eq (mem_univ j),
    Lagrange.eval_nodal_derivative_eval_node_eq (mem_univ j), Lagrange.eval_nodal, Lagrange.eval_nodal]
  have : ∀ k, chebX n a b j - chebX n a b k = (b - a) / 2 * (chebpts2 n j - chebpts2 n k) := by
    intro k; simp only [chebX]; ring
  simp only [this, prod_mul_distrib, prod_const]
  simp

theorem chebD_eq_baryD {n : ℕ} (x : Fin (n + 1) → ℝ) : chebD n x = baryD x (chebC n) := by
  ext i j
  simp only [chebD, Matrix.sub_apply, baryD, chebD0]
  by_cases h : i = j
  · subst h
    rw [Matrix.diagonal_apply_eq, if_pos rfl, if_pos rfl, ← add_sum_erase univ _ (mem_univ i), if_pos rfl]
    rw [sub_add_cancel_left]
    congr 1
    refine sum_congr rfl fun k hk => ?_
    rw [if_neg (ne_of_mem_erase hk).symm, add_zero, mul_one_div]
  · rw [Matrix.diagonal_apply_ne _ h, if_neg h, if_neg h, sub_zero, add_zero, mul_one_div]

end Points

end Verif
