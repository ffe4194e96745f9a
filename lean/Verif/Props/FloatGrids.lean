import Verif.Props.Chebyshev
import Verif.Props.FloatEnd
import Verif.Lemmas.FloatCheb

/-!
# C85: the Chebyshev grid, its derivatives and the Allen–Cahn equation in floating point
-/

set_option linter.unusedSectionVars false

namespace Verif

open Matrix Polynomial
open scoped ContDiff Matrix.Norms.Operator

/-- Roundings together with values of size at most `B` and computed samples of them. -/
abbrev SampledRounding (k l : ℕ) (B c : ℝ) : Type :=
  {p : Rounding × Matrix (Fin k) (Fin l) ℝ × Matrix (Fin k) (Fin l) ℝ // (∀ i j, |p.2.1 i j| ≤ B) ∧ ∀ i j, |p.2.2 i j - p.2.1 i j| ≤ c * p.1.ρ}

theorem flConstructCheb_ok (rnd : ℝ → ℝ) (sum : List ℝ → ℝ) (n : ℕ) (a b : ℝ) : flConstructXDxCheb rnd sum (.int ((n : ℤ) + 2)) a b =
    .ok ⟨n + 2, flChebX rnd (n + 2) a b, flChebD rnd sum (n + 2) (flChebX rnd (n + 2) a b)⟩ := by
  simp [flConstructXDxCheb, checkCheb_ok, bind, Except.bind, pure, Except.pure]

theorem constructCheb_ok (n : ℕ) (a b : ℝ) : constructXDxCheb (.int ((n : ℤ) + 2)) a b =
    .ok ⟨n + 2, chebX (n + 2) a b, chebD (n + 2) (chebX (n + 2) a b)⟩ := by
  simp [constructXDxCheb, constructXCheb, checkCheb_ok, bind, Except.bind, pure, Except.pure]

/-- **C85.** `construct_x_dx_cheb` in floating point returns, for every unit roundoff `ρ` that is small enough for the grid, points, a matrix and
with `d_cheb_matrix.dot(d_cheb_matrix)` a square of it that differ from the exact ones by a constant times `ρ`. -/
theorem C85_cheb (n : ℕ) {a b : ℝ} (hab : a ≠ b) {x : Fin (n + 2 + 1) → ℝ} {D : Matrix (Fin (n + 2 + 1)) (Fin (n + 2 + 1)) ℝ}
    (hD : constructXDxCheb (.int ((n : ℤ) + 2)) a b = .ok ⟨n + 2, x, D⟩) :
    ∃ K δ : ℝ, 0 ≤ K ∧ 0 < δ ∧ ∀ (rnd : ℝ → ℝ) (sum : List ℝ → ℝ) (dot : List (ℝ × ℝ) → ℝ) (ρ : ℝ), RoundsTo rnd sum dot ρ → ρ ≤ δ →
      ∃ x' D', flConstructXDxCheb rnd sum (.int ((n : ℤ) + 2)) a b = .ok ⟨n + 2, x', D'⟩ ∧ (∀ i, |x' i - x i| ≤ K * ρ) ∧
        (∀ i j, |D' i j - D i j| ≤ K * ρ) ∧ ∀ i j, |flMatDot dot D' D' i j - (D * D) i j| ≤ K * ρ := by
  rw [constructCheb_ok] at hD
  simp only [Except.ok.injEq, Sigma.mk.injEq, heq_eq_eq, true_and, Prod.mk.injEq] at hD
  obtain ⟨rfl, rfl⟩ := hD
  have hinj : Function.Injective (chebX (n + 2) a b) := chebX_injective (by omega) hab
  have l1 := fun j => Rounding.lim_chebX (r := (id : Rounding → Rounding)) (n := n + 2) (by omega) a b j
  have l2 := fun i j => Rounding.lim_chebD l1 hinj i j
  have l3 := Rounding.LimM.dot l2 l2
  obtain ⟨K1, δ1, h1, h1', h1''⟩ := Rounding.Lim.bound l1
  obtain ⟨K2, δ2, h2, h2', h2''⟩ := Rounding.Lim.bound fun p : Fin (n + 2 + 1) × Fin (n + 2 + 1) => l2 p.1 p.2
  obtain ⟨K3, δ3, h3, h3', h3''⟩ := Rounding.Lim.bound fun p : Fin (n + 2 + 1) × Fin (n + 2 + 1) => l3 p.1 p.2
  refine ⟨K1 + K2 + K3, min δ1 (min δ2 δ3), by positivity, by positivity, fun rnd sum dot ρ hR hρ => ⟨_, _, flConstructCheb_ok rnd sum n a b, ?_, ?_, ?_⟩⟩
  · intro i
    refine (h1'' ⟨rnd, sum, dot, ρ, hR⟩ (hρ.trans (min_le_left _ _)) i).trans (mul_le_mul_of_nonneg_right (by linarith) hR.nonneg)
  · intro i j
    refine (h2'' ⟨rnd, sum, dot, ρ, hR⟩ (hρ.trans ((min_le_right _ _).trans (min_le_left _ _))) (i, j)).trans
      (mul_le_mul_of_nonneg_right (by linarith) hR.nonneg)
  · intro i j
    refine (h3'' ⟨rnd, sum, dot, ρ, hR⟩ (hρ.trans ((min_le_right _ _).trans (min_le_right _ _))) (i, j)).trans
      (mul_le_mul_of_nonneg_right (by linarith) hR.nonneg)

/-- **C85.** In floating point `construct_x_dx_cheb` raises for the same `n` and the same errors. -/
theorem C85_cheb_raises (rnd : ℝ → ℝ) (sum : List ℝ → ℝ) (n : PyVal ℝ) (a b : ℝ) (e : PyErr) :
    flConstructXDxCheb rnd sum n a b = .error e ↔ constructXDxCheb n a b = .error e := by
  unfold flConstructXDxCheb constructXDxCheb constructXCheb
  cases checkCheb n <;> simp [bind, Except.bind, pure, Except.pure]

/-- **C85.** `dx_cheb` in floating point, with the matrix of `construct_x_dx_cheb` in floating point: for columns of polynomials of degree at most `n`
and of size at most `B` at the points, sampled with errors proportional to the unit roundoff, and every order `m`, the result differs from the `m`-th
derivatives by a constant times the unit roundoff. -/
theorem C85_dx_cheb (n : ℕ) {a b : ℝ} (hab : a ≠ b) {x : Fin (n + 2 + 1) → ℝ} {D : Matrix (Fin (n + 2 + 1)) (Fin (n + 2 + 1)) ℝ}
    (hD : constructXDxCheb (.int ((n : ℤ) + 2)) a b = .ok ⟨n + 2, x, D⟩) (l m : ℕ) (B c : ℝ) :
    ∃ K δ : ℝ, 0 ≤ K ∧ 0 < δ ∧ ∀ (rnd : ℝ → ℝ) (sum : List ℝ → ℝ) (dot : List (ℝ × ℝ) → ℝ) (ρ : ℝ), RoundsTo rnd sum dot ρ → ρ ≤ δ →
      ∀ p : Fin l → ℝ[X], (∀ j, (p j).degree ≤ (n + 2 : ℕ)) → (∀ i j, |(p j).eval (x i)| ≤ B) →
      ∀ u : Matrix (Fin (n + 2 + 1)) (Fin l) ℝ, (∀ i j, |u i j - (p j).eval (x i)| ≤ c * ρ) →
      ∃ x' D' v, flConstructXDxCheb rnd sum (.int ((n : ℤ) + 2)) a b = .ok ⟨n + 2, x', D'⟩ ∧ flDxCheb dot D' u (.int m) = .ok v ∧
        ∀ i j, |v i j - (derivative^[m] (p j)).eval (x i)| ≤ K * ρ := by
  obtain ⟨x0, D0, e1, -, e2⟩ := C44_exact n hab
  rw [hD] at e1
  simp only [Except.ok.injEq, Sigma.mk.injEq, heq_eq_eq, true_and, Prod.mk.injEq] at e1
  obtain ⟨rfl, rfl⟩ := e1
  rw [constructCheb_ok] at hD
  simp only [Except.ok.injEq, Sigma.mk.injEq, heq_eq_eq, true_and, Prod.mk.injEq] at hD
  obtain ⟨rfl, rfl⟩ := hD
  have hinj : Function.Injective (chebX (n + 2) a b) := chebX_injective (by omega) hab
  set x := chebX (n + 2) a b with hx
  set D := chebD (n + 2) x with hD
  have hpow : ∀ p : Fin l → ℝ[X], (∀ j, (p j).degree ≤ (n + 2 : ℕ)) →
      ∀ k, ∀ i j, (D ^ k * Matrix.of fun i j => (p j).eval (x i)) i j = (derivative^[k] (p j)).eval (x i) := by
    intro p hp k
    induction k with
    | zero => intro i j; rw [pow_zero, Matrix.one_mul]; rfl
    | succ k ih =>
      intro i j
      have hdeg : (derivative^[k] (p j)).degree ≤ (n + 2 : ℕ) := by
        clear ih
        induction k with
        | zero => exact hp j
        | succ k ih => rw [Function.iterate_succ_apply']; exact (degree_derivative_le).trans ih
      rw [pow_succ', Matrix.mul_assoc, Matrix.mul_apply, Function.iterate_succ_apply', ← e2 _ hdeg]
      exact Finset.sum_congr rfl fun q _ => by rw [ih]
  set r : SampledRounding (n + 2 + 1) l B c → Rounding := fun t => t.1.1 with hr
  have hu : Rounding.LimM r (fun t => t.1.2.2) (fun t => t.1.2.1) := fun i j =>
    ⟨Asymptotics.IsBigO.of_bound c (Filter.Eventually.of_forall fun t => by
      rw [Real.norm_eq_abs, Real.norm_of_nonneg t.1.1.ok.nonneg]
      exact t.2.2 i j),
    Asymptotics.IsBigO.of_bound B (Filter.Eventually.of_forall fun t => by
      rw [Real.norm_eq_abs, norm_one, mul_one]
      exact t.2.1 i j)⟩
  have l1 := fun j => Rounding.lim_chebX (r := r) (n := n + 2) (by omega) a b j
  have l2 : Rounding.LimM r (fun t => flChebD (r t).rnd (r t).sum (n + 2) (flChebX (r t).rnd (n + 2) a b)) (fun _ => D) :=
    fun i j => Rounding.lim_chebD l1 hinj i j
  have key : ∃ V : SampledRounding (n + 2 + 1) l B c → Matrix (Fin (n + 2 + 1)) (Fin l) ℝ,
      (∀ t, flDxCheb (r t).dot (flChebD (r t).rnd (r t).sum (n + 2) (flChebX (r t).rnd (n + 2) a b)) t.1.2.2 (.int m) = .ok (V t)) ∧
      Rounding.LimM r V (fun t => D ^ m * t.1.2.1) := by
    have hm0 : ¬ ((m : ℤ) < 0) := by omega
    rcases Nat.lt_trichotomy m 1 with h | h | h
    · obtain rfl : m = 0 := by omega
      exact ⟨fun t => t.1.2.2, fun t => rfl, by simp only [pow_zero, Matrix.one_mul]; exact hu⟩
    · subst h
      exact ⟨_, fun t => rfl, by simp only [pow_one]; exact l2.dot hu⟩
    · refine ⟨_, fun t => ?_, (l2.pow (show m ≠ 0 by omega)).dot hu⟩
      rw [flDxCheb, if_neg hm0, if_neg (by omega), if_neg (by omega), Int.toNat_natCast]
  obtain ⟨V, hV, hlim⟩ := key
  obtain ⟨K, δ, h1, h2, h3⟩ := Rounding.Lim.bound fun q : Fin (n + 2 + 1) × Fin l => hlim q.1 q.2
  refine ⟨K, δ, h1, h2, fun rnd sum dot ρ hR hρ p hp hB u hu' =>
    ⟨_, _, _, flConstructCheb_ok rnd sum n a b, hV ⟨(⟨rnd, sum, dot, ρ, hR⟩, Matrix.of fun i j => (p j).eval (x i), u), hB, hu'⟩, fun i j => ?_⟩⟩
  have := h3 ⟨(⟨rnd, sum, dot, ρ, hR⟩, Matrix.of fun i j => (p j).eval (x i), u), hB, hu'⟩ hρ (i, j)
  rw [← hpow p hp]
  exact this

/-- **C85.** `dx_cheb` in floating point raises for the same orders. -/
theorem C85_dx_cheb_raises (dot : List (ℝ × ℝ) → ℝ) {k l : ℕ} (D : Matrix (Fin k) (Fin k) ℝ) (u : Matrix (Fin k) (Fin l) ℝ) (n : PyVal ℝ) (e : PyErr) :
    flDxCheb dot D u n = .error e ↔ (∀ m : ℤ, n ≠ .int m) ∧ e = .typeError ∨ (∃ m : ℤ, n = .int m ∧ m < 0) ∧ e = .valueError := by
  unfold flDxCheb
  cases n with
  | int m =>
    simp only [PyVal.int.injEq, exists_eq_left', ne_eq, not_true_eq_false]
    by_cases h : m < 0
    · simp [h, eq_comm]
    · simp only [h, if_false, false_and, or_false]
      constructor
      · intro h'
        split_ifs at h'
      · rintro ⟨h', -⟩
        exact absurd rfl (h' m)
  | _ => simp [eq_comm]

/-! ### Cases -/

/-- Rounding to 53 bits and adding from the right. -/
example : RoundsTo rnd64 (realSum (seqSum rnd64)) (roundedDot rnd64 (realSum (seqSum rnd64))) (1 / 2 ^ 53) :=
  RoundsTo.numpy (by positivity) rnd64_error (seqSum_sumsTo _)

/-- The inner product may also be computed with one rounding only. -/
example : RoundsTo rnd64 (realSum (seqSum rnd64)) (fun l => rnd64 (l.map fun p => p.1 * p.2).sum) (1 / 2 ^ 53) where
  nonneg := by positivity
  rnd := rnd64_error
  sum := (RoundsTo.numpy (by positivity) rnd64_error (seqSum_sumsTo _)).sum
  dot l _ := by
    refine (rnd64_error _).trans ?_
    have key : ∀ l : List (ℝ × ℝ), |(l.map fun p => p.1 * p.2).sum| ≤ (l.map fun p => |p.1 * p.2|).sum := fun l => by
      induction l with
      | nil => simp
      | cons p l ih => simp only [List.map_cons, List.sum_cons]; exact (abs_add_le _ _).trans (by linarith)
    rcases Nat.eq_zero_or_pos l.length with h | h
    · obtain rfl := List.length_eq_zero_iff.1 h
      simp
    · have h1 : (1 : ℝ) ≤ l.length := by exact_mod_cast h
      have h2 := key l
      have h3 : 0 ≤ (l.map fun p => |p.1 * p.2|).sum := (abs_nonneg _).trans h2
      have h4 : (1 / 2 ^ 53 : ℝ) * (l.map fun p => |p.1 * p.2|).sum ≤ l.length * (1 / 2 ^ 53) * (l.map fun p => |p.1 * p.2|).sum :=
        mul_le_mul_of_nonneg_right (le_mul_of_one_le_left (by positivity) h1) h3
      have h5 : (1 / 2 ^ 53 : ℝ) * |(l.map fun p => p.1 * p.2).sum| ≤ (1 / 2 ^ 53) * (l.map fun p => |p.1 * p.2|).sum :=
        mul_le_mul_of_nonneg_left h2 (by positivity)
      have h6 : 0 ≤ (l.length : ℝ) * (1 / 2 ^ 53) * (l.map fun p => |p.1 * p.2|).sum := by positivity
      linarith

theorem tooLarge_rounds {ρ : ℝ} (hρ : 0 < ρ) :
    RoundsTo (tooLarge ρ) (realSum (seqSum (tooLarge ρ))) (roundedDot (tooLarge ρ) (realSum (seqSum (tooLarge ρ)))) ρ :=
  RoundsTo.numpy hρ.le (tooLarge_error' hρ.le) (seqSum_sumsTo _)

/-- Five points on `[0, 1]`, every operation with the relative error `ρ / 2`: the point in the middle. -/
example : ∃ K δ : ℝ, 0 < δ ∧ ∀ ρ, 0 < ρ → ρ ≤ δ → ∃ (x' : Fin 5 → ℝ) (D' : Matrix (Fin 5) (Fin 5) ℝ),
    flConstructXDxCheb (tooLarge ρ) (realSum (seqSum (tooLarge ρ))) (.int 4) 0 1 = .ok ⟨4, x', D'⟩ ∧ |x' 2 - 1 / 2| ≤ K * ρ := by
  obtain ⟨K, δ, -, hδ, h⟩ := C85_cheb 2 (zero_ne_one (α := ℝ)) (constructCheb_ok 2 0 1)
  refine ⟨K, δ, hδ, fun ρ hρ hle => ?_⟩
  obtain ⟨x', D', e, h1, -⟩ := h _ _ _ ρ (tooLarge_rounds hρ) hle
  refine ⟨x', D', e, ?_⟩
  have h2 := h1 2
  have h3 : chebX (2 + 2) 0 1 2 = 1 / 2 := by
    rw [chebX, chebpts2_eq, show (((2 : Fin (2 + 2 + 1)) : ℕ) : ℝ) * (Real.pi / ((2 + 2 : ℕ) : ℝ)) = Real.pi / 2 by
      rw [show ((2 : Fin (2 + 2 + 1)) : ℕ) = 2 from rfl]; push_cast; ring, Real.cos_pi_div_two]
    norm_num
  rwa [h3] at h2

/-- One subinterval is too few, and `2.0` is no integer. -/
example : flConstructXDxCheb rnd64 List.sum (.int 1) 0 1 = .error .valueError ∧ flConstructXDxCheb rnd64 List.sum (.float (.fin 2)) 0 1 = .error .typeError := by
  constructor <;> rw [C85_cheb_raises] <;> simp [constructXDxCheb, constructXCheb, checkCheb, bind, Except.bind]

/-- The fifth derivatives of `t⁴` and `t⁵` on six points are nearly `0` and `120`, though the matrix, its powers and the samples are not exact. -/
example : ∃ K δ : ℝ, 0 < δ ∧ ∀ ρ, 0 < ρ → ρ ≤ δ → ∃ (x' : Fin 6 → ℝ) (D' : Matrix (Fin 6) (Fin 6) ℝ) (v : Matrix (Fin 6) (Fin 2) ℝ),
    flConstructXDxCheb (tooLarge ρ) (realSum (seqSum (tooLarge ρ))) (.int 5) (-1) 1 = .ok ⟨5, x', D'⟩ ∧
    flDxCheb (roundedDot (tooLarge ρ) (realSum (seqSum (tooLarge ρ)))) D'
      (fun i j => (![X ^ 4, X ^ 5] j : ℝ[X]).eval (chebX 5 (-1) 1 i) + ρ) (.int 5) = .ok v ∧
    ∀ i, |v i 0| ≤ K * ρ ∧ |v i 1 - 120| ≤ K * ρ := by
  obtain ⟨K, δ, -, hδ, h⟩ := C85_dx_cheb 3 (a := -1) (b := 1) (by norm_num) (constructCheb_ok 3 (-1) 1) 2 5 1 1
  have hx : ∀ i, |chebX (3 + 2) (-1) 1 i| ≤ 1 := fun i => by
    rw [chebX, chebpts2_eq]
    refine le_trans (le_of_eq ?_) (Real.abs_cos_le_one (((i : ℕ) : ℝ) * (Real.pi / ((3 + 2 : ℕ) : ℝ))))
    rw [← abs_neg]
    congr 1
    ring
  refine ⟨K, δ, hδ, fun ρ hρ hle => ?_⟩
  obtain ⟨x', D', v, e1, e2, e3⟩ := h _ _ _ ρ (tooLarge_rounds hρ) hle ![X ^ 4, X ^ 5]
    (fun j => by fin_cases j; exacts [(degree_X_pow 4).le.trans (by norm_num), (degree_X_pow 5).le])
    (fun i j => by fin_cases j <;> simp only [Fin.zero_eta, Fin.mk_one, Matrix.cons_val_zero, Matrix.cons_val_one, eval_pow, eval_X, abs_pow] <;>
      exact pow_le_one₀ (abs_nonneg _) (hx i)) (fun i j => (![X ^ 4, X ^ 5] j : ℝ[X]).eval (chebX 5 (-1) 1 i) + ρ)
    (fun i j => by rw [add_sub_cancel_left, one_mul, abs_of_pos hρ])
  refine ⟨x', D', v, e1, e2, fun i => ⟨?_, ?_⟩⟩
  · have := e3 i 0
    simpa [Function.iterate_succ_apply'] using this
  · have := e3 i 1
    norm_num [Function.iterate_succ_apply'] at this
    exact this

/-- Orders that are not allowed. -/
example (D : Matrix (Fin 3) (Fin 3) ℝ) (u : Matrix (Fin 3) (Fin 1) ℝ) : flDxCheb (fun _ => 0) D u (.int (-1)) = .error .valueError ∧
    flDxCheb (fun _ => 0) D u (.float (.fin 1)) = .error .typeError :=
  ⟨(C85_dx_cheb_raises _ D u _ _).2 (Or.inr ⟨⟨-1, rfl, by norm_num⟩, rfl⟩), (C85_dx_cheb_raises _ D u _ _).2 (Or.inl ⟨by simp, rfl⟩)⟩

end Verif
