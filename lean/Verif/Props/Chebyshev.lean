import Verif.Lemmas.Cheb
import Verif.Model.Derivatives

/-!
# C43, C44: the Chebyshev grid and its differentiation matrix
-/

set_option linter.unusedSectionVars false

namespace Verif

open Polynomial Finset

theorem checkCheb_ok (n : ℕ) : checkCheb (.int ((n : ℤ) + 2)) = .ok (n + 2) := by
  simp only [checkCheb]
  rw [if_neg (by omega)]
  congr 1

/-- **C43.** `TypeError` iff `n` is not an integer; `ValueError` iff it is one below two. -/
theorem C43_errors (n : PyVal ℝ) (a b : ℝ) :
    (constructXCheb n a b = .error .typeError ↔ ∀ z, n ≠ .int z) ∧
    (constructXCheb n a b = .error .valueError ↔ ∃ z, n = .int z ∧ z < 2) ∧
    (constructXDxCheb n a b = .error .typeError ↔ ∀ z, n ≠ .int z) ∧
    (constructXDxCheb n a b = .error .valueError ↔ ∃ z, n = .int z ∧ z < 2) := by
  cases n with
  | int z =>
    have h' : ¬ ∀ w, (PyVal.int z : PyVal ℝ) ≠ PyVal.int w := fun hw => hw z rfl
    by_cases h : z < 2
    · simp [constructXCheb, constructXDxCheb, checkCheb, bind, Except.bind, h]
    · simp [constructXCheb, constructXDxCheb, checkCheb, bind, Except.bind, h, pure, Except.pure]
  | _ => simp [constructXCheb, constructXDxCheb, checkCheb, bind, Except.bind]

/-- A float, one point too few, and a legal argument. -/
example : constructXCheb (.float (.fin 4)) 0 1 = .error .typeError ∧ constructXCheb (.int 1) 0 1 = .error .valueError ∧
    constructXDxCheb (.int 2) 0 1 ≠ .error .valueError := by
  refine ⟨((C43_errors _ _ _).1).2 (by simp), ((C43_errors _ _ _).2.1).2 ⟨1, rfl, by norm_num⟩, fun h => ?_⟩
  obtain ⟨z, hz, h2⟩ := ((C43_errors _ _ _).2.2.2).1 h
  simp at hz
  omega

/-- **C43.** For `n ≥ 2` the grid has `n + 1` points, the extrema of the Chebyshev polynomial on `[a, b]` in *ascending* order:
`x_j = (a + b) / 2 - (b - a) / 2 cos(jπ/n)`. -/
theorem C43_points (n : ℕ) (a b : ℝ) : ∃ x : Fin (n + 2 + 1) → ℝ, constructXCheb (.int ((n : ℤ) + 2)) a b = .ok ⟨n + 2, x⟩ ∧
    ∀ j, x j = (a + b) / 2 - (b - a) / 2 * Real.cos (j * Real.pi / (n + 2 : ℕ)) := by
  refine ⟨chebX (n + 2) a b, ?_, fun j => ?_⟩
  · simp [constructXCheb, checkCheb_ok, bind, Except.bind, pure, Except.pure]
  · rw [chebX, chebpts2_eq, mul_div_assoc]; ring_nf

/-- **C43.** The points increase strictly from `a` to `b` and are symmetric about the midpoint. -/
theorem C43_order (n : ℕ) {a b : ℝ} (hab : a < b) (x : Fin (n + 2 + 1) → ℝ)
    (hx : constructXCheb (.int ((n : ℤ) + 2)) a b = .ok ⟨n + 2, x⟩) :
    x 0 = a ∧ x (Fin.last _) = b ∧ StrictMono x ∧ (∀ j, x j ∈ Set.Icc a b) ∧ ∀ j, x j + x j.rev = a + b := by
  have hx' : x = chebX (n + 2) a b := by
    simp only [constructXCheb, checkCheb_ok, bind, Except.bind, pure, Except.pure, Except.ok.injEq, Sigma.mk.injEq,
      heq_eq_eq, true_and] at hx
    exact hx.symm
  have hn : ((n + 2 : ℕ) : ℝ) ≠ 0 := by positivity
  have h0 : chebX (n + 2) a b 0 = a := by rw [chebX, chebpts2_eq]; simp
  have h1 : chebX (n + 2) a b (Fin.last _) = b := by
    rw [chebX, chebpts2_eq, Fin.val_last, mul_div_cancel₀ _ hn, Real.cos_pi]; ring
  have hm : StrictMono (chebX (n + 2) a b) := chebX_strictMono (by omega) hab
  subst hx'
  refine ⟨h0, h1, hm, fun j => ⟨?_, ?_⟩, fun j => ?_⟩
  · conv_lhs => rw [← h0]
    exact hm.monotone (Fin.zero_le j)
  · conv_rhs => rw [← h1]
    exact hm.monotone (Fin.le_last j)
  · simp only [chebX, chebpts2_eq]
    have hr : ((j.rev : Fin _) : ℝ) * (Real.pi / (n + 2 : ℕ)) = Real.pi - j * (Real.pi / (n + 2 : ℕ)) := by
      have : ((j.rev : Fin _).val : ℝ) = (n + 2 : ℕ) - (j.val : ℝ) := by
        rw [Fin.val_rev, Nat.cast_sub (by omega)]; push_cast; ring
      rw [this, sub_mul, mul_div_cancel₀ _ hn]
    rw [hr, Real.cos_pi_sub]
    ring

/-- Five points on `[2, 5]`. -/
example : ∃ x : Fin 5 → ℝ, constructXCheb (.int 4) 2 5 = .ok ⟨4, x⟩ ∧ StrictMono x ∧ x 0 = 2 ∧ x 4 = 5 ∧ x 2 = 7 / 2 := by
  obtain ⟨x, hx, -⟩ := C43_points 2 2 5
  obtain ⟨h1, h2, h3, -, h5⟩ := C43_order 2 (by norm_num) x hx
  have := h5 2
  rw [show (2 : Fin 5).rev = 2 from rfl] at this
  exact ⟨x, hx, h3, h1, h2, by linarith⟩

example : ∃ x : Fin 3 → ℝ, constructXCheb (.int 2) (-1) 1 = .ok ⟨2, x⟩ ∧ x 0 = -1 ∧ x 1 = 0 ∧ x 2 = 1 := by
  obtain ⟨x, hx, hj⟩ := C43_points 0 (-1) 1
  refine ⟨x, hx, ?_, ?_, ?_⟩ <;> rw [hj] <;> norm_num

/-- **C44.** The matrix differentiates every polynomial of degree at most `n` exactly, on `[a, b]` without further scaling. -/
theorem C44_exact (n : ℕ) {a b : ℝ} (hab : a ≠ b) : ∃ (x : Fin (n + 2 + 1) → ℝ) (D : Matrix (Fin (n + 2 + 1)) (Fin (n + 2 + 1)) ℝ),
    constructXDxCheb (.int ((n : ℤ) + 2)) a b = .ok ⟨n + 2, x, D⟩ ∧
    constructXCheb (.int ((n : ℤ) + 2)) a b = .ok ⟨n + 2, x⟩ ∧
    ∀ p : ℝ[X], p.degree ≤ (n + 2 : ℕ) → ∀ i, ∑ j, D i j * p.eval (x j) = (derivative p).eval (x i) := by
  refine ⟨chebX (n + 2) a b, chebD (n + 2) (chebX (n + 2) a b), ?_, ?_, ?_⟩
  · simp [constructXDxCheb, constructXCheb, checkCheb_ok, bind, Except.bind, pure, Except.pure]
  · simp [constructXCheb, checkCheb_ok, bind, Except.bind, pure, Except.pure]
  · intro p hp i
    obtain ⟨K, hK, hc⟩ := derivative_nodal_chebX (n := n + 2) (by omega) hab
    rw [chebD_eq_baryD]
    exact baryD_exact (chebX_injective (by omega) hab) hK hc p hp i

/-- **C44.** The matrix is determined by exactness: the one returned is the only one that differentiates polynomials of degree
at most `n`. -/
theorem C44_unique (n : ℕ) {a b : ℝ} (hab : a ≠ b) {x : Fin (n + 2 + 1) → ℝ} {D E : Matrix (Fin (n + 2 + 1)) (Fin (n + 2 + 1)) ℝ}
    (hD : constructXDxCheb (.int ((n : ℤ) + 2)) a b = .ok ⟨n + 2, x, D⟩)
    (hE : ∀ p : ℝ[X], p.degree ≤ (n + 2 : ℕ) → ∀ i, ∑ j, E i j * p.eval (x j) = (derivative p).eval (x i)) : D = E := by
  obtain ⟨x', D', h1, h2, h3⟩ := C44_exact n hab
  rw [hD] at h1
  simp only [Except.ok.injEq, Sigma.mk.injEq, heq_eq_eq, true_and, Prod.mk.injEq] at h1
  obtain ⟨rfl, rfl⟩ := h1
  have hx : x = chebX (n + 2) a b := by
    simp only [constructXCheb, checkCheb_ok, bind, Except.bind, pure, Except.pure, Except.ok.injEq, Sigma.mk.injEq,
      heq_eq_eq, true_and] at h2
    exact h2.symm
  have hinj : Function.Injective x := hx ▸ chebX_injective (by omega) hab
  ext i j
  have hdeg : (Lagrange.basis univ x j).degree ≤ (n + 2 : ℕ) := by
    rw [Lagrange.degree_basis hinj.injOn (mem_univ j)]
    simp
  have e1 := h3 _ hdeg i
  rw [← hE _ hdeg i] at e1
  have hsum : ∀ M : Matrix (Fin (n + 2 + 1)) (Fin (n + 2 + 1)) ℝ,
      ∑ k, M i k * (Lagrange.basis univ x j).eval (x k) = M i j := by
    intro M
    rw [Finset.sum_eq_single j]
    · rw [Lagrange.eval_basis_self hinj.injOn (mem_univ j), mul_one]
    · intro k _ hk
      rw [Lagrange.eval_basis_of_ne hk.symm (mem_univ k), mul_zero]
    · intro h; exact absurd (mem_univ j) h
  rwa [hsum, hsum] at e1

/-- **C44.** Rows of the matrix sum to zero. -/
theorem C44_row_sums (n : ℕ) {a b : ℝ} (hab : a ≠ b) {x : Fin (n + 2 + 1) → ℝ} {D : Matrix (Fin (n + 2 + 1)) (Fin (n + 2 + 1)) ℝ}
    (hD : constructXDxCheb (.int ((n : ℤ) + 2)) a b = .ok ⟨n + 2, x, D⟩) (i) : ∑ j, D i j = 0 := by
  obtain ⟨x', D', h1, -, h3⟩ := C44_exact n hab
  rw [hD] at h1
  simp only [Except.ok.injEq, Sigma.mk.injEq, heq_eq_eq, true_and, Prod.mk.injEq] at h1
  obtain ⟨rfl, rfl⟩ := h1
  have := h3 1 (degree_one_le.trans (by positivity)) i
  simpa using this

/-- Four points on `[0, 1]`: a matrix that differentiates cubics is the one computed; its rows sum to zero. -/
example : ∃ (x : Fin 4 → ℝ) (D : Matrix (Fin 4) (Fin 4) ℝ), constructXDxCheb (.int 3) 0 1 = .ok ⟨3, x, D⟩ ∧ ∑ j, D 2 j = 0 ∧
    ∀ E : Matrix (Fin 4) (Fin 4) ℝ, (∀ p : ℝ[X], p.degree ≤ (3 : ℕ) → ∀ i, ∑ j, E i j * p.eval (x j) = (derivative p).eval (x i)) → E = D := by
  obtain ⟨x, D, h, -⟩ := C44_exact 1 (a := 0) (b := 1) (by norm_num)
  exact ⟨x, D, h, C44_row_sums 1 (by norm_num) h 2, fun E hE => (C44_unique 1 (by norm_num) h hE).symm⟩

/-- The two-dimensional array of a matrix. -/
def Mat2.ofMatrix {n : ℕ} (D : Matrix (Fin (n + 1)) (Fin (n + 1)) ℝ) : Mat2 ℝ :=
  ⟨n + 1, n + 1, fun i j => D (Fin.ofNat (n + 1) i) (Fin.ofNat (n + 1) j)⟩

/-- The one-dimensional array of the values of `f` at the points. -/
def sampled {n : ℕ} (x : Fin (n + 1) → ℝ) (f : ℝ → ℝ) : NdArr ℝ :=
  ⟨[n + 1], fun idx => f (x (Fin.ofNat (n + 1) (idx.headD 0)))⟩

/-- The two-dimensional array whose column `c < m` holds the values of `f c`. -/
def sampledCols {n : ℕ} (x : Fin (n + 1) → ℝ) (m : ℕ) (f : ℕ → ℝ → ℝ) : NdArr ℝ :=
  ⟨[n + 1, m], fun idx => f (idx.tail.headD 0) (x (Fin.ofNat (n + 1) (idx.headD 0)))⟩

theorem range_eq_fin {n : ℕ} (f : Fin (n + 1) → ℝ) : ∑ l ∈ range (n + 1), f (Fin.ofNat (n + 1) l) = ∑ l, f l := by
  rw [← Fin.sum_univ_eq_sum_range (fun l => f (Fin.ofNat (n + 1) l))]
  refine sum_congr rfl fun l _ => ?_
  congr 1
  exact Fin.ext (Nat.mod_eq_of_lt l.2)

theorem powSucc_exact {n : ℕ} {x : Fin (n + 1) → ℝ} {D : Matrix (Fin (n + 1)) (Fin (n + 1)) ℝ}
    (h : ∀ p : ℝ[X], p.degree ≤ n → ∀ i, ∑ j, D i j * p.eval (x j) = (derivative p).eval (x i)) (m : ℕ) :
    ((Mat2.ofMatrix D).powSucc m).rows = n + 1 ∧ ((Mat2.ofMatrix D).powSucc m).cols = n + 1 ∧
    ∀ p : ℝ[X], p.degree ≤ n → ∀ i : Fin (n + 1), ∑ l ∈ range (n + 1), ((Mat2.ofMatrix D).powSucc m).get i l *
      p.eval (x (Fin.ofNat (n + 1) l)) = (derivative^[m + 1] p).eval (x i) := by
  induction m with
  | zero =>
    refine ⟨rfl, rfl, fun p hp i => ?_⟩
    simp only [Mat2.powSucc, Mat2.ofMatrix, Function.iterate_one, zero_add]
    rw [← h p hp i, ← range_eq_fin (fun l => D i l * p.eval (x l))]
    refine sum_congr rfl fun l _ => ?_
    have : Fin.ofNat (n + 1) i.val = i := Fin.ext (Nat.mod_eq_of_lt i.2)
    rw [this]
  | succ m ih =>
    obtain ⟨ih1, ih2, ih3⟩ := ih
    refine ⟨ih1, rfl, fun p hp i => ?_⟩
    simp only [Mat2.powSucc, Mat2.mul, ih2]
    have hd : (derivative p).degree ≤ n := degree_derivative_le.trans hp
    rw [Function.iterate_succ_apply, ← ih3 _ hd i]
    simp only [sum_mul]
    rw [sum_comm]
    refine sum_congr rfl fun k _ => ?_
    rw [← h p hp (Fin.ofNat (n + 1) k), ← range_eq_fin (fun l => D (Fin.ofNat (n + 1) k) l * p.eval (x l)), mul_sum]
    refine sum_congr rfl fun l _ => ?_
    simp only [Mat2.ofMatrix, mul_assoc]

/-- **C44.** `dx_cheb(D, p(x), m)` is the exact `m`-th derivative for every polynomial of degree at most `n` and every `m ≥ 0`. -/
theorem C44_dx_cheb (n : ℕ) {a b : ℝ} (hab : a ≠ b) {x : Fin (n + 2 + 1) → ℝ} {D : Matrix (Fin (n + 2 + 1)) (Fin (n + 2 + 1)) ℝ}
    (hD : constructXDxCheb (.int ((n : ℤ) + 2)) a b = .ok ⟨n + 2, x, D⟩) (p : ℝ[X]) (hp : p.degree ≤ (n + 2 : ℕ)) (m : ℕ) :
    ∃ v, dxCheb (Mat2.ofMatrix D) (sampled x fun t => p.eval t) (.int m) = .ok v ∧ v.shape = [n + 2 + 1] ∧
      ∀ i : Fin (n + 2 + 1), v.get [i.val] = (derivative^[m] p).eval (x i) := by
  obtain ⟨x', D', h1, -, h3⟩ := C44_exact n hab
  rw [hD] at h1
  simp only [Except.ok.injEq, Sigma.mk.injEq, heq_eq_eq, true_and, Prod.mk.injEq] at h1
  obtain ⟨rfl, rfl⟩ := h1
  rcases m with _ | m
  · refine ⟨_, by simp only [dxCheb]; rfl, rfl, fun i => ?_⟩
    simp [sampled]
  · obtain ⟨e1, e2, e3⟩ := powSucc_exact h3 m
    have hpow : ∀ k : ℕ, (Mat2.ofMatrix D).matrixPower (k + 1) = .ok ((Mat2.ofMatrix D).powSucc k) := by
      intro k; simp [Mat2.matrixPower, Mat2.ofMatrix]
    have hmul : ((Mat2.ofMatrix D).powSucc m).matmul (sampled x fun t => p.eval t) =
        .ok ⟨[n + 2 + 1], fun idx => ∑ l ∈ range (n + 2 + 1), ((Mat2.ofMatrix D).powSucc m).get (idx.headD 0) l *
          p.eval (x (Fin.ofNat (n + 2 + 1) l))⟩ := by
      simp only [Mat2.matmul, sampled, e1, e2]
      simp
    refine ⟨_, Eq.trans ?_ hmul, rfl, fun i => e3 p hp i⟩
    have hn1 : ¬ (((m + 1 : ℕ) : ℤ) < 0) := by omega
    have hn2 : ¬ (((m + 1 : ℕ) : ℤ) = 0) := by omega
    simp only [dxCheb, hn1, hn2, if_false, sampled, bind, Except.bind]
    have hr : (Mat2.ofMatrix D).rows = n + 2 + 1 := rfl
    have hc : (Mat2.ofMatrix D).cols = n + 2 + 1 := rfl
    simp only [hr, hc, ne_eq, not_true_eq_false, if_false]
    by_cases hm : m = 0
    · subst hm; simp [Mat2.powSucc]
    · rw [if_neg (by omega), Int.toNat_natCast, hpow]

/-- **C44.** The same for a two-dimensional array, column by column. -/
theorem C44_dx_cheb_columns (n : ℕ) {a b : ℝ} (hab : a ≠ b) {x : Fin (n + 2 + 1) → ℝ}
    {D : Matrix (Fin (n + 2 + 1)) (Fin (n + 2 + 1)) ℝ}
    (hD : constructXDxCheb (.int ((n : ℤ) + 2)) a b = .ok ⟨n + 2, x, D⟩) (w : ℕ) (p : ℕ → ℝ[X])
    (hp : ∀ c, (p c).degree ≤ (n + 2 : ℕ)) (m : ℕ) :
    ∃ v, dxCheb (Mat2.ofMatrix D) (sampledCols x w fun c t => (p c).eval t) (.int m) = .ok v ∧ v.shape = [n + 2 + 1, w] ∧
      ∀ (i : Fin (n + 2 + 1)) (c : ℕ), v.get [i.val, c] = (derivative^[m] (p c)).eval (x i) := by
  obtain ⟨x', D', h1, -, h3⟩ := C44_exact n hab
  rw [hD] at h1
  simp only [Except.ok.injEq, Sigma.mk.injEq, heq_eq_eq, true_and, Prod.mk.injEq] at h1
  obtain ⟨rfl, rfl⟩ := h1
  rcases m with _ | m
  · refine ⟨_, by simp only [dxCheb]; rfl, rfl, fun i c => ?_⟩
    simp [sampledCols]
  · obtain ⟨e1, e2, e3⟩ := powSucc_exact h3 m
    have hpow : ∀ k : ℕ, (Mat2.ofMatrix D).matrixPower (k + 1) = .ok ((Mat2.ofMatrix D).powSucc k) := by
      intro k; simp [Mat2.matrixPower, Mat2.ofMatrix]
    have hmul : ((Mat2.ofMatrix D).powSucc m).matmul (sampledCols x w fun c t => (p c).eval t) =
        .ok ⟨[n + 2 + 1, w], fun idx => ∑ l ∈ range (n + 2 + 1), ((Mat2.ofMatrix D).powSucc m).get (idx.headD 0) l *
          (p (idx.tail.headD 0)).eval (x (Fin.ofNat (n + 2 + 1) l))⟩ := by
      simp only [Mat2.matmul, sampledCols, e1, e2]
      simp
    refine ⟨_, Eq.trans ?_ hmul, rfl, fun i c => e3 (p c) (hp c) i⟩
    have hn1 : ¬ (((m + 1 : ℕ) : ℤ) < 0) := by omega
    have hn2 : ¬ (((m + 1 : ℕ) : ℤ) = 0) := by omega
    simp only [dxCheb, hn1, hn2, if_false, sampledCols, bind, Except.bind]
    have hr : (Mat2.ofMatrix D).rows = n + 2 + 1 := rfl
    simp only [hr, ne_eq, not_true_eq_false, if_false]
    by_cases hm : m = 0
    · subst hm; simp [Mat2.powSucc]
    · rw [if_neg (by omega), Int.toNat_natCast, hpow]

/-- Second derivatives of `t` and `t²` in two columns on three points. -/
example : ∃ (x : Fin 3 → ℝ) (D : Matrix (Fin 3) (Fin 3) ℝ), constructXDxCheb (.int 2) (-1) 1 = .ok ⟨2, x, D⟩ ∧
    let p : ℕ → ℝ[X] := fun c => if c = 0 then X else X ^ 2
    ∃ v, dxCheb (Mat2.ofMatrix D) (sampledCols x 2 fun c t => (p c).eval t) (.int 2) = .ok v ∧ v.get [0, 0] = 0 ∧ v.get [0, 1] = 2 := by
  obtain ⟨x, D, h, hx, -⟩ := C44_exact 0 (a := -1) (b := 1) (by norm_num)
  refine ⟨x, D, h, ?_⟩
  intro p
  obtain ⟨v, hv, -, hg⟩ := C44_dx_cheb_columns 0 (by norm_num) h 2 p (fun c => by
    by_cases hc : c = 0
    · simp only [p, hc, if_true]
      exact degree_X_le.trans (by norm_num)
    · simp only [p, hc, if_false]
      exact (degree_X_pow 2).le) 2
  refine ⟨v, hv, ?_, ?_⟩
  · refine (hg 0 0).trans ?_; simp [p]
  · refine (hg 0 1).trans ?_; norm_num [p]

/-- Three points on `[0, 2]`: the second derivative of `t² + t` is two at every point. -/
example : ∃ (x : Fin 3 → ℝ) (D : Matrix (Fin 3) (Fin 3) ℝ) (v : NdArr ℝ),
    constructXDxCheb (.int 2) 0 2 = .ok ⟨2, x, D⟩ ∧
    dxCheb (Mat2.ofMatrix D) (sampled x fun t => (X ^ 2 + X : ℝ[X]).eval t) (.int 2) = .ok v ∧
    ∀ i : Fin 3, v.get [i.val] = 2 := by
  obtain ⟨x, D, h, -⟩ := C44_exact 0 (a := 0) (b := 2) (by norm_num)
  have hdeg : (X ^ 2 + X : ℝ[X]).degree ≤ (0 + 2 : ℕ) := by compute_degree!
  obtain ⟨v, h1, -, h2⟩ := C44_dx_cheb 0 (by norm_num) h (X ^ 2 + X) hdeg 2
  refine ⟨x, D, v, h, h1, fun i => ?_⟩
  rw [h2 i]
  simp
  norm_num

end Verif
