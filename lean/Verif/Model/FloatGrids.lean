import Verif.Model.Grids
import Verif.Model.FloatModels

/-!
# The Chebyshev part of rkstiff/grids.py and `allen_cahn_ops` in floating point

Every operation is followed by one rounding `rnd`, so is `np.cos`; `sum` stands for `ndarray.sum` and `dot` for the inner products in the product
of matrices.
-/

set_option linter.unusedSectionVars false

namespace Verif

/-- The entry `j` of `np.polynomial.chebyshev.chebpts2(n + 1)`: `np.cos(np.linspace(-np.pi, 0, n + 1))`; `linspace` multiplies `j` by the step,
adds the start and replaces the last entry by the end. -/
noncomputable def flChebpts2 (rnd : ℝ → ℝ) (n : ℕ) (j : Fin (n + 1)) : ℝ :=
  rnd (Real.cos (if j.val = n then 0 else rnd (rnd (j * rnd (rnd (0 - -rnd Real.pi) / n)) + -rnd Real.pi)))

/-- The points of `construct_x_cheb`, rkstiff/grids.py:173-174. -/
noncomputable def flChebX (rnd : ℝ → ℝ) (n : ℕ) (a b : ℝ) : Fin (n + 1) → ℝ :=
  fun j => rnd (a + rnd (rnd (rnd (b - a) * rnd (flChebpts2 rnd n j + 1)) / 2))

/-- `d_cheb_matrix` before the diagonal is corrected, rkstiff/grids.py:214-217. -/
noncomputable def flChebD0 (rnd : ℝ → ℝ) (n : ℕ) (x : Fin (n + 1) → ℝ) : Matrix (Fin (n + 1)) (Fin (n + 1)) ℝ :=
  fun i j => rnd (rnd (chebC n i * rnd (1 / chebC n j)) / rnd (rnd (x i - x j) + if i = j then 1 else 0))

/-- `d_cheb_matrix`, rkstiff/grids.py:218. -/
noncomputable def flChebD (rnd : ℝ → ℝ) (sum : List ℝ → ℝ) (n : ℕ) (x : Fin (n + 1) → ℝ) : Matrix (Fin (n + 1)) (Fin (n + 1)) ℝ :=
  fun i j => rnd (flChebD0 rnd n x i j - if i = j then sum (List.ofFn fun k => flChebD0 rnd n x i k) else 0)

/-- `construct_x_dx_cheb`, rkstiff/grids.py:178-219. -/
noncomputable def flConstructXDxCheb (rnd : ℝ → ℝ) (sum : List ℝ → ℝ) (n : PyVal ℝ) (a b : ℝ) :
    Except PyErr (Σ n : ℕ, (Fin (n + 1) → ℝ) × Matrix (Fin (n + 1)) (Fin (n + 1)) ℝ) := do
  let n ← checkCheb n
  return ⟨n, flChebX rnd n a b, flChebD rnd sum n (flChebX rnd n a b)⟩

/-- `A.dot(B)` and `A @ B`; `dot` gives the inner product of a row and a column, rkstiff/models.py:239 and rkstiff/derivatives.py:250-253. -/
def flMatDot (dot : List (ℝ × ℝ) → ℝ) {n k l : ℕ} (A : Matrix (Fin k) (Fin n) ℝ) (B : Matrix (Fin n) (Fin l) ℝ) : Matrix (Fin k) (Fin l) ℝ :=
  fun i j => dot (List.ofFn fun k => (A i k, B k j))

/-- The loop of `np.linalg.matrix_power`: `z` is squared as long as bits of `n` are left, and the result multiplied by `z` for every bit that is set. -/
def flPowLoop (dot : List (ℝ × ℝ) → ℝ) {k : ℕ} (z : Matrix (Fin k) (Fin k) ℝ) (result : Option (Matrix (Fin k) (Fin k) ℝ)) (n : ℕ) :
    Option (Matrix (Fin k) (Fin k) ℝ) :=
  if n = 0 then result
  else
    let result' := if n % 2 = 1 then some (match result with | none => z | some r => flMatDot dot r z) else result
    flPowLoop dot (flMatDot dot z z) result' (n / 2)
termination_by n
decreasing_by omega

/-- `np.linalg.matrix_power(D, n)` for `n ≥ 1`, with the short cuts for `n ≤ 3`. -/
def flMatPow (dot : List (ℝ × ℝ) → ℝ) {k : ℕ} (D : Matrix (Fin k) (Fin k) ℝ) (n : ℕ) : Matrix (Fin k) (Fin k) ℝ :=
  if n = 1 then D
  else if n = 2 then flMatDot dot D D
  else if n = 3 then flMatDot dot (flMatDot dot D D) D
  else (flPowLoop dot D none n).getD 1

/-- `dx_cheb`, rkstiff/derivatives.py:230-253, for a square matrix and an array `u` of as many rows; a one-dimensional `u` is one column. -/
def flDxCheb (dot : List (ℝ × ℝ) → ℝ) {k l : ℕ} (D : Matrix (Fin k) (Fin k) ℝ) (u : Matrix (Fin k) (Fin l) ℝ) (n : PyVal ℝ) :
    Except PyErr (Matrix (Fin k) (Fin l) ℝ) :=
  match n with
  | .int n =>
    if n < 0 then .error .valueError
    else if n = 0 then .ok u
    else if n = 1 then .ok (flMatDot dot D u)
    else .ok (flMatDot dot (flMatPow dot D n.toNat) u)
  | _ => .error .typeError

end Verif
