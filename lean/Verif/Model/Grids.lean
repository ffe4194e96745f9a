import Verif.Model.Py
import Mathlib.Analysis.SpecialFunctions.Trigonometric.Basic
import Mathlib.Algebra.Order.Floor.Ring
import Mathlib.Data.Matrix.Basic

/-!
# rkstiff/grids.py

One-dimensional arrays are lists, or functions on `Fin k` where the code fixes the length beforehand.  `isinstance(n, int)` is
the match on `PyVal`.  All arithmetic is exact, except that the points of the uniform grids, whose number depends on rounding,
take a rounding function `rnd`.
-/

set_option linter.unusedSectionVars false

namespace Verif

/-- `np.arange(start, stop, step)` for floats: the number of elements is `ceil((stop - start) / step)`; the first two elements
are `start` and `start + step`, the others `start + i * delta` with `delta` the difference of the first two. -/
noncomputable def npArange (rnd : ℝ → ℝ) (start stop step : ℝ) : List ℝ :=
  (List.range ⌈rnd (rnd (stop - start) / step)⌉.toNat).map fun i : ℕ =>
    let next := rnd (start + step)
    if i = 0 then start else if i = 1 then next else rnd (start + rnd (i * rnd (next - start)))

/-- `np.fft.rfftfreq(n, d)`: `0, 1, …, n // 2`, each times `1 / (n * d)`. -/
noncomputable def npRfftfreq (n : ℕ) (d : ℝ) : List ℝ := (List.range (n / 2 + 1)).map fun i : ℕ => (i : ℝ) * (1 / (n * d))

/-- `np.fft.fftfreq(n, d)`: `0, …, (n - 1) // 2, -(n // 2), …, -1`, each times `1 / (n * d)`. -/
noncomputable def npFftfreq (n : ℕ) (d : ℝ) : List ℝ :=
  (((List.range ((n - 1) / 2 + 1)).map fun i : ℕ => (i : ℝ)) ++ (List.range (n / 2)).map fun i : ℕ => (i : ℝ) - ((n / 2 : ℕ) : ℝ)).map
    fun x => x * (1 / (n * d))

/-- The checks of `n` (rkstiff/grids.py:77-80, 123-126). -/
def checkGridSize (n : PyVal ℝ) : Except PyErr ℕ :=
  match n with
  | .int n => if n ≤ 2 ∨ n % 2 ≠ 0 then .error .valueError else .ok n.toNat
  | _ => .error .typeError

/-- `construct_x_kx_rfft`, rkstiff/grids.py:40-85.  For `a = b` the step is zero and `np.arange` raises (for Python floats
`ZeroDivisionError`). -/
noncomputable def constructXKxRfft (rnd : ℝ → ℝ) (n : PyVal ℝ) (a b : ℝ) : Except PyErr (List ℝ × List ℝ) := do
  let n ← checkGridSize n
  let dx := rnd (rnd (b - a) / n)
  if dx = 0 then throw .zeroDivisionError
  let x := npArange rnd a b dx
  let kx := (npRfftfreq n dx).map fun f => 2 * Real.pi * f
  return (x, kx)

/-- `construct_x_kx_fft`, rkstiff/grids.py:88-131. -/
noncomputable def constructXKxFft (rnd : ℝ → ℝ) (n : PyVal ℝ) (a b : ℝ) : Except PyErr (List ℝ × List ℝ) := do
  let n ← checkGridSize n
  let dx := rnd (rnd (b - a) / n)
  if dx = 0 then throw .zeroDivisionError
  let x := npArange rnd a b dx
  let kx := (npFftfreq n dx).map fun f => 2 * Real.pi * f
  return (x, kx)

/-- `np.polynomial.chebyshev.chebpts2(n + 1)`: `cos` of `np.linspace(-pi, 0, n + 1)`. -/
noncomputable def chebpts2 (n : ℕ) (j : Fin (n + 1)) : ℝ := Real.cos (-Real.pi + j * (Real.pi / n))

/-- The checks of `n`, rkstiff/grids.py:169-172. -/
def checkCheb (n : PyVal ℝ) : Except PyErr ℕ :=
  match n with
  | .int n => if n < 2 then .error .valueError else .ok n.toNat
  | _ => .error .typeError

/-- The points of `construct_x_cheb`, rkstiff/grids.py:173-174. -/
noncomputable def chebX (n : ℕ) (a b : ℝ) : Fin (n + 1) → ℝ := fun j => a + (b - a) * (chebpts2 n j + 1) / 2

/-- `construct_x_cheb`, rkstiff/grids.py:134-175. -/
noncomputable def constructXCheb (n : PyVal ℝ) (a b : ℝ) : Except PyErr (Σ n : ℕ, Fin (n + 1) → ℝ) := do
  let n ← checkCheb n
  return ⟨n, chebX n a b⟩

/-- `c`, rkstiff/grids.py:214. -/
noncomputable def chebC (n : ℕ) (j : Fin (n + 1)) : ℝ := (if j.val = 0 ∨ j.val = n then 2 else 1) * (-1) ^ j.val

/-- `d_cheb_matrix` before the diagonal is corrected, rkstiff/grids.py:215-217. -/
noncomputable def chebD0 (n : ℕ) (x : Fin (n + 1) → ℝ) : Matrix (Fin (n + 1)) (Fin (n + 1)) ℝ :=
  fun i j => chebC n i * (1 / chebC n j) / (x i - x j + if i = j then 1 else 0)

/-- `d_cheb_matrix`, rkstiff/grids.py:218. -/
noncomputable def chebD (n : ℕ) (x : Fin (n + 1) → ℝ) : Matrix (Fin (n + 1)) (Fin (n + 1)) ℝ :=
  chebD0 n x - Matrix.diagonal fun i => ∑ j, chebD0 n x i j

/-- `construct_x_dx_cheb`, rkstiff/grids.py:178-219. -/
noncomputable def constructXDxCheb (n : PyVal ℝ) (a b : ℝ) :
    Except PyErr (Σ n : ℕ, (Fin (n + 1) → ℝ) × Matrix (Fin (n + 1)) (Fin (n + 1)) ℝ) := do
  let r ← constructXCheb n a b
  return ⟨r.1, r.2, chebD r.1 r.2⟩

/-! ### mirror_grid -/

/-- The argument `u` of `mirror_grid`: a 1D array, or a 2D array given by its rows. -/
inductive Arr12 (α : Type) where
  | d1 (v : List α)
  | d2 (rows : List (List α))
  deriving DecidableEq, Repr

/-- `mirror_grid`, rkstiff/grids.py:267-321, for a 1D array `r`.  `np.flipud` reverses the first axis, `np.fliplr` the second
(and raises for a 1D array); `np.hstack` joins 1D arrays, and 2D arrays along the second axis; `np.vstack` turns 1D arrays into
rows. -/
def mirrorGrid {K α : Type} [Neg K] (r : List K) (u : Option (Arr12 α)) (axis : ℤ) :
    Except PyErr (List K × Option (Arr12 α)) :=
  let rnew := r.reverse.map (-·) ++ r
  match u with
  | none => .ok (rnew, none)
  | some (.d1 v) =>
    if axis = -1 then .ok (rnew, some (.d1 (v.reverse ++ v)))
    else if axis = 0 then .ok (rnew, some (.d2 [v.reverse, v]))
    else .error .valueError
  | some (.d2 rows) =>
    if axis = -1 then .ok (rnew, some (.d2 (List.zipWith (· ++ ·) rows.reverse rows)))
    else if axis = 0 then .ok (rnew, some (.d2 (rows.reverse ++ rows)))
    else if axis = 1 then .ok (rnew, some (.d2 (List.zipWith (· ++ ·) (rows.map List.reverse) rows)))
    else .error .valueError

end Verif
