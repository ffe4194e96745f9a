import Verif.Model.Method
import Mathlib.Analysis.SpecialFunctions.Trigonometric.Basic

/-!
# Functions shared by the ETD solvers (rkstiff/etd.py)

Division is the field division of `ℂ`, so `x / 0 = 0`, where NumPy gives `nan` or `inf` (with a warning).  Property C31
says when no zero denominator occurs.
-/

set_option linter.unusedSectionVars false

namespace Verif

/-- `psi1`, rkstiff/etd.py:134-148 (one element). -/
noncomputable def psi1 (z : ℂ) : ℂ := (Complex.exp z - 1) / z

/-- `psi2`, rkstiff/etd.py:151-165 (one element). -/
noncomputable def psi2 (z : ℂ) : ℂ := 2 * (Complex.exp z - 1 - z) / z ^ 2

/-- `psi3`, rkstiff/etd.py:168-182 (one element). -/
noncomputable def psi3 (z : ℂ) : ℂ := 6 * (Complex.exp z - 1 - z - z ^ 2 / 2) / z ^ 3

namespace ETDConfig

/-- Number of contour points as a natural number (validated configurations have `contour_points ≥ 2`). -/
def npts (cfg : ETDConfig ℝ) : ℕ := cfg.contour_points.toNat

/-- Contour point `m`: `contour_radius * exp(2j * pi * (m + 0.5) / contour_points)`, as in rkstiff/etd4.py:120-122,
rkstiff/etd4.py:248-250 and the same lines of the other ETD modules; `np.arange(0.5, N)` is `0.5, 1.5, …, N - 0.5`. -/
noncomputable def point (cfg : ETDConfig ℝ) (m : ℕ) : ℂ :=
  (cfg.contour_radius : ℂ) *
    Complex.exp (2 * Complex.I * (Real.pi : ℂ) * ((m : ℂ) + 1 / 2) / (cfg.contour_points : ℂ))

/-- `np.sum(f(Z), axis=1) / contour_points` for one row `Z = z + r` of the mesh, e.g. rkstiff/etd4.py:123-130. -/
noncomputable def mean (cfg : ETDConfig ℝ) (f : ℂ → ℂ) (z : ℂ) : ℂ :=
  (∑ m ∈ Finset.range cfg.npts, f (z + cfg.point m)) / (cfg.contour_points : ℂ)

end ETDConfig

end Verif
