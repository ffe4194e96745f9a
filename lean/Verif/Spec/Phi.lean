import Verif.Spec.ERK
import Mathlib.Analysis.SpecialFunctions.Trigonometric.Basic
import Mathlib.LinearAlgebra.Matrix.NonsingularInverse
import Mathlib.Topology.Instances.Matrix

/-!
# φ functions and their contour approximations (specification)
-/

set_option linter.unusedSectionVars false

namespace Verif

/-- The entire function `φ_k(z) = ∑_j z^j / (j + k)!`. -/
noncomputable def phi (k : ℕ) (z : ℂ) : ℂ := ∑' j : ℕ, z ^ j / ((j + k).factorial : ℂ)

/-- The closed formula `(e^z - ∑_{j<k} z^j / j!) / z^k`, equal to `φ_k(z)` when `z ≠ 0`. -/
noncomputable def phiDiv (k : ℕ) (z : ℂ) : ℂ :=
  (Complex.exp z - ∑ j ∈ Finset.range k, z ^ j / (j.factorial : ℂ)) / z ^ k

/-- Point `m` of `N` equally spaced points, offset by half a spacing, on the circle of radius `R` around zero. -/
noncomputable def node (R : ℝ) (N m : ℕ) : ℂ :=
  (R : ℂ) * Complex.exp (2 * (Real.pi : ℂ) * Complex.I * ((m : ℂ) + 1 / 2) / (N : ℂ))

/-- Mean of `f` over `N` points on the circle of radius `R` around `z`. -/
noncomputable def contourMean (R : ℝ) (N : ℕ) (f : ℂ → ℂ) (z : ℂ) : ℂ :=
  (∑ m ∈ Finset.range N, f (z + node R N m)) / (N : ℂ)

/-- Approximation of `φ_k(c z)` used for one mode `z` of a diagonal operator: the closed formula for `|z| ≥ cut`, its
mean over a circle around `z` otherwise. -/
noncomputable def phiMode (cut R : ℝ) (N : ℕ) (k : ℕ) (c : ℝ) (z : ℂ) : ℂ :=
  if ‖z‖ < cut then contourMean R N (fun w => phiDiv k (c * w)) z else phiDiv k (c * z)

/-- The value that replaces `φ_p(ζ)` for an eigenvalue `ζ` of `c h L` in `phiFull` below. -/
noncomputable def quadrature (R : ℝ) (N p : ℕ) (ζ : ℂ) : ℂ :=
  (∑ m ∈ Finset.range N, node R N m * phiDiv p (node R N m) / (node R N m - ζ)) / N

variable {ι : Type} [Fintype ι] [DecidableEq ι]

/-- `φ_k(A)` of a matrix: the sum of the power series, entrywise convergence. -/
noncomputable def phiMat (k : ℕ) (A : Mat ι) : Mat ι := ∑' j : ℕ, ((j + k).factorial : ℂ)⁻¹ • A ^ j

/-- The exact values `φ_k(c h L)`. -/
noncomputable def phiExact (L : Mat ι) (h : ℝ) (k : ℕ) (c : ℝ) : Mat ι := phiMat k (((c * h : ℝ) : ℂ) • L)

/-- Approximation of `φ_k(c h L)` for a diagonal operator. -/
noncomputable def phiDiag (cut R : ℝ) (N : ℕ) (L : Vec ι) (h : ℝ) (k : ℕ) (c : ℝ) : Mat ι :=
  Matrix.diagonal fun i => phiMode cut R N k c (h * L i)

/-- Approximation of `φ_k(c h L)` for a full matrix: trapezoidal rule for
`(2πi)⁻¹ ∮ φ_k(w) (w - c h L)⁻¹ dw` on the circle of radius `R` around zero. -/
noncomputable def phiFull (R : ℝ) (N : ℕ) (L : Mat ι) (h : ℝ) (k : ℕ) (c : ℝ) : Mat ι :=
  ∑ m ∈ Finset.range N, (node R N m * phiDiv k (node R N m) / N) • (node R N m • (1 : Mat ι) - ((c * h : ℝ) : ℂ) • L)⁻¹

/-- All matrices inverted for the fractions `cs` of the step are invertible. -/
def ContourOk (R : ℝ) (N : ℕ) (L : Mat ι) (cs : List ℝ) (h : ℝ) : Prop :=
  ∀ m < N, ∀ c ∈ cs, IsUnit (node R N m • (1 : Mat ι) - ((c * h : ℝ) : ℂ) • L).det

end Verif
