import Verif.Model.FloatGrids

/-!
# Roundings of real numbers and sums of them
-/

set_option linter.unusedSectionVars false

namespace Verif

/-- `rnd` has the relative error `ρ`, `sum` adds `n` numbers and `dot` multiplies two vectors of length `n` with an error of a small multiple of
`n ρ` times the sum of the absolute values of the terms, if `n ρ ≤ 1`. -/
structure RoundsTo (rnd : ℝ → ℝ) (sum : List ℝ → ℝ) (dot : List (ℝ × ℝ) → ℝ) (ρ : ℝ) : Prop where
  nonneg : 0 ≤ ρ
  rnd : ∀ x, |rnd x - x| ≤ ρ * |x|
  sum : ∀ l : List ℝ, l.length * ρ ≤ 1 → |sum l - l.sum| ≤ 8 * (l.length * ρ * (l.map abs).sum)
  dot : ∀ l : List (ℝ × ℝ), l.length * ρ ≤ 1 →
    |dot l - (l.map fun p => p.1 * p.2).sum| ≤ 20 * (l.length * ρ * (l.map fun p => |p.1 * p.2|).sum)

/-- The real sum that NumPy's complex sum gives for real numbers. -/
noncomputable def realSum (sum : List ℂ → ℂ) (l : List ℝ) : ℝ := (sum (l.map fun x : ℝ => (x : ℂ))).re

/-- Inner products by rounded multiplications and additions. -/
noncomputable def roundedDot (rnd : ℝ → ℝ) (sum : List ℝ → ℝ) (l : List (ℝ × ℝ)) : ℝ := sum (l.map fun p => rnd (p.1 * p.2))

end Verif
