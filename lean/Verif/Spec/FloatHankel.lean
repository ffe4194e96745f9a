import Verif.Model.FloatHankel
import Verif.Spec.FloatGrids

/-!
# Bessel functions and approximations of them
-/

set_option linter.unusedSectionVars false

namespace Verif

/-- What the error bounds need to know about `J₀`, `J₁` and the positive zeros of `J₀`. -/
structure Bessel.Regular (B : Bessel) : Prop where
  pos : ∀ i, 0 < B.zero i
  simple : ∀ i, B.j1 (B.zero i) ≠ 0
  lip0 : ∀ x y, |B.j0 x - B.j0 y| ≤ |x - y|
  lip1 : ∀ x y, |B.j1 x - B.j1 y| ≤ |x - y|

/-- Computed zeros with a relative error, computed functions with an absolute error of at most `ρ`. -/
structure Bessel.Near (B' B : Bessel) (ρ : ℝ) : Prop where
  zero : ∀ i, |B'.zero i - B.zero i| ≤ ρ * |B.zero i|
  j0 : ∀ x, |B'.j0 x - B.j0 x| ≤ ρ
  j1 : ∀ x, |B'.j1 x - B.j1 x| ≤ ρ

end Verif
