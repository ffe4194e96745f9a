import Mathlib.Analysis.Complex.Basic

/-!
# Stability functions

By what a Runge–Kutta method multiplies the solution of `v' = λ v` in a step of size `h`, as a function of `w = λ h`.
-/

namespace Verif

/-- The classical method. -/
noncomputable def ampRK4 (w : ℂ) : ℂ := 1 + w + w ^ 2 / 2 + w ^ 3 / 6 + w ^ 4 / 24

/-- The method of Dormand and Prince. -/
noncomputable def ampDP (w : ℂ) : ℂ := 1 + w + w ^ 2 / 2 + w ^ 3 / 6 + w ^ 4 / 24 + w ^ 5 / 120 + w ^ 6 / 600

end Verif
