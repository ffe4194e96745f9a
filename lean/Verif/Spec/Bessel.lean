import Verif.Model.Hankel
import Mathlib.MeasureTheory.Integral.IntervalIntegral.Basic
import Mathlib.Analysis.SpecialFunctions.Trigonometric.Basic
import Mathlib.MeasureTheory.Measure.Lebesgue.Basic

/-!
# The Bessel functions and the continuous Hankel transform
-/

set_option linter.unusedSectionVars false

namespace Verif

open Real MeasureTheory intervalIntegral

/-- `J₀`, by Bessel's integral (DLMF 10.9.1). -/
noncomputable def besselJ0 (x : ℝ) : ℝ := (∫ θ in (0 : ℝ)..π, cos (x * cos θ)) / π

/-- `J₁`, by Bessel's integral. -/
noncomputable def besselJ1 (x : ℝ) : ℝ := (∫ θ in (0 : ℝ)..π, cos θ * sin (x * cos θ)) / π

/-- The functions of `scipy.special` as documented: `J₀`, `J₁`, and the positive zeros of `J₀` in increasing order. -/
structure Bessel.IsTrue (B : Bessel) : Prop where
  j0 : B.j0 = besselJ0
  j1 : B.j1 = besselJ1
  mono : StrictMono B.zero
  range : Set.range B.zero = {x | 0 < x ∧ besselJ0 x = 0}

/-- The Hankel transform of a function on the disk of radius `R` (rkstiff/transforms.py:21, with the upper limit `R`). -/
noncomputable def hankelIntegral (R : ℝ) (f : ℝ → ℝ) (k : ℝ) : ℝ := ∫ r in (0 : ℝ)..R, f r * besselJ0 (k * r) * r

end Verif
