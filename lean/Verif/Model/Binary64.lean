import Mathlib.Data.Real.Basic
import Mathlib.Algebra.Order.Archimedean.Real.Basic
import Mathlib.Data.Int.Log
import Mathlib.Algebra.Order.Floor.Ring

/-!
# Rounding to IEEE 754 binary64

`rnd64 x` is the number with a 53-bit significand nearest to `x`, ties to the even significand.  The exponent range is not
modelled: there is no overflow and no underflow, so `rnd64` is the rounding of binary64 for results of normal magnitude.
-/

set_option linter.unusedSectionVars false

namespace Verif

/-- The integer nearest to `y`, ties to even. -/
noncomputable def roundHalfEven (y : ℝ) : ℤ :=
  if y - ⌊y⌋ < 1 / 2 then ⌊y⌋ else if 1 / 2 < y - ⌊y⌋ then ⌊y⌋ + 1 else if Even ⌊y⌋ then ⌊y⌋ else ⌊y⌋ + 1

/-- Round to nearest, ties to even, with 53 significant bits. -/
noncomputable def rnd64 (x : ℝ) : ℝ :=
  let e := Int.log 2 |x| - 52
  roundHalfEven (x / (2 : ℝ) ^ e) * (2 : ℝ) ^ e

end Verif
