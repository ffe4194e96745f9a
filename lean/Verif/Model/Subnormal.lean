import Verif.Model.Binary64

/-!
# Rounding to IEEE 754 binary64 with underflow

Below `2^-1022` binary64 has the multiples of `2^-1074` (gradual underflow); processors and compilers may be set to return zero there
instead.  The numbers of rkstiff are NumPy's `float64` and `complex128`.  Simplified: there is no overflow.
-/

set_option linter.unusedSectionVars false

namespace Verif

/-- Round to nearest, ties to even, with 53 significant bits and to multiples of `2^-1074`. -/
noncomputable def rnd64s (x : ℝ) : ℝ :=
  if |x| < 1 / 2 ^ 1022 then roundHalfEven (x * 2 ^ 1074) / 2 ^ 1074 else rnd64 x

/-- The same, with zero in the place of results below `2^-1022`. -/
noncomputable def rnd64z (x : ℝ) : ℝ :=
  if |x| < 1 / 2 ^ 1022 then 0 else rnd64 x

end Verif
