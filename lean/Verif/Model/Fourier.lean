import Mathlib.Analysis.SpecialFunctions.Trigonometric.Basic

/-!
# The transforms of `numpy.fft` on one axis

rkstiff calls `np.fft.fft`, `ifft`, `rfft` and `irfft`.  They are modelled by the sums that they are documented to compute, in
exact arithmetic.  A signal of length `N` is a function on `ℕ` of which the first `N` values matter.
-/

set_option linter.unusedSectionVars false

namespace Verif

open Finset

/-- `exp(2πi j m / N)`. -/
noncomputable def rootPow (N : ℕ) (k : ℤ) : ℂ := Complex.exp (2 * (Real.pi : ℂ) * Complex.I * (k : ℂ) / (N : ℂ))

/-- `np.fft.fft(u)` for `u` of length `N`: `Σ_j u_j exp(-2πi j m / N)`. -/
noncomputable def fft1 (N : ℕ) (u : ℕ → ℂ) (m : ℕ) : ℂ := ∑ j ∈ range N, u j * rootPow N (-(j * m : ℕ))

/-- `np.fft.ifft(y)` for `y` of length `N`: `(1/N) Σ_m y_m exp(2πi j m / N)`. -/
noncomputable def ifft1 (N : ℕ) (y : ℕ → ℂ) (j : ℕ) : ℂ := (∑ m ∈ range N, y m * rootPow N (j * m : ℕ)) / N

/-- `np.fft.rfft(u)` for real `u` of length `N`: the first `N // 2 + 1` entries of the transform. -/
noncomputable def rfft1 (N : ℕ) (u : ℕ → ℝ) (m : ℕ) : ℂ := fft1 N (fun j => (u j : ℂ)) m

/-- `np.fft.irfft(y, n=N)` for `y` of length `N // 2 + 1`: the real signal with this half of the spectrum.  The imaginary part
of entry `0` and, for even `N`, of entry `N / 2` is ignored. -/
noncomputable def irfft1 (N : ℕ) (y : ℕ → ℂ) (j : ℕ) : ℝ :=
  ((y 0).re + (∑ m ∈ Ico 1 ((N + 1) / 2), 2 * (y m * rootPow N (j * m : ℕ)).re) +
    (if N % 2 = 0 then (y (N / 2)).re * (-1) ^ j else 0)) / N

end Verif
