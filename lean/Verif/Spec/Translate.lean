import Verif.Model.Models

/-!
# Samples on a periodic grid (specification)
-/

set_option linter.unusedSectionVars false

namespace Verif

/-- The samples moved by `s` places around the periodic grid of `N` points: `np.roll(f, -s)`. -/
def roll (N s : ℕ) (f : ℕ → ℝ) : ℕ → ℝ := fun j => f ((j + s) % N)

/-- The samples in opposite order, `f(-x)` for `f(x)`. -/
def mirror (N : ℕ) (f : ℕ → ℝ) : ℕ → ℝ := fun j => f ((N - j % N) % N)

/-- The spectrum of real samples on a grid of `2 M` points, as `np.fft.rfft` returns it. -/
noncomputable def spectrum (M : ℕ) (f : ℕ → ℝ) : Vec (Fin (M + 1)) := fun m => rfft1 (2 * M) f m

/-- The samples that belong to a spectrum: `np.fft.irfft`. -/
noncomputable def samples {M : ℕ} (v : Vec (Fin (M + 1))) : ℕ → ℝ := irfft1 (2 * M) (specExt v)

end Verif
