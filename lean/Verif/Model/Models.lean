import Verif.Model.Method
import Verif.Model.Fourier
import Mathlib.Analysis.SpecialFunctions.Trigonometric.DerivHyp

/-!
# rkstiff/models.py

The functions that act on a grid point by point are modelled at one point.  The spectral operators take a wavenumber array of
length `M + 1`; their `nl_func` acts on spectra of that length and `np.fft.irfft` without a length produces `2 M` points.
-/

set_option linter.unusedSectionVars false

namespace Verif

open Finset

/-- `kdv_soliton`, rkstiff/models.py:32-73, at one point. -/
noncomputable def kdvSoliton (x ampl x0 t : ℝ) : ℝ := 0.5 * ampl ^ 2 / Real.cosh (ampl * (x - x0 - ampl ^ 2 * t) / 2) ^ 2

/-- `kdv_multi_soliton`, rkstiff/models.py:76-110. -/
noncomputable def kdvMultiSoliton (x : List ℝ) (ampl x0 : List ℝ) (t : ℝ) : Except PyErr (List ℝ) :=
  if x0.length ≠ ampl.length then .error .valueError
  else .ok (x.map fun xi => (List.zipWith
    (fun a x0j => 0.5 * a ^ 2 / Real.cosh (a * (xi - x0j - a ^ 2 * t) / 2) ^ 2) ampl x0).sum)

/-- A spectrum as a function on `ℕ`. -/
def specExt {M : ℕ} (y : Vec (Fin (M + 1))) (m : ℕ) : ℂ := if h : m < M + 1 then y ⟨m, h⟩ else 0

/-- `np.fft.rfft(irfft(uf) * irfft(1j * kx * uf))`, rkstiff/models.py:141-143 and 190-192: the spectrum of `u u_x`.
`np.fft.irfft` of an array of length one raises. -/
noncomputable def advection {M : ℕ} (kx : Fin (M + 1) → ℝ) (uf : Vec (Fin (M + 1))) : Except PyErr (Vec (Fin (M + 1))) :=
  if M = 0 then .error .valueError
  else
    let u := irfft1 (2 * M) (specExt uf)
    let ux := irfft1 (2 * M) (specExt fun m => Complex.I * (kx m : ℂ) * uf m)
    .ok fun m => rfft1 (2 * M) (fun j => u j * ux j) m

/-- The linear operator of `kdv_ops`, rkstiff/models.py:138. -/
noncomputable def kdvLin {M : ℕ} (kx : Fin (M + 1) → ℝ) : Vec (Fin (M + 1)) := fun m => Complex.I * (kx m : ℂ) ^ 3

/-- The nonlinear function of `kdv_ops`, rkstiff/models.py:140-143. -/
noncomputable def kdvNl {M : ℕ} (kx : Fin (M + 1) → ℝ) : NlFunc (Fin (M + 1)) := fun uf =>
  match advection kx uf with
  | .ok v => .ok fun m => -6 * v m
  | .error e => .error e

/-- The linear operator of `burgers_ops`, rkstiff/models.py:187. -/
noncomputable def burgersLin {M : ℕ} (kx : Fin (M + 1) → ℝ) (mu : ℝ) : Vec (Fin (M + 1)) := fun m => -(mu : ℂ) * (kx m : ℂ) ^ 2

/-- The nonlinear function of `burgers_ops`, rkstiff/models.py:189-192. -/
noncomputable def burgersNl {M : ℕ} (kx : Fin (M + 1) → ℝ) : NlFunc (Fin (M + 1)) := fun uf =>
  match advection kx uf with
  | .ok v => .ok fun m => - v m
  | .error e => .error e

/-- The position of interior point `i` among all `k + 2` points: the slice `[1:-1]`. -/
def interior {k : ℕ} (i : Fin k) : Fin (k + 2) := i.succ.castSucc

/-- The linear operator of `allen_cahn_ops`, rkstiff/models.py:239-241. -/
noncomputable def allenCahnLin {k : ℕ} (D : Matrix (Fin (k + 2)) (Fin (k + 2)) ℝ) (eps : ℝ) : Matrix (Fin k) (Fin k) ℝ :=
  fun i j => (eps • (D * D) + 1) (interior i) (interior j)

/-- The nonlinear function of `allen_cahn_ops`, rkstiff/models.py:243-245. -/
noncomputable def allenCahnNl {k : ℕ} (x : Fin (k + 2) → ℝ) : NlFunc (Fin k) := fun u =>
  .ok fun i => (x (interior i) : ℂ) - (u i + (x (interior i) : ℂ)) ^ 3

end Verif
