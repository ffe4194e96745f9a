import Verif.Model.Broadcast
import Verif.Model.Models

/-!
# rkstiff/models.py on arrays of any shape

The functions `nl_func` of `Verif.Model.Models` on NumPy arrays with shapes; `np.fft` works along the last axis.
-/

set_option linter.unusedSectionVars false

namespace Verif

/-- `np.fft.irfft(y)` along the last axis: `2 (k - 1)` points for an axis of length `k`; an array without axes raises `IndexError`, less than
one point `ValueError`. -/
noncomputable def npIrfft (y : NdArr ℂ) : Except PyErr (NdArr ℝ) :=
  match y.shape.getLast? with
  | none => .error .indexError
  | some k => if k ≤ 1 then .error .valueError else .ok (y.mapLines (2 * (k - 1)) (irfft1 (2 * (k - 1))))

/-- `np.fft.rfft(irfft(uf) * irfft(1j * kx * uf))`, rkstiff/models.py:141-143 and 190-192, for a one-dimensional `kx` and any `uf`. -/
noncomputable def advectionNd {K : ℕ} (kx : Fin K → ℝ) (uf : NdArr ℂ) : Except PyErr (NdArr ℂ) := do
  let u ← npIrfft uf
  let v ← NdArr.elementwise (· * ·) (NdArr.ofVec fun m => Complex.I * (kx m : ℂ)) uf
  let ux ← npIrfft v
  let w ← NdArr.elementwise (· * ·) u ux
  npRfft w

/-- The nonlinear function of `kdv_ops`, rkstiff/models.py:140-143. -/
noncomputable def kdvNlNd {K : ℕ} (kx : Fin K → ℝ) (uf : NdArr ℂ) : Except PyErr (NdArr ℂ) :=
  (advectionNd kx uf).map fun y => ⟨y.shape, fun idx => -6 * y.get idx⟩

/-- The nonlinear function of `burgers_ops`, rkstiff/models.py:189-192. -/
noncomputable def burgersNlNd {K : ℕ} (kx : Fin K → ℝ) (uf : NdArr ℂ) : Except PyErr (NdArr ℂ) :=
  (advectionNd kx uf).map fun y => ⟨y.shape, fun idx => -y.get idx⟩

/-- `x.ravel()`: the entries in the order of their indices. -/
def NdArr.ravel (x : NdArr ℂ) : NdArr ℂ := ⟨[x.size], fun idx => x.get ((indices x.shape).getD (idx.headD 0) [])⟩

/-- The nonlinear function of `allen_cahn_ops`, rkstiff/models.py:243-245. -/
noncomputable def allenCahnNlNd {k : ℕ} (x : Fin (k + 2) → ℝ) (u : NdArr ℂ) : Except PyErr (NdArr ℂ) := do
  let xi : NdArr ℂ := NdArr.ofVec fun i : Fin k => (x (interior i) : ℂ)
  let s ← NdArr.elementwise (· + ·) u xi
  let v ← NdArr.elementwise (· - ·) xi ⟨s.shape, fun idx => s.get idx ^ 3⟩
  return v.ravel

end Verif
