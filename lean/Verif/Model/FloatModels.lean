import Verif.Model.FloatCoefs
import Verif.Model.Models
import Verif.Model.Derivatives
import Verif.Model.Grids

/-!
# rkstiff/models.py, the Fourier part of rkstiff/derivatives.py and the wavenumbers of rkstiff/grids.py in floating point

The same expressions as in `Models`, `Derivatives` and `Grids`, in the order of evaluation of the code, with arbitrary operations on real
and complex numbers and arbitrary functions in the places of those of `numpy.fft` and of the product of matrices.  Simplified: the
sums, powers and differences of the `nl_func` of `allen_cahn_ops` are those of complex numbers; a real argument is a complex one
without imaginary parts.
-/

set_option linter.unusedSectionVars false

namespace Verif

/-- An arithmetic for real numbers. -/
structure RArith where
  add : ℝ → ℝ → ℝ
  mul : ℝ → ℝ → ℝ
  div : ℝ → ℝ → ℝ
  /-- `x**n` -/
  pow : ℝ → ℕ → ℝ
  /-- `2 * np.pi` -/
  tau : ℝ

/-- Without rounding. -/
noncomputable def RArith.exact : RArith where
  add x y := x + y
  mul x y := x * y
  div x y := x / y
  pow x n := x ^ n
  tau := 2 * Real.pi

/-- Every operation is followed by one rounding; `np.pi` is a rounded number, doubled. -/
noncomputable def RArith.numpy (rnd : ℝ → ℝ) : RArith where
  add x y := rnd (x + y)
  mul x y := rnd (x * y)
  div x y := rnd (x / y)
  pow x n := rnd (x ^ n)
  tau := rnd (2 * rnd Real.pi)

/-- The functions of `numpy.fft` that rkstiff calls, for signals of length `N`. -/
structure FftLib where
  fft : ℕ → (ℕ → ℂ) → ℕ → ℂ
  ifft : ℕ → (ℕ → ℂ) → ℕ → ℂ
  rfft : ℕ → (ℕ → ℝ) → ℕ → ℂ
  irfft : ℕ → (ℕ → ℂ) → ℕ → ℝ

/-- Without rounding. -/
noncomputable def FftLib.exact : FftLib := ⟨fft1, ifft1, rfft1, irfft1⟩

/-! ### models.py -/

/-- `np.fft.rfft(irfft(uf) * irfft(1j * kx * uf))`, rkstiff/models.py:141-143 and 190-192. -/
noncomputable def flAdvection (A : CArith) (B : RArith) (F : FftLib) {M : ℕ} (kx : Fin (M + 1) → ℝ) (uf : Vec (Fin (M + 1))) :
    Except PyErr (Vec (Fin (M + 1))) :=
  if M = 0 then .error .valueError
  else
    let u := F.irfft (2 * M) (specExt uf)
    let ux := F.irfft (2 * M) (specExt fun m => A.mul (A.mul Complex.I (kx m : ℂ)) (uf m))
    .ok fun m => F.rfft (2 * M) (fun j => B.mul (u j) (ux j)) m

/-- The linear operator of `kdv_ops`, rkstiff/models.py:138. -/
noncomputable def flKdvLin (A : CArith) (B : RArith) {M : ℕ} (kx : Fin (M + 1) → ℝ) : Vec (Fin (M + 1)) :=
  fun m => A.mul Complex.I (B.pow (kx m) 3 : ℂ)

/-- The nonlinear function of `kdv_ops`, rkstiff/models.py:140-143. -/
noncomputable def flKdvNl (A : CArith) (B : RArith) (F : FftLib) {M : ℕ} (kx : Fin (M + 1) → ℝ) : NlFunc (Fin (M + 1)) := fun uf =>
  match flAdvection A B F kx uf with
  | .ok v => .ok fun m => A.mul (-6) (v m)
  | .error e => .error e

/-- The linear operator of `burgers_ops`, rkstiff/models.py:187. -/
noncomputable def flBurgersLin (B : RArith) {M : ℕ} (kx : Fin (M + 1) → ℝ) (mu : ℝ) : Vec (Fin (M + 1)) :=
  fun m => (B.mul (-mu) (B.pow (kx m) 2) : ℂ)

/-- The nonlinear function of `burgers_ops`, rkstiff/models.py:189-192. -/
noncomputable def flBurgersNl (A : CArith) (B : RArith) (F : FftLib) {M : ℕ} (kx : Fin (M + 1) → ℝ) : NlFunc (Fin (M + 1)) := fun uf =>
  match flAdvection A B F kx uf with
  | .ok v => .ok fun m => - v m
  | .error e => .error e

/-- The linear operator of `allen_cahn_ops`, rkstiff/models.py:239-241; `D2` is what `d_cheb_matrix.dot(d_cheb_matrix)` gives. -/
noncomputable def flAllenCahnLin (B : RArith) {k : ℕ} (D2 : Matrix (Fin (k + 2)) (Fin (k + 2)) ℝ) (eps : ℝ) : Matrix (Fin k) (Fin k) ℝ :=
  fun i j => B.add (B.mul eps (D2 (interior i) (interior j))) (if interior i = interior j then 1 else 0)

/-- The nonlinear function of `allen_cahn_ops`, rkstiff/models.py:243-245. -/
noncomputable def flAllenCahnNl (A : CArith) {k : ℕ} (x : Fin (k + 2) → ℝ) : NlFunc (Fin k) := fun u =>
  .ok fun i => A.sub (x (interior i) : ℂ) (A.pow (A.add (u i) (x (interior i) : ℂ)) 3)

/-! ### grids.py -/

/-- `kx` of `construct_x_kx_rfft`, rkstiff/grids.py:82-84: `2 * np.pi * np.fft.rfftfreq(n, d=dx)`; `rfftfreq` multiplies `0, 1, …, n // 2` by
`1.0 / (n * d)`. -/
noncomputable def flKxRfft (B : RArith) (n : ℕ) (dx : ℝ) : List ℝ :=
  (List.range (n / 2 + 1)).map fun i : ℕ => B.mul B.tau (B.mul i (B.div 1 (B.mul n dx)))

/-- `kx` of `construct_x_kx_fft`, rkstiff/grids.py:128-130. -/
noncomputable def flKxFft (B : RArith) (n : ℕ) (dx : ℝ) : List ℝ :=
  (((List.range ((n - 1) / 2 + 1)).map fun i : ℕ => (i : ℝ)) ++ (List.range (n / 2)).map fun i : ℕ => (i : ℝ) - ((n / 2 : ℕ) : ℝ)).map
    fun x => B.mul B.tau (B.mul x (B.div 1 (B.mul n dx)))

/-- `construct_x_kx_rfft`, rkstiff/grids.py:40-85, with every operation rounded. -/
noncomputable def flConstructXKxRfft (rnd : ℝ → ℝ) (n : PyVal ℝ) (a b : ℝ) : Except PyErr (List ℝ × List ℝ) := do
  let n ← checkGridSize n
  let dx := rnd (rnd (b - a) / n)
  if dx = 0 then throw .zeroDivisionError
  return (npArange rnd a b dx, flKxRfft (RArith.numpy rnd) n dx)

/-- `construct_x_kx_fft`, rkstiff/grids.py:88-131, with every operation rounded. -/
noncomputable def flConstructXKxFft (rnd : ℝ → ℝ) (n : PyVal ℝ) (a b : ℝ) : Except PyErr (List ℝ × List ℝ) := do
  let n ← checkGridSize n
  let dx := rnd (rnd (b - a) / n)
  if dx = 0 then throw .zeroDivisionError
  return (npArange rnd a b dx, flKxFft (RArith.numpy rnd) n dx)

/-! ### derivatives.py -/

/-- `np.fft.rfft(u)` along the last axis. -/
noncomputable def flNpRfft (F : FftLib) (u : NdArr ℝ) : Except PyErr (NdArr ℂ) :=
  match u.shape.getLast? with
  | none => .error .indexError
  | some N => if N = 0 then .error .valueError else .ok (u.mapLines (N / 2 + 1) (F.rfft N))

/-- `np.fft.fft(u)` along the last axis. -/
noncomputable def flNpFft (F : FftLib) (u : NdArr ℂ) : Except PyErr (NdArr ℂ) :=
  match u.shape.getLast? with
  | none => .error .indexError
  | some N => if N = 0 then .error .valueError else .ok (u.mapLines N (F.fft N))

/-- `(1j * kx) ** n * y`, entry by entry. -/
noncomputable def flSpectralDeriv (A : CArith) (kx : NdArr ℝ) (n : ℕ) (y : NdArr ℂ) : NdArr ℂ :=
  ⟨y.shape, fun idx => A.mul (A.pow (A.mul Complex.I (kx.get idx : ℂ)) n) (y.get idx)⟩

/-- `dx_rfft`, rkstiff/derivatives.py:47-123. -/
noncomputable def flDxRfft (A : CArith) (F : FftLib) (kx : NdArr ℝ) (u : NumArr) (n : PyVal ℝ) : Except PyErr (NdArr ℝ) :=
  match n with
  | .int n =>
    if n < 0 then .error .valueError
    else
      match u with
      | .cplx _ => .error .typeError
      | .real u =>
        if u.size = 0 then .ok ⟨[0], fun _ => 0⟩
        else if n = 0 then .ok u
        else do
          let uFft ← flNpRfft F u
          if kx.shape ≠ uFft.shape then throw .valueError
          let N := u.shape.getLastD 0
          return (flSpectralDeriv A kx n.toNat uFft).mapLines N (F.irfft N)
  | _ => .error .typeError

/-- `dx_fft`, rkstiff/derivatives.py:126-179. -/
noncomputable def flDxFft (A : CArith) (F : FftLib) (kx : NdArr ℝ) (u : NumArr) (n : PyVal ℝ) : Except PyErr NumArr :=
  match n with
  | .int n =>
    if n < 0 then .error .valueError
    else if n = 0 then .ok u
    else do
      let uFft ← flNpFft F u.toComplex
      if kx.shape ≠ uFft.shape then throw .valueError
      let N := uFft.shape.getLastD 0
      return .cplx ((flSpectralDeriv A kx n.toNat uFft).mapLines N (F.ifft N))
  | _ => .error .typeError

end Verif
