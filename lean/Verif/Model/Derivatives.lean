import Verif.Model.Py
import Verif.Model.Fourier

/-!
# rkstiff/derivatives.py

An array has a shape and an entry for every index list; only the entries at indices within the shape matter.  Arithmetic is
exact.
-/

set_option linter.unusedSectionVars false

namespace Verif

open Finset

/-- An array: shape and entries. -/
structure NdArr (α : Type) where
  shape : List ℕ
  get : List ℕ → α

namespace NdArr

variable {α : Type}

/-- `u.size` -/
def size (u : NdArr α) : ℕ := u.shape.prod

/-- The one-dimensional array of a list. -/
def ofList [Inhabited α] (l : List α) : NdArr α := ⟨[l.length], fun idx => l.getD (idx.headD 0) default⟩

/-- The entries along the last axis. -/
def line (u : NdArr α) (lead : List ℕ) (j : ℕ) : α := u.get (lead ++ [j])

/-- Apply to every line along the last axis an operation that gives lines of length `n`. -/
def mapLines {β : Type} (u : NdArr α) (n : ℕ) (f : (ℕ → α) → ℕ → β) : NdArr β :=
  ⟨u.shape.dropLast ++ [n], fun idx => f (u.line idx.dropLast) (idx.getLastD 0)⟩

end NdArr

/-- A numeric array, by dtype. -/
inductive NumArr where
  | real (u : NdArr ℝ)
  | cplx (u : NdArr ℂ)

/-- The entries as complex numbers. -/
noncomputable def NumArr.toComplex : NumArr → NdArr ℂ
  | .real u => ⟨u.shape, fun idx => (u.get idx : ℂ)⟩
  | .cplx u => u

/-- `np.fft.rfft(u)` along the last axis; a zero-dimensional array has no last axis (`IndexError`), an empty last axis raises
`ValueError`. -/
noncomputable def npRfft (u : NdArr ℝ) : Except PyErr (NdArr ℂ) :=
  match u.shape.getLast? with
  | none => .error .indexError
  | some N => if N = 0 then .error .valueError else .ok (u.mapLines (N / 2 + 1) (rfft1 N))

/-- `np.fft.fft(u)` along the last axis. -/
noncomputable def npFft (u : NdArr ℂ) : Except PyErr (NdArr ℂ) :=
  match u.shape.getLast? with
  | none => .error .indexError
  | some N => if N = 0 then .error .valueError else .ok (u.mapLines N (fft1 N))

/-- `(1j * kx) ** n * y`, entry by entry. -/
noncomputable def spectralDeriv (kx : NdArr ℝ) (n : ℕ) (y : NdArr ℂ) : NdArr ℂ :=
  ⟨y.shape, fun idx => (Complex.I * (kx.get idx : ℂ)) ^ n * y.get idx⟩

/-- `dx_rfft`, rkstiff/derivatives.py:47-123. -/
noncomputable def dxRfft (kx : NdArr ℝ) (u : NumArr) (n : PyVal ℝ) : Except PyErr (NdArr ℝ) :=
  match n with
  | .int n =>
    if n < 0 then .error .valueError
    else
      match u with
      | .cplx _ => .error .typeError
      | .real u =>
        if u.size = 0 then .ok ⟨[0], fun _ => 0⟩
        else if n = 0 then .ok u
        else do
          let uFft ← npRfft u
          if kx.shape ≠ uFft.shape then throw .valueError
          let N := u.shape.getLastD 0
          return (spectralDeriv kx n.toNat uFft).mapLines N (irfft1 N)
  | _ => .error .typeError

/-- `dx_fft`, rkstiff/derivatives.py:126-179.  Order 0 returns the argument itself, with its dtype. -/
noncomputable def dxFft (kx : NdArr ℝ) (u : NumArr) (n : PyVal ℝ) : Except PyErr NumArr :=
  match n with
  | .int n =>
    if n < 0 then .error .valueError
    else if n = 0 then .ok u
    else do
      let uFft ← npFft u.toComplex
      if kx.shape ≠ uFft.shape then throw .valueError
      let N := uFft.shape.getLastD 0
      return .cplx ((spectralDeriv kx n.toNat uFft).mapLines N (ifft1 N))
  | _ => .error .typeError

/-- A two-dimensional array. -/
structure Mat2 (α : Type) where
  rows : ℕ
  cols : ℕ
  get : ℕ → ℕ → α

namespace Mat2

variable {α : Type} [CommSemiring α]

/-- `d @ u` for `u` of dimension one or two. -/
def matmul (d : Mat2 α) (u : NdArr α) : Except PyErr (NdArr α) :=
  match u.shape with
  | [] => .error .valueError
  | k :: rest =>
    if d.cols = k then
      .ok ⟨d.rows :: rest, fun idx => ∑ l ∈ range k, d.get (idx.headD 0) l * u.get (l :: idx.tail)⟩
    else .error .valueError

/-- The product of two square matrices of the same size. -/
def mul (d e : Mat2 α) : Mat2 α := ⟨d.rows, e.cols, fun i j => ∑ k ∈ range d.cols, d.get i k * e.get k j⟩

/-- `d` multiplied by itself: `k + 1` factors. -/
def powSucc (d : Mat2 α) : ℕ → Mat2 α
  | 0 => d
  | k + 1 => (d.powSucc k).mul d

/-- `np.linalg.matrix_power(d, n)` for `n ≥ 1`. -/
def matrixPower (d : Mat2 α) (n : ℕ) : Except PyErr (Mat2 α) :=
  if d.rows = d.cols then .ok (d.powSucc (n - 1)) else .error .linAlgError

end Mat2

/-- `dx_cheb`, rkstiff/derivatives.py:182-253, for a two-dimensional `d_cheb_matrix`. -/
def dxCheb {α : Type} [CommSemiring α] (d : Mat2 α) (u : NdArr α) (n : PyVal ℝ) : Except PyErr (NdArr α) :=
  match n with
  | .int n =>
    if n < 0 then .error .valueError
    else if n = 0 then .ok u
    else do
      match u.shape with
      | [k] =>
        if d.rows ≠ d.cols then throw .valueError
        if d.rows ≠ k then throw .valueError
      | [k, _] =>
        if d.rows ≠ k then throw .valueError
      | _ => throw .valueError
      if n = 1 then d.matmul u
      else do
        let dPower ← d.matrixPower n.toNat
        dPower.matmul u
  | _ => .error .typeError

end Verif
