import Verif.Model.Py
import Mathlib.Data.Complex.Basic

/-!
# rkstiff/transforms.py and `construct_r_kr_hankel` (rkstiff/grids.py:222-264)

The Bessel functions are parameters: `zero i` is the `(i + 1)`-th positive zero of `J₀`, as computed by `scipy.special.jn_zeros`;
`j0` and `j1` are the functions of `scipy.special`.  Arithmetic is exact and `rmax` is a real number.
-/

set_option linter.unusedSectionVars false

namespace Verif

/-- The functions taken from `scipy.special`. -/
structure Bessel where
  zero : ℕ → ℝ
  j0 : ℝ → ℝ
  j1 : ℝ → ℝ

/-- The attributes of a `HankelTransform`, rkstiff/transforms.py:98-114. -/
structure HankelObj where
  nr : ℤ
  rmax : ℝ
  r : List ℝ
  kr : List ℝ
  besselZeros : List ℝ
  jN : ℝ
  Y : List (List ℝ)

/-- `construct_r_kr_hankel`, rkstiff/grids.py:222-264. -/
noncomputable def constructRKrHankel (B : Bessel) (nr : ℤ) (rmax : ℝ) : Except PyErr (List ℝ × List ℝ × List ℝ × ℝ) := do
  if nr < 4 then throw .valueError
  if rmax ≤ 0 then throw .valueError
  let zeros := (List.range (nr + 1).toNat).map B.zero
  let besselZeros := zeros.dropLast
  let jN := zeros.getLastD 0
  let r := besselZeros.map fun z => z * rmax / jN
  let kr := besselZeros.map fun z => z / rmax
  return (r, kr, besselZeros, jN)

namespace HankelObj

/-- `_sethankelmatrix`, rkstiff/transforms.py:110-114: the division by `j1vec**2` acts on the columns. -/
noncomputable def sethankelmatrix (B : Bessel) : PyM HankelObj Unit :=
  PyM.modify fun o =>
    { o with Y := o.besselZeros.map fun zi => o.besselZeros.map fun zj => 2 * B.j0 (zi * zj / o.jN) / (o.jN * B.j1 zj ^ 2) }

/-- `_setnr_setrmax`, rkstiff/transforms.py:103-108: `_nr` and `_rmax` are assigned before the grid is constructed. -/
noncomputable def setnrSetrmax (B : Bessel) (nr : ℤ) (rmax : ℝ) : PyM HankelObj Unit := do
  PyM.modify fun o => { o with nr := nr, rmax := rmax }
  match constructRKrHankel B nr rmax with
  | .error e => PyM.throw e
  | .ok (r, kr, z, jN) =>
    PyM.modify fun o => { o with r := r, kr := kr, besselZeros := z, jN := jN }
    sethankelmatrix B

/-- `HankelTransform(nr, rmax)`, rkstiff/transforms.py:96-101. -/
noncomputable def new (B : Bessel) (nr : ℤ) (rmax : ℝ) : Except PyErr HankelObj :=
  match setnrSetrmax B nr rmax ⟨0, 0, [], [], [], 0, []⟩ with
  | (.ok _, o) => .ok o
  | (.error e, _) => .error e

/-- `obj.nr = value`, rkstiff/transforms.py:155-160. -/
noncomputable def setNr (B : Bessel) (v : PyVal ℝ) : PyM HankelObj Unit :=
  match v with
  | .int n => do
    if n < 4 then PyM.throw .valueError
    let o ← PyM.get
    setnrSetrmax B n o.rmax
  | _ => PyM.throw .valueError

/-- `obj.rmax = value`, rkstiff/transforms.py:167-172. -/
noncomputable def setRmax (B : Bessel) (v : ℝ) : PyM HankelObj Unit := do
  if v ≤ 0 then PyM.throw .valueError
  let o ← PyM.get
  setnrSetrmax B o.nr v

/-- `_scalefactor`, rkstiff/transforms.py:116-118. -/
noncomputable def scalefactor (o : HankelObj) : ℝ := o.rmax ^ 2 / o.jN

/-- `Y.dot(f)` for a 1D array `f`. -/
noncomputable def dot (Y : List (List ℝ)) (f : List ℂ) : Except PyErr (List ℂ) :=
  if ∀ row ∈ Y, row.length = f.length then
    .ok (Y.map fun row => (List.zipWith (fun (y : ℝ) (x : ℂ) => (y : ℂ) * x) row f).sum)
  else .error .valueError

/-- `ht`, rkstiff/transforms.py:178-208. -/
noncomputable def ht (o : HankelObj) (f : List ℂ) : Except PyErr (List ℂ) := do
  let g ← dot o.Y f
  return g.map fun x => (o.scalefactor : ℂ) * x

/-- `iht`, rkstiff/transforms.py:210-240. -/
noncomputable def iht (o : HankelObj) (g : List ℂ) : Except PyErr (List ℂ) := do
  let f ← dot o.Y g
  return f.map fun x => x / (o.scalefactor : ℂ)

end HankelObj

end Verif
