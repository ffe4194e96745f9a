import Verif.Model.Hankel
import Verif.Model.FloatGrids

/-!
# rkstiff/transforms.py and `construct_r_kr_hankel` in floating point

Every operation is followed by one rounding `rnd`; the functions of `scipy.special` are those of `B`, which need not be exact; `dot` stands for the inner
products in `Y.dot(f)`.  The product of the real matrix with a complex array acts on real and imaginary parts (the products with the imaginary parts of
the matrix are zeros).
-/

set_option linter.unusedSectionVars false

namespace Verif

/-- `construct_r_kr_hankel`, rkstiff/grids.py:254-264. -/
noncomputable def flConstructRKrHankel (rnd : ℝ → ℝ) (B : Bessel) (nr : ℤ) (rmax : ℝ) : Except PyErr (List ℝ × List ℝ × List ℝ × ℝ) := do
  if nr < 4 then throw .valueError
  if rmax ≤ 0 then throw .valueError
  let zeros := (List.range (nr + 1).toNat).map B.zero
  let besselZeros := zeros.dropLast
  let jN := zeros.getLastD 0
  let r := besselZeros.map fun z => rnd (rnd (z * rmax) / jN)
  let kr := besselZeros.map fun z => rnd (z / rmax)
  return (r, kr, besselZeros, jN)

namespace HankelObj

/-- The entry of the matrix in `_sethankelmatrix`, rkstiff/transforms.py:110-114; `j1vec**2` is a multiplication. -/
noncomputable def flEntry (rnd : ℝ → ℝ) (B : Bessel) (jN zi zj : ℝ) : ℝ :=
  rnd (rnd (2 * B.j0 (rnd (rnd (zi * zj) / jN))) / rnd (jN * rnd (B.j1 zj * B.j1 zj)))

/-- `HankelTransform(nr, rmax)`, rkstiff/transforms.py:96-114. -/
noncomputable def flNew (rnd : ℝ → ℝ) (B : Bessel) (nr : ℤ) (rmax : ℝ) : Except PyErr HankelObj := do
  let (r, kr, z, jN) ← flConstructRKrHankel rnd B nr rmax
  return ⟨nr, rmax, r, kr, z, jN, z.map fun zi => z.map fun zj => flEntry rnd B jN zi zj⟩

/-- `_scalefactor`, rkstiff/transforms.py:116-118; `rmax**2` of a Python float is the correctly rounded square. -/
noncomputable def flScalefactor (rnd : ℝ → ℝ) (o : HankelObj) : ℝ := rnd (rnd (o.rmax * o.rmax) / o.jN)

/-- `Y.dot(f)` for a 1D array of real numbers. -/
def flDot (dot : List (ℝ × ℝ) → ℝ) (Y : List (List ℝ)) (f : List ℝ) : Except PyErr (List ℝ) :=
  if ∀ row ∈ Y, row.length = f.length then .ok (Y.map fun row => dot (row.zip f)) else .error .valueError

/-- `Y.dot(f)` for a 1D array of complex numbers. -/
def flDotC (dot : List (ℝ × ℝ) → ℝ) (Y : List (List ℝ)) (f : List ℂ) : Except PyErr (List ℂ) :=
  if ∀ row ∈ Y, row.length = f.length then .ok (Y.map fun row => ⟨dot (row.zip (f.map Complex.re)), dot (row.zip (f.map Complex.im))⟩)
  else .error .valueError

/-- `ht` of a real array, rkstiff/transforms.py:208. -/
noncomputable def flHt (rnd : ℝ → ℝ) (dot : List (ℝ × ℝ) → ℝ) (o : HankelObj) (f : List ℝ) : Except PyErr (List ℝ) := do
  let g ← flDot dot o.Y f
  return g.map fun x => rnd (o.flScalefactor rnd * x)

/-- `iht` of a real array, rkstiff/transforms.py:240. -/
noncomputable def flIht (rnd : ℝ → ℝ) (dot : List (ℝ × ℝ) → ℝ) (o : HankelObj) (g : List ℝ) : Except PyErr (List ℝ) := do
  let f ← flDot dot o.Y g
  return f.map fun x => rnd (x / o.flScalefactor rnd)

/-- `ht` of a complex array, rkstiff/transforms.py:208: the scale factor is real. -/
noncomputable def flHtC (rnd : ℝ → ℝ) (dot : List (ℝ × ℝ) → ℝ) (o : HankelObj) (f : List ℂ) : Except PyErr (List ℂ) := do
  let g ← flDotC dot o.Y f
  return g.map fun x => ⟨rnd (o.flScalefactor rnd * x.re), rnd (o.flScalefactor rnd * x.im)⟩

/-- `iht` of a complex array, rkstiff/transforms.py:240: NumPy divides by a complex number with imaginary part zero by multiplying with the rounded
inverse of its real part. -/
noncomputable def flIhtC (rnd : ℝ → ℝ) (dot : List (ℝ × ℝ) → ℝ) (o : HankelObj) (g : List ℂ) : Except PyErr (List ℂ) := do
  let f ← flDotC dot o.Y g
  return f.map fun x => ⟨rnd (x.re * rnd (1 / o.flScalefactor rnd)), rnd (x.im * rnd (1 / o.flScalefactor rnd))⟩

end HankelObj

end Verif
