import Verif.Model.Rounded
import Mathlib.Data.Complex.Basic

/-!
# The coefficients of one-dimensional operators in floating point

`update_coeffs` of the strategies for a one-dimensional `lin_op` (and, with the eigenvalues in the place of `lin_op`, of the
diagonalized strategies), with an arbitrary arithmetic for complex numbers: nothing is assumed here about the operations, NumPy's
sums, powers, `exp` and `abs` included.  The operations act entry by entry, so one mode is described; the expressions are
those of the code, in the same order of evaluation.  A real `lin_op` is a complex one without imaginary parts.  Literals, the
settings and the entries `0.5, 1.5, …` of `np.arange` are exact; `2j * np.pi` is a constant of the arithmetic.
-/

set_option linter.unusedSectionVars false

namespace Verif

/-- An arithmetic for complex numbers. -/
structure CArith where
  add : ℂ → ℂ → ℂ
  sub : ℂ → ℂ → ℂ
  mul : ℂ → ℂ → ℂ
  div : ℂ → ℂ → ℂ
  /-- `x**n` -/
  pow : ℂ → ℕ → ℂ
  /-- `np.exp` -/
  exp : ℂ → ℂ
  /-- `np.abs` -/
  abs : ℂ → ℝ
  /-- `np.sum` -/
  sum : List ℂ → ℂ
  /-- `2j * np.pi` -/
  tau : ℂ

/-- Without rounding. -/
noncomputable def CArith.exact : CArith where
  add x y := x + y
  sub x y := x - y
  mul x y := x * y
  div x y := x / y
  pow x n := x ^ n
  exp := Complex.exp
  abs x := ‖x‖
  sum := List.sum
  tau := 2 * Real.pi * Complex.I

/-- Complex numbers with the operations of an arithmetic. -/
def Fl (_ : CArith) : Type := ℂ

namespace Fl

variable {A : CArith}

/-- A number that needs no rounding. -/
def lit (z : ℂ) : Fl A := z

/-- The complex number. -/
def val (z : Fl A) : ℂ := z

instance : Add (Fl A) := ⟨A.add⟩
instance : Sub (Fl A) := ⟨A.sub⟩
instance : Mul (Fl A) := ⟨A.mul⟩
instance : Div (Fl A) := ⟨A.div⟩
instance : Neg (Fl A) := ⟨fun z => lit (-z.val)⟩
instance : Pow (Fl A) ℕ := ⟨A.pow⟩
instance (n : ℕ) : OfNat (Fl A) n := ⟨lit n⟩

/-- `np.exp` -/
def exp (z : Fl A) : Fl A := A.exp z

/-- `np.sum` -/
def sum (l : List (Fl A)) : Fl A := A.sum l

/-- The literal `0.5`. -/
noncomputable def half : Fl A := lit (1 / 2)

/-- `psi1`, rkstiff/etd.py:148. -/
def psi1 (z : Fl A) : Fl A := (exp z - 1) / z

/-- `psi2`, rkstiff/etd.py:165. -/
def psi2 (z : Fl A) : Fl A := 2 * (exp z - 1 - z) / z ^ 2

/-- `psi3`, rkstiff/etd.py:182. -/
def psi3 (z : Fl A) : Fl A := 6 * (exp z - 1 - z - z ^ 2 / 2) / z ^ 3

end Fl

/-- The values `psi1_14`, … that the coefficients are made of, each multiplied by `h`.  ETD4 and ETD34 use those for the
arguments `z / 2` and `z` only. -/
structure Psis (α : Type) where
  psi1_14 : α
  psi2_14 : α
  psi1_12 : α
  psi2_12 : α
  psi1_34 : α
  psi2_34 : α
  psi1_1 : α
  psi2_1 : α
  psi3_1 : α

namespace Fl

variable {A : CArith}

/-- Big modes: rkstiff/etd4.py:103-107, rkstiff/etd34.py:113-117, rkstiff/etd5.py:139-147, rkstiff/etd35.py:212-215. -/
def direct (h zb : Fl A) : Psis (Fl A) where
  psi1_14 := h * psi1 (zb / 4)
  psi2_14 := h * psi2 (zb / 4)
  psi1_12 := h * psi1 (zb / 2)
  psi2_12 := h * psi2 (zb / 2)
  psi1_34 := h * psi1 (3 * zb / 4)
  psi2_34 := h * psi2 (3 * zb / 4)
  psi1_1 := h * psi1 zb
  psi2_1 := h * psi2 zb
  psi3_1 := h * psi3 zb

/-- An entry of `r`, rkstiff/etd4.py:120-122, rkstiff/etd34.py:130-132, rkstiff/etd5.py:170-172, rkstiff/etd35.py:259. -/
noncomputable def point (cfg : ETDConfig ℝ) (k : ℕ) : Fl A :=
  lit (cfg.contour_radius : ℂ) * exp (lit A.tau * lit ((k : ℂ) + 1 / 2) / lit (cfg.contour_points : ℂ))

/-- `h * np.sum(f(Z), axis=1) / contour_points` for one row of `Z = zz + rr`, rkstiff/etd4.py:123-130 and the same lines of the
other modules. -/
noncomputable def average (cfg : ETDConfig ℝ) (h zs : Fl A) (f : Fl A → Fl A) : Fl A :=
  h * sum ((List.range cfg.npts).map fun k => f (zs + point cfg k)) / lit (cfg.contour_points : ℂ)

/-- Small modes: rkstiff/etd4.py:126-130, rkstiff/etd34.py:136-140, rkstiff/etd5.py:176-184. -/
noncomputable def averages (cfg : ETDConfig ℝ) (h zs : Fl A) : Psis (Fl A) where
  psi1_14 := average cfg h zs fun w => psi1 (w / 4)
  psi2_14 := average cfg h zs fun w => psi2 (w / 4)
  psi1_12 := average cfg h zs fun w => psi1 (w / 2)
  psi2_12 := average cfg h zs fun w => psi2 (w / 2)
  psi1_34 := average cfg h zs fun w => psi1 (3 * w / 4)
  psi2_34 := average cfg h zs fun w => psi2 (3 * w / 4)
  psi1_1 := average cfg h zs psi1
  psi2_1 := average cfg h zs psi2
  psi3_1 := average cfg h zs psi3

/-- Small modes of ETD35, with factors `1 / 4`, `1 / 2`, `3 / 4` (floating-point numbers) and `1`, rkstiff/etd35.py:263-269. -/
noncomputable def averages35 (cfg : ETDConfig ℝ) (h zs : Fl A) : Psis (Fl A) where
  psi1_14 := average cfg h zs fun w => psi1 (lit (1 / 4) * w)
  psi2_14 := average cfg h zs fun w => psi2 (lit (1 / 4) * w)
  psi1_12 := average cfg h zs fun w => psi1 (lit (1 / 2) * w)
  psi2_12 := average cfg h zs fun w => psi2 (lit (1 / 2) * w)
  psi1_34 := average cfg h zs fun w => psi1 (lit (3 / 4) * w)
  psi2_34 := average cfg h zs fun w => psi2 (lit (3 / 4) * w)
  psi1_1 := average cfg h zs fun w => psi1 (1 * w)
  psi2_1 := average cfg h zs fun w => psi2 (1 * w)
  psi3_1 := average cfg h zs fun w => psi3 (1 * w)

/-- The choice between the two, by the computed `np.abs(z) < modecutoff`: rkstiff/etd4.py:100, rkstiff/etd34.py:110,
rkstiff/etd5.py:136, rkstiff/etd35.py:185.  `small` is `averages` or `averages35`. -/
noncomputable def psis (cfg : ETDConfig ℝ) (small : Fl A → Fl A → Psis (Fl A)) (h z : Fl A) : Psis (Fl A) :=
  if A.abs z.val < cfg.modecutoff then small h z else direct h z

/-- ETD4: rkstiff/etd4.py:97-98, 109-116, 132-139. -/
noncomputable def etd4Of (z : Fl A) (p : Psis (Fl A)) : Etd4Coef (Fl A) where
  EL := exp z
  EL2 := exp (z / 2)
  a21 := half * p.psi1_12
  a31 := half * (p.psi1_12 - p.psi2_12)
  a32 := half * p.psi2_12
  a41 := p.psi1_1 - p.psi2_1
  a43 := p.psi2_1
  b1 := p.psi1_1 - 3 / 2 * p.psi2_1 + 2 / 3 * p.psi3_1
  b2 := p.psi2_1 - 2 / 3 * p.psi3_1
  b4 := -(1 / 2) * p.psi2_1 + 2 / 3 * p.psi3_1

/-- ETD34: rkstiff/etd34.py:107-108, 119-126, 142-149. -/
noncomputable def etd34Of (z : Fl A) (p : Psis (Fl A)) : Etd34Coef (Fl A) where
  EL := exp z
  EL2 := exp (z / 2)
  a21 := half * p.psi1_12
  a31 := half * (p.psi1_12 - p.psi2_12)
  a32 := half * p.psi2_12
  a41 := p.psi1_1 - p.psi2_1
  a43 := p.psi2_1
  a51 := p.psi1_1 - 3 / 2 * p.psi2_1 + 2 / 3 * p.psi3_1
  a52 := p.psi2_1 - 2 / 3 * p.psi3_1
  a54 := -(1 / 2) * p.psi2_1 + 2 / 3 * p.psi3_1

/-- ETD5: rkstiff/etd5.py:131-134, 149-166, 186-203. -/
def etd5Of (z : Fl A) (p : Psis (Fl A)) : Etd5Coef (Fl A) where
  EL14 := exp (z / 4)
  EL12 := exp (z / 2)
  EL34 := exp (3 * z / 4)
  EL := exp z
  a21 := p.psi1_14 / 4
  a31 := (p.psi1_14 - p.psi2_14 / 2) / 4
  a32 := p.psi2_14 / 8
  a41 := (p.psi1_12 - p.psi2_12) / 2
  a43 := p.psi2_12 / 2
  a51 := 3 * (p.psi1_34 - 3 * p.psi2_34 / 4) / 4
  a52 := -3 * p.psi1_34 / 8
  a54 := 9 * p.psi2_34 / 16
  a61 := (-77 * p.psi1_1 + 59 * p.psi2_1) / 42
  a62 := 8 * p.psi1_1 / 7
  a63 := (111 * p.psi1_1 - 87 * p.psi2_1) / 28
  a65 := (-47 * p.psi1_1 + 143 * p.psi2_1) / 84
  b1 := 7 * (257 * p.psi1_1 - 497 * p.psi2_1 + 270 * p.psi3_1) / 2700
  b3 := (1097 * p.psi1_1 - 467 * p.psi2_1 - 150 * p.psi3_1) / 1350
  b4 := 2 * (-49 * p.psi1_1 + 199 * p.psi2_1 - 135 * p.psi3_1) / 225
  b5 := (-313 * p.psi1_1 + 883 * p.psi2_1 - 90 * p.psi3_1) / 1350
  b6 := (509 * p.psi1_1 - 2129 * p.psi2_1 + 1830 * p.psi3_1) / 2700

/-- ETD35: rkstiff/etd35.py:180-183, 220-237, 272-288. -/
def etd35Of (z : Fl A) (p : Psis (Fl A)) : Etd35Coef (Fl A) where
  EL14 := exp (z / 4)
  EL12 := exp (z / 2)
  EL34 := exp (3 * z / 4)
  EL := exp z
  a21 := p.psi1_14 / 4
  a31 := (p.psi1_14 - p.psi2_14 / 2) / 4
  a32 := p.psi2_14 / 8
  a41 := (p.psi1_12 - p.psi2_12) / 2
  a43 := p.psi2_12 / 2
  a51 := 3 * (p.psi1_34 - 3 * p.psi2_34 / 4) / 4
  a52 := -3 * p.psi1_34 / 8
  a54 := 9 * p.psi2_34 / 16
  a61 := (-77 * p.psi1_1 + 59 * p.psi2_1) / 42
  a62 := 8 * p.psi1_1 / 7
  a63 := (111 * p.psi1_1 - 87 * p.psi2_1) / 28
  a65 := (-47 * p.psi1_1 + 143 * p.psi2_1) / 84
  a71 := 7 * (257 * p.psi1_1 - 497 * p.psi2_1 + 270 * p.psi3_1) / 2700
  a73 := (1097 * p.psi1_1 - 467 * p.psi2_1 - 150 * p.psi3_1) / 1350
  a74 := 2 * (-49 * p.psi1_1 + 199 * p.psi2_1 - 135 * p.psi3_1) / 225
  a75 := (-313 * p.psi1_1 + 883 * p.psi2_1 - 90 * p.psi3_1) / 1350
  a76 := (509 * p.psi1_1 - 2129 * p.psi2_1 + 1830 * p.psi3_1) / 2700

end Fl

variable {ι : Type}

/-- `update_coeffs` of ETD4, rkstiff/etd4.py:87-139. -/
noncomputable def ETD4.flCoefs (A : CArith) (cfg : ETDConfig ℝ) (L : Vec ι) (h : ℝ) : Etd4Coef (Vec ι) :=
  let z (i : ι) : Fl A := Fl.lit (h : ℂ) * Fl.lit (L i)
  let c (i : ι) : Etd4Coef (Fl A) := Fl.etd4Of (z i) (Fl.psis cfg (Fl.averages cfg) (Fl.lit (h : ℂ)) (z i))
  { EL := fun i => (c i).EL.val, EL2 := fun i => (c i).EL2.val, a21 := fun i => (c i).a21.val, a31 := fun i => (c i).a31.val,
    a32 := fun i => (c i).a32.val, a41 := fun i => (c i).a41.val, a43 := fun i => (c i).a43.val, b1 := fun i => (c i).b1.val,
    b2 := fun i => (c i).b2.val, b4 := fun i => (c i).b4.val }

/-- `update_coeffs` of ETD34, rkstiff/etd34.py:84-149, and of the diagonalized strategy, which passes `h` times the eigenvalues. -/
noncomputable def ETD34.flCoefs (A : CArith) (cfg : ETDConfig ℝ) (L : Vec ι) (h : ℝ) : Etd34Coef (Vec ι) :=
  let z (i : ι) : Fl A := Fl.lit (h : ℂ) * Fl.lit (L i)
  let c (i : ι) : Etd34Coef (Fl A) := Fl.etd34Of (z i) (Fl.psis cfg (Fl.averages cfg) (Fl.lit (h : ℂ)) (z i))
  { EL := fun i => (c i).EL.val, EL2 := fun i => (c i).EL2.val, a21 := fun i => (c i).a21.val, a31 := fun i => (c i).a31.val,
    a32 := fun i => (c i).a32.val, a41 := fun i => (c i).a41.val, a43 := fun i => (c i).a43.val, a51 := fun i => (c i).a51.val,
    a52 := fun i => (c i).a52.val, a54 := fun i => (c i).a54.val }

/-- `update_coeffs` of ETD5, rkstiff/etd5.py:115-203. -/
noncomputable def ETD5.flCoefs (A : CArith) (cfg : ETDConfig ℝ) (L : Vec ι) (h : ℝ) : Etd5Coef (Vec ι) :=
  let z (i : ι) : Fl A := Fl.lit (h : ℂ) * Fl.lit (L i)
  let c (i : ι) : Etd5Coef (Fl A) := Fl.etd5Of (z i) (Fl.psis cfg (Fl.averages cfg) (Fl.lit (h : ℂ)) (z i))
  { EL14 := fun i => (c i).EL14.val, EL12 := fun i => (c i).EL12.val, EL34 := fun i => (c i).EL34.val, EL := fun i => (c i).EL.val,
    a21 := fun i => (c i).a21.val, a31 := fun i => (c i).a31.val, a32 := fun i => (c i).a32.val, a41 := fun i => (c i).a41.val,
    a43 := fun i => (c i).a43.val, a51 := fun i => (c i).a51.val, a52 := fun i => (c i).a52.val, a54 := fun i => (c i).a54.val,
    a61 := fun i => (c i).a61.val, a62 := fun i => (c i).a62.val, a63 := fun i => (c i).a63.val, a65 := fun i => (c i).a65.val,
    b1 := fun i => (c i).b1.val, b3 := fun i => (c i).b3.val, b4 := fun i => (c i).b4.val, b5 := fun i => (c i).b5.val,
    b6 := fun i => (c i).b6.val }

/-- `update_coeffs` of ETD35, rkstiff/etd35.py:157-288, and of the diagonalized strategy, which passes `h` times the eigenvalues. -/
noncomputable def ETD35.flCoefs (A : CArith) (cfg : ETDConfig ℝ) (L : Vec ι) (h : ℝ) : Etd35Coef (Vec ι) :=
  let z (i : ι) : Fl A := Fl.lit (h : ℂ) * Fl.lit (L i)
  let c (i : ι) : Etd35Coef (Fl A) := Fl.etd35Of (z i) (Fl.psis cfg (Fl.averages35 cfg) (Fl.lit (h : ℂ)) (z i))
  { EL14 := fun i => (c i).EL14.val, EL12 := fun i => (c i).EL12.val, EL34 := fun i => (c i).EL34.val, EL := fun i => (c i).EL.val,
    a21 := fun i => (c i).a21.val, a31 := fun i => (c i).a31.val, a32 := fun i => (c i).a32.val, a41 := fun i => (c i).a41.val,
    a43 := fun i => (c i).a43.val, a51 := fun i => (c i).a51.val, a52 := fun i => (c i).a52.val, a54 := fun i => (c i).a54.val,
    a61 := fun i => (c i).a61.val, a62 := fun i => (c i).a62.val, a63 := fun i => (c i).a63.val, a65 := fun i => (c i).a65.val,
    a71 := fun i => (c i).a71.val, a73 := fun i => (c i).a73.val, a74 := fun i => (c i).a74.val, a75 := fun i => (c i).a75.val,
    a76 := fun i => (c i).a76.val }

/-- `update_coeffs` of IF4 and IF34, rkstiff/if4.py:81-83, rkstiff/if34.py:91-93 and, with the eigenvalues, rkstiff/if34.py:170-172. -/
noncomputable def IF4.flCoefs (A : CArith) (L : Vec ι) (h : ℝ) : IFCoef (Vec ι) :=
  let z (i : ι) : Fl A := Fl.lit (h : ℂ) * Fl.lit (L i)
  { EL := fun i => (Fl.exp (z i)).val, EL2 := fun i => (Fl.exp (z i / 2)).val }

/-- `_update_coeffs` of IF45DP, rkstiff/if45dp.py:204-237. -/
noncomputable def IF45DP.flCoefs (A : CArith) (L : Vec ι) (h : ℝ) : If45dpCoef ι :=
  let h : Fl A := Fl.lit (h : ℂ)
  let z (i : ι) : Fl A := h * Fl.lit (L i)
  let EL15 i := Fl.exp (z i / 5)
  let EL310 i := Fl.exp (3 * z i / 10)
  let EL45 i := Fl.exp (4 * z i / 5)
  let EL89 i := Fl.exp (8 * z i / 9)
  let EL i := Fl.exp (z i)
  let EL710 i := Fl.exp (7 * z i / 10)
  let EL19 i := Fl.exp (z i / 9)
  { EL15 := fun i => (EL15 i).val, EL310 := fun i => (EL310 i).val, EL45 := fun i => (EL45 i).val
    EL89 := fun i => (EL89 i).val, EL := fun i => (EL i).val
    a21 := fun i => (h * EL15 i / 5).val
    a31 := fun i => (3 * h * EL310 i / 40).val
    a32 := fun i => (9 * h * Fl.exp (z i / 10) / 40).val
    a41 := fun i => (44 * h * EL45 i / 45).val
    a42 := fun i => (-56 * h * Fl.exp (3 * z i / 5) / 15).val
    a43 := fun i => (32 * h * Fl.exp (z i / 2) / 9).val
    a51 := fun i => (19372 * h * EL89 i / 6561).val
    a52 := fun i => (-25360 * h * Fl.exp (31 * z i / 45) / 2187).val
    a53 := fun i => (64448 * h * Fl.exp (53 * z i / 90) / 6561).val
    a54 := fun i => (-212 * h * Fl.exp (4 * z i / 45) / 729).val
    a61 := fun i => (9017 * h * EL i / 3168).val
    a62 := fun i => (-355 * h * EL45 i / 33).val
    a63 := fun i => (46732 * h * EL710 i / 5247).val
    a64 := fun i => (49 * h * EL15 i / 176).val
    a65 := fun i => (-5103 * h * EL19 i / 18656).val
    a71 := fun i => (35 * h * EL i / 384).val
    a73 := fun i => (500 * h * EL710 i / 1113).val
    a74 := fun i => (125 * h * EL15 i / 192).val
    a75 := fun i => (-2187 * h * EL19 i / 6784).val
    a76 := (11 * h / 84).val
    r1 := fun i => (h * 71 * EL i / 57600).val
    r3 := fun i => (-71 * h * EL710 i / 16695).val
    r4 := fun i => (17 * h * EL15 i / 1920).val
    r5 := fun i => (-17253 * h * EL19 i / 339200).val
    r6 := (22 * h / 525).val
    r7 := (-h / 40).val }

end Verif
