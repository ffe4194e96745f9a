import Verif.Model.FloatCoefs

/-!
# The coefficients of matrices in floating point

`update_coeffs` of the strategies for a two-dimensional `lin_op`, with an arbitrary arithmetic for complex numbers and arbitrary
functions in the places of `scipy.linalg.expm` and `np.linalg.inv`.  All other operations act entry by entry.
-/

set_option linter.unusedSectionVars false

namespace Verif

variable {ι : Type}

/-- `expm` and `np.linalg.inv`, which may raise. -/
structure LinAlg (ι : Type) where
  expm : Mat ι → Mat ι
  inv : Mat ι → Except PyErr (Mat ι)

/-- Without rounding. -/
noncomputable def LinAlg.exact [Fintype ι] [DecidableEq ι] : LinAlg ι where
  expm M := NormedSpace.exp M
  inv M := open Classical in if IsUnit M.det then .ok M⁻¹ else .error .linAlgError

namespace Fl

variable {A : CArith}

/-- A matrix of numbers as an array. -/
def mat (M : ι → ι → Fl A) : Mat ι := fun i j => (M i j).val

/-- `point * np.eye(n) - y`, rkstiff/etd4.py:256-257. -/
def shift [DecidableEq ι] (point : Fl A) (y : ι → ι → Fl A) : Mat ι :=
  mat fun i j => point * (if i = j then 1 else 0) - y i j

/-- `acc += point * f(point) * Q / contour_points`, rkstiff/etd4.py:258-262; `w` is `f(point)`. -/
noncomputable def accum (cfg : ETDConfig ℝ) (point w : Fl A) (Q : Mat ι) (acc : ι → ι → Fl A) : ι → ι → Fl A :=
  fun i j => acc i j + point * w * lit (Q i j) / lit (cfg.contour_points : ℂ)

/-- All accumulators are `np.zeros`. -/
def zeros : Psis (ι → ι → Fl A) :=
  ⟨fun _ _ => 0, fun _ _ => 0, fun _ _ => 0, fun _ _ => 0, fun _ _ => 0, fun _ _ => 0, fun _ _ => 0, fun _ _ => 0, fun _ _ => 0⟩

/-- Body of the loop of ETD4 and ETD34, rkstiff/etd4.py:255-262, rkstiff/etd34.py:376-383. -/
noncomputable def round4 [DecidableEq ι] (B : LinAlg ι) (cfg : ETDConfig ℝ) (z : ι → ι → Fl A) (acc : Psis (ι → ι → Fl A)) (k : ℕ) :
    Except PyErr (Psis (ι → ι → Fl A)) :=
  let p : Fl A := point cfg k
  (B.inv (shift p z)).bind fun Q =>
  (B.inv (shift p fun i j => z i j / 2)).bind fun Q2 =>
  .ok { acc with
    psi1_12 := accum cfg p (psi1 p) Q2 acc.psi1_12
    psi2_12 := accum cfg p (psi2 p) Q2 acc.psi2_12
    psi1_1 := accum cfg p (psi1 p) Q acc.psi1_1
    psi2_1 := accum cfg p (psi2 p) Q acc.psi2_1
    psi3_1 := accum cfg p (psi3 p) Q acc.psi3_1 }

/-- Body of the loop of ETD5 and ETD35, rkstiff/etd5.py:389-402, rkstiff/etd35.py:627-640. -/
noncomputable def round5 [DecidableEq ι] (B : LinAlg ι) (cfg : ETDConfig ℝ) (z : ι → ι → Fl A) (acc : Psis (ι → ι → Fl A)) (k : ℕ) :
    Except PyErr (Psis (ι → ι → Fl A)) :=
  let p : Fl A := point cfg k
  (B.inv (shift p fun i j => z i j / 4)).bind fun Q14 =>
  (B.inv (shift p fun i j => z i j / 2)).bind fun Q12 =>
  (B.inv (shift p fun i j => 3 * z i j / 4)).bind fun Q34 =>
  (B.inv (shift p z)).bind fun Q =>
  .ok {
    psi1_14 := accum cfg p (psi1 p) Q14 acc.psi1_14
    psi2_14 := accum cfg p (psi2 p) Q14 acc.psi2_14
    psi1_12 := accum cfg p (psi1 p) Q12 acc.psi1_12
    psi2_12 := accum cfg p (psi2 p) Q12 acc.psi2_12
    psi1_34 := accum cfg p (psi1 p) Q34 acc.psi1_34
    psi2_34 := accum cfg p (psi2 p) Q34 acc.psi2_34
    psi1_1 := accum cfg p (psi1 p) Q acc.psi1_1
    psi2_1 := accum cfg p (psi2 p) Q acc.psi2_1
    psi3_1 := accum cfg p (psi3 p) Q acc.psi3_1 }

end Fl

/-- `z = h * lin_op` -/
noncomputable def flZ (A : CArith) (L : Mat ι) (h : ℝ) (i j : ι) : Fl A := Fl.lit (h : ℂ) * Fl.lit (L i j)

/-- `update_coeffs` of IF4 and IF34 for matrices, rkstiff/if4.py:162-164, rkstiff/if34.py:227-229. -/
noncomputable def IF4.flCoefsMat (A : CArith) (B : LinAlg ι) (L : Mat ι) (h : ℝ) : IFCoef (Mat ι) :=
  let z := flZ A L h
  { EL := B.expm (Fl.mat z), EL2 := B.expm (Fl.mat fun i j => z i j / 2) }

/-- The coefficients of ETD4 from the accumulators, rkstiff/etd4.py:244-246, 264-271. -/
noncomputable def ETD4.flMatOf (A : CArith) (B : LinAlg ι) (L : Mat ι) (hr : ℝ) (p : Psis (ι → ι → Fl A)) : Etd4Coef (Mat ι) :=
  let h : Fl A := Fl.lit (hr : ℂ)
  let z := flZ A L hr
  { EL := B.expm (Fl.mat z)
    EL2 := B.expm (Fl.mat fun i j => z i j / 2)
    a21 := Fl.mat fun i j => Fl.half * h * p.psi1_12 i j
    a31 := Fl.mat fun i j => Fl.half * h * (p.psi1_12 i j - p.psi2_12 i j)
    a32 := Fl.mat fun i j => Fl.half * h * p.psi2_12 i j
    a41 := Fl.mat fun i j => h * (p.psi1_1 i j - p.psi2_1 i j)
    a43 := Fl.mat fun i j => h * p.psi2_1 i j
    b1 := Fl.mat fun i j => h * (p.psi1_1 i j - 3 / 2 * p.psi2_1 i j + 2 / 3 * p.psi3_1 i j)
    b2 := Fl.mat fun i j => h * (p.psi2_1 i j - 2 / 3 * p.psi3_1 i j)
    b4 := Fl.mat fun i j => h * (-(1 / 2) * p.psi2_1 i j + 2 / 3 * p.psi3_1 i j) }

/-- `update_coeffs` of ETD4 for matrices, rkstiff/etd4.py:235-271. -/
noncomputable def ETD4.flCoefsMat [DecidableEq ι] (A : CArith) (B : LinAlg ι) (cfg : ETDConfig ℝ) (L : Mat ι) (h : ℝ) :
    Except PyErr (Etd4Coef (Mat ι)) :=
  ((List.range cfg.npts).foldlM (Fl.round4 B cfg (flZ A L h)) Fl.zeros).map (ETD4.flMatOf A B L h)

/-- The coefficients of ETD34 from the accumulators, rkstiff/etd34.py:365-367, 385-392. -/
noncomputable def ETD34.flMatOf (A : CArith) (B : LinAlg ι) (L : Mat ι) (hr : ℝ) (p : Psis (ι → ι → Fl A)) : Etd34Coef (Mat ι) :=
  let h : Fl A := Fl.lit (hr : ℂ)
  let z := flZ A L hr
  { EL := B.expm (Fl.mat z)
    EL2 := B.expm (Fl.mat fun i j => z i j / 2)
    a21 := Fl.mat fun i j => Fl.half * h * p.psi1_12 i j
    a31 := Fl.mat fun i j => Fl.half * h * (p.psi1_12 i j - p.psi2_12 i j)
    a32 := Fl.mat fun i j => Fl.half * h * p.psi2_12 i j
    a41 := Fl.mat fun i j => h * (p.psi1_1 i j - p.psi2_1 i j)
    a43 := Fl.mat fun i j => h * p.psi2_1 i j
    a51 := Fl.mat fun i j => h * (p.psi1_1 i j - 3 / 2 * p.psi2_1 i j + 2 / 3 * p.psi3_1 i j)
    a52 := Fl.mat fun i j => h * (p.psi2_1 i j - 2 / 3 * p.psi3_1 i j)
    a54 := Fl.mat fun i j => h * (-(1 / 2) * p.psi2_1 i j + 2 / 3 * p.psi3_1 i j) }

/-- `update_coeffs` of ETD34 for matrices, rkstiff/etd34.py:356-392. -/
noncomputable def ETD34.flCoefsMat [DecidableEq ι] (A : CArith) (B : LinAlg ι) (cfg : ETDConfig ℝ) (L : Mat ι) (h : ℝ) :
    Except PyErr (Etd34Coef (Mat ι)) :=
  ((List.range cfg.npts).foldlM (Fl.round4 B cfg (flZ A L h)) Fl.zeros).map (ETD34.flMatOf A B L h)

/-- The coefficients of ETD5 from the accumulators, rkstiff/etd5.py:373-378, 404-420. -/
noncomputable def ETD5.flMatOf (A : CArith) (B : LinAlg ι) (L : Mat ι) (hr : ℝ) (p : Psis (ι → ι → Fl A)) : Etd5Coef (Mat ι) :=
  let h : Fl A := Fl.lit (hr : ℂ)
  let z := flZ A L hr
  { EL14 := B.expm (Fl.mat fun i j => z i j / 4)
    EL12 := B.expm (Fl.mat fun i j => z i j / 2)
    EL34 := B.expm (Fl.mat fun i j => 3 * z i j / 4)
    EL := B.expm (Fl.mat z)
    a21 := Fl.mat fun i j => h * p.psi1_14 i j / 4
    a31 := Fl.mat fun i j => h * (p.psi1_14 i j - p.psi2_14 i j / 2) / 4
    a32 := Fl.mat fun i j => h * p.psi2_14 i j / 8
    a41 := Fl.mat fun i j => h * (p.psi1_12 i j - p.psi2_12 i j) / 2
    a43 := Fl.mat fun i j => h * p.psi2_12 i j / 2
    a51 := Fl.mat fun i j => h * 3 * (p.psi1_34 i j - 3 * p.psi2_34 i j / 4) / 4
    a52 := Fl.mat fun i j => -3 * h * p.psi1_34 i j / 8
    a54 := Fl.mat fun i j => h * 9 * p.psi2_34 i j / 16
    a61 := Fl.mat fun i j => h * (-77 * p.psi1_1 i j + 59 * p.psi2_1 i j) / 42
    a62 := Fl.mat fun i j => h * 8 * p.psi1_1 i j / 7
    a63 := Fl.mat fun i j => h * (111 * p.psi1_1 i j - 87 * p.psi2_1 i j) / 28
    a65 := Fl.mat fun i j => h * (-47 * p.psi1_1 i j + 143 * p.psi2_1 i j) / 84
    b1 := Fl.mat fun i j => h * 7 * (257 * p.psi1_1 i j - 497 * p.psi2_1 i j + 270 * p.psi3_1 i j) / 2700
    b3 := Fl.mat fun i j => h * (1097 * p.psi1_1 i j - 467 * p.psi2_1 i j - 150 * p.psi3_1 i j) / 1350
    b4 := Fl.mat fun i j => h * 2 * (-49 * p.psi1_1 i j + 199 * p.psi2_1 i j - 135 * p.psi3_1 i j) / 225
    b5 := Fl.mat fun i j => h * (-313 * p.psi1_1 i j + 883 * p.psi2_1 i j - 90 * p.psi3_1 i j) / 1350
    b6 := Fl.mat fun i j => h * (509 * p.psi1_1 i j - 2129 * p.psi2_1 i j + 1830 * p.psi3_1 i j) / 2700 }

/-- `update_coeffs` of ETD5 for matrices, rkstiff/etd5.py:360-420. -/
noncomputable def ETD5.flCoefsMat [DecidableEq ι] (A : CArith) (B : LinAlg ι) (cfg : ETDConfig ℝ) (L : Mat ι) (h : ℝ) :
    Except PyErr (Etd5Coef (Mat ι)) :=
  ((List.range cfg.npts).foldlM (Fl.round5 B cfg (flZ A L h)) Fl.zeros).map (ETD5.flMatOf A B L h)

/-- The coefficients of ETD35 from the accumulators, rkstiff/etd35.py:611-616, 642-658. -/
noncomputable def ETD35.flMatOf (A : CArith) (B : LinAlg ι) (L : Mat ι) (hr : ℝ) (p : Psis (ι → ι → Fl A)) : Etd35Coef (Mat ι) :=
  let h : Fl A := Fl.lit (hr : ℂ)
  let z := flZ A L hr
  { EL14 := B.expm (Fl.mat fun i j => z i j / 4)
    EL12 := B.expm (Fl.mat fun i j => z i j / 2)
    EL34 := B.expm (Fl.mat fun i j => 3 * z i j / 4)
    EL := B.expm (Fl.mat z)
    a21 := Fl.mat fun i j => h * p.psi1_14 i j / 4
    a31 := Fl.mat fun i j => h * (p.psi1_14 i j - p.psi2_14 i j / 2) / 4
    a32 := Fl.mat fun i j => h * p.psi2_14 i j / 8
    a41 := Fl.mat fun i j => h * (p.psi1_12 i j - p.psi2_12 i j) / 2
    a43 := Fl.mat fun i j => h * p.psi2_12 i j / 2
    a51 := Fl.mat fun i j => h * 3 * (p.psi1_34 i j - 3 * p.psi2_34 i j / 4) / 4
    a52 := Fl.mat fun i j => -3 * h * p.psi1_34 i j / 8
    a54 := Fl.mat fun i j => h * 9 * p.psi2_34 i j / 16
    a61 := Fl.mat fun i j => h * (-77 * p.psi1_1 i j + 59 * p.psi2_1 i j) / 42
    a62 := Fl.mat fun i j => h * 8 * p.psi1_1 i j / 7
    a63 := Fl.mat fun i j => h * (111 * p.psi1_1 i j - 87 * p.psi2_1 i j) / 28
    a65 := Fl.mat fun i j => h * (-47 * p.psi1_1 i j + 143 * p.psi2_1 i j) / 84
    a71 := Fl.mat fun i j => h * 7 * (257 * p.psi1_1 i j - 497 * p.psi2_1 i j + 270 * p.psi3_1 i j) / 2700
    a73 := Fl.mat fun i j => h * (1097 * p.psi1_1 i j - 467 * p.psi2_1 i j - 150 * p.psi3_1 i j) / 1350
    a74 := Fl.mat fun i j => h * 2 * (-49 * p.psi1_1 i j + 199 * p.psi2_1 i j - 135 * p.psi3_1 i j) / 225
    a75 := Fl.mat fun i j => h * (-313 * p.psi1_1 i j + 883 * p.psi2_1 i j - 90 * p.psi3_1 i j) / 1350
    a76 := Fl.mat fun i j => h * (509 * p.psi1_1 i j - 2129 * p.psi2_1 i j + 1830 * p.psi3_1 i j) / 2700 }

/-- `update_coeffs` of ETD35 for matrices, rkstiff/etd35.py:602-658. -/
noncomputable def ETD35.flCoefsMat [DecidableEq ι] (A : CArith) (B : LinAlg ι) (cfg : ETDConfig ℝ) (L : Mat ι) (h : ℝ) :
    Except PyErr (Etd35Coef (Mat ι)) :=
  ((List.range cfg.npts).foldlM (Fl.round5 B cfg (flZ A L h)) Fl.zeros).map (ETD35.flMatOf A B L h)

section
variable [Fintype ι] [DecidableEq ι]

/-- What `update_coeffs(h)` computes or raises. -/
noncomputable def CSSolver.flCoefs (A : CArith) (B : LinAlg ι) (h : ℝ) : (m : CSSolver ι) → Except PyErr m.Coef
  | if4 (.diag L) => .ok (IF4.flCoefs A L h)
  | if4 (.full L) => .ok (IF4.flCoefsMat A B L h)
  | etd4 cfg (.diag L) => .ok (ETD4.flCoefs A cfg L h)
  | etd4 cfg (.full L) => ETD4.flCoefsMat A B cfg L h
  | etd5 cfg (.diag L) => .ok (ETD5.flCoefs A cfg L h)
  | etd5 cfg (.full L) => ETD5.flCoefsMat A B cfg L h

/-- The same for adaptive solvers; the diagonalized strategies use the eigenvalues. -/
noncomputable def ASSolver.flCoefs (A : CArith) (B : LinAlg ι) (h : ℝ) : (m : ASSolver ι) → Except PyErr m.Coef
  | if34 (.diag L) => .ok (IF4.flCoefs A L h)
  | if34 (.full L) => .ok (IF4.flCoefsMat A B L h)
  | if34 (.eig lam _ _ _) => .ok (IF4.flCoefs A lam h)
  | etd34 cfg (.diag L) => .ok (ETD34.flCoefs A cfg L h)
  | etd34 cfg (.full L) => ETD34.flCoefsMat A B cfg L h
  | etd34 cfg (.eig lam _ _ _) => .ok (ETD34.flCoefs A cfg lam h)
  | etd35 cfg (.diag L) => .ok (ETD35.flCoefs A cfg L h)
  | etd35 cfg (.full L) => ETD35.flCoefsMat A B cfg L h
  | etd35 cfg (.eig lam _ _ _) => .ok (ETD35.flCoefs A cfg lam h)
  | if45dp L => .ok (IF45DP.flCoefs A L h)

end

end Verif
