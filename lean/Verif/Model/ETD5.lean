import Verif.Model.ETD
import Verif.Spec.Methods

/-!
# ETD5 (rkstiff/etd5.py)
-/

set_option linter.unusedSectionVars false

namespace Verif

open Matrix

variable {ι : Type} [Fintype ι] [DecidableEq ι]

/-- Coefficient arrays of the ETD5 strategies (rkstiff/etd5.py:93-109, 334-354); `_a64` is never used. -/
structure Etd5Coef (α : Type) where
  EL14 : α
  EL12 : α
  EL34 : α
  EL : α
  a21 : α
  a31 : α
  a32 : α
  a41 : α
  a43 : α
  a51 : α
  a52 : α
  a54 : α
  a61 : α
  a62 : α
  a63 : α
  a65 : α
  b1 : α
  b3 : α
  b4 : α
  b5 : α
  b6 : α

namespace ETD5

/-- The masked assignments of the coefficient arrays (rkstiff/etd5.py:149-166, 186-203), for given values
`psi1_14, …, psi3_1` (each already multiplied by `h`). -/
noncomputable def assign (mask : ι → Prop) [DecidablePred mask]
    (psi1_14 psi2_14 psi1_12 psi2_12 psi1_34 psi2_34 psi1_1 psi2_1 psi3_1 : Vec ι)
    (c : Etd5Coef (Vec ι)) : Etd5Coef (Vec ι) :=
  { c with
    a21 := setMask mask (psi1_14 / 4) c.a21
    a31 := setMask mask ((psi1_14 - psi2_14 / 2) / 4) c.a31
    a32 := setMask mask (psi2_14 / 8) c.a32
    a41 := setMask mask ((psi1_12 - psi2_12) / 2) c.a41
    a43 := setMask mask (psi2_12 / 2) c.a43
    a51 := setMask mask (3 * (psi1_34 - 3 * psi2_34 / 4) / 4) c.a51
    a52 := setMask mask (-3 * psi1_34 / 8) c.a52
    a54 := setMask mask (9 * psi2_34 / 16) c.a54
    a61 := setMask mask ((-77 * psi1_1 + 59 * psi2_1) / 42) c.a61
    a62 := setMask mask (8 * psi1_1 / 7) c.a62
    a63 := setMask mask ((111 * psi1_1 - 87 * psi2_1) / 28) c.a63
    a65 := setMask mask ((-47 * psi1_1 + 143 * psi2_1) / 84) c.a65
    b1 := setMask mask (7 * (257 * psi1_1 - 497 * psi2_1 + 270 * psi3_1) / 2700) c.b1
    b3 := setMask mask ((1097 * psi1_1 - 467 * psi2_1 - 150 * psi3_1) / 1350) c.b3
    b4 := setMask mask (2 * (-49 * psi1_1 + 199 * psi2_1 - 135 * psi3_1) / 225) c.b4
    b5 := setMask mask ((-313 * psi1_1 + 883 * psi2_1 - 90 * psi3_1) / 1350) c.b5
    b6 := setMask mask ((509 * psi1_1 - 2129 * psi2_1 + 1830 * psi3_1) / 2700) c.b6 }

/-- `update_coeffs` after `z = h * lin_op`, rkstiff/etd5.py:130-203. -/
noncomputable def coeffsDiagonal (cfg : ETDConfig ℝ) (h : ℝ) (z : Vec ι) : PyM (CSMethod (Etd5Coef (Vec ι)) ι) Unit := do
  PyM.modify fun s => { s with coef := { s.coef with
    EL14 := npExp (z / 4), EL12 := npExp (z / 2), EL34 := npExp (3 * z / 4), EL := npExp z } }
  let small : ι → Prop := fun i => ‖z i‖ < cfg.modecutoff
  PyM.modify fun s => { s with coef := (assign (fun i => ¬ small i)
      (fun i => h * psi1 (z i / 4)) (fun i => h * psi2 (z i / 4))
      (fun i => h * psi1 (z i / 2)) (fun i => h * psi2 (z i / 2))
      (fun i => h * psi1 (3 * z i / 4)) (fun i => h * psi2 (3 * z i / 4))
      (fun i => h * psi1 (z i)) (fun i => h * psi2 (z i)) (fun i => h * psi3 (z i)) s.coef) }
  PyM.modify fun s => { s with coef := (assign small
      (fun i => h * cfg.mean (fun w => psi1 (w / 4)) (z i)) (fun i => h * cfg.mean (fun w => psi2 (w / 4)) (z i))
      (fun i => h * cfg.mean (fun w => psi1 (w / 2)) (z i)) (fun i => h * cfg.mean (fun w => psi2 (w / 2)) (z i))
      (fun i => h * cfg.mean (fun w => psi1 (3 * w / 4)) (z i)) (fun i => h * cfg.mean (fun w => psi2 (3 * w / 4)) (z i))
      (fun i => h * cfg.mean psi1 (z i)) (fun i => h * cfg.mean psi2 (z i)) (fun i => h * cfg.mean psi3 (z i)) s.coef) }

/-- Accumulators of the contour loop. -/
structure Acc (ι : Type) where
  psi1_14 : Mat ι
  psi2_14 : Mat ι
  psi1_12 : Mat ι
  psi2_12 : Mat ι
  psi1_34 : Mat ι
  psi2_34 : Mat ι
  psi1_1 : Mat ι
  psi2_1 : Mat ι
  psi3_1 : Mat ι

/-- Body of `for point in contour_points`, rkstiff/etd5.py:389-402. -/
noncomputable def loopBody {σ : Type} (cfg : ETDConfig ℝ) (z : Mat ι) (acc : Acc ι) (m : ℕ) : PyM σ (Acc ι) := do
  let point := cfg.point m
  let Q14 ← npInv (point • (1 : Mat ι) - (1 / 4 : ℂ) • z)
  let Q12 ← npInv (point • (1 : Mat ι) - (1 / 2 : ℂ) • z)
  let Q34 ← npInv (point • (1 : Mat ι) - (3 / 4 : ℂ) • z)
  let Q ← npInv (point • (1 : Mat ι) - z)
  pure {
    psi1_14 := acc.psi1_14 + (point * psi1 point / cfg.contour_points) • Q14
    psi2_14 := acc.psi2_14 + (point * psi2 point / cfg.contour_points) • Q14
    psi1_12 := acc.psi1_12 + (point * psi1 point / cfg.contour_points) • Q12
    psi2_12 := acc.psi2_12 + (point * psi2 point / cfg.contour_points) • Q12
    psi1_34 := acc.psi1_34 + (point * psi1 point / cfg.contour_points) • Q34
    psi2_34 := acc.psi2_34 + (point * psi2 point / cfg.contour_points) • Q34
    psi1_1 := acc.psi1_1 + (point * psi1 point / cfg.contour_points) • Q
    psi2_1 := acc.psi2_1 + (point * psi2 point / cfg.contour_points) • Q
    psi3_1 := acc.psi3_1 + (point * psi3 point / cfg.contour_points) • Q }

/-- `update_coeffs` of the full-matrix strategy, rkstiff/etd5.py:360-420.  When an inverse does not exist the
exponentials have already been replaced, the other coefficients not. -/
noncomputable def coeffsNonDiagonal (cfg : ETDConfig ℝ) (L : Mat ι) (h : ℝ) :
    PyM (CSMethod (Etd5Coef (Mat ι)) ι) Unit := do
  let z : Mat ι := (h : ℂ) • L
  PyM.modify fun s => { s with coef := { s.coef with
    EL14 := NormedSpace.exp ((1 / 4 : ℂ) • z), EL12 := NormedSpace.exp ((1 / 2 : ℂ) • z),
    EL34 := NormedSpace.exp ((3 / 4 : ℂ) • z), EL := NormedSpace.exp z } }
  let p ← (List.range cfg.npts).foldlM (loopBody cfg z) ⟨0, 0, 0, 0, 0, 0, 0, 0, 0⟩
  PyM.modify fun s => { s with coef := { s.coef with
    a21 := (h / 4 : ℂ) • p.psi1_14
    a31 := (h / 4 : ℂ) • (p.psi1_14 - (1 / 2 : ℂ) • p.psi2_14)
    a32 := (h / 8 : ℂ) • p.psi2_14
    a41 := (h / 2 : ℂ) • (p.psi1_12 - p.psi2_12)
    a43 := (h / 2 : ℂ) • p.psi2_12
    a51 := (h * 3 / 4 : ℂ) • (p.psi1_34 - (3 / 4 : ℂ) • p.psi2_34)
    a52 := (-3 * h / 8 : ℂ) • p.psi1_34
    a54 := (h * 9 / 16 : ℂ) • p.psi2_34
    a61 := (h / 42 : ℂ) • (-(77 : ℂ) • p.psi1_1 + (59 : ℂ) • p.psi2_1)
    a62 := (h * 8 / 7 : ℂ) • p.psi1_1
    a63 := (h / 28 : ℂ) • ((111 : ℂ) • p.psi1_1 - (87 : ℂ) • p.psi2_1)
    a65 := (h / 84 : ℂ) • (-(47 : ℂ) • p.psi1_1 + (143 : ℂ) • p.psi2_1)
    b1 := (h * 7 / 2700 : ℂ) • ((257 : ℂ) • p.psi1_1 - (497 : ℂ) • p.psi2_1 + (270 : ℂ) • p.psi3_1)
    b3 := (h / 1350 : ℂ) • ((1097 : ℂ) • p.psi1_1 - (467 : ℂ) • p.psi2_1 - (150 : ℂ) • p.psi3_1)
    b4 := (h * 2 / 225 : ℂ) • (-(49 : ℂ) • p.psi1_1 + (199 : ℂ) • p.psi2_1 - (135 : ℂ) • p.psi3_1)
    b5 := (h / 1350 : ℂ) • (-(313 : ℂ) • p.psi1_1 + (883 : ℂ) • p.psi2_1 - (90 : ℂ) • p.psi3_1)
    b6 := (h / 2700 : ℂ) • ((509 : ℂ) • p.psi1_1 - (2129 : ℂ) • p.psi2_1 + (1830 : ℂ) • p.psi3_1) } }

/-- `_Etd5Diagonal`: `update_coeffs` rkstiff/etd5.py:115-203, `n1_init` 205-217, `update_stages` 219-261. -/
noncomputable def diagonal (cfg : ETDConfig ℝ) (L : Vec ι) (nl : NlFunc ι) : CSStrategy (Etd5Coef (Vec ι)) ι where
  updateCoeffs h := coeffsDiagonal cfg h (bc h * L)
  n1Init u := do
    let n ← CSMethod.call nl u
    PyM.modify fun s => { s with NL1 := n }
  updateStages u _h := do
    let s ← PyM.get
    let c := s.coef
    let NL1 := s.NL1
    let k := c.EL14 * u + c.a21 * NL1
    let NL2 ← CSMethod.call nl k
    let k := c.EL14 * u + c.a31 * NL1 + c.a32 * NL2
    let NL3 ← CSMethod.call nl k
    let k := c.EL12 * u + c.a41 * NL1 + c.a43 * NL3
    let NL4 ← CSMethod.call nl k
    let k := c.EL34 * u + c.a51 * NL1 + c.a52 * (NL2 - NL3) + c.a54 * NL4
    let NL5 ← CSMethod.call nl k
    let k := c.EL * u + c.a61 * NL1 + c.a62 * (NL2 - 3 * NL4 / 2) + c.a63 * NL3 + c.a65 * NL5
    let NL6 ← CSMethod.call nl k
    let k := c.EL * u + c.b1 * NL1 + c.b3 * NL3 + c.b4 * NL4 + c.b5 * NL5 + c.b6 * NL6
    let n ← CSMethod.call nl k
    PyM.modify fun s => { s with NL1 := n }
    pure k

/-- `_Etd5NonDiagonal`: `update_coeffs` rkstiff/etd5.py:360-420, `n1_init` 422-433, `update_stages` 435-482. -/
noncomputable def nonDiagonal (cfg : ETDConfig ℝ) (L : Mat ι) (nl : NlFunc ι) : CSStrategy (Etd5Coef (Mat ι)) ι where
  updateCoeffs h := coeffsNonDiagonal cfg L h
  n1Init u := do
    let n ← CSMethod.call nl u
    PyM.modify fun s => { s with NL1 := n }
  updateStages u _h := do
    let s ← PyM.get
    let c := s.coef
    let NL1 := s.NL1
    let k := c.EL14 *ᵥ u + c.a21 *ᵥ NL1
    let NL2 ← CSMethod.call nl k
    let k := c.EL14 *ᵥ u + c.a31 *ᵥ NL1 + c.a32 *ᵥ NL2
    let NL3 ← CSMethod.call nl k
    let k := c.EL12 *ᵥ u + c.a41 *ᵥ NL1 + c.a43 *ᵥ NL3
    let NL4 ← CSMethod.call nl k
    let k := c.EL34 *ᵥ u + c.a51 *ᵥ NL1 + c.a52 *ᵥ (NL2 - NL3) + c.a54 *ᵥ NL4
    let NL5 ← CSMethod.call nl k
    let k := c.EL *ᵥ u + c.a61 *ᵥ NL1 + c.a62 *ᵥ (NL2 - 3 * NL4 / 2) + c.a63 *ᵥ NL3 + c.a65 *ᵥ NL5
    let NL6 ← CSMethod.call nl k
    let k := c.EL *ᵥ u + c.b1 *ᵥ NL1 + c.b3 *ᵥ NL3 + c.b4 *ᵥ NL4 + c.b5 *ᵥ NL5 + c.b6 *ᵥ NL6
    let n ← CSMethod.call nl k
    PyM.modify fun s => { s with NL1 := n }
    pure k

variable {Coef : Type}

/-- `_reset`, rkstiff/etd5.py:578-593. -/
def reset (s : Wrap (CSMethod Coef ι)) : Wrap (CSMethod Coef ι) := { s with n1init := false, hCoeff := none }

/-- `_update_coeffs`, rkstiff/etd5.py:595-620. -/
noncomputable def updateCoeffs (S : CSStrategy Coef ι) (h : ℝ) : PyM (Wrap (CSMethod Coef ι)) Unit := do
  let s ← PyM.get
  if some h = s.hCoeff then pure ()
  else
    PyM.modify fun s => { s with hCoeff := some h }
    Wrap.onMethod (S.updateCoeffs h)

/-- `_update_stages`, rkstiff/etd5.py:622-655. -/
noncomputable def updateStages (S : CSStrategy Coef ι) (u : Vec ι) (h : ℝ) : PyM (Wrap (CSMethod Coef ι)) (Vec ι) := do
  updateCoeffs S h
  let s ← PyM.get
  if s.n1init = false then
    Wrap.onMethod (S.n1Init u)
    PyM.modify fun s => { s with n1init := true }
  Wrap.onMethod (S.updateStages u h)

/-- The class ETD5 with strategy `S`. -/
noncomputable def cls (S : CSStrategy Coef ι) : CSClass ℝ (Vec ι) (Wrap (CSMethod Coef ι)) := ⟨reset, updateStages S⟩

/-- `ETD5.__init__`, rkstiff/etd5.py:535-576 and 82-113, 311-358: all arrays zero, nothing cached. -/
def init [Zero α] : Wrap (CSMethod (Etd5Coef α) ι) := ⟨false, none, ⟨⟨0, 0, 0, 0, 0, 0, 0, 0, 0, 0, 0, 0, 0, 0, 0, 0, 0, 0, 0, 0, 0⟩, 0, 0⟩⟩

end ETD5

end Verif
