import Verif.Model.ETD
import Verif.Spec.Methods

/-!
# ETD4 (rkstiff/etd4.py)
-/

set_option linter.unusedSectionVars false

namespace Verif

open Matrix

variable {ι : Type} [Fintype ι] [DecidableEq ι]

/-- Coefficient arrays of the ETD4 strategies (rkstiff/etd4.py:81-83, 227-231). -/
structure Etd4Coef (α : Type) where
  EL : α
  EL2 : α
  a21 : α
  a31 : α
  a32 : α
  a41 : α
  a43 : α
  b1 : α
  b2 : α
  b4 : α

namespace ETD4

/-- The masked assignments of the coefficient arrays (rkstiff/etd4.py:109-116, 132-139), for given values
`psi1_12, …, psi3_1` (each already multiplied by `h`). -/
noncomputable def assign (mask : ι → Prop) [DecidablePred mask] (psi1_12 psi2_12 psi1_1 psi2_1 psi3_1 : Vec ι)
    (c : Etd4Coef (Vec ι)) : Etd4Coef (Vec ι) :=
  { c with
    a21 := setMask mask (bc (1 / 2) * psi1_12) c.a21
    a31 := setMask mask (bc (1 / 2) * (psi1_12 - psi2_12)) c.a31
    a32 := setMask mask (bc (1 / 2) * psi2_12) c.a32
    a41 := setMask mask (psi1_1 - psi2_1) c.a41
    a43 := setMask mask psi2_1 c.a43
    b1 := setMask mask (psi1_1 - bc (3 / 2) * psi2_1 + bc (2 / 3) * psi3_1) c.b1
    b2 := setMask mask (psi2_1 - bc (2 / 3) * psi3_1) c.b2
    b4 := setMask mask (-bc (1 / 2) * psi2_1 + bc (2 / 3) * psi3_1) c.b4 }

/-- `update_coeffs` after `z = h * lin_op`, rkstiff/etd4.py:97-139.  Big modes use the formulas directly, small modes
(`|z| < modecutoff`) the mean over the contour. -/
noncomputable def coeffsDiagonal (cfg : ETDConfig ℝ) (h : ℝ) (z : Vec ι) : PyM (CSMethod (Etd4Coef (Vec ι)) ι) Unit := do
  PyM.modify fun s => { s with coef := { s.coef with EL := npExp z, EL2 := npExp (z / 2) } }
  let small : ι → Prop := fun i => ‖z i‖ < cfg.modecutoff
  PyM.modify fun s => { s with coef := (assign (fun i => ¬ small i)
    (fun i => h * psi1 (z i / 2)) (fun i => h * psi2 (z i / 2))
    (fun i => h * psi1 (z i)) (fun i => h * psi2 (z i)) (fun i => h * psi3 (z i)) s.coef) }
  PyM.modify fun s => { s with coef := (assign small
    (fun i => h * cfg.mean (fun w => psi1 (w / 2)) (z i)) (fun i => h * cfg.mean (fun w => psi2 (w / 2)) (z i))
    (fun i => h * cfg.mean psi1 (z i)) (fun i => h * cfg.mean psi2 (z i)) (fun i => h * cfg.mean psi3 (z i)) s.coef) }

/-- Accumulators of the contour loop. -/
structure Acc (ι : Type) where
  psi1_12 : Mat ι
  psi2_12 : Mat ι
  psi1_1 : Mat ι
  psi2_1 : Mat ι
  psi3_1 : Mat ι

/-- Body of `for point in contour_points`, rkstiff/etd4.py:255-262. -/
noncomputable def loopBody {σ : Type} (cfg : ETDConfig ℝ) (z : Mat ι) (acc : Acc ι) (m : ℕ) : PyM σ (Acc ι) := do
  let point := cfg.point m
  let Q ← npInv (point • (1 : Mat ι) - z)
  let Q2 ← npInv (point • (1 : Mat ι) - (1 / 2 : ℂ) • z)
  pure {
    psi1_12 := acc.psi1_12 + (point * psi1 point / cfg.contour_points) • Q2
    psi2_12 := acc.psi2_12 + (point * psi2 point / cfg.contour_points) • Q2
    psi1_1 := acc.psi1_1 + (point * psi1 point / cfg.contour_points) • Q
    psi2_1 := acc.psi2_1 + (point * psi2 point / cfg.contour_points) • Q
    psi3_1 := acc.psi3_1 + (point * psi3 point / cfg.contour_points) • Q }

/-- `update_coeffs` of the full-matrix strategy, rkstiff/etd4.py:235-271.  When an inverse does not exist the
exponentials have already been replaced, the other coefficients not. -/
noncomputable def coeffsNonDiagonal (cfg : ETDConfig ℝ) (L : Mat ι) (h : ℝ) :
    PyM (CSMethod (Etd4Coef (Mat ι)) ι) Unit := do
  let z : Mat ι := (h : ℂ) • L
  PyM.modify fun s => { s with coef := { s.coef with
    EL := NormedSpace.exp z, EL2 := NormedSpace.exp ((1 / 2 : ℂ) • z) } }
  let p ← (List.range cfg.npts).foldlM (loopBody cfg z) ⟨0, 0, 0, 0, 0⟩
  PyM.modify fun s => { s with coef := { s.coef with
    a21 := (1 / 2 * h : ℂ) • p.psi1_12
    a31 := (1 / 2 * h : ℂ) • (p.psi1_12 - p.psi2_12)
    a32 := (1 / 2 * h : ℂ) • p.psi2_12
    a41 := (h : ℂ) • (p.psi1_1 - p.psi2_1)
    a43 := (h : ℂ) • p.psi2_1
    b1 := (h : ℂ) • (p.psi1_1 - (3 / 2 : ℂ) • p.psi2_1 + (2 / 3 : ℂ) • p.psi3_1)
    b2 := (h : ℂ) • (p.psi2_1 - (2 / 3 : ℂ) • p.psi3_1)
    b4 := (h : ℂ) • (-(1 / 2 : ℂ) • p.psi2_1 + (2 / 3 : ℂ) • p.psi3_1) } }

/-- `_Etd4Diagonal`: `update_coeffs` rkstiff/etd4.py:87-139, `n1_init` 141-150, `update_stages` 152-175. -/
noncomputable def diagonal (cfg : ETDConfig ℝ) (L : Vec ι) (nl : NlFunc ι) : CSStrategy (Etd4Coef (Vec ι)) ι where
  updateCoeffs h := coeffsDiagonal cfg h (bc h * L)
  n1Init u := do
    let n ← CSMethod.call nl u
    PyM.modify fun s => { s with NL1 := n }
  updateStages u _h := do
    let s ← PyM.get
    let c := s.coef
    let NL1 := s.NL1
    let k := c.EL2 * u + c.a21 * NL1
    let NL2 ← CSMethod.call nl k
    let k := c.EL2 * u + c.a31 * NL1 + c.a32 * NL2
    let NL3 ← CSMethod.call nl k
    let k := c.EL * u + c.a41 * NL1 + c.a43 * NL3
    let NL4 ← CSMethod.call nl k
    let k := c.EL * u + c.b1 * NL1 + c.b2 * (NL2 + NL3) + c.b4 * NL4
    let n ← CSMethod.call nl k
    PyM.modify fun s => { s with NL1 := n }
    pure k

/-- `_Etd4NonDiagonal`: `update_coeffs` rkstiff/etd4.py:235-271, `n1_init` 273-282, `update_stages` 284-308. -/
noncomputable def nonDiagonal (cfg : ETDConfig ℝ) (L : Mat ι) (nl : NlFunc ι) : CSStrategy (Etd4Coef (Mat ι)) ι where
  updateCoeffs h := coeffsNonDiagonal cfg L h
  n1Init u := do
    let n ← CSMethod.call nl u
    PyM.modify fun s => { s with NL1 := n }
  updateStages u _h := do
    let s ← PyM.get
    let c := s.coef
    let NL1 := s.NL1
    let k := c.EL2 *ᵥ u + c.a21 *ᵥ NL1
    let NL2 ← CSMethod.call nl k
    let k := c.EL2 *ᵥ u + c.a31 *ᵥ NL1 + c.a32 *ᵥ NL2
    let NL3 ← CSMethod.call nl k
    let k := c.EL *ᵥ u + c.a41 *ᵥ NL1 + c.a43 *ᵥ NL3
    let NL4 ← CSMethod.call nl k
    let k := c.EL *ᵥ u + c.b1 *ᵥ NL1 + c.b2 *ᵥ (NL2 + NL3) + c.b4 *ᵥ NL4
    let n ← CSMethod.call nl k
    PyM.modify fun s => { s with NL1 := n }
    pure k

variable {Coef : Type}

/-- `_reset`, rkstiff/etd4.py:374-385. -/
def reset (s : Wrap (CSMethod Coef ι)) : Wrap (CSMethod Coef ι) := { s with n1init := false, hCoeff := none }

/-- `_update_coeffs`, rkstiff/etd4.py:387-400. -/
noncomputable def updateCoeffs (S : CSStrategy Coef ι) (h : ℝ) : PyM (Wrap (CSMethod Coef ι)) Unit := do
  let s ← PyM.get
  if some h = s.hCoeff then pure ()
  else
    PyM.modify fun s => { s with hCoeff := some h }
    Wrap.onMethod (S.updateCoeffs h)

/-- `_update_stages`, rkstiff/etd4.py:402-422. -/
noncomputable def updateStages (S : CSStrategy Coef ι) (u : Vec ι) (h : ℝ) : PyM (Wrap (CSMethod Coef ι)) (Vec ι) := do
  updateCoeffs S h
  let s ← PyM.get
  if s.n1init = false then
    Wrap.onMethod (S.n1Init u)
    PyM.modify fun s => { s with n1init := true }
  Wrap.onMethod (S.updateStages u h)

/-- The class ETD4 with strategy `S`. -/
noncomputable def cls (S : CSStrategy Coef ι) : CSClass ℝ (Vec ι) (Wrap (CSMethod Coef ι)) := ⟨reset, updateStages S⟩

/-- `ETD4.__init__`, rkstiff/etd4.py:345-372 and 77-85, 221-233: all arrays zero, nothing cached. -/
def init [Zero α] : Wrap (CSMethod (Etd4Coef α) ι) := ⟨false, none, ⟨⟨0, 0, 0, 0, 0, 0, 0, 0, 0, 0⟩, 0, 0⟩⟩

end ETD4

end Verif
