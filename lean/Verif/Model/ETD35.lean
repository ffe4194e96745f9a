import Verif.Model.ETD
import Verif.Model.ComputeS
import Verif.Spec.Methods

/-!
# ETD35 (rkstiff/etd35.py)
-/

set_option linter.unusedSectionVars false

namespace Verif

open Matrix

variable {ι : Type} [Fintype ι] [DecidableEq ι]

/-- Coefficient arrays of the ETD35 strategies (rkstiff/etd35.py:130-150, 573-595); `_a64` is never used. -/
structure Etd35Coef (α : Type) where
  EL14 : α
  EL12 : α
  EL34 : α
  EL : α
  a21 : α
  a31 : α
  a32 : α
  a41 : α
  a43 : α
  a51 : α
  a52 : α
  a54 : α
  a61 : α
  a62 : α
  a63 : α
  a65 : α
  a71 : α
  a73 : α
  a74 : α
  a75 : α
  a76 : α

namespace ETD35

/-- The masked assignments of the coefficient arrays (rkstiff/etd35.py:220-237, 272-288), for given values
`psi1_14, …, psi3_1` (each already multiplied by `h`). -/
noncomputable def assign (mask : ι → Prop) [DecidablePred mask]
    (psi1_14 psi2_14 psi1_12 psi2_12 psi1_34 psi2_34 psi1_1 psi2_1 psi3_1 : Vec ι)
    (c : Etd35Coef (Vec ι)) : Etd35Coef (Vec ι) :=
  { c with
    a21 := setMask mask (psi1_14 / 4) c.a21
    a31 := setMask mask ((psi1_14 - psi2_14 / 2) / 4) c.a31
    a32 := setMask mask (psi2_14 / 8) c.a32
    a41 := setMask mask ((psi1_12 - psi2_12) / 2) c.a41
    a43 := setMask mask (psi2_12 / 2) c.a43
    a51 := setMask mask (3 * (psi1_34 - 3 * psi2_34 / 4) / 4) c.a51
    a52 := setMask mask (-3 * psi1_34 / 8) c.a52
    a54 := setMask mask (9 * psi2_34 / 16) c.a54
    a61 := setMask mask ((-77 * psi1_1 + 59 * psi2_1) / 42) c.a61
    a62 := setMask mask (8 * psi1_1 / 7) c.a62
    a63 := setMask mask ((111 * psi1_1 - 87 * psi2_1) / 28) c.a63
    a65 := setMask mask ((-47 * psi1_1 + 143 * psi2_1) / 84) c.a65
    a71 := setMask mask (7 * (257 * psi1_1 - 497 * psi2_1 + 270 * psi3_1) / 2700) c.a71
    a73 := setMask mask ((1097 * psi1_1 - 467 * psi2_1 - 150 * psi3_1) / 1350) c.a73
    a74 := setMask mask (2 * (-49 * psi1_1 + 199 * psi2_1 - 135 * psi3_1) / 225) c.a74
    a75 := setMask mask ((-313 * psi1_1 + 883 * psi2_1 - 90 * psi3_1) / 1350) c.a75
    a76 := setMask mask ((509 * psi1_1 - 2129 * psi2_1 + 1830 * psi3_1) / 2700) c.a76 }

/-- `_update_large_mode_coeffs`, rkstiff/etd35.py:190-237: returns early when there is no large mode. -/
noncomputable def largeModes (h : ℝ) (z : Vec ι) (small : ι → Prop) : PyM (ASMethod (Etd35Coef (Vec ι)) ι) Unit :=
  open Classical in
  if ¬ ∃ i, ¬ small i then pure ()
  else
    PyM.modify fun s => { s with coef := (assign (fun i => ¬ small i)
      (fun i => h * psi1 (z i / 4)) (fun i => h * psi2 (z i / 4))
      (fun i => h * psi1 (z i / 2)) (fun i => h * psi2 (z i / 2))
      (fun i => h * psi1 (3 * z i / 4)) (fun i => h * psi2 (3 * z i / 4))
      (fun i => h * psi1 (z i)) (fun i => h * psi2 (z i)) (fun i => h * psi3 (z i)) s.coef) }

/-- `_update_small_mode_coeffs`, rkstiff/etd35.py:239-288: returns early when there is no small mode.  `avgPhi` is the
local function `avg_phi` (263-264). -/
noncomputable def smallModes (cfg : ETDConfig ℝ) (h : ℝ) (z : Vec ι) (small : ι → Prop) :
    PyM (ASMethod (Etd35Coef (Vec ι)) ι) Unit :=
  open Classical in
  if ¬ ∃ i, small i then pure ()
  else
    let avgPhi (func : ℂ → ℂ) (factor : ℂ) (z : ℂ) : ℂ := h * cfg.mean (fun w => func (factor * w)) z
    PyM.modify fun s => { s with coef := (assign small
        (fun i => avgPhi psi1 (1 / 4) (z i)) (fun i => avgPhi psi2 (1 / 4) (z i))
        (fun i => avgPhi psi1 (1 / 2) (z i)) (fun i => avgPhi psi2 (1 / 2) (z i))
        (fun i => avgPhi psi1 (3 / 4) (z i)) (fun i => avgPhi psi2 (3 / 4) (z i))
        (fun i => avgPhi psi1 1 (z i)) (fun i => avgPhi psi2 1 (z i)) (fun i => avgPhi psi3 1 (z i)) s.coef) }

/-- `_update_coeffs_diagonal`, rkstiff/etd35.py:169-188. -/
noncomputable def coeffsDiagonal (cfg : ETDConfig ℝ) (h : ℝ) (z : Vec ι) : PyM (ASMethod (Etd35Coef (Vec ι)) ι) Unit := do
  PyM.modify fun s => { s with coef := { s.coef with
    EL14 := npExp (z / 4), EL12 := npExp (z / 2), EL34 := npExp (3 * z / 4), EL := npExp z } }
  let small : ι → Prop := fun i => ‖z i‖ < cfg.modecutoff
  largeModes h z small
  smallModes cfg h z small

/-- Accumulators of the contour loop. -/
structure Acc (ι : Type) where
  psi1_14 : Mat ι
  psi2_14 : Mat ι
  psi1_12 : Mat ι
  psi2_12 : Mat ι
  psi1_34 : Mat ι
  psi2_34 : Mat ι
  psi1_1 : Mat ι
  psi2_1 : Mat ι
  psi3_1 : Mat ι

/-- Body of `for point in contour_points`, rkstiff/etd35.py:627-640. -/
noncomputable def loopBody {σ : Type} (cfg : ETDConfig ℝ) (z : Mat ι) (acc : Acc ι) (m : ℕ) : PyM σ (Acc ι) := do
  let point := cfg.point m
  let Q14 ← npInv (point • (1 : Mat ι) - (1 / 4 : ℂ) • z)
  let Q12 ← npInv (point • (1 : Mat ι) - (1 / 2 : ℂ) • z)
  let Q34 ← npInv (point • (1 : Mat ι) - (3 / 4 : ℂ) • z)
  let Q ← npInv (point • (1 : Mat ι) - z)
  pure {
    psi1_14 := acc.psi1_14 + (point * psi1 point / cfg.contour_points) • Q14
    psi2_14 := acc.psi2_14 + (point * psi2 point / cfg.contour_points) • Q14
    psi1_12 := acc.psi1_12 + (point * psi1 point / cfg.contour_points) • Q12
    psi2_12 := acc.psi2_12 + (point * psi2 point / cfg.contour_points) • Q12
    psi1_34 := acc.psi1_34 + (point * psi1 point / cfg.contour_points) • Q34
    psi2_34 := acc.psi2_34 + (point * psi2 point / cfg.contour_points) • Q34
    psi1_1 := acc.psi1_1 + (point * psi1 point / cfg.contour_points) • Q
    psi2_1 := acc.psi2_1 + (point * psi2 point / cfg.contour_points) • Q
    psi3_1 := acc.psi3_1 + (point * psi3 point / cfg.contour_points) • Q }

/-- `update_coeffs` of the full-matrix strategy, rkstiff/etd35.py:602-658.  When an inverse does not exist the
exponentials have already been replaced, the other coefficients not. -/
noncomputable def coeffsNonDiagonal (cfg : ETDConfig ℝ) (L : Mat ι) (h : ℝ) :
    PyM (ASMethod (Etd35Coef (Mat ι)) ι) Unit := do
  let z : Mat ι := (h : ℂ) • L
  PyM.modify fun s => { s with coef := { s.coef with
    EL14 := NormedSpace.exp ((1 / 4 : ℂ) • z), EL12 := NormedSpace.exp ((1 / 2 : ℂ) • z),
    EL34 := NormedSpace.exp ((3 / 4 : ℂ) • z), EL := NormedSpace.exp z } }
  let p ← (List.range cfg.npts).foldlM (loopBody cfg z) ⟨0, 0, 0, 0, 0, 0, 0, 0, 0⟩
  PyM.modify fun s => { s with coef := { s.coef with
    a21 := (h / 4 : ℂ) • p.psi1_14
    a31 := (h / 4 : ℂ) • (p.psi1_14 - (1 / 2 : ℂ) • p.psi2_14)
    a32 := (h / 8 : ℂ) • p.psi2_14
    a41 := (h / 2 : ℂ) • (p.psi1_12 - p.psi2_12)
    a43 := (h / 2 : ℂ) • p.psi2_12
    a51 := (h * 3 / 4 : ℂ) • (p.psi1_34 - (3 / 4 : ℂ) • p.psi2_34)
    a52 := (-3 * h / 8 : ℂ) • p.psi1_34
    a54 := (h * 9 / 16 : ℂ) • p.psi2_34
    a61 := (h / 42 : ℂ) • (-(77 : ℂ) • p.psi1_1 + (59 : ℂ) • p.psi2_1)
    a62 := (h * 8 / 7 : ℂ) • p.psi1_1
    a63 := (h / 28 : ℂ) • ((111 : ℂ) • p.psi1_1 - (87 : ℂ) • p.psi2_1)
    a65 := (h / 84 : ℂ) • (-(47 : ℂ) • p.psi1_1 + (143 : ℂ) • p.psi2_1)
    a71 := (h * 7 / 2700 : ℂ) • ((257 : ℂ) • p.psi1_1 - (497 : ℂ) • p.psi2_1 + (270 : ℂ) • p.psi3_1)
    a73 := (h / 1350 : ℂ) • ((1097 : ℂ) • p.psi1_1 - (467 : ℂ) • p.psi2_1 - (150 : ℂ) • p.psi3_1)
    a74 := (h * 2 / 225 : ℂ) • (-(49 : ℂ) • p.psi1_1 + (199 : ℂ) • p.psi2_1 - (135 : ℂ) • p.psi3_1)
    a75 := (h / 1350 : ℂ) • (-(313 : ℂ) • p.psi1_1 + (883 : ℂ) • p.psi2_1 - (90 : ℂ) • p.psi3_1)
    a76 := (h / 2700 : ℂ) • ((509 : ℂ) • p.psi1_1 - (2129 : ℂ) • p.psi2_1 + (1830 : ℂ) • p.psi3_1) } }

/-- `_Etd35Diagonal`: `update_coeffs` rkstiff/etd35.py:157-167, `stage_init` 290-299, `update_stages` 301-345. -/
noncomputable def diagonal (cfg : ETDConfig ℝ) (L : Vec ι) (nl : NlFunc ι) : ASStrategy (Etd35Coef (Vec ι)) ι where
  updateCoeffs h := coeffsDiagonal cfg h (bc h * L)
  init u := do
    let n ← ASMethod.call nl u
    PyM.modify fun s => { s with NL1 := n }
  updateStages u _h accept := do
    if accept then
      let n ← ASMethod.call nl u
      PyM.modify fun s => { s with NL1 := n }
    let s ← PyM.get
    let c := s.coef
    let NL1 := s.NL1
    let k := c.EL14 * u + c.a21 * NL1
    let NL2 ← ASMethod.call nl k
    let k := c.EL14 * u + c.a31 * NL1 + c.a32 * NL2
    let NL3 ← ASMethod.call nl k
    let k := c.EL12 * u + c.a41 * NL1 + c.a43 * NL3
    let NL4 ← ASMethod.call nl k
    let k := c.EL34 * u + c.a51 * NL1 + c.a52 * (NL2 - NL3) + c.a54 * NL4
    let NL5 ← ASMethod.call nl k
    let k := c.EL * u + c.a61 * NL1 + c.a62 * (NL2 - 3 * NL4 / 2) + c.a63 * NL3 + c.a65 * NL5
    let NL6 ← ASMethod.call nl k
    let k := c.EL * u + c.a71 * NL1 + c.a73 * NL3 + c.a74 * NL4 + c.a75 * NL5 + c.a76 * NL6
    pure (k, c.a75 * (-NL1 + 4 * NL3 - 6 * NL4 + 4 * NL5 - NL6))

/-- `_Etd35Diagonalized`: `update_coeffs` rkstiff/etd35.py:423-433, `stage_init` 436-446, `update_stages` 448-495.
`eig`, `S` are the results of `np.linalg.eig`, `Sinv` of `np.linalg.inv` (constructor, 388-421). -/
noncomputable def diagonalized (cfg : ETDConfig ℝ) (eig : Vec ι) (S Sinv : Mat ι) (nl : NlFunc ι) :
    ASStrategy (Etd35Coef (Vec ι)) ι where
  updateCoeffs h := coeffsDiagonal cfg h (bc h * eig)
  init u := do
    let n ← ASMethod.call nl u
    PyM.modify fun s => { s with NL1 := Sinv *ᵥ n }
    PyM.modify fun s => { s with v := Sinv *ᵥ u }
  updateStages u _h accept := do
    if accept then
      let n ← ASMethod.call nl u
      PyM.modify fun s => { s with NL1 := Sinv *ᵥ n }
      PyM.modify fun s => { s with v := Sinv *ᵥ u }
    let s ← PyM.get
    let c := s.coef
    let NL1 := s.NL1
    let v := s.v
    let k := c.EL14 * v + c.a21 * NL1
    let n ← ASMethod.call nl (S *ᵥ k)
    let NL2 := Sinv *ᵥ n
    let k := c.EL14 * v + c.a31 * NL1 + c.a32 * NL2
    let n ← ASMethod.call nl (S *ᵥ k)
    let NL3 := Sinv *ᵥ n
    let k := c.EL12 * v + c.a41 * NL1 + c.a43 * NL3
    let n ← ASMethod.call nl (S *ᵥ k)
    let NL4 := Sinv *ᵥ n
    let k := c.EL34 * v + c.a51 * NL1 + c.a52 * (NL2 - NL3) + c.a54 * NL4
    let n ← ASMethod.call nl (S *ᵥ k)
    let NL5 := Sinv *ᵥ n
    let k := c.EL * v + c.a61 * NL1 + c.a62 * (NL2 - 3 * NL4 / 2) + c.a63 * NL3 + c.a65 * NL5
    let n ← ASMethod.call nl (S *ᵥ k)
    let NL6 := Sinv *ᵥ n
    let k := c.EL * v + c.a71 * NL1 + c.a73 * NL3 + c.a74 * NL4 + c.a75 * NL5 + c.a76 * NL6
    pure (S *ᵥ k, c.a75 * (-NL1 + 4 * NL3 - 6 * NL4 + 4 * NL5 - NL6))

/-- `_Etd35NonDiagonal`: `update_coeffs` rkstiff/etd35.py:602-658, `stage_init` 660-669, `update_stages` 671-720. -/
noncomputable def nonDiagonal (cfg : ETDConfig ℝ) (L : Mat ι) (nl : NlFunc ι) : ASStrategy (Etd35Coef (Mat ι)) ι where
  updateCoeffs h := coeffsNonDiagonal cfg L h
  init u := do
    let n ← ASMethod.call nl u
    PyM.modify fun s => { s with NL1 := n }
  updateStages u _h accept := do
    if accept then
      let n ← ASMethod.call nl u
      PyM.modify fun s => { s with NL1 := n }
    let s ← PyM.get
    let c := s.coef
    let NL1 := s.NL1
    let k := c.EL14 *ᵥ u + c.a21 *ᵥ NL1
    let NL2 ← ASMethod.call nl k
    let k := c.EL14 *ᵥ u + c.a31 *ᵥ NL1 + c.a32 *ᵥ NL2
    let NL3 ← ASMethod.call nl k
    let k := c.EL12 *ᵥ u + c.a41 *ᵥ NL1 + c.a43 *ᵥ NL3
    let NL4 ← ASMethod.call nl k
    let k := c.EL34 *ᵥ u + c.a51 *ᵥ NL1 + c.a52 *ᵥ (NL2 - NL3) + c.a54 *ᵥ NL4
    let NL5 ← ASMethod.call nl k
    let k := c.EL *ᵥ u + c.a61 *ᵥ NL1 + c.a62 *ᵥ (NL2 - 3 * NL4 / 2) + c.a63 *ᵥ NL3 + c.a65 *ᵥ NL5
    let NL6 ← ASMethod.call nl k
    let k := c.EL *ᵥ u + c.a71 *ᵥ NL1 + c.a73 *ᵥ NL3 + c.a74 *ᵥ NL4 + c.a75 *ᵥ NL5 + c.a76 *ᵥ NL6
    pure (k, c.a75 *ᵥ (-NL1 + 4 * NL3 - 6 * NL4 + 4 * NL5 - NL6))

variable {Coef : Type}

/-- `_reset`, rkstiff/etd35.py:832-840.  (It also clears `_accept`, which `BaseSolverAS.reset` has done already.) -/
def reset (s : Wrap (ASMethod Coef ι)) : Wrap (ASMethod Coef ι) := { s with n1init := false, hCoeff := none }

/-- `_update_coeffs`, rkstiff/etd35.py:842-855. -/
noncomputable def updateCoeffs (S : ASStrategy Coef ι) (h : ℝ) : PyM (Wrap (ASMethod Coef ι)) Unit := do
  let s ← PyM.get
  if some h = s.hCoeff then pure ()
  else
    PyM.modify fun s => { s with hCoeff := some h }
    Wrap.onMethod (S.updateCoeffs h)

/-- `_update_stages`, rkstiff/etd35.py:857-878. -/
noncomputable def updateStages (S : ASStrategy Coef ι) (u : Vec ι) (h : ℝ) (accept : Bool) :
    PyM (Wrap (ASMethod Coef ι)) (Vec ι × Vec ι) := do
  updateCoeffs S h
  let s ← PyM.get
  if s.n1init = false then
    Wrap.onMethod (S.init u)
    PyM.modify fun s => { s with n1init := true }
  Wrap.onMethod (S.updateStages u h accept)

/-- The class ETD35 with strategy `S`; `_q`, rkstiff/etd35.py:880-889. -/
noncomputable def cls (S : ASStrategy Coef ι) : ASClass ℝ (Vec ι) (Wrap (ASMethod Coef ι)) :=
  ⟨reset, updateStages S, computeS 4⟩

/-- `ETD35.__init__`, rkstiff/etd35.py:784-830 and 103-155, 388-421, 550-600: all arrays zero, nothing cached. -/
def init [Zero α] : Wrap (ASMethod (Etd35Coef α) ι) := ⟨false, none, ⟨⟨0, 0, 0, 0, 0, 0, 0, 0, 0, 0, 0, 0, 0, 0, 0, 0, 0, 0, 0, 0, 0⟩, 0, 0, 0, 0⟩⟩

end ETD35

end Verif
