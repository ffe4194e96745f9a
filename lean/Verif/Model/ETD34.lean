import Verif.Model.ETD
import Verif.Model.ComputeS
import Verif.Spec.Methods

/-!
# ETD34 (rkstiff/etd34.py)
-/

set_option linter.unusedSectionVars false

namespace Verif

open Matrix

variable {ι : Type} [Fintype ι] [DecidableEq ι]

/-- Coefficient arrays of the ETD34 strategies (rkstiff/etd34.py:69-79, 341-351). -/
structure Etd34Coef (α : Type) where
  EL : α
  EL2 : α
  a21 : α
  a31 : α
  a32 : α
  a41 : α
  a43 : α
  a51 : α
  a52 : α
  a54 : α

namespace ETD34

/-- The masked assignments of the coefficient arrays (rkstiff/etd34.py:119-126, 142-149), for given values
`psi1_12, …, psi3_1` (each already multiplied by `h`). -/
noncomputable def assign (mask : ι → Prop) [DecidablePred mask] (psi1_12 psi2_12 psi1_1 psi2_1 psi3_1 : Vec ι)
    (c : Etd34Coef (Vec ι)) : Etd34Coef (Vec ι) :=
  { c with
    a21 := setMask mask (bc (1 / 2) * psi1_12) c.a21
    a31 := setMask mask (bc (1 / 2) * (psi1_12 - psi2_12)) c.a31
    a32 := setMask mask (bc (1 / 2) * psi2_12) c.a32
    a41 := setMask mask (psi1_1 - psi2_1) c.a41
    a43 := setMask mask psi2_1 c.a43
    a51 := setMask mask (psi1_1 - bc (3 / 2) * psi2_1 + bc (2 / 3) * psi3_1) c.a51
    a52 := setMask mask (psi2_1 - bc (2 / 3) * psi3_1) c.a52
    a54 := setMask mask (-bc (1 / 2) * psi2_1 + bc (2 / 3) * psi3_1) c.a54 }

/-- `_update_coeffs_diagonal`, rkstiff/etd34.py:96-149.  Big modes use the formulas directly, small modes
(`|z| < modecutoff`) the mean over the contour. -/
noncomputable def coeffsDiagonal (cfg : ETDConfig ℝ) (h : ℝ) (z : Vec ι) : PyM (ASMethod (Etd34Coef (Vec ι)) ι) Unit := do
  PyM.modify fun s => { s with coef := { s.coef with EL := npExp z, EL2 := npExp (z / 2) } }
  let small : ι → Prop := fun i => ‖z i‖ < cfg.modecutoff
  PyM.modify fun s => { s with coef := (assign (fun i => ¬ small i)
    (fun i => h * psi1 (z i / 2)) (fun i => h * psi2 (z i / 2))
    (fun i => h * psi1 (z i)) (fun i => h * psi2 (z i)) (fun i => h * psi3 (z i)) s.coef) }
  PyM.modify fun s => { s with coef := (assign small
    (fun i => h * cfg.mean (fun w => psi1 (w / 2)) (z i)) (fun i => h * cfg.mean (fun w => psi2 (w / 2)) (z i))
    (fun i => h * cfg.mean psi1 (z i)) (fun i => h * cfg.mean psi2 (z i)) (fun i => h * cfg.mean psi3 (z i)) s.coef) }

/-- Accumulators of the contour loop. -/
structure Acc (ι : Type) where
  psi1_12 : Mat ι
  psi2_12 : Mat ι
  psi1_1 : Mat ι
  psi2_1 : Mat ι
  psi3_1 : Mat ι

/-- Body of `for point in contour_points`, rkstiff/etd34.py:376-383. -/
noncomputable def loopBody {σ : Type} (cfg : ETDConfig ℝ) (z : Mat ι) (acc : Acc ι) (m : ℕ) : PyM σ (Acc ι) := do
  let point := cfg.point m
  let Q ← npInv (point • (1 : Mat ι) - z)
  let Q2 ← npInv (point • (1 : Mat ι) - (1 / 2 : ℂ) • z)
  pure {
    psi1_12 := acc.psi1_12 + (point * psi1 point / cfg.contour_points) • Q2
    psi2_12 := acc.psi2_12 + (point * psi2 point / cfg.contour_points) • Q2
    psi1_1 := acc.psi1_1 + (point * psi1 point / cfg.contour_points) • Q
    psi2_1 := acc.psi2_1 + (point * psi2 point / cfg.contour_points) • Q
    psi3_1 := acc.psi3_1 + (point * psi3 point / cfg.contour_points) • Q }

/-- `update_coeffs` of the full-matrix strategy, rkstiff/etd34.py:356-392.  When an inverse does not exist the
exponentials have already been replaced, the other coefficients not. -/
noncomputable def coeffsNonDiagonal (cfg : ETDConfig ℝ) (L : Mat ι) (h : ℝ) :
    PyM (ASMethod (Etd34Coef (Mat ι)) ι) Unit := do
  let z : Mat ι := (h : ℂ) • L
  PyM.modify fun s => { s with coef := { s.coef with
    EL := NormedSpace.exp z, EL2 := NormedSpace.exp ((1 / 2 : ℂ) • z) } }
  let p ← (List.range cfg.npts).foldlM (loopBody cfg z) ⟨0, 0, 0, 0, 0⟩
  PyM.modify fun s => { s with coef := { s.coef with
    a21 := (1 / 2 * h : ℂ) • p.psi1_12
    a31 := (1 / 2 * h : ℂ) • (p.psi1_12 - p.psi2_12)
    a32 := (1 / 2 * h : ℂ) • p.psi2_12
    a41 := (h : ℂ) • (p.psi1_1 - p.psi2_1)
    a43 := (h : ℂ) • p.psi2_1
    a51 := (h : ℂ) • (p.psi1_1 - (3 / 2 : ℂ) • p.psi2_1 + (2 / 3 : ℂ) • p.psi3_1)
    a52 := (h : ℂ) • (p.psi2_1 - (2 / 3 : ℂ) • p.psi3_1)
    a54 := (h : ℂ) • (-(1 / 2 : ℂ) • p.psi2_1 + (2 / 3 : ℂ) • p.psi3_1) } }

/-- `_Etd34Diagonal`: `update_coeffs` rkstiff/etd34.py:84-94, `n1_init` 151-160, `update_stages` 162-191. -/
noncomputable def diagonal (cfg : ETDConfig ℝ) (L : Vec ι) (nl : NlFunc ι) : ASStrategy (Etd34Coef (Vec ι)) ι where
  updateCoeffs h := coeffsDiagonal cfg h (bc h * L)
  init u := do
    let n ← ASMethod.call nl u
    PyM.modify fun s => { s with NL1 := n }
  updateStages u _h accept := do
    if accept then
      PyM.modify fun s => { s with NL1 := s.NLlast }
    let s ← PyM.get
    let c := s.coef
    let NL1 := s.NL1
    let k := c.EL2 * u + c.a21 * NL1
    let NL2 ← ASMethod.call nl k
    let k := c.EL2 * u + c.a31 * NL1 + c.a32 * NL2
    let NL3 ← ASMethod.call nl k
    let k := c.EL * u + c.a41 * NL1 + c.a43 * NL3
    let NL4 ← ASMethod.call nl k
    let k := c.EL * u + c.a51 * NL1 + c.a52 * (NL2 + NL3) + c.a54 * NL4
    let NL5 ← ASMethod.call nl k
    PyM.modify fun s => { s with NLlast := NL5 }
    pure (k, c.a54 * (NL4 - NL5))

/-- `_Etd34Diagonalized`: `update_coeffs` rkstiff/etd34.py:248-258, `n1_init` 260-270, `update_stages` 272-304.
`eig`, `S` are the results of `np.linalg.eig`, `Sinv` of `np.linalg.inv` (constructor, 212-246). -/
noncomputable def diagonalized (cfg : ETDConfig ℝ) (eig : Vec ι) (S Sinv : Mat ι) (nl : NlFunc ι) :
    ASStrategy (Etd34Coef (Vec ι)) ι where
  updateCoeffs h := coeffsDiagonal cfg h (bc h * eig)
  init u := do
    let n ← ASMethod.call nl u
    PyM.modify fun s => { s with NL1 := Sinv *ᵥ n }
    PyM.modify fun s => { s with v := Sinv *ᵥ u }
  updateStages u _h accept := do
    if accept then
      PyM.modify fun s => { s with NL1 := s.NLlast }
      PyM.modify fun s => { s with v := Sinv *ᵥ u }
    let s ← PyM.get
    let c := s.coef
    let NL1 := s.NL1
    let v := s.v
    let k := c.EL2 * v + c.a21 * NL1
    let n ← ASMethod.call nl (S *ᵥ k)
    let NL2 := Sinv *ᵥ n
    let k := c.EL2 * v + c.a31 * NL1 + c.a32 * NL2
    let n ← ASMethod.call nl (S *ᵥ k)
    let NL3 := Sinv *ᵥ n
    let k := c.EL * v + c.a41 * NL1 + c.a43 * NL3
    let n ← ASMethod.call nl (S *ᵥ k)
    let NL4 := Sinv *ᵥ n
    let k := c.EL * v + c.a51 * NL1 + c.a52 * (NL2 + NL3) + c.a54 * NL4
    let n ← ASMethod.call nl (S *ᵥ k)
    let NL5 := Sinv *ᵥ n
    PyM.modify fun s => { s with NLlast := NL5 }
    pure (S *ᵥ k, c.a54 * (NL4 - NL5))

/-- `_Etd34NonDiagonal`: `update_coeffs` rkstiff/etd34.py:356-392, `n1_init` 394-403, `update_stages` 405-436. -/
noncomputable def nonDiagonal (cfg : ETDConfig ℝ) (L : Mat ι) (nl : NlFunc ι) : ASStrategy (Etd34Coef (Mat ι)) ι where
  updateCoeffs h := coeffsNonDiagonal cfg L h
  init u := do
    let n ← ASMethod.call nl u
    PyM.modify fun s => { s with NL1 := n }
  updateStages u _h accept := do
    if accept then
      PyM.modify fun s => { s with NL1 := s.NLlast }
    let s ← PyM.get
    let c := s.coef
    let NL1 := s.NL1
    let k := c.EL2 *ᵥ u + c.a21 *ᵥ NL1
    let NL2 ← ASMethod.call nl k
    let k := c.EL2 *ᵥ u + c.a31 *ᵥ NL1 + c.a32 *ᵥ NL2
    let NL3 ← ASMethod.call nl k
    let k := c.EL *ᵥ u + c.a41 *ᵥ NL1 + c.a43 *ᵥ NL3
    let NL4 ← ASMethod.call nl k
    let k := c.EL *ᵥ u + c.a51 *ᵥ NL1 + c.a52 *ᵥ (NL2 + NL3) + c.a54 *ᵥ NL4
    let NL5 ← ASMethod.call nl k
    PyM.modify fun s => { s with NLlast := NL5 }
    pure (k, c.a54 *ᵥ (NL4 - NL5))

variable {Coef : Type}

/-- `_reset`, rkstiff/etd34.py:557-567.  (It also clears `_accept`, which `BaseSolverAS.reset` has done already.) -/
def reset (s : Wrap (ASMethod Coef ι)) : Wrap (ASMethod Coef ι) := { s with n1init := false, hCoeff := none }

/-- `_update_coeffs`, rkstiff/etd34.py:569-587. -/
noncomputable def updateCoeffs (S : ASStrategy Coef ι) (h : ℝ) : PyM (Wrap (ASMethod Coef ι)) Unit := do
  let s ← PyM.get
  if some h = s.hCoeff then pure ()
  else
    PyM.modify fun s => { s with hCoeff := some h }
    Wrap.onMethod (S.updateCoeffs h)

/-- `_update_stages`, rkstiff/etd34.py:589-609. -/
noncomputable def updateStages (S : ASStrategy Coef ι) (u : Vec ι) (h : ℝ) (accept : Bool) :
    PyM (Wrap (ASMethod Coef ι)) (Vec ι × Vec ι) := do
  updateCoeffs S h
  let s ← PyM.get
  if s.n1init = false then
    Wrap.onMethod (S.init u)
    PyM.modify fun s => { s with n1init := true }
  Wrap.onMethod (S.updateStages u h accept)

/-- The class ETD34 with strategy `S`; `_q`, rkstiff/etd34.py:611-621. -/
noncomputable def cls (S : ASStrategy Coef ι) : ASClass ℝ (Vec ι) (Wrap (ASMethod Coef ι)) :=
  ⟨reset, updateStages S, computeS 4⟩

/-- `ETD34.__init__`, rkstiff/etd34.py:508-555 and 42-82, 212-246, 323-354: all arrays zero, nothing cached. -/
def init [Zero α] : Wrap (ASMethod (Etd34Coef α) ι) := ⟨false, none, ⟨⟨0, 0, 0, 0, 0, 0, 0, 0, 0, 0⟩, 0, 0, 0, 0⟩⟩

end ETD34

end Verif
