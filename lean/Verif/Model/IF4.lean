import Verif.Model.Method
import Verif.Spec.Methods

/-!
# IF4 (rkstiff/if4.py)
-/

set_option linter.unusedSectionVars false

namespace Verif

open Matrix

variable {ι : Type} [Fintype ι] [DecidableEq ι]

/-- `_EL`, `_EL2` of the integrating factor strategies (rkstiff/if4.py:68, 148 and rkstiff/if34.py:76, 220). -/
structure IFCoef (α : Type) where
  EL : α
  EL2 : α

namespace IF4

/-- `_IF4Diagonal`: `update_coeffs` rkstiff/if4.py:72-83, `n1_init` 85-94, `update_stages` 96-122. -/
noncomputable def diagonal (L : Vec ι) (nl : NlFunc ι) : CSStrategy (IFCoef (Vec ι)) ι where
  updateCoeffs h := do
    let z : Vec ι := bc h * L
    PyM.modify fun s => { s with coef := { s.coef with EL := npExp z } }
    PyM.modify fun s => { s with coef := { s.coef with EL2 := npExp (z / 2) } }
  n1Init u := do
    let n ← CSMethod.call nl u
    PyM.modify fun s => { s with NL1 := n }
  updateStages u h := do
    let s ← PyM.get
    let EL := s.coef.EL
    let EL2 := s.coef.EL2
    let NL1 := s.NL1
    let k := EL2 * u + bc h * EL2 * NL1 / 2
    let NL2 ← CSMethod.call nl k
    let k := EL2 * u + bc h * NL2 / 2
    let NL3 ← CSMethod.call nl k
    let k := EL * u + bc h * EL2 * NL3
    let NL4 ← CSMethod.call nl k
    let k := EL * u + bc h * (EL * NL1 / 6 + EL2 * NL2 / 3 + EL2 * NL3 / 3 + NL4 / 6)
    let n ← CSMethod.call nl k
    PyM.modify fun s => { s with NL1 := n }
    pure k

/-- `_IF4NonDiagonal`: `update_coeffs` rkstiff/if4.py:152-164, `n1_init` 166-168, `update_stages` 170-199.
`scipy.linalg.expm` is the exact matrix exponential. -/
noncomputable def nonDiagonal (L : Mat ι) (nl : NlFunc ι) : CSStrategy (IFCoef (Mat ι)) ι where
  updateCoeffs h := do
    let z : Mat ι := (h : ℂ) • L
    PyM.modify fun s => { s with coef := { s.coef with EL := NormedSpace.exp z } }
    PyM.modify fun s => { s with coef := { s.coef with EL2 := NormedSpace.exp ((1 / 2 : ℂ) • z) } }
  n1Init u := do
    let n ← CSMethod.call nl u
    PyM.modify fun s => { s with NL1 := n }
  updateStages u h := do
    let s ← PyM.get
    let EL := s.coef.EL
    let EL2 := s.coef.EL2
    let NL1 := s.NL1
    let k := EL2 *ᵥ u + bc h * (EL2 *ᵥ (NL1 / 2))
    let NL2 ← CSMethod.call nl k
    let k := EL2 *ᵥ u + bc h * NL2 / 2
    let NL3 ← CSMethod.call nl k
    let k := EL *ᵥ u + bc h * (EL2 *ᵥ NL3)
    let NL4 ← CSMethod.call nl k
    let k := EL *ᵥ u + bc h * (EL *ᵥ (NL1 / 6) + EL2 *ᵥ (NL2 / 3) + EL2 *ᵥ (NL3 / 3) + NL4 / 6)
    let n ← CSMethod.call nl k
    PyM.modify fun s => { s with NL1 := n }
    pure k

variable {Coef : Type}

/-- `_reset`, rkstiff/if4.py:256-259. -/
def reset (s : Wrap (CSMethod Coef ι)) : Wrap (CSMethod Coef ι) := { s with n1init := false, hCoeff := none }

/-- `_update_coeffs`, rkstiff/if4.py:261-267. -/
noncomputable def updateCoeffs (S : CSStrategy Coef ι) (h : ℝ) : PyM (Wrap (CSMethod Coef ι)) Unit := do
  let s ← PyM.get
  if some h = s.hCoeff then pure ()
  else
    PyM.modify fun s => { s with hCoeff := some h }
    Wrap.onMethod (S.updateCoeffs h)

/-- `_update_stages`, rkstiff/if4.py:269-275. -/
noncomputable def updateStages (S : CSStrategy Coef ι) (u : Vec ι) (h : ℝ) : PyM (Wrap (CSMethod Coef ι)) (Vec ι) := do
  updateCoeffs S h
  let s ← PyM.get
  if s.n1init = false then
    Wrap.onMethod (S.n1Init u)
    PyM.modify fun s => { s with n1init := true }
  Wrap.onMethod (S.updateStages u h)

/-- The class IF4 with strategy `S`. -/
noncomputable def cls (S : CSStrategy Coef ι) : CSClass ℝ (Vec ι) (Wrap (CSMethod Coef ι)) := ⟨reset, updateStages S⟩

/-- `IF4.__init__`, rkstiff/if4.py:240-254 and 63-70, 142-150: all arrays zero, nothing cached. -/
def init [Zero α] : Wrap (CSMethod (IFCoef α) ι) := ⟨false, none, ⟨⟨0, 0⟩, 0, 0⟩⟩

end IF4

end Verif
