import Verif.Model.ComputeS
import Verif.Model.IF4

/-!
# IF34 (rkstiff/if34.py)
-/

set_option linter.unusedSectionVars false

namespace Verif

open Matrix

variable {ι : Type} [Fintype ι] [DecidableEq ι]

namespace IF34

/-- `_If34Diagonal`: `update_coeffs` rkstiff/if34.py:81-93, `n1_init` 95-97, `update_stages` 99-131. -/
noncomputable def diagonal (L : Vec ι) (nl : NlFunc ι) : ASStrategy (IFCoef (Vec ι)) ι where
  updateCoeffs h := do
    let z : Vec ι := bc h * L
    PyM.modify fun s => { s with coef := { s.coef with EL := npExp z } }
    PyM.modify fun s => { s with coef := { s.coef with EL2 := npExp (z / 2) } }
  init u := do
    let n ← ASMethod.call nl u
    PyM.modify fun s => { s with NL1 := n }
  updateStages u h accept := do
    if accept then
      PyM.modify fun s => { s with NL1 := s.NLlast }
    let s ← PyM.get
    let c := s.coef
    let NL1 := s.NL1
    let k := c.EL2 * u + bc h * c.EL2 * NL1 / 2
    let NL2 ← ASMethod.call nl k
    let k := c.EL2 * u + bc h * NL2 / 2
    let NL3 ← ASMethod.call nl k
    let k := c.EL * u + bc h * c.EL2 * NL3
    let NL4 ← ASMethod.call nl k
    let k := c.EL * u + bc h * (c.EL * NL1 / 6 + c.EL2 * NL2 / 3 + c.EL2 * NL3 / 3 + NL4 / 6)
    let NL5 ← ASMethod.call nl k
    PyM.modify fun s => { s with NLlast := NL5 }
    pure (k, bc h * (NL4 - NL5) / 6)

/-- `_If34Diagonalized`: `update_coeffs` rkstiff/if34.py:168-172, `n1_init` 174-177, `update_stages` 179-196.
`eig`, `S` are the results of `np.linalg.eig`, `Sinv` of `np.linalg.inv` (constructor, 149-166). -/
noncomputable def diagonalized (eig : Vec ι) (S Sinv : Mat ι) (nl : NlFunc ι) : ASStrategy (IFCoef (Vec ι)) ι where
  updateCoeffs h := do
    let z : Vec ι := bc h * eig
    PyM.modify fun s => { s with coef := { s.coef with EL := npExp z } }
    PyM.modify fun s => { s with coef := { s.coef with EL2 := npExp (z / 2) } }
  init u := do
    let n ← ASMethod.call nl u
    PyM.modify fun s => { s with NL1 := Sinv *ᵥ n }
    PyM.modify fun s => { s with v := Sinv *ᵥ u }
  updateStages u h accept := do
    if accept then
      PyM.modify fun s => { s with NL1 := s.NLlast }
      PyM.modify fun s => { s with v := Sinv *ᵥ u }
    let s ← PyM.get
    let c := s.coef
    let NL1 := s.NL1
    let v := s.v
    let k := c.EL2 * v + bc h * c.EL2 * NL1 / 2
    let n ← ASMethod.call nl (S *ᵥ k)
    let NL2 := Sinv *ᵥ n
    let k := c.EL2 * v + bc h * NL2 / 2
    let n ← ASMethod.call nl (S *ᵥ k)
    let NL3 := Sinv *ᵥ n
    let k := c.EL * v + bc h * c.EL2 * NL3
    let n ← ASMethod.call nl (S *ᵥ k)
    let NL4 := Sinv *ᵥ n
    let k := c.EL * v + bc h * (c.EL * NL1 / 6 + c.EL2 * NL2 / 3 + c.EL2 * NL3 / 3 + NL4 / 6)
    let n ← ASMethod.call nl (S *ᵥ k)
    let NL5 := Sinv *ᵥ n
    PyM.modify fun s => { s with NLlast := NL5 }
    pure (S *ᵥ k, bc h * (NL4 - NL5) / 6)

/-- `_If34NonDiagonal`: `update_coeffs` rkstiff/if34.py:225-229, `n1_init` 231-233, `update_stages` 235-254. -/
noncomputable def nonDiagonal (L : Mat ι) (nl : NlFunc ι) : ASStrategy (IFCoef (Mat ι)) ι where
  updateCoeffs h := do
    let z : Mat ι := (h : ℂ) • L
    PyM.modify fun s => { s with coef := { s.coef with EL := NormedSpace.exp z } }
    PyM.modify fun s => { s with coef := { s.coef with EL2 := NormedSpace.exp ((1 / 2 : ℂ) • z) } }
  init u := do
    let n ← ASMethod.call nl u
    PyM.modify fun s => { s with NL1 := n }
  updateStages u h accept := do
    if accept then
      PyM.modify fun s => { s with NL1 := s.NLlast }
    let s ← PyM.get
    let c := s.coef
    let NL1 := s.NL1
    let k := c.EL2 *ᵥ u + bc h * (c.EL2 *ᵥ (NL1 / 2))
    let NL2 ← ASMethod.call nl k
    let k := c.EL2 *ᵥ u + bc h * NL2 / 2
    let NL3 ← ASMethod.call nl k
    let k := c.EL *ᵥ u + bc h * (c.EL2 *ᵥ NL3)
    let NL4 ← ASMethod.call nl k
    let k := c.EL *ᵥ u + bc h * (c.EL *ᵥ (NL1 / 6) + c.EL2 *ᵥ (NL2 / 3) + c.EL2 *ᵥ (NL3 / 3) + NL4 / 6)
    let NL5 ← ASMethod.call nl k
    PyM.modify fun s => { s with NLlast := NL5 }
    pure (k, bc h * (NL4 - NL5) / 6)

variable {Coef : Type}

/-- `_reset`, rkstiff/if34.py:308-312.  (It also clears `_accept`, which `BaseSolverAS.reset` has done already.) -/
def reset (s : Wrap (ASMethod Coef ι)) : Wrap (ASMethod Coef ι) := { s with n1init := false, hCoeff := none }

/-- `_update_coeffs`, rkstiff/if34.py:314-319. -/
noncomputable def updateCoeffs (S : ASStrategy Coef ι) (h : ℝ) : PyM (Wrap (ASMethod Coef ι)) Unit := do
  let s ← PyM.get
  if some h = s.hCoeff then pure ()
  else
    PyM.modify fun s => { s with hCoeff := some h }
    Wrap.onMethod (S.updateCoeffs h)

/-- `_update_stages`, rkstiff/if34.py:321-334. -/
noncomputable def updateStages (S : ASStrategy Coef ι) (u : Vec ι) (h : ℝ) (accept : Bool) :
    PyM (Wrap (ASMethod Coef ι)) (Vec ι × Vec ι) := do
  updateCoeffs S h
  let s ← PyM.get
  if s.n1init = false then
    Wrap.onMethod (S.init u)
    PyM.modify fun s => { s with n1init := true }
  Wrap.onMethod (S.updateStages u h accept)

/-- The class IF34 with strategy `S`; `_q`, rkstiff/if34.py:336-338. -/
noncomputable def cls (S : ASStrategy Coef ι) : ASClass ℝ (Vec ι) (Wrap (ASMethod Coef ι)) :=
  ⟨reset, updateStages S, computeS 4⟩

/-- `IF34.__init__`, rkstiff/if34.py:289-306 and 64-79, 149-166, 214-223: all arrays zero, nothing cached. -/
def init [Zero α] : Wrap (ASMethod (IFCoef α) ι) := ⟨false, none, ⟨⟨0, 0⟩, 0, 0, 0, 0⟩⟩

end IF34

end Verif
