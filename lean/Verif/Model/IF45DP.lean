import Verif.Model.ComputeS
import Verif.Spec.Methods

/-!
# IF45DP (rkstiff/if45dp.py)
-/

set_option linter.unusedSectionVars false

namespace Verif

open Matrix

variable {ι : Type} [Fintype ι] [DecidableEq ι]

/-- Coefficient arrays of IF45DP (rkstiff/if45dp.py:69-100).  `_a76`, `_r6`, `_r7` are scalars in the code. -/
structure If45dpCoef (ι : Type) where
  EL15 : Vec ι
  EL310 : Vec ι
  EL45 : Vec ι
  EL89 : Vec ι
  EL : Vec ι
  a21 : Vec ι
  a31 : Vec ι
  a32 : Vec ι
  a41 : Vec ι
  a42 : Vec ι
  a43 : Vec ι
  a51 : Vec ι
  a52 : Vec ι
  a53 : Vec ι
  a54 : Vec ι
  a61 : Vec ι
  a62 : Vec ι
  a63 : Vec ι
  a64 : Vec ι
  a65 : Vec ι
  a71 : Vec ι
  a73 : Vec ι
  a74 : Vec ι
  a75 : Vec ι
  a76 : ℂ
  r1 : Vec ι
  r3 : Vec ι
  r4 : Vec ι
  r5 : Vec ι
  r6 : ℂ
  r7 : ℂ

namespace IF45DP

/-- The assignments of `_update_coeffs`, rkstiff/if45dp.py:205-237. -/
noncomputable def coefs (L : Vec ι) (h : ℝ) : If45dpCoef ι :=
  let z : Vec ι := bc h * L
  let hs : ℂ := h
  let h : Vec ι := bc h
  let EL15 := npExp (z / 5)
  let EL310 := npExp (3 * z / 10)
  let EL45 := npExp (4 * z / 5)
  let EL89 := npExp (8 * z / 9)
  let EL := npExp z
  let EL710 := npExp (7 * z / 10)
  let EL19 := npExp (z / 9)
  { EL15 := EL15, EL310 := EL310, EL45 := EL45, EL89 := EL89, EL := EL
    a21 := h * EL15 / 5
    a31 := 3 * h * EL310 / 40
    a32 := 9 * h * npExp (z / 10) / 40
    a41 := 44 * h * EL45 / 45
    a42 := -56 * h * npExp (3 * z / 5) / 15
    a43 := 32 * h * npExp (z / 2) / 9
    a51 := 19372 * h * EL89 / 6561
    a52 := -25360 * h * npExp (31 * z / 45) / 2187
    a53 := 64448 * h * npExp (53 * z / 90) / 6561
    a54 := -212 * h * npExp (4 * z / 45) / 729
    a61 := 9017 * h * EL / 3168
    a62 := -355 * h * EL45 / 33
    a63 := 46732 * h * EL710 / 5247
    a64 := 49 * h * EL15 / 176
    a65 := -5103 * h * EL19 / 18656
    a71 := 35 * h * EL / 384
    a73 := 500 * h * EL710 / 1113
    a74 := 125 * h * EL15 / 192
    a75 := -2187 * h * EL19 / 6784
    a76 := 11 * hs / 84
    r1 := h * 71 * EL / 57600
    r3 := -71 * h * EL710 / 16695
    r4 := 17 * h * EL15 / 1920
    r5 := -17253 * h * EL19 / 339200
    r6 := 22 * hs / 525
    r7 := -hs / 40 }

/-- `_update_coeffs`, rkstiff/if45dp.py:183-238. -/
noncomputable def updateCoeffs (L : Vec ι) (h : ℝ) : PyM (Wrap (ASMethod (If45dpCoef ι) ι)) Unit := do
  let s ← PyM.get
  if some h = s.hCoeff then pure ()
  else
    PyM.modify fun s => { s with hCoeff := some h }
    Wrap.onMethod (PyM.modify fun m => { m with coef := coefs L h })

/-- `_reset`, rkstiff/if45dp.py:105-110. -/
def reset (s : Wrap (ASMethod (If45dpCoef ι) ι)) : Wrap (ASMethod (If45dpCoef ι) ι) :=
  { s with n1init := false, hCoeff := none }

/-- The stages, rkstiff/if45dp.py:140-181. -/
noncomputable def stages (nl : NlFunc ι) (u : Vec ι) : PyM (ASMethod (If45dpCoef ι) ι) (Vec ι × Vec ι) := do
  let s ← PyM.get
  let c := s.coef
  let NL1 := s.NL1
  let k := c.EL15 * u + c.a21 * NL1
  let NL2 ← ASMethod.call nl k
  let k := c.EL310 * u + c.a31 * NL1 + c.a32 * NL2
  let NL3 ← ASMethod.call nl k
  let k := c.EL45 * u + c.a41 * NL1 + c.a42 * NL2 + c.a43 * NL3
  let NL4 ← ASMethod.call nl k
  let k := c.EL89 * u + c.a51 * NL1 + c.a52 * NL2 + c.a53 * NL3 + c.a54 * NL4
  let NL5 ← ASMethod.call nl k
  let k := c.EL * u + c.a61 * NL1 + c.a62 * NL2 + c.a63 * NL3 + c.a64 * NL4 + c.a65 * NL5
  let NL6 ← ASMethod.call nl k
  let k := c.EL * u + c.a71 * NL1 + c.a73 * NL3 + c.a74 * NL4 + c.a75 * NL5 + bc c.a76 * NL6
  let NL7 ← ASMethod.call nl k
  PyM.modify fun s => { s with NLlast := NL7 }
  pure (k, c.r1 * NL1 + c.r3 * NL3 + c.r4 * NL4 + c.r5 * NL5 + bc c.r6 * NL6 + bc c.r7 * NL7)

/-- `_update_stages`, rkstiff/if45dp.py:112-181. -/
noncomputable def updateStages (L : Vec ι) (nl : NlFunc ι) (u : Vec ι) (h : ℝ) (accept : Bool) :
    PyM (Wrap (ASMethod (If45dpCoef ι) ι)) (Vec ι × Vec ι) := do
  updateCoeffs L h
  let s ← PyM.get
  if s.n1init = false then
    Wrap.onMethod (do
      let n ← ASMethod.call nl u
      PyM.modify fun s => { s with NL1 := n })
    PyM.modify fun s => { s with n1init := true }
  else if accept then
    Wrap.onMethod (PyM.modify fun s => { s with NL1 := s.NLlast })
  Wrap.onMethod (stages nl u)

/-- The class IF45DP; `_q`, rkstiff/if45dp.py:240-249. -/
noncomputable def cls (L : Vec ι) (nl : NlFunc ι) : ASClass ℝ (Vec ι) (Wrap (ASMethod (If45dpCoef ι) ι)) :=
  ⟨reset, updateStages L nl, computeS 5⟩

/-- `IF45DP.__init__`, rkstiff/if45dp.py:47-103: all arrays zero, nothing cached. -/
def init : Wrap (ASMethod (If45dpCoef ι) ι) :=
  ⟨false, none, ⟨⟨0, 0, 0, 0, 0, 0, 0, 0, 0, 0, 0, 0, 0, 0, 0, 0, 0, 0, 0, 0, 0, 0, 0, 0, 0, 0, 0, 0, 0, 0, 0⟩, 0, 0, 0, 0⟩⟩

end IF45DP

end Verif
