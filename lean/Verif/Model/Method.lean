import Verif.Model.SolverAS
import Verif.Spec.ERK
import Mathlib.Analysis.Complex.Exponential
import Mathlib.LinearAlgebra.Matrix.NonsingularInverse

/-!
# Strategy objects (`self._method`) and what they share

The public classes IF4, ETD4, ETD5, IF34, ETD34, ETD35 delegate to a strategy object.  The attributes of a strategy
object that are read before they are written in some method call are kept in the state: the coefficients, `_NL1`,
`_NL5` (adaptive FSAL methods) and `_v` (diagonalized methods).  `_k`, `_err` and the remaining `_NL*` are always
assigned before they are read within one call and are local variables here.  `evals` is a ghost counter of calls of
`nl_func`.

`nl_func` is a function of its argument that may raise.  Arrays are functions `ι → ℂ` on a finite index type, and all
arithmetic on them is exact.  NumPy never mutates the arrays bound to `u`, `_k`, `_NL*` in this code base (each is
rebound), so sharing between them is not observable, except through `nl_func` (see `Verif.Model.Heap`).
-/

set_option linter.unusedSectionVars false

namespace Verif

open Matrix

variable {ι : Type}

/-- The user's nonlinear function, possibly raising. -/
abbrev NlFunc (ι : Type) := Vec ι → Except PyErr (Vec ι)

/-- Broadcasting of a scalar. -/
def bc (x : ℂ) : Vec ι := fun _ => x

/-- `np.exp` on a 1D array. -/
noncomputable def npExp (z : Vec ι) : Vec ι := fun i => Complex.exp (z i)

/-- Masked assignment `old[mask] = new`.  `new` is given on all indices; NumPy computes it for `mask` only, which makes
no difference because all computations are elementwise. -/
def setMask (mask : ι → Prop) [DecidablePred mask] (new old : Vec ι) : Vec ι :=
  fun i => if mask i then new i else old i

/-- `np.linalg.inv`: raises `LinAlgError` for a singular matrix. -/
noncomputable def npInv {σ : Type} [Fintype ι] [DecidableEq ι] (M : Mat ι) : PyM σ (Mat ι) :=
  open Classical in if IsUnit M.det then pure M⁻¹ else PyM.throw .linAlgError

/-- State of a constant-step strategy object with coefficients `Coef`. -/
structure CSMethod (Coef : Type) (ι : Type) where
  coef : Coef
  NL1 : Vec ι
  evals : ℕ

/-- State of an adaptive strategy object with coefficients `Coef`.  `NLlast` is `_NL5` (IF34, ETD34) or `_NL7`
(IF45DP), unused by ETD35; `v` is `_v`, unused except by the diagonalized strategies. -/
structure ASMethod (Coef : Type) (ι : Type) where
  coef : Coef
  NL1 : Vec ι
  NLlast : Vec ι
  v : Vec ι
  evals : ℕ

/-- A call `self.nl_func(x)`. -/
def CSMethod.call {Coef : Type} (nl : NlFunc ι) (x : Vec ι) : PyM (CSMethod Coef ι) (Vec ι) :=
  fun s => (nl x, { s with evals := s.evals + 1 })

/-- A call `self.nl_func(x)`. -/
def ASMethod.call {Coef : Type} (nl : NlFunc ι) (x : Vec ι) : PyM (ASMethod Coef ι) (Vec ι) :=
  fun s => (nl x, { s with evals := s.evals + 1 })

/-- The methods of a constant-step strategy object. -/
structure CSStrategy (Coef ι : Type) where
  updateCoeffs : ℝ → PyM (CSMethod Coef ι) Unit
  n1Init : Vec ι → PyM (CSMethod Coef ι) Unit
  updateStages : Vec ι → ℝ → PyM (CSMethod Coef ι) (Vec ι)

/-- The methods of an adaptive strategy object. -/
structure ASStrategy (Coef ι : Type) where
  updateCoeffs : ℝ → PyM (ASMethod Coef ι) Unit
  init : Vec ι → PyM (ASMethod Coef ι) Unit
  updateStages : Vec ι → ℝ → Bool → PyM (ASMethod Coef ι) (Vec ι × Vec ι)

/-- The attributes of the public classes: `__n1_init` (or `_stages_init`), `_h_coeff`, `_method`. -/
structure Wrap (Method : Type) where
  n1init : Bool
  hCoeff : Option ℝ
  method : Method

/-- Run a method of `self._method`. -/
def Wrap.onMethod {Method α : Type} (x : PyM Method α) : PyM (Wrap Method) α :=
  PyM.zoom Wrap.method (fun s m => { s with method := m }) x

end Verif
