import Verif.Spec.Limit
import Verif.Spec.ETrees

/-!
# Initial value problems (specification for the convergence of whole runs)
-/

set_option linter.unusedSectionVars false

namespace Verif

open Matrix

variable {ι : Type} [Fintype ι] [DecidableEq ι]

/-- `Y` solves `y' = L y + f(y)` on an open interval that contains `[t0, tf]`. -/
structure Solves (L : Mat ι) (f : Vec ι → Vec ι) (t0 tf : ℝ) (Y : ℝ → Vec ι) : Prop where
  deriv : ∃ δ > 0, ∀ t, t0 - δ < t → t < tf + δ → HasDerivAt Y (L *ᵥ Y t + f (Y t)) t

/-- The settings of the contour make sense: the radius is positive, and for a diagonal operator the cutoff is positive and does not
exceed the radius (as in the default configuration). -/
def LinOp.GoodContour (cfg : ETDConfig ℝ) : LinOp ι → Prop
  | diag _ => 0 < cfg.modecutoff ∧ cfg.modecutoff ≤ cfg.contour_radius
  | full _ => 0 < cfg.contour_radius

/-- The settings of the contour, if there is one, make sense. -/
def CSSolver.GoodContour : CSSolver ι → Prop
  | if4 _ => True
  | etd4 cfg L => L.GoodContour cfg
  | etd5 cfg L => L.GoodContour cfg

/-- The settings of the contour, if there is one, make sense. -/
def ASSolver.GoodContour : ASSolver ι → Prop
  | if34 _ => True
  | etd34 cfg L => L.inner.GoodContour cfg
  | etd35 cfg L => L.inner.GoodContour cfg
  | if45dp _ => True

end Verif
