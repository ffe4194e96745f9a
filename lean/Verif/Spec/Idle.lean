import Verif.Spec.ERK
import Verif.Spec.Methods

/-!
# States on which `nl_func` has no effect (C94)
-/

namespace Verif

open Matrix

variable {ι : Type} [Fintype ι] [DecidableEq ι]

/-- `nl_func` returns zero everywhere on the solution `exp(t L) u` of the linear equation. Such `u` exist for many nonlinear problems:
`u = 0` if `nl_func(0) = 0`, or constant functions for the KdV and Burgers equations. -/
def Idle (L : Mat ι) (nl : Vec ι → Except PyErr (Vec ι)) (u : Vec ι) : Prop := ∀ t : ℝ, nl (expm L t *ᵥ u) = .ok 0

end Verif
