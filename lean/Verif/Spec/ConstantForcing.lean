import Verif.Spec.Damping

/-!
# Constant forcing (specification)
-/

namespace Verif

/-- The factor by which IF4 misses the equilibrium `-g / L` of a mode under constant forcing, `z = h L`: Simpson's rule in place of the
integral of `exp`. -/
noncomputable def shiftIF4 (z : ℂ) : ℂ := z * (Complex.exp z + 4 * Complex.exp (z / 2) + 1) / (6 * (Complex.exp z - 1))

end Verif
