import Verif.Spec.ERK
import Mathlib.Analysis.SpecialFunctions.Pow.Real

/-!
# The error criterion of the adaptive solvers (specification)
-/

namespace Verif

variable {ι : Type} [Fintype ι]

/-- Largest modulus of an entry. -/
noncomputable def maxAbs (v : Vec ι) : ℝ := ⨆ i, ‖v i‖

/-- Euclidean norm of `w` over the components in which `v` is larger than `c` times its largest entry. -/
noncomputable def selNorm (c : ℝ) (v w : Vec ι) : ℝ :=
  open Classical in Real.sqrt (∑ i ∈ Finset.univ.filter (fun i => c * maxAbs v < ‖v i‖), ‖w i‖ ^ 2)

end Verif
