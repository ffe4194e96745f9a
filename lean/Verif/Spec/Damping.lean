import Verif.Spec.Limit
import Mathlib.Order.Filter.AtTopBot.Basic

/-!
# Strongly damped modes (specification)
-/

set_option linter.unusedSectionVars false

namespace Verif

open Matrix Filter

variable {ι : Type} [Fintype ι] [DecidableEq ι]

/-- The modes in `D` are damped more and more strongly along the sequence `L` of operators; the others are those of `L0`. -/
def Damped (D : Set ι) (L : ℕ → Vec ι) (L0 : Vec ι) : Prop :=
  (∀ i ∈ D, Tendsto (fun n => (L n i).re) atTop atBot) ∧ ∀ i, i ∉ D → ∀ n, L n i = L0 i

/-- The array with zeros for the modes in `D`. -/
noncomputable def without (D : Set ι) (v : Vec ι) : Vec ι := open Classical in fun i => if i ∈ D then 0 else v i

/-- The same solver with another (diagonal) `lin_op`. -/
def CSSolver.withModes (L : Vec ι) : CSSolver ι → CSSolver ι
  | if4 _ => if4 (.diag L)
  | etd4 cfg _ => etd4 cfg (.diag L)
  | etd5 cfg _ => etd5 cfg (.diag L)

/-- The same solver with another (diagonal) `lin_op`. -/
def ASSolver.withModes (L : Vec ι) : ASSolver ι → ASSolver ι
  | if34 _ => if34 (.diag L)
  | etd34 cfg _ => etd34 cfg (.diag L)
  | etd35 cfg _ => etd35 cfg (.diag L)
  | if45dp _ => if45dp L

end Verif
