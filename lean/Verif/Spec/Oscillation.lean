import Verif.Spec.Damping

/-!
# Rapid modes (specification)
-/

set_option linter.unusedSectionVars false

namespace Verif

open Filter

variable {ι : Type} [Fintype ι] [DecidableEq ι]

/-- All modes become large along the sequence `L` of operators, without growing faster than some rate: oscillations of higher and
higher frequency, or stronger and stronger damping. -/
def Rapid (L : ℕ → Vec ι) : Prop :=
  (∃ ω : ℝ, ∀ n i, (L n i).re ≤ ω) ∧ ∀ i, Tendsto (fun n => ‖L n i‖) atTop atTop

/-- The modes in `D` become large along the sequence `L` of operators, without growing faster than some rate; the others are those of
`L0`. -/
def RapidIn (D : Set ι) (L : ℕ → Vec ι) (L0 : Vec ι) : Prop :=
  (∃ ω : ℝ, ∀ n, ∀ i ∈ D, (L n i).re ≤ ω) ∧ (∀ i ∈ D, Tendsto (fun n => ‖L n i‖) atTop atTop) ∧ ∀ i, i ∉ D → ∀ n, L n i = L0 i

/-- The solution of `y' = L y` at time `t`. -/
noncomputable def propagate (L : Vec ι) (t : ℝ) (u : Vec ι) : Vec ι := fun i => Complex.exp (t * L i) * u i

end Verif
