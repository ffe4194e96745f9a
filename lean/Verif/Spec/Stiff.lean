import Verif.Spec.Convergence
import Mathlib.Analysis.Calculus.Deriv.Basic
import Mathlib.Analysis.Matrix.Normed

/-!
# Stiff problems (specification)

The linear operator is diagonal, with eigenvalues of arbitrary size whose real parts are at most `ω`.  Nothing else is known
about it: bounds that hold for all such operators do not depend on the stiffness, nor on the number of modes.
-/

set_option linter.unusedSectionVars false

namespace Verif

open Matrix

variable {ι : Type} [Fintype ι] [DecidableEq ι]

/-- The cutoff is positive and at most the radius of the contour, which is at most `R`. -/
def ETDConfig.RadiusUpTo (cfg : ETDConfig ℝ) (R : ℝ) : Prop :=
  0 < cfg.modecutoff ∧ cfg.modecutoff ≤ cfg.contour_radius ∧ cfg.contour_radius ≤ R

/-- A solver with a diagonal operator whose eigenvalues have real parts at most `ω`, and with a contour, if any, of radius at
most `R`. -/
def CSSolver.Stiff (ω R : ℝ) : CSSolver ι → Prop
  | if4 (.diag L) => ∀ i, (L i).re ≤ ω
  | etd4 cfg (.diag L) => cfg.RadiusUpTo R ∧ ∀ i, (L i).re ≤ ω
  | etd5 cfg (.diag L) => cfg.RadiusUpTo R ∧ ∀ i, (L i).re ≤ ω
  | _ => False

/-- The same for adaptive solvers. -/
def ASSolver.Stiff (ω R : ℝ) : ASSolver ι → Prop
  | if34 (.diag L) => ∀ i, (L i).re ≤ ω
  | etd34 cfg (.diag L) => cfg.RadiusUpTo R ∧ ∀ i, (L i).re ≤ ω
  | etd35 cfg (.diag L) => cfg.RadiusUpTo R ∧ ∀ i, (L i).re ≤ ω
  | if45dp L => ∀ i, (L i).re ≤ ω
  | _ => False

/-- `Y` solves `y' = L y + f(y)` on `[t0, t1]`; near `Y` the nonlinear part has Lipschitz constant `K`; along `Y` it is
differentiable in time, with bounds `M0` for the value, `M1` for the derivative and `M2` for the Lipschitz constant of the
derivative.  No bound for `L`, or for derivatives of `Y`, is assumed. -/
structure Regular (L : Mat ι) (f : Vec ι → Vec ι) (t0 t1 : ℝ) (Y : ℝ → Vec ι) (K ρ M0 M1 M2 : ℝ) : Prop where
  deriv : ∀ t ∈ Set.Icc t0 t1, HasDerivWithinAt Y (L *ᵥ Y t + f (Y t)) (Set.Icc t0 t1) t
  lip : ∀ t ∈ Set.Icc t0 t1, ∀ v, ‖v - Y t‖ ≤ ρ → ‖f v - f (Y t)‖ ≤ K * ‖v - Y t‖
  value : ∀ t ∈ Set.Icc t0 t1, ‖f (Y t)‖ ≤ M0
  smooth : ∃ g : ℝ → Vec ι, (∀ t ∈ Set.Icc t0 t1, HasDerivWithinAt (fun s => f (Y s)) (g t) (Set.Icc t0 t1) t ∧ ‖g t‖ ≤ M1) ∧
    ∀ s ∈ Set.Icc t0 t1, ∀ t ∈ Set.Icc t0 t1, ‖g s - g t‖ ≤ M2 * |s - t|

end Verif
