import Verif.Spec.Solvers

/-!
# Units and origin of time (specification)

If time is measured in another unit and from another origin, `t' = a t + b`, the equation `u' = L u + N(u)` becomes
`u' = L/a u + N(u)/a`, step sizes are multiplied by `a`.
-/

set_option linter.unusedSectionVars false

namespace Verif

open Matrix

variable {ι : Type} [Fintype ι] [DecidableEq ι]

/-- The operator multiplied by a number. -/
def LinOp.scale (c : ℝ) : LinOp ι → LinOp ι
  | diag L => diag ((c : ℂ) • L)
  | full L => full ((c : ℂ) • L)

/-- The operator multiplied by a number; the eigenvectors stay. -/
def ASOp.scale (c : ℝ) : ASOp ι → ASOp ι
  | diag L => diag ((c : ℂ) • L)
  | full L => full ((c : ℂ) • L)
  | eig lam S Sinv hS => eig ((c : ℂ) • lam) S Sinv hS

/-- The solver for the operator multiplied by a number. -/
def CSSolver.scale (c : ℝ) : CSSolver ι → CSSolver ι
  | if4 L => if4 (L.scale c)
  | etd4 cfg L => etd4 cfg (L.scale c)
  | etd5 cfg L => etd5 cfg (L.scale c)

/-- The solver for the operator multiplied by a number. -/
def ASSolver.scale (c : ℝ) : ASSolver ι → ASSolver ι
  | if34 L => if34 (L.scale c)
  | etd34 cfg L => etd34 cfg (L.scale c)
  | etd35 cfg L => etd35 cfg (L.scale c)
  | if45dp L => if45dp ((c : ℂ) • L)

/-- The nonlinear function multiplied by a number, with its exceptions. -/
def scaleNl (c : ℝ) (nl : NlFunc ι) : NlFunc ι := fun w => (nl w).map fun n => (c : ℂ) • n

/-- The settings of the step size control in the new unit. -/
def SolverConfig.inUnit (a : ℝ) (cfg : SolverConfig ℝ) : SolverConfig ℝ := { cfg with minh := a * cfg.minh }

/-- Rounding of times and sizes goes along with the change `t' = a t + b` of the clock. -/
structure ClockMap (a b : ℝ) (rnd rnd' : ℝ → ℝ) : Prop where
  pos : 0 < a
  size : ∀ x, rnd' (a * x) = a * rnd x
  time : ∀ x, rnd' (a * x + b) = a * rnd x + b

end Verif
