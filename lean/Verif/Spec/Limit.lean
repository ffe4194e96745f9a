import Verif.Spec.Solvers
import Mathlib.Topology.Instances.Complex
import Mathlib.Algebra.Algebra.Spectrum.Basic

/-!
# Exact φ functions and the limit of many contour points (specification)
-/

set_option linter.unusedSectionVars false

namespace Verif

open Matrix

variable {ι : Type} [Fintype ι] [DecidableEq ι]

namespace ERK

/-- Values of a nonlinear function that never raises in the first stages. -/
def values (M : ERK ι) (f : Vec ι → Vec ι) (u : Vec ι) : ℕ → ℕ → Vec ι
  | 0 => 0
  | i + 1 => Function.update (M.values f u i) i (f (M.arg u (M.values f u i) i))

/-- One step for a nonlinear function that never raises: new solution and error estimate. -/
def run (M : ERK ι) (f : Vec ι → Vec ι) (u : Vec ι) : Vec ι × Vec ι :=
  (M.out u (M.values f u M.s), M.err (M.values f u M.s))

end ERK

/-- The configuration with `N` contour points. -/
def ETDConfig.withPoints (cfg : ETDConfig ℝ) (N : ℕ) : ETDConfig ℝ := { cfg with contour_points := (N : ℤ) }

/-- The contour serves its purpose: for a diagonal operator the cutoff does not exceed the radius (as in the default
configuration), for a full matrix the eigenvalues of `h L` lie inside the circle. -/
def LinOp.Resolved (cfg : ETDConfig ℝ) (h : ℝ) : LinOp ι → Prop
  | diag _ => 0 < cfg.modecutoff ∧ cfg.modecutoff ≤ cfg.contour_radius
  | full L => 0 < cfg.contour_radius ∧ ∀ μ ∈ spectrum ℂ ((h : ℂ) • L), ‖μ‖ < cfg.contour_radius

/-- `r N` is returned for all large `N`, and converges to `r0`. -/
def Approaches {α : Type} [TopologicalSpace α] (r : ℕ → Except PyErr α) (r0 : α) : Prop :=
  ∃ x : ℕ → α, (∀ᶠ N in Filter.atTop, r N = .ok (x N)) ∧ Filter.Tendsto x Filter.atTop (nhds r0)

namespace CSSolver

/-- The solver with `N` contour points. -/
def withPoints (N : ℕ) : CSSolver ι → CSSolver ι
  | if4 L => if4 L
  | etd4 cfg L => etd4 (cfg.withPoints N) L
  | etd5 cfg L => etd5 (cfg.withPoints N) L

/-- The contour of the solver serves its purpose for step size `h`. -/
def Resolved (h : ℝ) : CSSolver ι → Prop
  | if4 _ => True
  | etd4 cfg L => L.Resolved cfg h
  | etd5 cfg L => L.Resolved cfg h

/-- The named method of the solver with exact φ functions. -/
noncomputable def exact (m : CSSolver ι) (h : ℝ) : ERK ι :=
  match m with
  | if4 L => lawson rk4 L.mat h
  | etd4 _ L => krogstad (phiExact L.mat h) L.mat h
  | etd5 _ L => etd5Method true (phiExact L.mat h) L.mat h

/-- An exponential time differencing solver. -/
def IsETD : CSSolver ι → Prop
  | if4 _ => False
  | _ => True

/-- No contour is used: every mode reaches the cutoff. -/
def NoContour (h : ℝ) : CSSolver ι → Prop
  | if4 _ => True
  | etd4 cfg (.diag L) => 0 < cfg.modecutoff ∧ ∀ i, cfg.modecutoff ≤ ‖(h : ℂ) * L i‖
  | etd5 cfg (.diag L) => 0 < cfg.modecutoff ∧ ∀ i, cfg.modecutoff ≤ ‖(h : ℂ) * L i‖
  | _ => False

end CSSolver

namespace ASSolver

/-- The solver with `N` contour points. -/
def withPoints (N : ℕ) : ASSolver ι → ASSolver ι
  | if34 L => if34 L
  | etd34 cfg L => etd34 (cfg.withPoints N) L
  | etd35 cfg L => etd35 (cfg.withPoints N) L
  | if45dp L => if45dp L

/-- The contour of the solver serves its purpose for step size `h`. -/
def Resolved (h : ℝ) : ASSolver ι → Prop
  | if34 _ => True
  | etd34 cfg L => L.inner.Resolved cfg h
  | etd35 cfg L => L.inner.Resolved cfg h
  | if45dp _ => True

/-- The named method of the solver with exact φ functions, in the user's coordinates. -/
noncomputable def exact (m : ASSolver ι) (h : ℝ) : ERK ι :=
  match m with
  | if34 L => lawson rk4 L.mat h
  | etd34 _ L => krogstad (phiExact L.mat h) L.mat h
  | etd35 _ L => etd5Method false (phiExact L.mat h) L.mat h
  | if45dp L => lawson (dpWith (17 / 1920)) (Matrix.diagonal L) h

/-- An exponential time differencing solver. -/
def IsETD : ASSolver ι → Prop
  | if34 _ => False
  | if45dp _ => False
  | _ => True

/-- No contour is used: every mode reaches the cutoff. -/
def NoContour (h : ℝ) : ASSolver ι → Prop
  | if34 _ => True
  | etd34 cfg (.diag L) => 0 < cfg.modecutoff ∧ ∀ i, cfg.modecutoff ≤ ‖(h : ℂ) * L i‖
  | etd35 cfg (.diag L) => 0 < cfg.modecutoff ∧ ∀ i, cfg.modecutoff ≤ ‖(h : ℂ) * L i‖
  | etd34 cfg (.eig L _ _ _) => 0 < cfg.modecutoff ∧ ∀ i, cfg.modecutoff ≤ ‖(h : ℂ) * L i‖
  | etd35 cfg (.eig L _ _ _) => 0 < cfg.modecutoff ∧ ∀ i, cfg.modecutoff ≤ ‖(h : ℂ) * L i‖
  | if45dp _ => True
  | _ => False

end ASSolver

end Verif
