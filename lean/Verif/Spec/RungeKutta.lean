import Verif.Spec.Methods

/-!
# Classical explicit Runge–Kutta steps and integrating factors (specification)
-/

set_option linter.unusedSectionVars false

namespace Verif

open Matrix

variable {ι : Type} [Fintype ι] [DecidableEq ι]

/-- `v'` and `e` are the result and the error estimate of one step of the tableau `T` with step size `h`, starting at
time 0 in `v`, for the differential equation `v' = F t v`.  `K` are the slopes. -/
def IsRKStep (T : Tableau) (F : ℝ → Vec ι → Vec ι) (h : ℝ) (v : Vec ι) (v' e : Vec ι) : Prop :=
  ∃ K : ℕ → Vec ι,
    (∀ i < T.s, K i = F (T.c i * h) (v + (h : ℂ) • ∑ j ∈ Finset.range i, (T.a i j : ℂ) • K j)) ∧
    v' = v + (h : ℂ) • ∑ j ∈ Finset.range T.s, (T.b j : ℂ) • K j ∧
    e = (h : ℂ) • ∑ j ∈ Finset.range T.s, (T.r j : ℂ) • K j

/-- Right-hand side of the equation satisfied by `v(t) = exp(-t L) u(t)` when `u' = L u + f(u)`. -/
noncomputable def interaction (L : Mat ι) (f : Vec ι → Vec ι) (t : ℝ) (v : Vec ι) : Vec ι :=
  expm L (-t) *ᵥ f (expm L t *ᵥ v)

/-- A nonlinear function that never raises. -/
def total (f : Vec ι → Vec ι) : Vec ι → Except PyErr (Vec ι) := fun x => .ok (f x)

end Verif
