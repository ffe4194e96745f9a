import Verif.Spec.Methods

/-!
# Rooted trees and the order conditions of Runge–Kutta methods (specification)

Butcher's theory: a Runge–Kutta method `(a, b)` has order `p` exactly when `∑_i b_i Φ_i(t) = 1/γ(t)` for every rooted tree
`t` with at most `p` vertices.
-/

namespace Verif

/-- Rooted trees, built with the Butcher product: `leaf` is the single vertex and `graft t c` is `t` with the root of `c`
attached to its root as a further child.  (Every rooted tree arises so, from each order of the children.) -/
inductive RTree where
  | leaf
  | graft (t c : RTree)
  deriving DecidableEq

namespace RTree

/-- Number of vertices. -/
def order : RTree → ℕ
  | leaf => 1
  | graft t c => t.order + c.order

/-- `1/γ(t)`, the inverse of the density.  With `γ(t) = |t| ∏ γ(t_i)` over the children `t_i` of the root,
`γ(graft t c) = (|t| + |c|) (γ(t)/|t|) γ(c)`. -/
noncomputable def invDensity : RTree → ℝ
  | leaf => 1
  | graft t c => (t.order : ℝ) / (t.order + c.order) * t.invDensity * c.invDensity

/-- Elementary weight `Φ_i(t) = ∏ ∑_j a_ij Φ_j(t_k)` over the children `t_k` of the root. -/
def weight (a : ℕ → ℕ → ℝ) (s : ℕ) : RTree → ℕ → ℝ
  | leaf, _ => 1
  | graft t c, i => weight a s t i * ∑ j ∈ Finset.range s, a i j * weight a s c j

end RTree

/-- All order conditions up to order `p`. -/
def Tableau.HasOrder (T : Tableau) (p : ℕ) : Prop :=
  ∀ t : RTree, t.order ≤ p → ∑ i ∈ Finset.range T.s, T.b i * t.weight T.a T.s i = t.invDensity

/-- The error weights vanish on all trees up to order `q`, so that the error estimate is of size `h^(q+1)`. -/
def Tableau.ErrOrder (T : Tableau) (q : ℕ) : Prop :=
  ∀ t : RTree, t.order ≤ q → ∑ i ∈ Finset.range T.s, T.r i * t.weight T.a T.s i = 0

variable {ι : Type} [Fintype ι] [DecidableEq ι]

/-- The classical explicit Runge–Kutta method of a tableau for `u' = N(u)`: stages `u + h ∑_j a_ij N_j`, new solution
`u + h ∑_j b_j N_j`, error estimate `h ∑_j r_j N_j`. -/
noncomputable def Tableau.rk (T : Tableau) (h : ℝ) : ERK ι where
  s := T.s
  E := fun _ => 1
  A := fun i j => ((h * T.a i j : ℝ) : ℂ) • 1
  Eout := 1
  B := fun j => ((h * T.b j : ℝ) : ℂ) • 1
  R := fun j => ((h * T.r j : ℝ) : ℂ) • 1

end Verif
