import Verif.Spec.Limit
import Mathlib.Analysis.Calculus.ContDiff.Defs
import Mathlib.Analysis.Asymptotics.Defs
import Mathlib.Analysis.Matrix.Normed

/-!
# Expansions in the step size of methods for `u' = L u + f(u)` (specification)

The derivatives of a solution, and of one step of an exponential Runge–Kutta method, with respect to the step size are sums of
expressions built from `L`, the derivatives of `f` at `u`, and `u`: these are indexed by trees.  Children are ordered, so the
coefficients carry factors `1/m!` instead of symmetry factors.
-/

set_option linter.unusedSectionVars false

namespace Verif

open Matrix Finset

/-- `lu k` stands for `L^(k+1) u` and `nd k m ch` for `L^k f^(m)(u)(ch 0, …, ch (m-1))`. -/
inductive ETree where
  | lu (k : ℕ)
  | nd (k m : ℕ) (ch : Fin m → ETree)

variable {ι : Type} [Fintype ι] [DecidableEq ι]

namespace ETree

/-- Number of factors `L` and `f`: the power of the step size that goes with the tree. -/
def order : ETree → ℕ
  | lu k => k + 1
  | nd k _ ch => k + 1 + ∑ l, (ch l).order

/-- The vector that the tree stands for. -/
noncomputable def val (L : Mat ι) (f : Vec ι → Vec ι) (u : Vec ι) : ETree → Vec ι
  | lu k => L ^ (k + 1) *ᵥ u
  | nd k m ch => L ^ k *ᵥ iteratedFDeriv ℝ m f u (fun l => (ch l).val L f u)

/-- Coefficient of the tree in the expansion of the exact solution. -/
noncomputable def exact : ETree → ℝ
  | lu k => ((k + 1).factorial : ℝ)⁻¹
  | nd k m ch => ((∑ l, (ch l).order).factorial : ℝ) / ((∑ l, (ch l).order) + k + 1).factorial *
      ((m.factorial : ℝ)⁻¹ * ∏ l, (ch l).exact)

end ETree

/-- Expansion coefficients of an exponential Runge–Kutta method: nodes `c_i`, stage coefficients
`A_ij = h ∑_k α_ijk (h L)^k`, weights `B_j = h ∑_k β_jk (h L)^k` and `R_j = h ∑_k ρ_jk (h L)^k`. -/
structure ETableau where
  s : ℕ
  c : ℕ → ℝ
  α : ℕ → ℕ → ℕ → ℝ
  β : ℕ → ℕ → ℝ
  ρ : ℕ → ℕ → ℝ

namespace ETableau

/-- Coefficient of a tree in the expansion of the argument of stage `i`. -/
noncomputable def stage (T : ETableau) : ETree → ℕ → ℝ
  | .lu k, i => T.c i ^ (k + 1) * ((k + 1).factorial : ℝ)⁻¹
  | .nd k m ch, i => ∑ j ∈ range i, T.α i j k * ((m.factorial : ℝ)⁻¹ * ∏ l, T.stage (ch l) j)

/-- Coefficient of a tree in the expansion of the new solution. -/
noncomputable def out (T : ETableau) : ETree → ℝ
  | .lu k => ((k + 1).factorial : ℝ)⁻¹
  | .nd k m ch => ∑ j ∈ range T.s, T.β j k * ((m.factorial : ℝ)⁻¹ * ∏ l, T.stage (ch l) j)

/-- Coefficient of a tree in the expansion of the error estimate. -/
noncomputable def err (T : ETableau) : ETree → ℝ
  | .lu _ => 0
  | .nd k m ch => ∑ j ∈ range T.s, T.ρ j k * ((m.factorial : ℝ)⁻¹ * ∏ l, T.stage (ch l) j)

/-- The expansion of the new solution agrees with that of the exact solution for all trees of order at most `p`. -/
def HasOrder (T : ETableau) (p : ℕ) : Prop := ∀ t : ETree, t.order ≤ p → T.out t = t.exact

end ETableau

open Asymptotics Topology
open scoped Matrix.Norms.Operator

/-- The coefficients of the methods `M h` for the operator `L` have the expansions given by `T` as `h → 0`. -/
structure ERK.Expands (M : ℝ → ERK ι) (L : Mat ι) (T : ETableau) : Prop where
  s : ∀ h, (M h).s = T.s
  E : ∀ n, ∀ i < T.s, (fun h => (M h).E i - ∑ k ∈ range n, (T.c i ^ k * (k.factorial : ℝ)⁻¹ * h ^ k) • L ^ k)
    =O[𝓝 0] fun h : ℝ => h ^ n
  A : ∀ n, ∀ i < T.s, ∀ j < i, (fun h => (M h).A i j - ∑ k ∈ range n, (T.α i j k * h ^ (k + 1)) • L ^ k)
    =O[𝓝 0] fun h : ℝ => h ^ (n + 1)
  Eout : ∀ n, (fun h => (M h).Eout - ∑ k ∈ range n, ((k.factorial : ℝ)⁻¹ * h ^ k) • L ^ k) =O[𝓝 0] fun h : ℝ => h ^ n
  B : ∀ n, ∀ j < T.s, (fun h => (M h).B j - ∑ k ∈ range n, (T.β j k * h ^ (k + 1)) • L ^ k)
    =O[𝓝 0] fun h : ℝ => h ^ (n + 1)
  R : ∀ n, ∀ j < T.s, (fun h => (M h).R j - ∑ k ∈ range n, (T.ρ j k * h ^ (k + 1)) • L ^ k)
    =O[𝓝 0] fun h : ℝ => h ^ (n + 1)

/-- Solutions of `y' = L y + f(y)` on a common interval around zero, with values in a compact set. -/
structure Flows {P : Type} (L : Mat ι) (f : Vec ι → Vec ι) (K : Set P) (y : P → ℝ → Vec ι) (δ : ℝ) (K0 : Set (Vec ι)) : Prop where
  pos : 0 < δ
  compact : IsCompact K0
  mem : ∀ q ∈ K, ∀ s, |s| < δ → y q s ∈ K0
  deriv : ∀ q ∈ K, ∀ s, |s| < δ → HasDerivAt (y q) (L *ᵥ y q s + f (y q s)) s

/-- Coefficient of `h^5` in the local error of ETD5: with `v = L u + f(u)`, the commutator of `f'(u)` with `L` applied to
`f''(u)(v, v) + f'(u) L v + 3 f'(u) f'(u) v`, divided by 34560. -/
noncomputable def etd5Lead (L : Mat ι) (f : Vec ι → Vec ι) (u : Vec ι) : Vec ι :=
  let v := L *ᵥ u + f u
  let w := fderiv ℝ (fderiv ℝ f) u v v + fderiv ℝ f u (L *ᵥ v) + (3 : ℝ) • fderiv ℝ f u (fderiv ℝ f u v)
  (1 / 34560 : ℝ) • (fderiv ℝ f u (L *ᵥ w) - L *ᵥ fderiv ℝ f u w)

end Verif
