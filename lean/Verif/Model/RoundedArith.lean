import Verif.Model.Rounded

/-!
# NumPy's arithmetic on complex arrays

Every real operation is rounded by `rnd`; overflow and underflow are not modelled unless `rnd` does.  The operations are those of
NumPy's `complex128`: sums and differences by components, products as `(ac - bd) + (ad + bc) i`, quotients by a literal `n` as
products of the components with the rounded `1 / n` (Smith's algorithm for a divisor without imaginary part).  `A.dot(x)` sums the products one after the other; BLAS may use
another order, which the theorems about `Arith` allow for.
-/

set_option linter.unusedSectionVars false

namespace Verif

variable {ι : Type}

/-- Rounding of both components. -/
noncomputable def cround (rnd : ℝ → ℝ) (z : ℂ) : ℂ := ⟨rnd z.re, rnd z.im⟩

/-- The rounded product of complex numbers. -/
noncomputable def cmul (rnd : ℝ → ℝ) (z w : ℂ) : ℂ :=
  ⟨rnd (rnd (z.re * w.re) - rnd (z.im * w.im)), rnd (rnd (z.re * w.im) + rnd (z.im * w.re))⟩

/-- The rounded sum of rounded products. -/
noncomputable def cdot (rnd : ℝ → ℝ) (a x : ι → ℂ) : List ι → ℂ
  | [] => 0
  | j :: l => cround rnd (cmul rnd (a j) (x j) + cdot rnd a x l)

/-- The operations on complex arrays with rounding `rnd`. -/
noncomputable def Arith.numpy [Fintype ι] (rnd : ℝ → ℝ) : Arith ι where
  add v w := fun i => cround rnd (v i + w i)
  sub v w := fun i => cround rnd (v i - w i)
  mul v w := fun i => cmul rnd (v i) (w i)
  quot v n := fun i => cround rnd (v i * rnd (1 / n))
  dot A v := fun i => cdot rnd (A i) v Finset.univ.toList

end Verif
