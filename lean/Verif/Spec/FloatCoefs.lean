import Verif.Model.FloatArith
import Verif.Model.FloatMatrix
import Verif.Spec.Rounded

/-!
# What it means that an arithmetic for complex numbers is nearly exact
-/

set_option linter.unusedSectionVars false

namespace Verif

/-- Operations with operands and results of size at most `R` (for quotients also the inverse of the divisor) are exact up to `ρ`, relative to their size; the sum of `n` numbers up to
`n ρ` if this is at most one. -/
structure CArith.Within (A : CArith) (ρ R : ℝ) : Prop where
  add : ∀ x y, ‖x‖ ≤ R → ‖y‖ ≤ R → ‖x + y‖ ≤ R → ‖A.add x y - (x + y)‖ ≤ ρ * (1 + ‖x‖ + ‖y‖)
  sub : ∀ x y, ‖x‖ ≤ R → ‖y‖ ≤ R → ‖x - y‖ ≤ R → ‖A.sub x y - (x - y)‖ ≤ ρ * (1 + ‖x‖ + ‖y‖)
  mul : ∀ x y, ‖x‖ ≤ R → ‖y‖ ≤ R → ‖x * y‖ ≤ R → ‖A.mul x y - x * y‖ ≤ ρ * (1 + ‖x * y‖)
  div : ∀ x y, y ≠ 0 → ‖x‖ ≤ R → ‖y‖ ≤ R → ‖y⁻¹‖ ≤ R → ‖x / y‖ ≤ R → ‖A.div x y - x / y‖ ≤ ρ * (1 + ‖x / y‖)
  pow : ∀ x (n : ℕ), ‖x‖ ≤ R → ‖x ^ n‖ ≤ R → n ≤ 3 → ‖A.pow x n - x ^ n‖ ≤ ρ * (1 + ‖x ^ n‖)
  exp : ∀ x, ‖x‖ ≤ R → ‖Complex.exp x‖ ≤ R → ‖A.exp x - Complex.exp x‖ ≤ ρ * (1 + ‖Complex.exp x‖)
  abs : ∀ x, ‖x‖ ≤ R → |A.abs x - ‖x‖| ≤ ρ * (1 + ‖x‖)
  sum : ∀ l : List ℂ, (l.map norm).sum ≤ R → l.length * ρ ≤ 1 → ‖A.sum l - l.sum‖ ≤ l.length * ρ * (1 + (l.map norm).sum)
  tau : ‖A.tau - 2 * Real.pi * Complex.I‖ ≤ ρ * (1 + 2 * Real.pi)

/-- `s` is a sum of the numbers in the list by rounded additions, in any order and with any parentheses. -/
inductive SumsTo (rnd : ℝ → ℝ) : List ℂ → ℂ → Prop
  | nil : SumsTo rnd [] 0
  | single (z : ℂ) : SumsTo rnd [z] z
  | add {l l' l'' : List ℂ} {a b : ℂ} : SumsTo rnd l a → SumsTo rnd l' b → l ≠ [] → l' ≠ [] → (l ++ l').Perm l'' →
      SumsTo rnd l'' (cround rnd (a + b))

section
variable {ι : Type} [Fintype ι] [DecidableEq ι]

open scoped Matrix.Norms.Operator in
/-- `expm` and `inv` are exact up to `ρ`, relative to the size of the exponential and the condition of the matrix, for matrices and
inverses of size at most `R`; in particular `inv` does not raise. -/
structure LinAlg.Within (B : LinAlg ι) (ρ R : ℝ) : Prop where
  expm : ∀ M, ‖M‖ ≤ R → ‖B.expm M - NormedSpace.exp M‖ ≤ ρ * (1 + Real.exp ‖M‖)
  inv : ∀ M, IsUnit M.det → ‖M‖ ≤ R → ‖M⁻¹‖ ≤ R → ∃ Q, B.inv M = .ok Q ∧ ‖Q - M⁻¹‖ ≤ ρ * (1 + ‖M‖ * ‖M⁻¹‖ * ‖M⁻¹‖)

/-- The settings of the contour, if there is one, suit steps up to `H`: for an array of eigenvalues the cutoff is positive and smaller
than the radius; for a matrix the contour encloses the eigenvalues of `H L`. -/
def LinOp.ClearContour (cfg : ETDConfig ℝ) (H : ℝ) : LinOp ι → Prop
  | diag _ => 0 < cfg.modecutoff ∧ cfg.modecutoff < cfg.contour_radius
  | full L => 0 < cfg.contour_radius ∧ ∀ μ ∈ spectrum ℂ L, H * ‖μ‖ < cfg.contour_radius

/-- The same for solvers. -/
def CSSolver.ClearContour (H : ℝ) : CSSolver ι → Prop
  | if4 _ => True
  | etd4 cfg L | etd5 cfg L => L.ClearContour cfg H

/-- The same for adaptive solvers; for diagonalized strategies the eigenvalues are an array. -/
def ASSolver.ClearContour (H : ℝ) : ASSolver ι → Prop
  | if34 _ | if45dp _ => True
  | etd34 cfg L | etd35 cfg L => L.inner.ClearContour cfg H

/-- A solver whose stages use the operations `ar` on arrays and whose coefficients are computed with the operations `A` on numbers and
`B` on matrices. -/
noncomputable def CSSolver.flEnv (m : CSSolver ι) (ar : Arith ι) (A : CArith) (B : LinAlg ι) : FPEnv m.Coef ι :=
  ⟨ar, fun h => m.flCoefs A B h⟩

/-- The same for adaptive solvers. -/
noncomputable def ASSolver.flEnv (m : ASSolver ι) (ar : Arith ι) (A : CArith) (B : LinAlg ι) : FPEnv m.Coef ι :=
  ⟨ar, fun h => m.flCoefs A B h⟩

open scoped Matrix.Norms.Operator in
/-- Operators of one kind that differ by at most `ε`. -/
inductive LinOp.Near (ε : ℝ) : LinOp ι → LinOp ι → Prop
  | diag {L L' : Vec ι} : ‖L' - L‖ ≤ ε → Near ε (.diag L) (.diag L')
  | full {L L' : Mat ι} : ‖L' - L‖ ≤ ε → Near ε (.full L) (.full L')

open scoped Matrix.Norms.Operator in
/-- The same for adaptive solvers; the diagonalized strategies have the same eigenvectors. -/
inductive ASOp.Near (ε : ℝ) : ASOp ι → ASOp ι → Prop
  | diag {L L' : Vec ι} : ‖L' - L‖ ≤ ε → Near ε (.diag L) (.diag L')
  | full {L L' : Mat ι} : ‖L' - L‖ ≤ ε → Near ε (.full L) (.full L')
  | eig {lam lam' : Vec ι} {S Sinv : Mat ι} {hS : S * Sinv = 1} : ‖lam' - lam‖ ≤ ε → Near ε (.eig lam S Sinv hS) (.eig lam' S Sinv hS)

/-- Solvers of one class with the same settings whose operators differ by at most `ε`. -/
inductive CSSolver.Near (ε : ℝ) : CSSolver ι → CSSolver ι → Prop
  | if4 {L L' : LinOp ι} : L.Near ε L' → Near ε (.if4 L) (.if4 L')
  | etd4 {cfg : ETDConfig ℝ} {L L' : LinOp ι} : L.Near ε L' → Near ε (.etd4 cfg L) (.etd4 cfg L')
  | etd5 {cfg : ETDConfig ℝ} {L L' : LinOp ι} : L.Near ε L' → Near ε (.etd5 cfg L) (.etd5 cfg L')

/-- The same for adaptive solvers. -/
inductive ASSolver.Near (ε : ℝ) : ASSolver ι → ASSolver ι → Prop
  | if34 {L L' : ASOp ι} : L.Near ε L' → Near ε (.if34 L) (.if34 L')
  | etd34 {cfg : ETDConfig ℝ} {L L' : ASOp ι} : L.Near ε L' → Near ε (.etd34 cfg L) (.etd34 cfg L')
  | etd35 {cfg : ETDConfig ℝ} {L L' : ASOp ι} : L.Near ε L' → Near ε (.etd35 cfg L) (.etd35 cfg L')
  | if45dp {L L' : Vec ι} : ‖L' - L‖ ≤ ε → Near ε (.if45dp L) (.if45dp L')

end

end Verif
