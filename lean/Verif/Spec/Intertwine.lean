import Verif.Spec.Solvers

/-!
# Linear maps between problems (specification)

`P` intertwines two linear operators when `P L = L' P`.  Examples: a functional `w` with `w L = 0` (a conserved quantity), the
restriction to one of two uncoupled systems, the embedding of an invariant subspace.
-/

set_option linter.unusedSectionVars false

namespace Verif

open Matrix

variable {ι κ : Type} [Fintype ι] [DecidableEq ι] [Fintype κ] [DecidableEq κ]

/-- Is the operator given as a full matrix (and not as the array of its diagonal)? -/
def LinOp.isFull : LinOp ι → Bool
  | diag _ => false
  | full _ => true

/-- Solvers of the same class whose operators `P` intertwines.  For the ETD solvers the settings must agree, and both operators
are full matrices or both are not, because these cases approximate the coefficients differently. -/
inductive CSSolver.Intertwined (P : Matrix κ ι ℂ) : CSSolver ι → CSSolver κ → Prop
  | if4 {L L'} : P * L.mat = L'.mat * P → Intertwined P (.if4 L) (.if4 L')
  | etd4 (cfg) {L L'} : P * L.mat = L'.mat * P → L.isFull = L'.isFull → Intertwined P (.etd4 cfg L) (.etd4 cfg L')
  | etd5 (cfg) {L L'} : P * L.mat = L'.mat * P → L.isFull = L'.isFull → Intertwined P (.etd5 cfg L) (.etd5 cfg L')

/-- The same for adaptive solvers (diagonalized operators count as diagonal ones). -/
inductive ASSolver.Intertwined (P : Matrix κ ι ℂ) : ASSolver ι → ASSolver κ → Prop
  | if34 {L L'} : P * L.mat = L'.mat * P → Intertwined P (.if34 L) (.if34 L')
  | etd34 (cfg) {L L'} : P * L.mat = L'.mat * P → L.inner.isFull = L'.inner.isFull → Intertwined P (.etd34 cfg L) (.etd34 cfg L')
  | etd35 (cfg) {L L'} : P * L.mat = L'.mat * P → L.inner.isFull = L'.inner.isFull → Intertwined P (.etd35 cfg L) (.etd35 cfg L')
  | if45dp {L : Vec ι} {L' : Vec κ} : P * Matrix.diagonal L = Matrix.diagonal L' * P → Intertwined P (.if45dp L) (.if45dp L')

/-- `P` maps the nonlinear function `nl` to `nl'`, with its exceptions. -/
def MapsNl (P : Matrix κ ι ℂ) (nl : NlFunc ι) (nl' : NlFunc κ) : Prop := ∀ w, nl' (P *ᵥ w) = (nl w).map fun n => P *ᵥ n

end Verif
