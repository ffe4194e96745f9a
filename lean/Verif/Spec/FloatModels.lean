import Verif.Model.FloatModels
import Verif.Spec.FloatCoefs
import Verif.Spec.Solvers

/-!
# What it means that transforms and real operations are nearly exact
-/

set_option linter.unusedSectionVars false

namespace Verif

/-- Real operations with operands and results of size at most `R` are exact up to `ρ`, relative to their size. -/
structure RArith.Within (B : RArith) (ρ R : ℝ) : Prop where
  add : ∀ x y, |x| ≤ R → |y| ≤ R → |x + y| ≤ R → |B.add x y - (x + y)| ≤ ρ * (1 + |x| + |y|)
  mul : ∀ x y, |x| ≤ R → |y| ≤ R → |x * y| ≤ R → |B.mul x y - x * y| ≤ ρ * (1 + |x * y|)
  pow : ∀ x (n : ℕ), |x| ≤ R → |x ^ n| ≤ R → n ≤ 3 → |B.pow x n - x ^ n| ≤ ρ * (1 + |x ^ n|)

/-- Transforms of signals of length `N` with entries of size at most `b ≤ R` are exact up to `ρ`, relative to the largest possible size of
the result. -/
structure FftLib.Within (F : FftLib) (N : ℕ) (ρ R : ℝ) : Prop where
  fft : ∀ u b, b ≤ R → (∀ j < N, ‖u j‖ ≤ b) → ∀ m < N, ‖F.fft N u m - fft1 N u m‖ ≤ ρ * (1 + N * b)
  ifft : ∀ y b, b ≤ R → (∀ m < N, ‖y m‖ ≤ b) → ∀ j < N, ‖F.ifft N y j - ifft1 N y j‖ ≤ ρ * (1 + b)
  rfft : ∀ u b, b ≤ R → (∀ j < N, |u j| ≤ b) → ∀ m ≤ N / 2, ‖F.rfft N u m - rfft1 N u m‖ ≤ ρ * (1 + N * b)
  irfft : ∀ y b, b ≤ R → (∀ m ≤ N / 2, ‖y m‖ ≤ b) → ∀ j < N, |F.irfft N y j - irfft1 N y j| ≤ ρ * (1 + b)

/-- Powers of order `n` are exact up to `ρ`, relative to their size; for `n ≤ 3` this is part of `CArith.Within`. -/
def PowWithin (A : CArith) (ρ R : ℝ) (n : ℕ) : Prop := ∀ z, ‖z‖ ≤ R → ‖z ^ n‖ ≤ R → ‖A.pow z n - z ^ n‖ ≤ ρ * (1 + ‖z ^ n‖)

/-- The wavenumbers on `[a, b)` with `2 M` points. -/
noncomputable def waveNumbers (M : ℕ) (a b : ℝ) : Fin (M + 1) → ℝ := fun i => 2 * Real.pi * (i : ℕ) / (b - a)

section
variable {ι : Type} [Fintype ι] [DecidableEq ι]

/-- A solver of the same class with the same settings and another operator. -/
def CSSolver.withLinOp (L : LinOp ι) : CSSolver ι → CSSolver ι
  | if4 _ => if4 L
  | etd4 cfg _ => etd4 cfg L
  | etd5 cfg _ => etd5 cfg L

/-- The same for adaptive solvers and an array of eigenvalues. -/
def ASSolver.withEigs (L : Vec ι) : ASSolver ι → ASSolver ι
  | if34 _ => if34 (.diag L)
  | etd34 cfg _ => etd34 cfg (.diag L)
  | etd35 cfg _ => etd35 cfg (.diag L)
  | if45dp _ => if45dp L

/-- The same for a matrix; IF45DP does not take matrices. -/
def ASSolver.withMatrix (L : Mat ι) : ASSolver ι → ASSolver ι
  | if34 _ => if34 (.full L)
  | etd34 cfg _ => etd34 cfg (.full L)
  | etd35 cfg _ => etd35 cfg (.full L)
  | if45dp l => if45dp l

/-- A run with step `h` returned a state, stopped in `[tf, tf + 2 h)`, and recorded as many times as states; the state that was returned
and those that were recorded are within `E` of `Y`. -/
structure CSSolver.RunNear {m : CSSolver ι} (r : Except PyErr (Option (Vec ι)) × m.RSt) (Y : ℝ → Vec ι) (tf h E : ℝ) : Prop where
  result : ∃ v, r.1 = .ok (some v) ∧ ‖v - Y r.2.tc‖ ≤ E
  stop : tf ≤ r.2.tc ∧ r.2.tc < tf + 2 * h
  length : r.2.u.length = r.2.t.length
  stored : ∀ p ∈ r.2.t.zip r.2.u, ‖p.2 - Y p.1‖ ≤ E

/-- The states that an adaptive run recorded are within `E` of `Y`; if it returned a state, then at a time from `tf` on and within `E` of
`Y`. -/
structure ASSolver.RunNear {m : ASSolver ι} (r : Except PyErr (Option (Vec ι)) × m.RSt) (Y : ℝ → Vec ι) (tf E : ℝ) : Prop where
  stored : ∀ p ∈ r.2.t.zip r.2.u, ‖p.2 - Y p.1‖ ≤ E
  result : ∀ v, r.1 = .ok (some v) → tf ≤ r.2.tc ∧ ‖v - Y r.2.tc‖ ≤ E

end

end Verif
