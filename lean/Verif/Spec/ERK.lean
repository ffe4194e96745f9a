import Verif.Model.Py
import Mathlib.Data.Complex.Basic
import Mathlib.LinearAlgebra.Matrix.ToLin

/-!
# Explicit exponential Runge–Kutta methods (specification)

An explicit `s`-stage method for `u' = L u + N(u)` is given by matrices: stage `i` is evaluated at
`U_i = E_i u + ∑_{j<i} A_ij N(U_j)`, the new solution is `E u + ∑_j B_j N(U_j)` and the error estimate
`∑_j R_j N(U_j)`.  Evaluating `N` may raise; the first exception is the outcome.
-/

namespace Verif

open Matrix

/-- Vectors of the solver: one complex number per mode. -/
abbrev Vec (ι : Type) := ι → ℂ
/-- Square matrices of the solver. -/
abbrev Mat (ι : Type) := Matrix ι ι ℂ

/-- Coefficients of an explicit exponential Runge–Kutta method (for one step size and one linear operator). -/
structure ERK (ι : Type) where
  s : ℕ
  E : ℕ → Mat ι
  A : ℕ → ℕ → Mat ι
  Eout : Mat ι
  B : ℕ → Mat ι
  R : ℕ → Mat ι

namespace ERK

variable {ι : Type} [Fintype ι]

/-- Argument of the nonlinear function in stage `i`, given the values `N` of the earlier stages. -/
def arg (M : ERK ι) (u : Vec ι) (N : ℕ → Vec ι) (i : ℕ) : Vec ι :=
  M.E i *ᵥ u + ∑ j ∈ Finset.range i, M.A i j *ᵥ N j

/-- Values of the nonlinear function in the first `i` stages. -/
def stages (M : ERK ι) (nl : Vec ι → Except PyErr (Vec ι)) (u : Vec ι) : ℕ → Except PyErr (ℕ → Vec ι)
  | 0 => .ok 0
  | i + 1 =>
    match M.stages nl u i with
    | .error e => .error e
    | .ok N =>
      match nl (M.arg u N i) with
      | .error e => .error e
      | .ok n => .ok (Function.update N i n)

/-- New solution from the stage values. -/
def out (M : ERK ι) (u : Vec ι) (N : ℕ → Vec ι) : Vec ι :=
  M.Eout *ᵥ u + ∑ j ∈ Finset.range M.s, M.B j *ᵥ N j

/-- Error estimate from the stage values. -/
def err (M : ERK ι) (N : ℕ → Vec ι) : Vec ι := ∑ j ∈ Finset.range M.s, M.R j *ᵥ N j

/-- One step: new solution and error estimate. -/
def step (M : ERK ι) (nl : Vec ι → Except PyErr (Vec ι)) (u : Vec ι) : Except PyErr (Vec ι × Vec ι) :=
  match M.stages nl u M.s with
  | .error e => .error e
  | .ok N => .ok (M.out u N, M.err N)

/-- Values of the nonlinear function in the first `i` stages, when the given value `n1` is used in place of the first
evaluation. -/
def stagesFrom (M : ERK ι) (nl : Vec ι → Except PyErr (Vec ι)) (n1 u : Vec ι) : ℕ → Except PyErr (ℕ → Vec ι)
  | 0 => .ok 0
  | 1 => .ok (Function.update 0 0 n1)
  | i + 2 =>
    match M.stagesFrom nl n1 u (i + 1) with
    | .error e => .error e
    | .ok N =>
      match nl (M.arg u N (i + 1)) with
      | .error e => .error e
      | .ok n => .ok (Function.update N (i + 1) n)

/-- One step that uses `n1` in place of the first evaluation of the nonlinear function. -/
def stepFrom (M : ERK ι) (nl : Vec ι → Except PyErr (Vec ι)) (n1 u : Vec ι) : Except PyErr (Vec ι × Vec ι) :=
  match M.stagesFrom nl n1 u M.s with
  | .error e => .error e
  | .ok N => .ok (M.out u N, M.err N)

end ERK

end Verif
