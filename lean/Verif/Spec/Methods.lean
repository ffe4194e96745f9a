import Verif.Spec.ERK
import Mathlib.Analysis.Normed.Algebra.MatrixExponential
import Mathlib.Analysis.SpecialFunctions.Exponential

/-!
# The named methods (specification)

* Lawson (integrating factor) transforms of classical Runge–Kutta tableaux: the classical fourth order method with a
  first-same-as-last stage and an embedded third order estimate, and the Dormand–Prince 5(4) pair.
* Exponential time differencing methods: Krogstad's ETDRK4 in its φ form, and the fifth order method of
  Whalen, Brio and Moloney, both for arbitrary approximations `φ k c` of `φ_k(c h L)`.
-/

namespace Verif

open Matrix

/-- A classical explicit Runge–Kutta tableau with error weights `r`. -/
structure Tableau where
  s : ℕ
  c : ℕ → ℝ
  a : ℕ → ℕ → ℝ
  b : ℕ → ℝ
  r : ℕ → ℝ

/-- The classical fourth order method; stage 4 is the new solution ("first same as last") and only enters the error
estimate `h (N_3 - N_4) / 6`. -/
noncomputable def rk4 : Tableau where
  s := 5
  c := fun
    | 1 => 1 / 2
    | 2 => 1 / 2
    | 3 => 1
    | 4 => 1
    | _ => 0
  a := fun
    | 1, 0 => 1 / 2
    | 2, 1 => 1 / 2
    | 3, 2 => 1
    | 4, 0 => 1 / 6
    | 4, 1 => 1 / 3
    | 4, 2 => 1 / 3
    | 4, 3 => 1 / 6
    | _, _ => 0
  b := fun
    | 0 => 1 / 6
    | 1 => 1 / 3
    | 2 => 1 / 3
    | 3 => 1 / 6
    | _ => 0
  r := fun
    | 3 => 1 / 6
    | 4 => -1 / 6
    | _ => 0

/-- The Dormand–Prince 5(4) pair (Hairer–Nørsett–Wanner, Table II.5.2); `r` is the difference of the two weight
vectors. -/
noncomputable def dormandPrince : Tableau where
  s := 7
  c := fun
    | 1 => 1 / 5
    | 2 => 3 / 10
    | 3 => 4 / 5
    | 4 => 8 / 9
    | 5 => 1
    | 6 => 1
    | _ => 0
  a := fun
    | 1, 0 => 1 / 5
    | 2, 0 => 3 / 40
    | 2, 1 => 9 / 40
    | 3, 0 => 44 / 45
    | 3, 1 => -56 / 15
    | 3, 2 => 32 / 9
    | 4, 0 => 19372 / 6561
    | 4, 1 => -25360 / 2187
    | 4, 2 => 64448 / 6561
    | 4, 3 => -212 / 729
    | 5, 0 => 9017 / 3168
    | 5, 1 => -355 / 33
    | 5, 2 => 46732 / 5247
    | 5, 3 => 49 / 176
    | 5, 4 => -5103 / 18656
    | 6, 0 => 35 / 384
    | 6, 2 => 500 / 1113
    | 6, 3 => 125 / 192
    | 6, 4 => -2187 / 6784
    | 6, 5 => 11 / 84
    | _, _ => 0
  b := fun
    | 0 => 35 / 384
    | 2 => 500 / 1113
    | 3 => 125 / 192
    | 4 => -2187 / 6784
    | 5 => 11 / 84
    | _ => 0
  r := fun
    | 0 => 35 / 384 - 5179 / 57600
    | 2 => 500 / 1113 - 7571 / 16695
    | 3 => 125 / 192 - 393 / 640
    | 4 => -2187 / 6784 - -92097 / 339200
    | 5 => 11 / 84 - 187 / 2100
    | 6 => -1 / 40
    | _ => 0

/-- The Dormand–Prince tableau with a given fourth error weight (the true one is `71/1920 = 125/192 - 393/640`). -/
noncomputable def dpWith (r4 : ℝ) : Tableau :=
  { dormandPrince with r := fun j => if j = 3 then r4 else dormandPrince.r j }

variable {ι : Type} [Fintype ι] [DecidableEq ι]

/-- `exp(θ L)` -/
noncomputable def expm (L : Mat ι) (θ : ℝ) : Mat ι := NormedSpace.exp ((θ : ℂ) • L)

/-- Lawson's integrating-factor transform of a tableau: apply the classical method to
`v(t) = exp(-(t - t_n) L) u(t)` and transform back. -/
noncomputable def lawson (T : Tableau) (L : Mat ι) (h : ℝ) : ERK ι where
  s := T.s
  E := fun i => expm L (T.c i * h)
  A := fun i j => ((h * T.a i j : ℝ) : ℂ) • expm L ((T.c i - T.c j) * h)
  Eout := expm L h
  B := fun j => ((h * T.b j : ℝ) : ℂ) • expm L ((1 - T.c j) * h)
  R := fun j => ((h * T.r j : ℝ) : ℂ) • expm L ((1 - T.c j) * h)

/-- Krogstad's ETDRK4 (J. Comput. Phys. 203 (2005), eq. (51) in φ form); stage 4 is the new solution and the error
estimate is `b_4 (N_3 - N_4)`. -/
noncomputable def krogstad (φ : ℕ → ℝ → Mat ι) (L : Mat ι) (h : ℝ) : ERK ι where
  s := 5
  E := fun
    | 1 => expm L (h / 2)
    | 2 => expm L (h / 2)
    | 3 => expm L h
    | 4 => expm L h
    | _ => 1
  A := fun i j => (h : ℂ) • (match i, j with
    | 1, 0 => (1 / 2 : ℂ) • φ 1 (1 / 2)
    | 2, 0 => (1 / 2 : ℂ) • φ 1 (1 / 2) - φ 2 (1 / 2)
    | 2, 1 => φ 2 (1 / 2)
    | 3, 0 => φ 1 1 - (2 : ℂ) • φ 2 1
    | 3, 2 => (2 : ℂ) • φ 2 1
    | 4, 0 => φ 1 1 - (3 : ℂ) • φ 2 1 + (4 : ℂ) • φ 3 1
    | 4, 1 => (2 : ℂ) • φ 2 1 - (4 : ℂ) • φ 3 1
    | 4, 2 => (2 : ℂ) • φ 2 1 - (4 : ℂ) • φ 3 1
    | 4, 3 => -φ 2 1 + (4 : ℂ) • φ 3 1
    | _, _ => 0)
  Eout := expm L h
  B := fun j => (h : ℂ) • (match j with
    | 0 => φ 1 1 - (3 : ℂ) • φ 2 1 + (4 : ℂ) • φ 3 1
    | 1 => (2 : ℂ) • φ 2 1 - (4 : ℂ) • φ 3 1
    | 2 => (2 : ℂ) • φ 2 1 - (4 : ℂ) • φ 3 1
    | 3 => -φ 2 1 + (4 : ℂ) • φ 3 1
    | _ => 0)
  R := fun j => (h : ℂ) • (match j with
    | 3 => -φ 2 1 + (4 : ℂ) • φ 3 1
    | 4 => -(-φ 2 1 + (4 : ℂ) • φ 3 1)
    | _ => 0)

/-- Fifth order exponential Runge–Kutta method of Whalen, Brio and Moloney (J. Comput. Phys. 280 (2015)), with
`ψ_k = k! φ_k`.  `fsal = true` adds the evaluation at the new solution (used by the constant-step solver) as a further
stage of weight zero.  The error weights are `b_5 (-1, 0, 4, -6, 4, -1)`. -/
noncomputable def etd5Method (fsal : Bool) (φ : ℕ → ℝ → Mat ι) (L : Mat ι) (h : ℝ) : ERK ι :=
  let ψ1 (c : ℝ) : Mat ι := φ 1 c
  let ψ2 (c : ℝ) : Mat ι := (2 : ℂ) • φ 2 c
  let ψ3 (c : ℝ) : Mat ι := (6 : ℂ) • φ 3 c
  let b (j : ℕ) : Mat ι := match j with
    | 0 => (7 / 2700 : ℂ) • ((257 : ℂ) • ψ1 1 - (497 : ℂ) • ψ2 1 + (270 : ℂ) • ψ3 1)
    | 2 => (1 / 1350 : ℂ) • ((1097 : ℂ) • ψ1 1 - (467 : ℂ) • ψ2 1 - (150 : ℂ) • ψ3 1)
    | 3 => (2 / 225 : ℂ) • (-(49 : ℂ) • ψ1 1 + (199 : ℂ) • ψ2 1 - (135 : ℂ) • ψ3 1)
    | 4 => (1 / 1350 : ℂ) • (-(313 : ℂ) • ψ1 1 + (883 : ℂ) • ψ2 1 - (90 : ℂ) • ψ3 1)
    | 5 => (1 / 2700 : ℂ) • ((509 : ℂ) • ψ1 1 - (2129 : ℂ) • ψ2 1 + (1830 : ℂ) • ψ3 1)
    | _ => 0
  { s := if fsal then 7 else 6
    E := fun
      | 1 => expm L (h / 4)
      | 2 => expm L (h / 4)
      | 3 => expm L (h / 2)
      | 4 => expm L (3 * h / 4)
      | 5 => expm L h
      | 6 => expm L h
      | _ => 1
    A := fun i j => (h : ℂ) • (match i, j with
      | 1, 0 => (1 / 4 : ℂ) • ψ1 (1 / 4)
      | 2, 0 => (1 / 4 : ℂ) • ψ1 (1 / 4) - (1 / 8 : ℂ) • ψ2 (1 / 4)
      | 2, 1 => (1 / 8 : ℂ) • ψ2 (1 / 4)
      | 3, 0 => (1 / 2 : ℂ) • ψ1 (1 / 2) - (1 / 2 : ℂ) • ψ2 (1 / 2)
      | 3, 2 => (1 / 2 : ℂ) • ψ2 (1 / 2)
      | 4, 0 => (3 / 4 : ℂ) • ψ1 (3 / 4) - (9 / 16 : ℂ) • ψ2 (3 / 4)
      | 4, 1 => -(3 / 8 : ℂ) • ψ1 (3 / 4)
      | 4, 2 => (3 / 8 : ℂ) • ψ1 (3 / 4)
      | 4, 3 => (9 / 16 : ℂ) • ψ2 (3 / 4)
      | 5, 0 => (1 / 42 : ℂ) • (-(77 : ℂ) • ψ1 1 + (59 : ℂ) • ψ2 1)
      | 5, 1 => (8 / 7 : ℂ) • ψ1 1
      | 5, 2 => (1 / 28 : ℂ) • ((111 : ℂ) • ψ1 1 - (87 : ℂ) • ψ2 1)
      | 5, 3 => -(12 / 7 : ℂ) • ψ1 1
      | 5, 4 => (1 / 84 : ℂ) • (-(47 : ℂ) • ψ1 1 + (143 : ℂ) • ψ2 1)
      | 6, j => b j
      | _, _ => 0)
    Eout := expm L h
    B := fun j => (h : ℂ) • b j
    R := fun j => (h : ℂ) • (match j with
      | 0 => -b 4
      | 2 => (4 : ℂ) • b 4
      | 3 => -(6 : ℂ) • b 4
      | 4 => (4 : ℂ) • b 4
      | 5 => -b 4
      | _ => 0) }

end Verif
