import Verif.Lemmas.BTable
import Verif.Lemmas.BExpand
import Mathlib.Tactic.Ring

/-!
# Order conditions of the named methods

Rational tables of the methods, and the finite checks of the order conditions.
-/

set_option linter.unusedSectionVars false

namespace Verif

open Matrix Finset Filter Topology Asymptotics
open scoped Matrix.Norms.Operator

/-- Table of the Lawson transform of a classical method. -/
def lawsonQ (s : ℕ) (c : ℕ → ℚ) (a : ℕ → ℕ → ℚ) (b r : ℕ → ℚ) : QTab where
  s := s
  c := c
  α := fun i j k => a i j * ((c i - c j) ^ k * (k.factorial : ℚ)⁻¹)
  β := fun j k => b j * ((1 - c j) ^ k * (k.factorial : ℚ)⁻¹)
  ρ := fun j k => r j * ((1 - c j) ^ k * (k.factorial : ℚ)⁻¹)

/-- Table of IF4 and IF34. -/
def rk4Q : QTab := lawsonQ 5
  (fun
    | 1 => 1 / 2
    | 2 => 1 / 2
    | 3 => 1
    | 4 => 1
    | _ => 0)
  (fun
    | 1, 0 => 1 / 2
    | 2, 1 => 1 / 2
    | 3, 2 => 1
    | 4, 0 => 1 / 6
    | 4, 1 => 1 / 3
    | 4, 2 => 1 / 3
    | 4, 3 => 1 / 6
    | _, _ => 0)
  (fun
    | 0 => 1 / 6
    | 1 => 1 / 3
    | 2 => 1 / 3
    | 3 => 1 / 6
    | _ => 0)
  (fun
    | 3 => 1 / 6
    | 4 => -1 / 6
    | _ => 0)

/-- Table of IF45DP, with the given fourth error weight. -/
def dpQ (r4 : ℚ) : QTab := lawsonQ 7
  (fun
    | 1 => 1 / 5
    | 2 => 3 / 10
    | 3 => 4 / 5
    | 4 => 8 / 9
    | 5 => 1
    | 6 => 1
    | _ => 0)
  (fun
    | 1, 0 => 1 / 5
    | 2, 0 => 3 / 40
    | 2, 1 => 9 / 40
    | 3, 0 => 44 / 45
    | 3, 1 => -56 / 15
    | 3, 2 => 32 / 9
    | 4, 0 => 19372 / 6561
    | 4, 1 => -25360 / 2187
    | 4, 2 => 64448 / 6561
    | 4, 3 => -212 / 729
    | 5, 0 => 9017 / 3168
    | 5, 1 => -355 / 33
    | 5, 2 => 46732 / 5247
    | 5, 3 => 49 / 176
    | 5, 4 => -5103 / 18656
    | 6, 0 => 35 / 384
    | 6, 2 => 500 / 1113
    | 6, 3 => 125 / 192
    | 6, 4 => -2187 / 6784
    | 6, 5 => 11 / 84
    | _, _ => 0)
  (fun
    | 0 => 35 / 384
    | 2 => 500 / 1113
    | 3 => 125 / 192
    | 4 => -2187 / 6784
    | 5 => 11 / 84
    | _ => 0)
  (fun
    | 0 => 35 / 384 - 5179 / 57600
    | 2 => 500 / 1113 - 7571 / 16695
    | 3 => r4
    | 4 => -2187 / 6784 - -92097 / 339200
    | 5 => 11 / 84 - 187 / 2100
    | 6 => -1 / 40
    | _ => 0)

/-- Coefficient of `z^n` in `φ_k(c z)`. -/
def phiQ (k : ℕ) (c : ℚ) (n : ℕ) : ℚ := c ^ n * ((n + k).factorial : ℚ)⁻¹

/-- Table of ETD4 and ETD34. -/
def krogstadQ : QTab where
  s := 5
  c := fun
    | 1 => 1 / 2
    | 2 => 1 / 2
    | 3 => 1
    | 4 => 1
    | _ => 0
  α := fun i j n => match i, j with
    | 1, 0 => 1 / 2 * phiQ 1 (1 / 2) n
    | 2, 0 => 1 / 2 * phiQ 1 (1 / 2) n - phiQ 2 (1 / 2) n
    | 2, 1 => phiQ 2 (1 / 2) n
    | 3, 0 => phiQ 1 1 n - 2 * phiQ 2 1 n
    | 3, 2 => 2 * phiQ 2 1 n
    | 4, 0 => phiQ 1 1 n - 3 * phiQ 2 1 n + 4 * phiQ 3 1 n
    | 4, 1 => 2 * phiQ 2 1 n - 4 * phiQ 3 1 n
    | 4, 2 => 2 * phiQ 2 1 n - 4 * phiQ 3 1 n
    | 4, 3 => -phiQ 2 1 n + 4 * phiQ 3 1 n
    | _, _ => 0
  β := fun j n => match j with
    | 0 => phiQ 1 1 n - 3 * phiQ 2 1 n + 4 * phiQ 3 1 n
    | 1 => 2 * phiQ 2 1 n - 4 * phiQ 3 1 n
    | 2 => 2 * phiQ 2 1 n - 4 * phiQ 3 1 n
    | 3 => -phiQ 2 1 n + 4 * phiQ 3 1 n
    | _ => 0
  ρ := fun j n => match j with
    | 3 => -phiQ 2 1 n + 4 * phiQ 3 1 n
    | 4 => -(-phiQ 2 1 n + 4 * phiQ 3 1 n)
    | _ => 0

/-- Weights of ETD5 and ETD35. -/
def etd5B (j n : ℕ) : ℚ :=
  match j with
  | 0 => 7 / 2700 * (257 * phiQ 1 1 n - 497 * (2 * phiQ 2 1 n) + 270 * (6 * phiQ 3 1 n))
  | 2 => 1 / 1350 * (1097 * phiQ 1 1 n - 467 * (2 * phiQ 2 1 n) - 150 * (6 * phiQ 3 1 n))
  | 3 => 2 / 225 * (-49 * phiQ 1 1 n + 199 * (2 * phiQ 2 1 n) - 135 * (6 * phiQ 3 1 n))
  | 4 => 1 / 1350 * (-313 * phiQ 1 1 n + 883 * (2 * phiQ 2 1 n) - 90 * (6 * phiQ 3 1 n))
  | 5 => 1 / 2700 * (509 * phiQ 1 1 n - 2129 * (2 * phiQ 2 1 n) + 1830 * (6 * phiQ 3 1 n))
  | _ => 0

/-- Table of ETD5 and ETD35. -/
def etd5Q (fsal : Bool) : QTab where
  s := if fsal then 7 else 6
  c := fun
    | 1 => 1 / 4
    | 2 => 1 / 4
    | 3 => 1 / 2
    | 4 => 3 / 4
    | 5 => 1
    | 6 => 1
    | _ => 0
  α := fun i j n => match i, j with
    | 1, 0 => 1 / 4 * phiQ 1 (1 / 4) n
    | 2, 0 => 1 / 4 * phiQ 1 (1 / 4) n - 1 / 8 * (2 * phiQ 2 (1 / 4) n)
    | 2, 1 => 1 / 8 * (2 * phiQ 2 (1 / 4) n)
    | 3, 0 => 1 / 2 * phiQ 1 (1 / 2) n - 1 / 2 * (2 * phiQ 2 (1 / 2) n)
    | 3, 2 => 1 / 2 * (2 * phiQ 2 (1 / 2) n)
    | 4, 0 => 3 / 4 * phiQ 1 (3 / 4) n - 9 / 16 * (2 * phiQ 2 (3 / 4) n)
    | 4, 1 => -3 / 8 * phiQ 1 (3 / 4) n
    | 4, 2 => 3 / 8 * phiQ 1 (3 / 4) n
    | 4, 3 => 9 / 16 * (2 * phiQ 2 (3 / 4) n)
    | 5, 0 => 1 / 42 * (-77 * phiQ 1 1 n + 59 * (2 * phiQ 2 1 n))
    | 5, 1 => 8 / 7 * phiQ 1 1 n
    | 5, 2 => 1 / 28 * (111 * phiQ 1 1 n - 87 * (2 * phiQ 2 1 n))
    | 5, 3 => -12 / 7 * phiQ 1 1 n
    | 5, 4 => 1 / 84 * (-47 * phiQ 1 1 n + 143 * (2 * phiQ 2 1 n))
    | 6, j => etd5B j n
    | _, _ => 0
  β := etd5B
  ρ := fun j n => match j with
    | 0 => -etd5B 4 n
    | 2 => 4 * etd5B 4 n
    | 3 => -6 * etd5B 4 n
    | 4 => 4 * etd5B 4 n
    | 5 => -etd5B 4 n
    | _ => 0

/-- Normalised coefficients of trees of order below 4. -/
def rk4P : List (List (List ℚ)) :=
  [[],
  [[0, 1/2, 1/2, 1, 1]],
  [[0, 1/4, 1/4, 1, 1],
   [0, 0, 1/2, 1, 1],
   [0, 1/2, 0, 1, 1]],
  [[0, 1/8, 1/8, 1, 1],
   [0, 0, 3/8, 3/4, 1],
   [0, 0, 0, 3/2, 1],
   [0, 0, 3/4, 0, 1],
   [0, 3/8, 0, 3/4, 1]]]

/-- Normalised coefficients of products of total order below 4. -/
def rk4S : List (List (List ℚ)) :=
  [[[1, 1, 1, 1, 1]],
  [[0, 1/2, 1/2, 1, 1]],
  [[0, 1/4, 1/4, 1, 1],
   [0, 0, 1/2, 1, 1],
   [0, 1/2, 0, 1, 1]],
  [[0, 1/8, 1/8, 1, 1],
   [0, 0, 3/8, 3/4, 1],
   [0, 0, 0, 3/2, 1],
   [0, 0, 3/4, 0, 1],
   [0, 3/8, 0, 3/4, 1],
   [0, 0, 1/4, 1, 1],
   [0, 1/4, 0, 1, 1]]]

/-- Normalised coefficients of trees of order below 5. -/
def dpP : List (List (List ℚ)) :=
  [[],
  [[0, 1/5, 3/10, 4/5, 8/9, 1, 1]],
  [[0, 1/25, 9/100, 16/25, 64/81, 1, 1],
   [0, 0, 9/100, 16/25, 64/81, 1, 1],
   [0, 2/25, 9/100, 16/25, 64/81, 1, 1]],
  [[0, 1/125, 27/1000, 64/125, 512/729, 1, 1],
   [0, 0, 27/1000, 64/125, 512/729, 1, 1],
   [0, 0, 0, 24/25, 848/405, 126/55, 1],
   [0, 0, 27/500, 8/125, -2512/3645, -16/55, 1],
   [0, 3/125, 27/1000, 64/125, 512/729, 1, 1]],
  [[0, 1/625, 81/10000, 256/625, 4096/6561, 1, 1],
   [0, 0, 9/1250, 496/1875, 5152/54675, 346/825, 1],
   [0, 0, 0, 48/125, 1696/3645, 42/55, 1],
   [0, 0, 0, 0, -6784/6075, -336/275, 1],
   [0, 0, 0, 96/125, 37312/18225, 756/275, 1],
   [0, 0, 27/1250, 16/625, -1312/2025, -74/275, 1],
   [0, 0, 9/625, 272/1875, -15136/54675, 62/825, 1],
   [0, 0, 27/2500, 528/625, 363232/164025, 754/275, 1],
   [0, 0, 0, 48/25, 22048/3645, 378/55, 1],
   [0, 0, 27/1250, -144/625, -265696/164025, -382/275, 1],
   [0, 0, 27/5000, -16/625, -158432/164025, -204/275, 1],
   [0, 4/625, 9/1000, 208/375, 189344/164025, 1304/825, 1]]]

/-- Normalised coefficients of products of total order below 5. -/
def dpS : List (List (List ℚ)) :=
  [[[1, 1, 1, 1, 1, 1, 1]],
  [[0, 1/5, 3/10, 4/5, 8/9, 1, 1]],
  [[0, 1/25, 9/100, 16/25, 64/81, 1, 1],
   [0, 0, 9/100, 16/25, 64/81, 1, 1],
   [0, 2/25, 9/100, 16/25, 64/81, 1, 1]],
  [[0, 1/125, 27/1000, 64/125, 512/729, 1, 1],
   [0, 0, 27/1000, 64/125, 512/729, 1, 1],
   [0, 0, 0, 24/25, 848/405, 126/55, 1],
   [0, 0, 27/500, 8/125, -2512/3645, -16/55, 1],
   [0, 3/125, 27/1000, 64/125, 512/729, 1, 1],
   [0, 2/125, 27/1000, 64/125, 512/729, 1, 1]],
  [[0, 1/625, 81/10000, 256/625, 4096/6561, 1, 1],
   [0, 0, 9/1250, 496/1875, 5152/54675, 346/825, 1],
   [0, 0, 0, 48/125, 1696/3645, 42/55, 1],
   [0, 0, 0, 0, -6784/6075, -336/275, 1],
   [0, 0, 0, 96/125, 37312/18225, 756/275, 1],
   [0, 0, 27/1250, 16/625, -1312/2025, -74/275, 1],
   [0, 0, 9/625, 272/1875, -15136/54675, 62/825, 1],
   [0, 0, 27/2500, 528/625, 363232/164025, 754/275, 1],
   [0, 0, 0, 48/25, 22048/3645, 378/55, 1],
   [0, 0, 27/1250, -144/625, -265696/164025, -382/275, 1],
   [0, 0, 27/5000, -16/625, -158432/164025, -204/275, 1],
   [0, 4/625, 9/1000, 208/375, 189344/164025, 1304/825, 1],
   [0, 0, 81/10000, 256/625, 4096/6561, 1, 1],
   [0, 0, 0, 96/125, 6784/3645, 126/55, 1],
   [0, 0, 81/5000, 32/625, -20096/32805, -16/55, 1],
   [0, 3/625, 81/10000, 256/625, 4096/6561, 1, 1],
   [0, 2/625, 81/10000, 256/625, 4096/6561, 1, 1],
   [0, 4/625, 81/10000, 256/625, 4096/6561, 1, 1]]]

/-- Normalised coefficients of trees of order below 4. -/
def krogstadP : List (List (List ℚ)) :=
  [[],
  [[0, 1/2, 1/2, 1, 1]],
  [[0, 1/4, 1/4, 1, 1],
   [0, 0, 1/2, 1, 1]],
  [[0, 1/8, 1/8, 1, 1],
   [0, 0, 3/8, 3/4, 1],
   [0, 0, 0, 3/2, 1],
   [0, 0, 1/4, 1, 1]]]

/-- Normalised coefficients of products of total order below 4. -/
def krogstadS : List (List (List ℚ)) :=
  [[[1, 1, 1, 1, 1]],
  [[0, 1/2, 1/2, 1, 1]],
  [[0, 1/4, 1/4, 1, 1],
   [0, 0, 1/2, 1, 1]],
  [[0, 1/8, 1/8, 1, 1],
   [0, 0, 3/8, 3/4, 1],
   [0, 0, 0, 3/2, 1],
   [0, 0, 1/4, 1, 1]]]

/-- Normalised coefficients of trees of order below 5. -/
def etd5P : List (List (List ℚ)) :=
  [[],
  [[0, 1/4, 1/4, 1/2, 3/4, 1]],
  [[0, 1/16, 1/16, 1/4, 9/16, 1],
   [0, 0, 1/16, 1/4, 9/16, 1]],
  [[0, 1/64, 1/64, 1/8, 27/64, 1],
   [0, 0, 3/128, 3/32, 27/64, 57/56],
   [0, 0, 0, 3/32, 63/128, 45/56],
   [0, 0, 1/64, 1/8, 27/64, 1]],
  [[0, 1/256, 1/256, 1/16, 81/256, 1],
   [0, 0, 1/128, 1/32, 9/32, 67/56],
   [0, 0, 0, 3/64, 63/256, 153/112],
   [0, 0, 0, 0, 27/128, 45/28],
   [0, 0, 0, 1/32, 39/128, 9/8],
   [0, 0, 1/128, 1/16, 27/64, 57/112],
   [0, 0, 0, 1/16, 135/256, 9/112],
   [0, 0, 1/256, 1/16, 81/256, 1]]]

/-- Normalised coefficients of products of total order below 5. -/
def etd5S : List (List (List ℚ)) :=
  [[[1, 1, 1, 1, 1, 1]],
  [[0, 1/4, 1/4, 1/2, 3/4, 1]],
  [[0, 1/16, 1/16, 1/4, 9/16, 1],
   [0, 0, 1/16, 1/4, 9/16, 1]],
  [[0, 1/64, 1/64, 1/8, 27/64, 1],
   [0, 0, 3/128, 3/32, 27/64, 57/56],
   [0, 0, 0, 3/32, 63/128, 45/56],
   [0, 0, 1/64, 1/8, 27/64, 1]],
  [[0, 1/256, 1/256, 1/16, 81/256, 1],
   [0, 0, 1/128, 1/32, 9/32, 67/56],
   [0, 0, 0, 3/64, 63/256, 153/112],
   [0, 0, 0, 0, 27/128, 45/28],
   [0, 0, 0, 1/32, 39/128, 9/8],
   [0, 0, 1/128, 1/16, 27/64, 57/112],
   [0, 0, 0, 1/16, 135/256, 9/112],
   [0, 0, 1/256, 1/16, 81/256, 1],
   [0, 0, 3/512, 3/64, 81/256, 57/56],
   [0, 0, 0, 3/64, 189/512, 45/56]]]

/-- Normalised coefficients of trees of order below 5. -/
def etd5fP : List (List (List ℚ)) :=
  [[],
  [[0, 1/4, 1/4, 1/2, 3/4, 1, 1]],
  [[0, 1/16, 1/16, 1/4, 9/16, 1, 1],
   [0, 0, 1/16, 1/4, 9/16, 1, 1]],
  [[0, 1/64, 1/64, 1/8, 27/64, 1, 1],
   [0, 0, 3/128, 3/32, 27/64, 57/56, 1],
   [0, 0, 0, 3/32, 63/128, 45/56, 1],
   [0, 0, 1/64, 1/8, 27/64, 1, 1]],
  [[0, 1/256, 1/256, 1/16, 81/256, 1, 1],
   [0, 0, 1/128, 1/32, 9/32, 67/56, 1],
   [0, 0, 0, 3/64, 63/256, 153/112, 1],
   [0, 0, 0, 0, 27/128, 45/28, 1],
   [0, 0, 0, 1/32, 39/128, 9/8, 1],
   [0, 0, 1/128, 1/16, 27/64, 57/112, 1],
   [0, 0, 0, 1/16, 135/256, 9/112, 1],
   [0, 0, 1/256, 1/16, 81/256, 1, 1]]]

/-- Normalised coefficients of products of total order below 5. -/
def etd5fS : List (List (List ℚ)) :=
  [[[1, 1, 1, 1, 1, 1, 1]],
  [[0, 1/4, 1/4, 1/2, 3/4, 1, 1]],
  [[0, 1/16, 1/16, 1/4, 9/16, 1, 1],
   [0, 0, 1/16, 1/4, 9/16, 1, 1]],
  [[0, 1/64, 1/64, 1/8, 27/64, 1, 1],
   [0, 0, 3/128, 3/32, 27/64, 57/56, 1],
   [0, 0, 0, 3/32, 63/128, 45/56, 1],
   [0, 0, 1/64, 1/8, 27/64, 1, 1]],
  [[0, 1/256, 1/256, 1/16, 81/256, 1, 1],
   [0, 0, 1/128, 1/32, 9/32, 67/56, 1],
   [0, 0, 0, 3/64, 63/256, 153/112, 1],
   [0, 0, 0, 0, 27/128, 45/28, 1],
   [0, 0, 0, 1/32, 39/128, 9/8, 1],
   [0, 0, 1/128, 1/16, 27/64, 57/112, 1],
   [0, 0, 0, 1/16, 135/256, 9/112, 1],
   [0, 0, 1/256, 1/16, 81/256, 1, 1],
   [0, 0, 3/512, 3/64, 81/256, 57/56, 1],
   [0, 0, 0, 3/64, 189/512, 45/56, 1]]]

theorem rk4Q_closed : rk4Q.closed 4 rk4P rk4S = true := by decide +kernel
theorem rk4Q_fits : rk4Q.fits 4 rk4S = true := by decide +kernel
theorem rk4Q_cancels : rk4Q.cancels 3 rk4S = true := by decide +kernel
theorem dpQ_closed (r4 : ℚ) : (dpQ r4).closed 5 dpP dpS = true := by
  show (dpQ 0).closed 5 dpP dpS = true
  decide +kernel
theorem dpQ_fits (r4 : ℚ) : (dpQ r4).fits 5 dpS = true := by
  show (dpQ 0).fits 5 dpS = true
  decide +kernel
theorem dpQ_cancels : (dpQ (71 / 1920)).cancels 4 dpS = true := by decide +kernel
theorem krogstadQ_closed : krogstadQ.closed 4 krogstadP krogstadS = true := by decide +kernel
theorem krogstadQ_fits : krogstadQ.fits 4 krogstadS = true := by decide +kernel
theorem krogstadQ_cancels : krogstadQ.cancels 3 krogstadS = true := by decide +kernel
theorem etd5Q_closed : (etd5Q false).closed 5 etd5P etd5S = true := by decide +kernel
theorem etd5Q_fits : (etd5Q false).fits 4 etd5S = true := by decide +kernel
theorem etd5Q_cancels : (etd5Q false).cancels 3 etd5S = true := by decide +kernel
theorem etd5fQ_closed : (etd5Q true).closed 5 etd5fP etd5fS = true := by decide +kernel
theorem etd5fQ_fits : (etd5Q true).fits 4 etd5fS = true := by decide +kernel

theorem rk4Q_hasOrder : rk4Q.real.HasOrder 4 := QTab.hasOrder rk4Q_closed rk4Q_fits le_rfl
theorem dpQ_hasOrder (r4 : ℚ) : (dpQ r4).real.HasOrder 5 := QTab.hasOrder (dpQ_closed r4) (dpQ_fits r4) le_rfl
theorem krogstadQ_hasOrder : krogstadQ.real.HasOrder 4 := QTab.hasOrder krogstadQ_closed krogstadQ_fits le_rfl
theorem etd5Q_hasOrder (fsal : Bool) : (etd5Q fsal).real.HasOrder 4 := by
  cases fsal
  · exact QTab.hasOrder etd5Q_closed etd5Q_fits (by norm_num)
  · exact QTab.hasOrder etd5fQ_closed etd5fQ_fits (by norm_num)

variable {ι : Type} [Fintype ι] [DecidableEq ι]

theorem one_hasExp (L : Mat ι) : HasExp L (fun _ => 1) fun n => 0 ^ n * (n.factorial : ℝ)⁻¹ :=
  (expm_hasExp L 0).congr (fun h => by simp) fun _ => rfl

/-- Coefficients of a Lawson method. -/
theorem lawson_expands (T : Tableau) (Q : QTab) (L : Mat ι) (hs : T.s = Q.s) (hc : ∀ i, T.c i = Q.c i)
    (ha : ∀ i j k, Q.real.α i j k = T.a i j * ((T.c i - T.c j) ^ k * (k.factorial : ℝ)⁻¹))
    (hb : ∀ j k, Q.real.β j k = T.b j * ((1 - T.c j) ^ k * (k.factorial : ℝ)⁻¹))
    (hr : ∀ j k, Q.real.ρ j k = T.r j * ((1 - T.c j) ^ k * (k.factorial : ℝ)⁻¹)) :
    ERK.Expands (fun h => lawson T L h) L Q.real where
  s := fun h => hs
  E := fun n i _ => ((expm_hasExp L (T.c i)).congr (fun _ => rfl) fun k => by rw [hc]; rfl) n
  A := fun n i _ j _ => ((((expm_hasExp L (T.c i - T.c j)).smul (T.a i j : ℂ) (T.a i j) rfl).congr
      (fun _ => rfl) fun k => (ha i j k).symm).times_h n).congr_left fun h => by
        simp only [lawson, smul_smul, Complex.ofReal_mul]
  Eout := fun n => ((expm_hasExp L 1).congr (G' := fun h => expm L h) (fun _ => by rw [one_mul]) fun k => by rw [one_pow, one_mul]) n
  B := fun n j _ => ((((expm_hasExp L (1 - T.c j)).smul (T.b j : ℂ) (T.b j) rfl).congr
      (fun _ => rfl) fun k => (hb j k).symm).times_h n).congr_left fun h => by
        simp only [lawson, smul_smul, Complex.ofReal_mul]
  R := fun n j _ => ((((expm_hasExp L (1 - T.c j)).smul (T.r j : ℂ) (T.r j) rfl).congr
      (fun _ => rfl) fun k => (hr j k).symm).times_h n).congr_left fun h => by
        simp only [lawson, smul_smul, Complex.ofReal_mul]

theorem rk4_expands (L : Mat ι) : ERK.Expands (fun h => lawson rk4 L h) L rk4Q.real := by
  have hc : ∀ i, rk4.c i = rk4Q.c i := fun i => by
    simp only [rk4, rk4Q, lawsonQ]
    split <;> simp
  refine lawson_expands rk4 rk4Q L rfl hc (fun i j k => ?_) (fun j k => ?_) fun j k => ?_
  all_goals simp only [QTab.real]
  · have : rk4.a i j = ((match i, j with
        | 1, 0 => 1 / 2 | 2, 1 => 1 / 2 | 3, 2 => 1 | 4, 0 => 1 / 6 | 4, 1 => 1 / 3 | 4, 2 => 1 / 3 | 4, 3 => 1 / 6 | _, _ => 0 : ℚ) : ℝ) := by
      simp only [rk4]
      split <;> simp
    rw [this, hc, hc]
    simp only [rk4Q, lawsonQ]
    push_cast
    rfl
  · have : rk4.b j = ((match j with | 0 => 1 / 6 | 1 => 1 / 3 | 2 => 1 / 3 | 3 => 1 / 6 | _ => 0 : ℚ) : ℝ) := by
      simp only [rk4]
      split <;> simp
    rw [this, hc]
    simp only [rk4Q, lawsonQ]
    push_cast
    rfl
  · have : rk4.r j = ((match j with | 3 => 1 / 6 | 4 => -1 / 6 | _ => 0 : ℚ) : ℝ) := by
      simp only [rk4]
      split <;> simp
    rw [this, hc]
    simp only [rk4Q, lawsonQ]
    push_cast
    rfl

theorem dp_expands (r4 : ℚ) (L : Mat ι) : ERK.Expands (fun h => lawson (dpWith r4) L h) L (dpQ r4).real := by
  have hc : ∀ i, (dpWith r4).c i = (dpQ r4).c i := fun i => by
    simp only [dpWith, dormandPrince, dpQ, lawsonQ]
    split <;> simp
  refine lawson_expands (dpWith r4) (dpQ r4) L rfl hc (fun i j k => ?_) (fun j k => ?_) fun j k => ?_
  all_goals simp only [QTab.real]
  · rw [hc, hc]
    simp only [dpWith, dormandPrince, dpQ, lawsonQ]
    push_cast
    congr 1
    split <;> simp
  · rw [hc]
    simp only [dpWith, dormandPrince, dpQ, lawsonQ]
    push_cast
    congr 1
    split <;> simp
  · rw [hc]
    simp only [dpWith, dormandPrince, dpQ, lawsonQ]
    push_cast
    congr 1
    rcases j with _ | _ | _ | _ | _ | _ | _ | j
    · norm_num
    · norm_num
    · norm_num
    · norm_num
    · norm_num
    · norm_num
    · norm_num
    · rw [if_neg (by omega)]
      exact Rat.cast_zero

theorem phiQ_hasExp (L : Mat ι) (k : ℕ) (q : ℚ) (c : ℝ) (h : c = q) : HasExp L (fun h => phiExact L h k c) fun n => (phiQ k q n : ℝ) := by
  subst h
  exact (phiExact_hasExp L k q).congr (fun _ => rfl) fun n => by rw [phiQ]; push_cast; rfl

section

variable (L : Mat ι)

theorem krogstad_E {i : ℕ} (hi : i < 5) : HasExp L (fun h => (krogstad (phiExact L h) L h).E i)
    fun k => krogstadQ.real.c i ^ k * (k.factorial : ℝ)⁻¹ := by
  interval_cases i
  · exact (one_hasExp L).congr (fun x => by simp [krogstad, div_eq_inv_mul]) fun k => by simp [QTab.real, krogstadQ]
  · exact (expm_hasExp L (1 / 2)).congr (fun x => by simp [krogstad, div_eq_inv_mul]) fun k => by simp [QTab.real, krogstadQ]
  · exact (expm_hasExp L (1 / 2)).congr (fun x => by simp [krogstad, div_eq_inv_mul]) fun k => by simp [QTab.real, krogstadQ]
  · exact (expm_hasExp L 1).congr (fun x => by simp [krogstad, div_eq_inv_mul]) fun k => by simp [QTab.real, krogstadQ]
  · exact (expm_hasExp L 1).congr (fun x => by simp [krogstad, div_eq_inv_mul]) fun k => by simp [QTab.real, krogstadQ]

theorem krogstad_A {i j : ℕ} (hi : i < 5) (hj : j < i) (n : ℕ) :
    (fun h : ℝ => (krogstad (phiExact L h) L h).A i j - ∑ k ∈ range n, (krogstadQ.real.α i j k * h ^ (k + 1)) • L ^ k)
      =O[𝓝 0] fun h : ℝ => h ^ (n + 1) := by
  interval_cases i <;> interval_cases j
  · exact (HasExp.congr (HasExp.smul (phiQ_hasExp L 1 (1 / 2) (1 / 2) (by norm_num)) (1 / 2) (1 / 2) (by norm_num)) (fun _ => rfl) fun k => by simp only [QTab.real, krogstadQ]; push_cast; ring).times_h n
  · exact (HasExp.congr (HasExp.sub (HasExp.smul (phiQ_hasExp L 1 (1 / 2) (1 / 2) (by norm_num)) (1 / 2) (1 / 2) (by norm_num)) (phiQ_hasExp L 2 (1 / 2) (1 / 2) (by norm_num))) (fun _ => rfl) fun k => by simp only [QTab.real, krogstadQ]; push_cast; ring).times_h n
  · exact (HasExp.congr (phiQ_hasExp L 2 (1 / 2) (1 / 2) (by norm_num)) (fun _ => rfl) fun k => by simp only [QTab.real, krogstadQ]).times_h n
  · exact (HasExp.congr (HasExp.sub (phiQ_hasExp L 1 1 1 (by norm_num)) (HasExp.smul (phiQ_hasExp L 2 1 1 (by norm_num)) (2) (2) (by norm_num))) (fun _ => rfl) fun k => by simp only [QTab.real, krogstadQ]; push_cast; ring).times_h n
  · exact (HasExp.congr (HasExp.zero L) (fun _ => rfl) fun k => by simp only [QTab.real, krogstadQ]; push_cast; ring).times_h n
  · exact (HasExp.congr (HasExp.smul (phiQ_hasExp L 2 1 1 (by norm_num)) (2) (2) (by norm_num)) (fun _ => rfl) fun k => by simp only [QTab.real, krogstadQ]; push_cast; ring).times_h n
  · exact (HasExp.congr (HasExp.add (HasExp.sub (phiQ_hasExp L 1 1 1 (by norm_num)) (HasExp.smul (phiQ_hasExp L 2 1 1 (by norm_num)) (3) (3) (by norm_num))) (HasExp.smul (phiQ_hasExp L 3 1 1 (by norm_num)) (4) (4) (by norm_num))) (fun _ => rfl) fun k => by simp only [QTab.real, krogstadQ]; push_cast; ring).times_h n
  · exact (HasExp.congr (HasExp.sub (HasExp.smul (phiQ_hasExp L 2 1 1 (by norm_num)) (2) (2) (by norm_num)) (HasExp.smul (phiQ_hasExp L 3 1 1 (by norm_num)) (4) (4) (by norm_num))) (fun _ => rfl) fun k => by simp only [QTab.real, krogstadQ]; push_cast; ring).times_h n
  · exact (HasExp.congr (HasExp.sub (HasExp.smul (phiQ_hasExp L 2 1 1 (by norm_num)) (2) (2) (by norm_num)) (HasExp.smul (phiQ_hasExp L 3 1 1 (by norm_num)) (4) (4) (by norm_num))) (fun _ => rfl) fun k => by simp only [QTab.real, krogstadQ]; push_cast; ring).times_h n
  · exact (HasExp.congr (HasExp.add (HasExp.neg (phiQ_hasExp L 2 1 1 (by norm_num))) (HasExp.smul (phiQ_hasExp L 3 1 1 (by norm_num)) (4) (4) (by norm_num))) (fun _ => rfl) fun k => by simp only [QTab.real, krogstadQ]; push_cast; ring).times_h n

theorem krogstad_B {j : ℕ} (hj : j < 5) (n : ℕ) :
    (fun h : ℝ => (krogstad (phiExact L h) L h).B j - ∑ k ∈ range n, (krogstadQ.real.β j k * h ^ (k + 1)) • L ^ k)
      =O[𝓝 0] fun h : ℝ => h ^ (n + 1) := by
  interval_cases j
  · exact (HasExp.congr (HasExp.add (HasExp.sub (phiQ_hasExp L 1 1 1 (by norm_num)) (HasExp.smul (phiQ_hasExp L 2 1 1 (by norm_num)) (3) (3) (by norm_num))) (HasExp.smul (phiQ_hasExp L 3 1 1 (by norm_num)) (4) (4) (by norm_num))) (fun _ => rfl) fun k => by simp only [QTab.real, krogstadQ]; push_cast; ring).times_h n
  · exact (HasExp.congr (HasExp.sub (HasExp.smul (phiQ_hasExp L 2 1 1 (by norm_num)) (2) (2) (by norm_num)) (HasExp.smul (phiQ_hasExp L 3 1 1 (by norm_num)) (4) (4) (by norm_num))) (fun _ => rfl) fun k => by simp only [QTab.real, krogstadQ]; push_cast; ring).times_h n
  · exact (HasExp.congr (HasExp.sub (HasExp.smul (phiQ_hasExp L 2 1 1 (by norm_num)) (2) (2) (by norm_num)) (HasExp.smul (phiQ_hasExp L 3 1 1 (by norm_num)) (4) (4) (by norm_num))) (fun _ => rfl) fun k => by simp only [QTab.real, krogstadQ]; push_cast; ring).times_h n
  · exact (HasExp.congr (HasExp.add (HasExp.neg (phiQ_hasExp L 2 1 1 (by norm_num))) (HasExp.smul (phiQ_hasExp L 3 1 1 (by norm_num)) (4) (4) (by norm_num))) (fun _ => rfl) fun k => by simp only [QTab.real, krogstadQ]; push_cast; ring).times_h n
  · exact (HasExp.congr (HasExp.zero L) (fun _ => rfl) fun k => by simp only [QTab.real, krogstadQ]; push_cast; ring).times_h n

theorem krogstad_R {j : ℕ} (hj : j < 5) (n : ℕ) :
    (fun h : ℝ => (krogstad (phiExact L h) L h).R j - ∑ k ∈ range n, (krogstadQ.real.ρ j k * h ^ (k + 1)) • L ^ k)
      =O[𝓝 0] fun h : ℝ => h ^ (n + 1) := by
  interval_cases j
  · exact (HasExp.congr (HasExp.zero L) (fun _ => rfl) fun k => by simp only [QTab.real, krogstadQ]; push_cast; ring).times_h n
  · exact (HasExp.congr (HasExp.zero L) (fun _ => rfl) fun k => by simp only [QTab.real, krogstadQ]; push_cast; ring).times_h n
  · exact (HasExp.congr (HasExp.zero L) (fun _ => rfl) fun k => by simp only [QTab.real, krogstadQ]; push_cast; ring).times_h n
  · exact (HasExp.congr (HasExp.add (HasExp.neg (phiQ_hasExp L 2 1 1 (by norm_num))) (HasExp.smul (phiQ_hasExp L 3 1 1 (by norm_num)) (4) (4) (by norm_num))) (fun _ => rfl) fun k => by simp only [QTab.real, krogstadQ]; push_cast; ring).times_h n
  · exact (HasExp.congr (HasExp.neg (HasExp.add (HasExp.neg (phiQ_hasExp L 2 1 1 (by norm_num))) (HasExp.smul (phiQ_hasExp L 3 1 1 (by norm_num)) (4) (4) (by norm_num)))) (fun _ => rfl) fun k => by simp only [QTab.real, krogstadQ]; push_cast; ring).times_h n

theorem krogstad_expands : ERK.Expands (fun h => krogstad (phiExact L h) L h) L krogstadQ.real where
  s := fun _ => rfl
  E := fun n i hi => krogstad_E L hi n
  A := fun n i hi j hj => krogstad_A L hi hj n
  Eout := fun n => ((expm_hasExp L 1).congr (G' := fun h => expm L h) (fun _ => by rw [one_mul]) fun k => by rw [one_pow, one_mul]) n
  B := fun n j hj => krogstad_B L hj n
  R := fun n j hj => krogstad_R L hj n

theorem etd5_E (fsal : Bool) {i : ℕ} (hi : i < 7) : HasExp L (fun h => (etd5Method fsal (phiExact L h) L h).E i)
    fun k => (etd5Q fsal).real.c i ^ k * (k.factorial : ℝ)⁻¹ := by
  interval_cases i
  · exact (one_hasExp L).congr (fun x => by simp [etd5Method, div_eq_inv_mul]) fun k => by simp [QTab.real, etd5Q]
  · exact (expm_hasExp L (1 / 4)).congr (fun x => by simp [etd5Method, div_eq_inv_mul]) fun k => by simp [QTab.real, etd5Q]
  · exact (expm_hasExp L (1 / 4)).congr (fun x => by simp [etd5Method, div_eq_inv_mul]) fun k => by simp [QTab.real, etd5Q]
  · exact (expm_hasExp L (1 / 2)).congr (fun x => by simp [etd5Method, div_eq_inv_mul]) fun k => by simp [QTab.real, etd5Q]
  · exact (expm_hasExp L (3 / 4)).congr (fun x => by simp [etd5Method, div_eq_inv_mul, mul_assoc, mul_left_comm]) fun k => by simp [QTab.real, etd5Q]
  · exact (expm_hasExp L 1).congr (fun x => by simp [etd5Method, div_eq_inv_mul]) fun k => by simp [QTab.real, etd5Q]
  · exact (expm_hasExp L 1).congr (fun x => by simp [etd5Method, div_eq_inv_mul]) fun k => by simp [QTab.real, etd5Q]

theorem etd5_B (fsal : Bool) {j : ℕ} (hj : j < 7) (n : ℕ) :
    (fun h : ℝ => (etd5Method fsal (phiExact L h) L h).B j - ∑ k ∈ range n, ((etd5Q fsal).real.β j k * h ^ (k + 1)) • L ^ k)
      =O[𝓝 0] fun h : ℝ => h ^ (n + 1) := by
  interval_cases j
  · exact (HasExp.congr (HasExp.smul (HasExp.add (HasExp.sub (HasExp.smul (phiQ_hasExp L 1 1 1 (by norm_num)) (257) (257) (by norm_num)) (HasExp.smul (HasExp.smul (phiQ_hasExp L 2 1 1 (by norm_num)) (2) (2) (by norm_num)) (497) (497) (by norm_num))) (HasExp.smul (HasExp.smul (phiQ_hasExp L 3 1 1 (by norm_num)) (6) (6) (by norm_num)) (270) (270) (by norm_num))) (7 / 2700) (7 / 2700) (by norm_num)) (fun _ => rfl) fun k => by simp only [QTab.real, etd5Q, etd5B]; push_cast; ring).times_h n
  · exact (HasExp.congr (HasExp.zero L) (fun _ => rfl) fun k => by simp only [QTab.real, etd5Q, etd5B]; push_cast; ring).times_h n
  · exact (HasExp.congr (HasExp.smul (HasExp.sub (HasExp.sub (HasExp.smul (phiQ_hasExp L 1 1 1 (by norm_num)) (1097) (1097) (by norm_num)) (HasExp.smul (HasExp.smul (phiQ_hasExp L 2 1 1 (by norm_num)) (2) (2) (by norm_num)) (467) (467) (by norm_num))) (HasExp.smul (HasExp.smul (phiQ_hasExp L 3 1 1 (by norm_num)) (6) (6) (by norm_num)) (150) (150) (by norm_num))) (1 / 1350) (1 / 1350) (by norm_num)) (fun _ => rfl) fun k => by simp only [QTab.real, etd5Q, etd5B]; push_cast; ring).times_h n
  · exact (HasExp.congr (HasExp.smul (HasExp.sub (HasExp.add (HasExp.smul (phiQ_hasExp L 1 1 1 (by norm_num)) (-(49)) (-(49)) (by norm_num)) (HasExp.smul (HasExp.smul (phiQ_hasExp L 2 1 1 (by norm_num)) (2) (2) (by norm_num)) (199) (199) (by norm_num))) (HasExp.smul (HasExp.smul (phiQ_hasExp L 3 1 1 (by norm_num)) (6) (6) (by norm_num)) (135) (135) (by norm_num))) (2 / 225) (2 / 225) (by norm_num)) (fun _ => rfl) fun k => by simp only [QTab.real, etd5Q, etd5B]; push_cast; ring).times_h n
  · exact (HasExp.congr (HasExp.smul (HasExp.sub (HasExp.add (HasExp.smul (phiQ_hasExp L 1 1 1 (by norm_num)) (-(313)) (-(313)) (by norm_num)) (HasExp.smul (HasExp.smul (phiQ_hasExp L 2 1 1 (by norm_num)) (2) (2) (by norm_num)) (883) (883) (by norm_num))) (HasExp.smul (HasExp.smul (phiQ_hasExp L 3 1 1 (by norm_num)) (6) (6) (by norm_num)) (90) (90) (by norm_num))) (1 / 1350) (1 / 1350) (by norm_num)) (fun _ => rfl) fun k => by simp only [QTab.real, etd5Q, etd5B]; push_cast; ring).times_h n
  · exact (HasExp.congr (HasExp.smul (HasExp.add (HasExp.sub (HasExp.smul (phiQ_hasExp L 1 1 1 (by norm_num)) (509) (509) (by norm_num)) (HasExp.smul (HasExp.smul (phiQ_hasExp L 2 1 1 (by norm_num)) (2) (2) (by norm_num)) (2129) (2129) (by norm_num))) (HasExp.smul (HasExp.smul (phiQ_hasExp L 3 1 1 (by norm_num)) (6) (6) (by norm_num)) (1830) (1830) (by norm_num))) (1 / 2700) (1 / 2700) (by norm_num)) (fun _ => rfl) fun k => by simp only [QTab.real, etd5Q, etd5B]; push_cast; ring).times_h n
  · exact (HasExp.congr (HasExp.zero L) (fun _ => rfl) fun k => by simp only [QTab.real, etd5Q, etd5B]; push_cast; ring).times_h n

theorem etd5_A (fsal : Bool) {i j : ℕ} (hi : i < 7) (hj : j < i) (n : ℕ) :
    (fun h : ℝ => (etd5Method fsal (phiExact L h) L h).A i j - ∑ k ∈ range n, ((etd5Q fsal).real.α i j k * h ^ (k + 1)) • L ^ k)
      =O[𝓝 0] fun h : ℝ => h ^ (n + 1) := by
  by_cases h6 : i = 6
  · subst h6
    exact etd5_B L fsal (by omega) n
  have hi' : i < 6 := by omega
  clear h6 hi
  interval_cases i <;> interval_cases j
  · exact (HasExp.congr (HasExp.smul (phiQ_hasExp L 1 (1 / 4) (1 / 4) (by norm_num)) (1 / 4) (1 / 4) (by norm_num)) (fun _ => rfl) fun k => by simp only [QTab.real, etd5Q]; push_cast; ring).times_h n
  · exact (HasExp.congr (HasExp.sub (HasExp.smul (phiQ_hasExp L 1 (1 / 4) (1 / 4) (by norm_num)) (1 / 4) (1 / 4) (by norm_num)) (HasExp.smul (HasExp.smul (phiQ_hasExp L 2 (1 / 4) (1 / 4) (by norm_num)) (2) (2) (by norm_num)) (1 / 8) (1 / 8) (by norm_num))) (fun _ => rfl) fun k => by simp only [QTab.real, etd5Q]; push_cast; ring).times_h n
  · exact (HasExp.congr (HasExp.smul (HasExp.smul (phiQ_hasExp L 2 (1 / 4) (1 / 4) (by norm_num)) (2) (2) (by norm_num)) (1 / 8) (1 / 8) (by norm_num)) (fun _ => rfl) fun k => by simp only [QTab.real, etd5Q]; push_cast; ring).times_h n
  · exact (HasExp.congr (HasExp.sub (HasExp.smul (phiQ_hasExp L 1 (1 / 2) (1 / 2) (by norm_num)) (1 / 2) (1 / 2) (by norm_num)) (HasExp.smul (HasExp.smul (phiQ_hasExp L 2 (1 / 2) (1 / 2) (by norm_num)) (2) (2) (by norm_num)) (1 / 2) (1 / 2) (by norm_num))) (fun _ => rfl) fun k => by simp only [QTab.real, etd5Q]; push_cast; ring).times_h n
  · exact (HasExp.congr (HasExp.zero L) (fun _ => rfl) fun k => by simp only [QTab.real, etd5Q]; push_cast; ring).times_h n
  · exact (HasExp.congr (HasExp.smul (HasExp.smul (phiQ_hasExp L 2 (1 / 2) (1 / 2) (by norm_num)) (2) (2) (by norm_num)) (1 / 2) (1 / 2) (by norm_num)) (fun _ => rfl) fun k => by simp only [QTab.real, etd5Q]; push_cast; ring).times_h n
  · exact (HasExp.congr (HasExp.sub (HasExp.smul (phiQ_hasExp L 1 (3 / 4) (3 / 4) (by norm_num)) (3 / 4) (3 / 4) (by norm_num)) (HasExp.smul (HasExp.smul (phiQ_hasExp L 2 (3 / 4) (3 / 4) (by norm_num)) (2) (2) (by norm_num)) (9 / 16) (9 / 16) (by norm_num))) (fun _ => rfl) fun k => by simp only [QTab.real, etd5Q]; push_cast; ring).times_h n
  · exact (HasExp.congr (HasExp.smul (phiQ_hasExp L 1 (3 / 4) (3 / 4) (by norm_num)) (-(3 / 8)) (-(3 / 8)) (by norm_num)) (fun _ => rfl) fun k => by simp only [QTab.real, etd5Q]; push_cast; ring).times_h n
  · exact (HasExp.congr (HasExp.smul (phiQ_hasExp L 1 (3 / 4) (3 / 4) (by norm_num)) (3 / 8) (3 / 8) (by norm_num)) (fun _ => rfl) fun k => by simp only [QTab.real, etd5Q]; push_cast; ring).times_h n
  · exact (HasExp.congr (HasExp.smul (HasExp.smul (phiQ_hasExp L 2 (3 / 4) (3 / 4) (by norm_num)) (2) (2) (by norm_num)) (9 / 16) (9 / 16) (by norm_num)) (fun _ => rfl) fun k => by simp only [QTab.real, etd5Q]; push_cast; ring).times_h n
  · exact (HasExp.congr (HasExp.smul (HasExp.add (HasExp.smul (phiQ_hasExp L 1 1 1 (by norm_num)) (-(77)) (-(77)) (by norm_num)) (HasExp.smul (HasExp.smul (phiQ_hasExp L 2 1 1 (by norm_num)) (2) (2) (by norm_num)) (59) (59) (by norm_num))) (1 / 42) (1 / 42) (by norm_num)) (fun _ => rfl) fun k => by simp only [QTab.real, etd5Q]; push_cast; ring).times_h n
  · exact (HasExp.congr (HasExp.smul (phiQ_hasExp L 1 1 1 (by norm_num)) (8 / 7) (8 / 7) (by norm_num)) (fun _ => rfl) fun k => by simp only [QTab.real, etd5Q]; push_cast; ring).times_h n
  · exact (HasExp.congr (HasExp.smul (HasExp.sub (HasExp.smul (phiQ_hasExp L 1 1 1 (by norm_num)) (111) (111) (by norm_num)) (HasExp.smul (HasExp.smul (phiQ_hasExp L 2 1 1 (by norm_num)) (2) (2) (by norm_num)) (87) (87) (by norm_num))) (1 / 28) (1 / 28) (by norm_num)) (fun _ => rfl) fun k => by simp only [QTab.real, etd5Q]; push_cast; ring).times_h n
  · exact (HasExp.congr (HasExp.smul (phiQ_hasExp L 1 1 1 (by norm_num)) (-(12 / 7)) (-(12 / 7)) (by norm_num)) (fun _ => rfl) fun k => by simp only [QTab.real, etd5Q]; push_cast; ring).times_h n
  · exact (HasExp.congr (HasExp.smul (HasExp.add (HasExp.smul (phiQ_hasExp L 1 1 1 (by norm_num)) (-(47)) (-(47)) (by norm_num)) (HasExp.smul (HasExp.smul (phiQ_hasExp L 2 1 1 (by norm_num)) (2) (2) (by norm_num)) (143) (143) (by norm_num))) (1 / 84) (1 / 84) (by norm_num)) (fun _ => rfl) fun k => by simp only [QTab.real, etd5Q]; push_cast; ring).times_h n

theorem etd5_R (fsal : Bool) {j : ℕ} (hj : j < 7) (n : ℕ) :
    (fun h : ℝ => (etd5Method fsal (phiExact L h) L h).R j - ∑ k ∈ range n, ((etd5Q fsal).real.ρ j k * h ^ (k + 1)) • L ^ k)
      =O[𝓝 0] fun h : ℝ => h ^ (n + 1) := by
  interval_cases j
  · exact (HasExp.congr (HasExp.neg (HasExp.smul (HasExp.sub (HasExp.add (HasExp.smul (phiQ_hasExp L 1 1 1 (by norm_num)) (-(313)) (-(313)) (by norm_num)) (HasExp.smul (HasExp.smul (phiQ_hasExp L 2 1 1 (by norm_num)) (2) (2) (by norm_num)) (883) (883) (by norm_num))) (HasExp.smul (HasExp.smul (phiQ_hasExp L 3 1 1 (by norm_num)) (6) (6) (by norm_num)) (90) (90) (by norm_num))) (1 / 1350) (1 / 1350) (by norm_num))) (fun _ => rfl) fun k => by simp only [QTab.real, etd5Q, etd5B]; push_cast; ring).times_h n
  · exact (HasExp.congr (HasExp.zero L) (fun _ => rfl) fun k => by simp only [QTab.real, etd5Q, etd5B]; push_cast; ring).times_h n
  · exact (HasExp.congr (HasExp.smul (HasExp.smul (HasExp.sub (HasExp.add (HasExp.smul (phiQ_hasExp L 1 1 1 (by norm_num)) (-(313)) (-(313)) (by norm_num)) (HasExp.smul (HasExp.smul (phiQ_hasExp L 2 1 1 (by norm_num)) (2) (2) (by norm_num)) (883) (883) (by norm_num))) (HasExp.smul (HasExp.smul (phiQ_hasExp L 3 1 1 (by norm_num)) (6) (6) (by norm_num)) (90) (90) (by norm_num))) (1 / 1350) (1 / 1350) (by norm_num)) (4) (4) (by norm_num)) (fun _ => rfl) fun k => by simp only [QTab.real, etd5Q, etd5B]; push_cast; ring).times_h n
  · exact (HasExp.congr (HasExp.smul (HasExp.smul (HasExp.sub (HasExp.add (HasExp.smul (phiQ_hasExp L 1 1 1 (by norm_num)) (-(313)) (-(313)) (by norm_num)) (HasExp.smul (HasExp.smul (phiQ_hasExp L 2 1 1 (by norm_num)) (2) (2) (by norm_num)) (883) (883) (by norm_num))) (HasExp.smul (HasExp.smul (phiQ_hasExp L 3 1 1 (by norm_num)) (6) (6) (by norm_num)) (90) (90) (by norm_num))) (1 / 1350) (1 / 1350) (by norm_num)) (-(6)) (-(6)) (by norm_num)) (fun _ => rfl) fun k => by simp only [QTab.real, etd5Q, etd5B]; push_cast; ring).times_h n
  · exact (HasExp.congr (HasExp.smul (HasExp.smul (HasExp.sub (HasExp.add (HasExp.smul (phiQ_hasExp L 1 1 1 (by norm_num)) (-(313)) (-(313)) (by norm_num)) (HasExp.smul (HasExp.smul (phiQ_hasExp L 2 1 1 (by norm_num)) (2) (2) (by norm_num)) (883) (883) (by norm_num))) (HasExp.smul (HasExp.smul (phiQ_hasExp L 3 1 1 (by norm_num)) (6) (6) (by norm_num)) (90) (90) (by norm_num))) (1 / 1350) (1 / 1350) (by norm_num)) (4) (4) (by norm_num)) (fun _ => rfl) fun k => by simp only [QTab.real, etd5Q, etd5B]; push_cast; ring).times_h n
  · exact (HasExp.congr (HasExp.neg (HasExp.smul (HasExp.sub (HasExp.add (HasExp.smul (phiQ_hasExp L 1 1 1 (by norm_num)) (-(313)) (-(313)) (by norm_num)) (HasExp.smul (HasExp.smul (phiQ_hasExp L 2 1 1 (by norm_num)) (2) (2) (by norm_num)) (883) (883) (by norm_num))) (HasExp.smul (HasExp.smul (phiQ_hasExp L 3 1 1 (by norm_num)) (6) (6) (by norm_num)) (90) (90) (by norm_num))) (1 / 1350) (1 / 1350) (by norm_num))) (fun _ => rfl) fun k => by simp only [QTab.real, etd5Q, etd5B]; push_cast; ring).times_h n
  · exact (HasExp.congr (HasExp.zero L) (fun _ => rfl) fun k => by simp only [QTab.real, etd5Q, etd5B]; push_cast; ring).times_h n

theorem etd5_expands (fsal : Bool) : ERK.Expands (fun h => etd5Method fsal (phiExact L h) L h) L (etd5Q fsal).real := by
  have hs : (etd5Q fsal).s ≤ 7 := by cases fsal <;> simp [etd5Q]
  exact
  { s := fun _ => rfl
    E := fun n i hi => etd5_E L fsal (lt_of_lt_of_le hi hs) n
    A := fun n i hi j hj => etd5_A L fsal (lt_of_lt_of_le hi hs) hj n
    Eout := fun n => ((expm_hasExp L 1).congr (G' := fun h => expm L h) (fun _ => by rw [one_mul]) fun k => by rw [one_pow, one_mul]) n
    B := fun n j hj => etd5_B L fsal (lt_of_lt_of_le hj hs) n
    R := fun n j hj => etd5_R L fsal (lt_of_lt_of_le hj hs) n }

end

end Verif
