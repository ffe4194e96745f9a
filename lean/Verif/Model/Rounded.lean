import Verif.Model.Heap

/-!
# The solvers with inexact array arithmetic

In the other modules arithmetic on arrays is exact.  Here the bodies of `n1_init` and `update_stages` are given as syntax
trees, in the order in which Python evaluates them, and are run with an arbitrary implementation of the array operations
(`Arith`), an arbitrary function that computes the coefficients (it may raise), and an arbitrary computation of the error
factor `_compute_s`.  Nothing is assumed about these here; the theorems assume that they are close to the exact ones.  The
operations are deterministic functions of their operands.  `nl_func` is the function that is computed, with its own
rounding.

Coefficients that are scalars in the code (`_a76`, `_r6`, `_r7` of IF45DP), the step size and literals are broadcast
before the operation; NumPy does the same operation on every entry.
-/

set_option linter.unusedSectionVars false

namespace Verif

open Matrix

variable {ι : Type}

/-- An implementation of the operations on arrays: `x + y`, `x - y`, `x * y`, `x / n` for a literal `n`, and `A.dot(x)`.
Changing the sign is exact. -/
structure Arith (ι : Type) where
  add : Vec ι → Vec ι → Vec ι
  sub : Vec ι → Vec ι → Vec ι
  mul : Vec ι → Vec ι → Vec ι
  quot : Vec ι → ℕ → Vec ι
  dot : Mat ι → Vec ι → Vec ι

/-- Exact arithmetic. -/
noncomputable def Arith.exact [Fintype ι] : Arith ι := ⟨(· + ·), (· - ·), (· * ·), fun v n => v / bc n, (· *ᵥ ·)⟩

/-- An expression that makes a new array. -/
inductive Exp (Coef ι : Type) where
  /-- the argument or an attribute that holds an array -/
  | var (a : Attr)
  /-- a coefficient array -/
  | cof (p : Coef → Vec ι)
  /-- the step size `h` -/
  | size
  /-- a literal -/
  | num (n : ℕ)
  | add (e f : Exp Coef ι)
  | sub (e f : Exp Coef ι)
  | mul (e f : Exp Coef ι)
  | neg (e : Exp Coef ι)
  /-- `e / n` for a literal `n` -/
  | over (e : Exp Coef ι) (n : ℕ)
  /-- `self.p.dot(e)` for a coefficient matrix -/
  | dot (p : Coef → Mat ι) (e : Exp Coef ι)
  /-- `self._S.dot(e)`, `self._Sinv.dot(e)` -/
  | fix (A : Mat ι) (e : Exp Coef ι)

namespace Exp

variable {Coef : Type}

instance : Add (Exp Coef ι) := ⟨add⟩
instance : Sub (Exp Coef ι) := ⟨sub⟩
instance : Mul (Exp Coef ι) := ⟨mul⟩
instance : Neg (Exp Coef ι) := ⟨neg⟩

/-- The array an expression evaluates to. -/
noncomputable def eval (ar : Arith ι) (c : Coef) (h : ℝ) (x : Attr → Vec ι) : Exp Coef ι → Vec ι
  | var a => x a
  | cof p => p c
  | size => bc h
  | num n => bc n
  | add e f => ar.add (e.eval ar c h x) (f.eval ar c h x)
  | sub e f => ar.sub (e.eval ar c h x) (f.eval ar c h x)
  | mul e f => ar.mul (e.eval ar c h x) (f.eval ar c h x)
  | neg e => -e.eval ar c h x
  | over e n => ar.quot (e.eval ar c h x) n
  | dot p e => ar.dot (p c) (e.eval ar c h x)
  | fix A e => ar.dot A (e.eval ar c h x)

end Exp

/-- One assignment. -/
inductive RInstr (Coef ι : Type) where
  /-- `self.x = e` -/
  | set (x : Attr) (e : Exp Coef ι)
  /-- `self.x = self.nl_func(self.y)` -/
  | call (x y : Attr)

/-- The assignment with given arithmetic, coefficients and step size. -/
noncomputable def RInstr.inst {Coef : Type} (ar : Arith ι) (c : Coef) (h : ℝ) : RInstr Coef ι → Instr ι
  | set x e => .set x fun vals => e.eval ar c h vals
  | call x y => .call x y

/-- The code of a constant-step strategy: the body of `n1_init`, and the body of `update_stages`, which ends with
`return self._k`. -/
structure RCSProg (Coef ι : Type) where
  init : List (RInstr Unit ι)
  stages : List (RInstr Coef ι)

/-- The code of an adaptive strategy: the body of `n1_init` (`stage_init`), what `update_stages` does first when the last
step was accepted, the rest of its body, and the first of the two arrays it returns; the other is `_err`.  `live` (ghost):
the attributes that carry information from one call to the next. -/
structure RASProg (Coef ι : Type) where
  init : List (RInstr Unit ι)
  accepted : List (RInstr Unit ι)
  stages : List (RInstr Coef ι)
  out : Attr
  live : List Attr

section
open Attr Exp RInstr

/-- `_IF4Diagonal`, rkstiff/if4.py:72-83, 85-94, 96-122. -/
noncomputable def IF4.rProgDiagonal : RCSProg (IFCoef (Vec ι)) ι where
  init := [call NL1 u]
  stages := [
    set k (cof (·.EL2) * var u + over (size * cof (·.EL2) * var NL1) 2),
    call NL2 k,
    set k (cof (·.EL2) * var u + over (size * var NL2) 2),
    call NL3 k,
    set k (cof (·.EL) * var u + size * cof (·.EL2) * var NL3),
    call NL4 k,
    set k (cof (·.EL) * var u + size * (over (cof (·.EL) * var NL1) 6 + over (cof (·.EL2) * var NL2) 3 +
      over (cof (·.EL2) * var NL3) 3 + over (var NL4) 6)),
    call NL1 k]

/-- `_IF4NonDiagonal`, rkstiff/if4.py:152-164, 166-168, 170-199. -/
noncomputable def IF4.rProgNonDiagonal : RCSProg (IFCoef (Mat ι)) ι where
  init := [call NL1 u]
  stages := [
    set k (dot (·.EL2) (var u) + size * dot (·.EL2) (over (var NL1) 2)),
    call NL2 k,
    set k (dot (·.EL2) (var u) + over (size * var NL2) 2),
    call NL3 k,
    set k (dot (·.EL) (var u) + size * dot (·.EL2) (var NL3)),
    call NL4 k,
    set k (dot (·.EL) (var u) + size * (dot (·.EL) (over (var NL1) 6) + dot (·.EL2) (over (var NL2) 3) +
      dot (·.EL2) (over (var NL3) 3) + over (var NL4) 6)),
    call NL1 k]

/-- `_Etd4Diagonal`, rkstiff/etd4.py:87-139, 141-150, 152-175. -/
noncomputable def ETD4.rProgDiagonal : RCSProg (Etd4Coef (Vec ι)) ι where
  init := [call NL1 u]
  stages := [
    set k (cof (·.EL2) * var u + cof (·.a21) * var NL1),
    call NL2 k,
    set k (cof (·.EL2) * var u + cof (·.a31) * var NL1 + cof (·.a32) * var NL2),
    call NL3 k,
    set k (cof (·.EL) * var u + cof (·.a41) * var NL1 + cof (·.a43) * var NL3),
    call NL4 k,
    set k (cof (·.EL) * var u + cof (·.b1) * var NL1 + cof (·.b2) * (var NL2 + var NL3) + cof (·.b4) * var NL4),
    call NL1 k]

/-- `_Etd4NonDiagonal`, rkstiff/etd4.py:235-271, 273-282, 284-308. -/
noncomputable def ETD4.rProgNonDiagonal : RCSProg (Etd4Coef (Mat ι)) ι where
  init := [call NL1 u]
  stages := [
    set k (dot (·.EL2) (var u) + dot (·.a21) (var NL1)),
    call NL2 k,
    set k (dot (·.EL2) (var u) + dot (·.a31) (var NL1) + dot (·.a32) (var NL2)),
    call NL3 k,
    set k (dot (·.EL) (var u) + dot (·.a41) (var NL1) + dot (·.a43) (var NL3)),
    call NL4 k,
    set k (dot (·.EL) (var u) + dot (·.b1) (var NL1) + dot (·.b2) (var NL2 + var NL3) + dot (·.b4) (var NL4)),
    call NL1 k]

/-- `_Etd5Diagonal`, rkstiff/etd5.py:115-203, 205-217, 219-261. -/
noncomputable def ETD5.rProgDiagonal : RCSProg (Etd5Coef (Vec ι)) ι where
  init := [call NL1 u]
  stages := [
    set k (cof (·.EL14) * var u + cof (·.a21) * var NL1),
    call NL2 k,
    set k (cof (·.EL14) * var u + cof (·.a31) * var NL1 + cof (·.a32) * var NL2),
    call NL3 k,
    set k (cof (·.EL12) * var u + cof (·.a41) * var NL1 + cof (·.a43) * var NL3),
    call NL4 k,
    set k (cof (·.EL34) * var u + cof (·.a51) * var NL1 + cof (·.a52) * (var NL2 - var NL3) + cof (·.a54) * var NL4),
    call NL5 k,
    set k (cof (·.EL) * var u + cof (·.a61) * var NL1 + cof (·.a62) * (var NL2 - over (num 3 * var NL4) 2) +
      cof (·.a63) * var NL3 + cof (·.a65) * var NL5),
    call NL6 k,
    set k (cof (·.EL) * var u + cof (·.b1) * var NL1 + cof (·.b3) * var NL3 + cof (·.b4) * var NL4 +
      cof (·.b5) * var NL5 + cof (·.b6) * var NL6),
    call NL1 k]

/-- `_Etd5NonDiagonal`, rkstiff/etd5.py:360-420, 422-433, 435-482. -/
noncomputable def ETD5.rProgNonDiagonal : RCSProg (Etd5Coef (Mat ι)) ι where
  init := [call NL1 u]
  stages := [
    set k (dot (·.EL14) (var u) + dot (·.a21) (var NL1)),
    call NL2 k,
    set k (dot (·.EL14) (var u) + dot (·.a31) (var NL1) + dot (·.a32) (var NL2)),
    call NL3 k,
    set k (dot (·.EL12) (var u) + dot (·.a41) (var NL1) + dot (·.a43) (var NL3)),
    call NL4 k,
    set k (dot (·.EL34) (var u) + dot (·.a51) (var NL1) + dot (·.a52) (var NL2 - var NL3) + dot (·.a54) (var NL4)),
    call NL5 k,
    set k (dot (·.EL) (var u) + dot (·.a61) (var NL1) + dot (·.a62) (var NL2 - over (num 3 * var NL4) 2) +
      dot (·.a63) (var NL3) + dot (·.a65) (var NL5)),
    call NL6 k,
    set k (dot (·.EL) (var u) + dot (·.b1) (var NL1) + dot (·.b3) (var NL3) + dot (·.b4) (var NL4) +
      dot (·.b5) (var NL5) + dot (·.b6) (var NL6)),
    call NL1 k]

/-- `_If34Diagonal`, rkstiff/if34.py:81-93, 95-97, 99-131. -/
noncomputable def IF34.rProgDiagonal : RASProg (IFCoef (Vec ι)) ι where
  init := [call NL1 u]
  accepted := [set NL1 (var NL5)]
  stages := [
    set k (cof (·.EL2) * var u + over (size * cof (·.EL2) * var NL1) 2),
    call NL2 k,
    set k (cof (·.EL2) * var u + over (size * var NL2) 2),
    call NL3 k,
    set k (cof (·.EL) * var u + size * cof (·.EL2) * var NL3),
    call NL4 k,
    set k (cof (·.EL) * var u + size * (over (cof (·.EL) * var NL1) 6 + over (cof (·.EL2) * var NL2) 3 +
      over (cof (·.EL2) * var NL3) 3 + over (var NL4) 6)),
    call NL5 k,
    set err (over (size * (var NL4 - var NL5)) 6)]
  out := k
  live := [NL1]

/-- `_If34Diagonalized`, rkstiff/if34.py:168-172, 174-177, 179-196. -/
noncomputable def IF34.rProgDiagonalized (S Sinv : Mat ι) : RASProg (IFCoef (Vec ι)) ι where
  init := [call tmp u, set NL1 (fix Sinv (var tmp)), set v (fix Sinv (var u))]
  accepted := [set NL1 (var NL5), set v (fix Sinv (var u))]
  stages := [
    set k (cof (·.EL2) * var v + over (size * cof (·.EL2) * var NL1) 2),
    set tmp (fix S (var k)), call tmp tmp, set NL2 (fix Sinv (var tmp)),
    set k (cof (·.EL2) * var v + over (size * var NL2) 2),
    set tmp (fix S (var k)), call tmp tmp, set NL3 (fix Sinv (var tmp)),
    set k (cof (·.EL) * var v + size * cof (·.EL2) * var NL3),
    set tmp (fix S (var k)), call tmp tmp, set NL4 (fix Sinv (var tmp)),
    set k (cof (·.EL) * var v + size * (over (cof (·.EL) * var NL1) 6 + over (cof (·.EL2) * var NL2) 3 +
      over (cof (·.EL2) * var NL3) 3 + over (var NL4) 6)),
    set tmp (fix S (var k)), call tmp tmp, set NL5 (fix Sinv (var tmp)),
    set err (over (size * (var NL4 - var NL5)) 6),
    set tmp (fix S (var k))]
  out := tmp
  live := [NL1, v]

/-- `_If34NonDiagonal`, rkstiff/if34.py:225-229, 231-233, 235-254. -/
noncomputable def IF34.rProgNonDiagonal : RASProg (IFCoef (Mat ι)) ι where
  init := [call NL1 u]
  accepted := [set NL1 (var NL5)]
  stages := [
    set k (dot (·.EL2) (var u) + size * dot (·.EL2) (over (var NL1) 2)),
    call NL2 k,
    set k (dot (·.EL2) (var u) + over (size * var NL2) 2),
    call NL3 k,
    set k (dot (·.EL) (var u) + size * dot (·.EL2) (var NL3)),
    call NL4 k,
    set k (dot (·.EL) (var u) + size * (dot (·.EL) (over (var NL1) 6) + dot (·.EL2) (over (var NL2) 3) +
      dot (·.EL2) (over (var NL3) 3) + over (var NL4) 6)),
    call NL5 k,
    set err (over (size * (var NL4 - var NL5)) 6)]
  out := k
  live := [NL1]

/-- `_Etd34Diagonal`, rkstiff/etd34.py:84-94, 151-160, 162-191. -/
noncomputable def ETD34.rProgDiagonal : RASProg (Etd34Coef (Vec ι)) ι where
  init := [call NL1 u]
  accepted := [set NL1 (var NL5)]
  stages := [
    set k (cof (·.EL2) * var u + cof (·.a21) * var NL1),
    call NL2 k,
    set k (cof (·.EL2) * var u + cof (·.a31) * var NL1 + cof (·.a32) * var NL2),
    call NL3 k,
    set k (cof (·.EL) * var u + cof (·.a41) * var NL1 + cof (·.a43) * var NL3),
    call NL4 k,
    set k (cof (·.EL) * var u + cof (·.a51) * var NL1 + cof (·.a52) * (var NL2 + var NL3) + cof (·.a54) * var NL4),
    call NL5 k,
    set err (cof (·.a54) * (var NL4 - var NL5))]
  out := k
  live := [NL1]

/-- `_Etd34Diagonalized`, rkstiff/etd34.py:248-258, 260-270, 272-304. -/
noncomputable def ETD34.rProgDiagonalized (S Sinv : Mat ι) : RASProg (Etd34Coef (Vec ι)) ι where
  init := [call tmp u, set NL1 (fix Sinv (var tmp)), set v (fix Sinv (var u))]
  accepted := [set NL1 (var NL5), set v (fix Sinv (var u))]
  stages := [
    set k (cof (·.EL2) * var v + cof (·.a21) * var NL1),
    set tmp (fix S (var k)), call tmp tmp, set NL2 (fix Sinv (var tmp)),
    set k (cof (·.EL2) * var v + cof (·.a31) * var NL1 + cof (·.a32) * var NL2),
    set tmp (fix S (var k)), call tmp tmp, set NL3 (fix Sinv (var tmp)),
    set k (cof (·.EL) * var v + cof (·.a41) * var NL1 + cof (·.a43) * var NL3),
    set tmp (fix S (var k)), call tmp tmp, set NL4 (fix Sinv (var tmp)),
    set k (cof (·.EL) * var v + cof (·.a51) * var NL1 + cof (·.a52) * (var NL2 + var NL3) + cof (·.a54) * var NL4),
    set tmp (fix S (var k)), call tmp tmp, set NL5 (fix Sinv (var tmp)),
    set err (cof (·.a54) * (var NL4 - var NL5)),
    set tmp (fix S (var k))]
  out := tmp
  live := [NL1, v]

/-- `_Etd34NonDiagonal`, rkstiff/etd34.py:356-392, 394-403, 405-436. -/
noncomputable def ETD34.rProgNonDiagonal : RASProg (Etd34Coef (Mat ι)) ι where
  init := [call NL1 u]
  accepted := [set NL1 (var NL5)]
  stages := [
    set k (dot (·.EL2) (var u) + dot (·.a21) (var NL1)),
    call NL2 k,
    set k (dot (·.EL2) (var u) + dot (·.a31) (var NL1) + dot (·.a32) (var NL2)),
    call NL3 k,
    set k (dot (·.EL) (var u) + dot (·.a41) (var NL1) + dot (·.a43) (var NL3)),
    call NL4 k,
    set k (dot (·.EL) (var u) + dot (·.a51) (var NL1) + dot (·.a52) (var NL2 + var NL3) + dot (·.a54) (var NL4)),
    call NL5 k,
    set err (dot (·.a54) (var NL4 - var NL5))]
  out := k
  live := [NL1]

/-- `_Etd35Diagonal`, rkstiff/etd35.py:157-167, 290-299, 301-345. -/
noncomputable def ETD35.rProgDiagonal : RASProg (Etd35Coef (Vec ι)) ι where
  init := [call NL1 u]
  accepted := [call NL1 u]
  stages := [
    set k (cof (·.EL14) * var u + cof (·.a21) * var NL1),
    call NL2 k,
    set k (cof (·.EL14) * var u + cof (·.a31) * var NL1 + cof (·.a32) * var NL2),
    call NL3 k,
    set k (cof (·.EL12) * var u + cof (·.a41) * var NL1 + cof (·.a43) * var NL3),
    call NL4 k,
    set k (cof (·.EL34) * var u + cof (·.a51) * var NL1 + cof (·.a52) * (var NL2 - var NL3) + cof (·.a54) * var NL4),
    call NL5 k,
    set k (cof (·.EL) * var u + cof (·.a61) * var NL1 + cof (·.a62) * (var NL2 - over (num 3 * var NL4) 2) +
      cof (·.a63) * var NL3 + cof (·.a65) * var NL5),
    call NL6 k,
    set k (cof (·.EL) * var u + cof (·.a71) * var NL1 + cof (·.a73) * var NL3 + cof (·.a74) * var NL4 +
      cof (·.a75) * var NL5 + cof (·.a76) * var NL6),
    set err (cof (·.a75) * (-var NL1 + num 4 * var NL3 - num 6 * var NL4 + num 4 * var NL5 - var NL6))]
  out := k
  live := [NL1]

/-- `_Etd35Diagonalized`, rkstiff/etd35.py:423-433, 436-446, 448-495. -/
noncomputable def ETD35.rProgDiagonalized (S Sinv : Mat ι) : RASProg (Etd35Coef (Vec ι)) ι where
  init := [call tmp u, set NL1 (fix Sinv (var tmp)), set v (fix Sinv (var u))]
  accepted := [call tmp u, set NL1 (fix Sinv (var tmp)), set v (fix Sinv (var u))]
  stages := [
    set k (cof (·.EL14) * var v + cof (·.a21) * var NL1),
    set tmp (fix S (var k)), call tmp tmp, set NL2 (fix Sinv (var tmp)),
    set k (cof (·.EL14) * var v + cof (·.a31) * var NL1 + cof (·.a32) * var NL2),
    set tmp (fix S (var k)), call tmp tmp, set NL3 (fix Sinv (var tmp)),
    set k (cof (·.EL12) * var v + cof (·.a41) * var NL1 + cof (·.a43) * var NL3),
    set tmp (fix S (var k)), call tmp tmp, set NL4 (fix Sinv (var tmp)),
    set k (cof (·.EL34) * var v + cof (·.a51) * var NL1 + cof (·.a52) * (var NL2 - var NL3) + cof (·.a54) * var NL4),
    set tmp (fix S (var k)), call tmp tmp, set NL5 (fix Sinv (var tmp)),
    set k (cof (·.EL) * var v + cof (·.a61) * var NL1 + cof (·.a62) * (var NL2 - over (num 3 * var NL4) 2) +
      cof (·.a63) * var NL3 + cof (·.a65) * var NL5),
    set tmp (fix S (var k)), call tmp tmp, set NL6 (fix Sinv (var tmp)),
    set k (cof (·.EL) * var v + cof (·.a71) * var NL1 + cof (·.a73) * var NL3 + cof (·.a74) * var NL4 +
      cof (·.a75) * var NL5 + cof (·.a76) * var NL6),
    set err (cof (·.a75) * (-var NL1 + num 4 * var NL3 - num 6 * var NL4 + num 4 * var NL5 - var NL6)),
    set tmp (fix S (var k))]
  out := tmp
  live := [NL1, v]

/-- `_Etd35NonDiagonal`, rkstiff/etd35.py:602-658, 660-669, 671-720. -/
noncomputable def ETD35.rProgNonDiagonal : RASProg (Etd35Coef (Mat ι)) ι where
  init := [call NL1 u]
  accepted := [call NL1 u]
  stages := [
    set k (dot (·.EL14) (var u) + dot (·.a21) (var NL1)),
    call NL2 k,
    set k (dot (·.EL14) (var u) + dot (·.a31) (var NL1) + dot (·.a32) (var NL2)),
    call NL3 k,
    set k (dot (·.EL12) (var u) + dot (·.a41) (var NL1) + dot (·.a43) (var NL3)),
    call NL4 k,
    set k (dot (·.EL34) (var u) + dot (·.a51) (var NL1) + dot (·.a52) (var NL2 - var NL3) + dot (·.a54) (var NL4)),
    call NL5 k,
    set k (dot (·.EL) (var u) + dot (·.a61) (var NL1) + dot (·.a62) (var NL2 - over (num 3 * var NL4) 2) +
      dot (·.a63) (var NL3) + dot (·.a65) (var NL5)),
    call NL6 k,
    set k (dot (·.EL) (var u) + dot (·.a71) (var NL1) + dot (·.a73) (var NL3) + dot (·.a74) (var NL4) +
      dot (·.a75) (var NL5) + dot (·.a76) (var NL6)),
    set err (dot (·.a75) (-var NL1 + num 4 * var NL3 - num 6 * var NL4 + num 4 * var NL5 - var NL6))]
  out := k
  live := [NL1]

/-- IF45DP, rkstiff/if45dp.py:205-237, 133, 135-136, 140-181. -/
noncomputable def IF45DP.rProg : RASProg (If45dpCoef ι) ι where
  init := [call NL1 u]
  accepted := [set NL1 (var NL7)]
  stages := [
    set k (cof (·.EL15) * var u + cof (·.a21) * var NL1),
    call NL2 k,
    set k (cof (·.EL310) * var u + cof (·.a31) * var NL1 + cof (·.a32) * var NL2),
    call NL3 k,
    set k (cof (·.EL45) * var u + cof (·.a41) * var NL1 + cof (·.a42) * var NL2 + cof (·.a43) * var NL3),
    call NL4 k,
    set k (cof (·.EL89) * var u + cof (·.a51) * var NL1 + cof (·.a52) * var NL2 + cof (·.a53) * var NL3 +
      cof (·.a54) * var NL4),
    call NL5 k,
    set k (cof (·.EL) * var u + cof (·.a61) * var NL1 + cof (·.a62) * var NL2 + cof (·.a63) * var NL3 +
      cof (·.a64) * var NL4 + cof (·.a65) * var NL5),
    call NL6 k,
    set k (cof (·.EL) * var u + cof (·.a71) * var NL1 + cof (·.a73) * var NL3 + cof (·.a74) * var NL4 +
      cof (·.a75) * var NL5 + cof (bc ·.a76) * var NL6),
    call NL7 k,
    set err (cof (·.r1) * var NL1 + cof (·.r3) * var NL3 + cof (·.r4) * var NL4 + cof (·.r5) * var NL5 +
      cof (bc ·.r6) * var NL6 + cof (bc ·.r7) * var NL7)]
  out := k
  live := [NL1]

end

/-- How a strategy object computes: array operations and coefficients for a step size (`update_coeffs`). -/
structure FPEnv (Coef ι : Type) where
  ar : Arith ι
  coefs : ℝ → Except PyErr Coef

/-- A strategy object: coefficients and all array attributes. -/
structure RMethod (Coef ι : Type) where
  coef : Coef
  vars : RState ι

namespace RMethod

variable {Coef : Type}

/-- A sequence of assignments. -/
def run (nl : NlFunc ι) (is : List (Instr ι)) : PyM (RMethod Coef ι) Unit :=
  PyM.zoom RMethod.vars (fun s r => { s with vars := r }) (RState.run nl is)

/-- Passing an array as the argument `u`. -/
def arg (u : Vec ι) : PyM (RMethod Coef ι) Unit :=
  PyM.modify fun s => { s with vars := { s.vars with val := Function.update s.vars.val .u u } }

/-- `update_coeffs`. -/
def setCoefs (F : FPEnv Coef ι) (h : ℝ) : PyM (RMethod Coef ι) Unit := fun s =>
  match F.coefs h with
  | .ok c => (.ok (), { s with coef := c })
  | .error e => (.error e, s)

/-- `_update_coeffs`, rkstiff/if4.py:261-267, rkstiff/etd4.py:387-400, rkstiff/etd5.py:595-620, rkstiff/if34.py:314-319,
rkstiff/etd34.py:569-587, rkstiff/etd35.py:842-855, rkstiff/if45dp.py:183-238. -/
noncomputable def coeffs (F : FPEnv Coef ι) (h : ℝ) : PyM (Wrap (RMethod Coef ι)) Unit := do
  let s ← PyM.get
  if some h = s.hCoeff then pure ()
  else
    PyM.modify fun s => { s with hCoeff := some h }
    Wrap.onMethod (setCoefs F h)

end RMethod

namespace RCSProg

variable {Coef : Type}

/-- The stages and `return self._k`. -/
noncomputable def body (P : RCSProg Coef ι) (F : FPEnv Coef ι) (nl : NlFunc ι) (h : ℝ) :
    PyM (RMethod Coef ι) (Vec ι) := do
  let s ← PyM.get
  RMethod.run nl (P.stages.map (RInstr.inst F.ar s.coef h))
  let s ← PyM.get
  pure (s.vars.val .k)

/-- `_update_stages`, rkstiff/if4.py:269-275, rkstiff/etd4.py:402-422, rkstiff/etd5.py:622-655. -/
noncomputable def updateStages (P : RCSProg Coef ι) (F : FPEnv Coef ι) (nl : NlFunc ι) (u : Vec ι) (h : ℝ) :
    PyM (Wrap (RMethod Coef ι)) (Vec ι) := do
  RMethod.coeffs F h
  Wrap.onMethod (RMethod.arg u)
  let s ← PyM.get
  if s.n1init = false then
    Wrap.onMethod (RMethod.run nl (P.init.map (RInstr.inst F.ar () 0)))
    PyM.modify fun s => { s with n1init := true }
  Wrap.onMethod (P.body F nl h)

/-- The class; `_reset` as in `Verif.IF4.reset`. -/
noncomputable def cls (P : RCSProg Coef ι) (F : FPEnv Coef ι) (nl : NlFunc ι) :
    CSClass ℝ (Vec ι) (Wrap (RMethod Coef ι)) :=
  ⟨fun s => { s with n1init := false, hCoeff := none }, P.updateStages F nl⟩

end RCSProg

namespace RASProg

variable {Coef : Type}

/-- The stages and `return`. -/
noncomputable def body (P : RASProg Coef ι) (F : FPEnv Coef ι) (nl : NlFunc ι) (h : ℝ) :
    PyM (RMethod Coef ι) (Vec ι × Vec ι) := do
  let s ← PyM.get
  RMethod.run nl (P.stages.map (RInstr.inst F.ar s.coef h))
  let s ← PyM.get
  pure (s.vars.val P.out, s.vars.val .err)

/-- `_update_stages`, rkstiff/if34.py:321-334, rkstiff/etd34.py:589-609, rkstiff/etd35.py:857-878; with `dp` that of
IF45DP, rkstiff/if45dp.py:112-181, where `_NL1` is not refreshed in the first call. -/
noncomputable def updateStages (P : RASProg Coef ι) (dp : Bool) (F : FPEnv Coef ι) (nl : NlFunc ι) (u : Vec ι) (h : ℝ)
    (accept : Bool) : PyM (Wrap (RMethod Coef ι)) (Vec ι × Vec ι) := do
  RMethod.coeffs F h
  Wrap.onMethod (RMethod.arg u)
  let s ← PyM.get
  if s.n1init = false then
    Wrap.onMethod (RMethod.run nl (P.init.map (RInstr.inst F.ar () 0)))
    PyM.modify fun s => { s with n1init := true }
  if accept = true ∧ ¬ (dp = true ∧ s.n1init = false) then
    Wrap.onMethod (RMethod.run nl (P.accepted.map (RInstr.inst F.ar () 0)))
  Wrap.onMethod (P.body F nl h)

/-- The class, with a computation of the error factor. -/
noncomputable def cls (P : RASProg Coef ι) (dp : Bool) (F : FPEnv Coef ι)
    (fac : SolverConfig ℝ → Vec ι → Vec ι → Ext ℝ) (nl : NlFunc ι) : ASClass ℝ (Vec ι) (Wrap (RMethod Coef ι)) :=
  ⟨fun s => { s with n1init := false, hCoeff := none }, P.updateStages dp F nl, fac⟩

end RASProg

section
variable [Fintype ι] [DecidableEq ι]

namespace CSSolver

/-- The strategy object, as in `Verif.CSSolver.strategy`. -/
noncomputable def rprog : (m : CSSolver ι) → RCSProg m.Coef ι
  | if4 (.diag _) => IF4.rProgDiagonal
  | if4 (.full _) => IF4.rProgNonDiagonal
  | etd4 _ (.diag _) => ETD4.rProgDiagonal
  | etd4 _ (.full _) => ETD4.rProgNonDiagonal
  | etd5 _ (.diag _) => ETD5.rProgDiagonal
  | etd5 _ (.full _) => ETD5.rProgNonDiagonal

/-- A solver object that computes with inexact arithmetic. -/
abbrev RSt (m : CSSolver ι) : Type := CSState ℝ (Vec ι) (Wrap (RMethod m.Coef ι))

/-- The methods of the solver's class. -/
noncomputable def fpCls (m : CSSolver ι) (F : FPEnv m.Coef ι) (nl : NlFunc ι) :
    CSClass ℝ (Vec ι) (Wrap (RMethod m.Coef ι)) := m.rprog.cls F nl

/-- A newly constructed solver object. -/
noncomputable def fpNew (m : CSSolver ι) : m.RSt := CSClass.fresh ⟨false, none, ⟨m.init.method.coef, ⟨0, 0⟩⟩⟩

/-- `solver.step(u, h)` -/
noncomputable def fpStep (m : CSSolver ι) (F : FPEnv m.Coef ι) (nl : NlFunc ι) (u : Vec ι) (h : ℝ) : PyM m.RSt (Vec ι) :=
  (m.fpCls F nl).step u h

/-- `solver.evolve(u, t0, tf, h, store_data, store_freq)` -/
noncomputable def fpEvolve (m : CSSolver ι) (F : FPEnv m.Coef ι) (nl : NlFunc ι) (rnd : ℝ → ℝ) (pyDiv : Bool) (fuel : ℕ)
    (u : Vec ι) (t0 tf h : ℝ) (storeData : Bool) (freq : ℤ) : PyM m.RSt (Option (Vec ι)) :=
  (m.fpCls F nl).evolve rnd pyDiv fuel u t0 tf h storeData freq

end CSSolver

namespace ASSolver

/-- The strategy object, as in `Verif.ASSolver.cls`. -/
noncomputable def rprog : (m : ASSolver ι) → RASProg m.Coef ι
  | if34 (.diag _) => IF34.rProgDiagonal
  | if34 (.full _) => IF34.rProgNonDiagonal
  | if34 (.eig _ S Sinv _) => IF34.rProgDiagonalized S Sinv
  | etd34 _ (.diag _) => ETD34.rProgDiagonal
  | etd34 _ (.full _) => ETD34.rProgNonDiagonal
  | etd34 _ (.eig _ S Sinv _) => ETD34.rProgDiagonalized S Sinv
  | etd35 _ (.diag _) => ETD35.rProgDiagonal
  | etd35 _ (.full _) => ETD35.rProgNonDiagonal
  | etd35 _ (.eig _ S Sinv _) => ETD35.rProgDiagonalized S Sinv
  | if45dp _ => IF45DP.rProg

/-- Is this IF45DP? -/
def isDP : ASSolver ι → Bool
  | if45dp _ => true
  | _ => false

/-- A solver object that computes with inexact arithmetic. -/
abbrev RSt (m : ASSolver ι) : Type := ASState ℝ (Vec ι) (Wrap (RMethod m.Coef ι))

/-- The methods of the solver's class. -/
noncomputable def fpCls (m : ASSolver ι) (F : FPEnv m.Coef ι) (fac : SolverConfig ℝ → Vec ι → Vec ι → Ext ℝ)
    (nl : NlFunc ι) : ASClass ℝ (Vec ι) (Wrap (RMethod m.Coef ι)) := m.rprog.cls m.isDP F fac nl

/-- A newly constructed solver object. -/
noncomputable def fpNew (m : ASSolver ι) : m.RSt := ASClass.fresh ⟨false, none, ⟨m.init.method.coef, ⟨0, 0⟩⟩⟩

/-- `solver.step(u, h)` -/
noncomputable def fpStep (m : ASSolver ι) (F : FPEnv m.Coef ι) (fac : SolverConfig ℝ → Vec ι → Vec ι → Ext ℝ)
    (nl : NlFunc ι) (rnd : ℝ → ℝ) (cfg : SolverConfig ℝ) (u : Vec ι) (h : ℝ) : PyM m.RSt (Vec ι × ℝ × ℝ) :=
  (m.fpCls F fac nl).step rnd cfg u h

/-- `solver.evolve(u, t0, tf, h_init, store_data, store_freq)` -/
noncomputable def fpEvolve (m : ASSolver ι) (F : FPEnv m.Coef ι) (fac : SolverConfig ℝ → Vec ι → Vec ι → Ext ℝ)
    (nl : NlFunc ι) (rnd : ℝ → ℝ) (pyDiv : Bool) (cfg : SolverConfig ℝ) (fuel : ℕ) (u : Vec ι) (t0 tf : ℝ)
    (hInit : Option ℝ) (storeData : Bool) (freq : ℤ) : PyM m.RSt (Option (Vec ι)) :=
  (m.fpCls F fac nl).evolve rnd pyDiv cfg fuel u t0 tf hInit storeData freq

end ASSolver

end

end Verif
