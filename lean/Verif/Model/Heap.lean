import Verif.Model.Solvers

/-!
# The solvers over a heap of arrays

The other modules treat arrays as values.  In Python they are mutable objects, and a variable holds a reference to one.
Here the same code is modelled over a heap: an attribute such as `_NL2` holds the address of an array, an expression
such as `self._EL2 * u` makes a new array, and `nl_func` is an arbitrary function on the heap: it gets the address of
its argument and may allocate arrays, write to any array, keep addresses, return any address, or raise.

Coefficient arrays (`_EL`, `_a21`, …) stay values: they are made by `update_coeffs`, some are changed in place there,
and none of them is ever passed to `nl_func` or returned.  `lin_op` is a value, too.
-/

set_option linter.unusedSectionVars false

namespace Verif

open Matrix

variable {ι : Type}

/-- The arrays that exist: addresses below `next`.  `priv` (ghost) marks the arrays that `nl_func` keeps for itself,
such as work buffers. -/
structure Heap (ι : Type) where
  cell : ℕ → Vec ι
  next : ℕ
  priv : ℕ → Prop

/-- A new array with contents `v`, at address `H.next`. -/
def Heap.alloc (H : Heap ι) (v : Vec ι) : Heap ι :=
  ⟨Function.update H.cell H.next v, H.next + 1, Function.update H.priv H.next False⟩

/-- `a[...] = v`: an array is overwritten in place. -/
def Heap.write (H : Heap ι) (r : ℕ) (v : Vec ι) : Heap ι := { H with cell := Function.update H.cell r v }

/-- `nl_func` as it acts on the heap. -/
abbrev HeapNl (ι : Type) := ℕ → Heap ι → Except PyErr ℕ × Heap ι

/-- The variables that hold arrays in `n1_init`, `update_stages`: the argument `u`, the attributes of the strategy
object, and `tmp` for arrays that have no name. -/
inductive Attr where
  | u | k | NL1 | NL2 | NL3 | NL4 | NL5 | NL6 | NL7 | v | err | tmp
  deriving DecidableEq, Repr

/-- One assignment. -/
inductive Instr (ι : Type) where
  /-- `self.x = e`, where `e` is an expression that makes a new array from the contents of others -/
  | set (x : Attr) (e : (Attr → Vec ι) → Vec ι)
  /-- `self.x = self.nl_func(self.y)` -/
  | call (x y : Attr)

/-- The variables of a strategy object with arrays as values. -/
structure RState (ι : Type) where
  val : Attr → Vec ι
  evals : ℕ

namespace RState

/-- One assignment. -/
def exec (nl : NlFunc ι) : Instr ι → PyM (RState ι) Unit
  | .set x e => fun s => (.ok (), { s with val := Function.update s.val x (e s.val) })
  | .call x y => fun s =>
    match nl (s.val y) with
    | .ok n => (.ok (), ⟨Function.update s.val x n, s.evals + 1⟩)
    | .error e => (.error e, { s with evals := s.evals + 1 })

/-- A sequence of assignments. -/
def run (nl : NlFunc ι) : List (Instr ι) → PyM (RState ι) Unit
  | [] => pure ()
  | i :: is => do
    exec nl i
    run nl is

end RState

/-- A strategy object: coefficients, and the addresses its attributes hold.  The heap is part of this state.  `evals` is
a ghost counter of calls of `nl_func`. -/
structure HMethod (Coef ι : Type) where
  coef : Coef
  attr : Attr → ℕ
  heap : Heap ι
  evals : ℕ

namespace HMethod

variable {Coef : Type}

/-- The contents of the array that an attribute refers to. -/
def val (s : HMethod Coef ι) (a : Attr) : Vec ι := s.heap.cell (s.attr a)

/-- One assignment. -/
def exec (nl : HeapNl ι) : Instr ι → PyM (HMethod Coef ι) Unit
  | .set x e => fun s =>
    (.ok (), { s with attr := Function.update s.attr x s.heap.next, heap := s.heap.alloc (e s.val) })
  | .call x y => fun s =>
    match nl (s.attr y) s.heap with
    | (.ok r, H) => (.ok (), { s with attr := Function.update s.attr x r, heap := H, evals := s.evals + 1 })
    | (.error e, H) => (.error e, { s with heap := H, evals := s.evals + 1 })

/-- A sequence of assignments. -/
def run (nl : HeapNl ι) : List (Instr ι) → PyM (HMethod Coef ι) Unit
  | [] => pure ()
  | i :: is => do
    exec nl i
    run nl is

/-- Passing an array as the argument `u`. -/
def arg (r : ℕ) : PyM (HMethod Coef ι) Unit := PyM.modify fun s => { s with attr := Function.update s.attr .u r }

end HMethod

/-- The code of a constant-step strategy: `update_coeffs` (arrays as values), the body of `n1_init`, and the body of
`update_stages`, which ends with `return self._k`. -/
structure CSProg (Coef ι : Type) where
  updateCoeffs : ℝ → PyM (CSMethod Coef ι) Unit
  init : List (Instr ι)
  stages : Coef → ℝ → List (Instr ι)

/-- The code of an adaptive strategy: `update_coeffs`, the body of `n1_init` (`stage_init`), what `update_stages` does
first when the last step was accepted, the rest of its body, and the first of the two arrays it returns; the other is
`_err`. -/
structure ASProg (Coef ι : Type) where
  updateCoeffs : ℝ → PyM (ASMethod Coef ι) Unit
  init : List (Instr ι)
  accepted : List (Instr ι)
  stages : Coef → ℝ → List (Instr ι)
  out : Attr

open Attr Instr

section
variable [Fintype ι] [DecidableEq ι]

/-- An argument for `nl_func` where it is not used. -/
def noNl : NlFunc ι := fun _ => .error .typeError

/-- `_IF4Diagonal`, rkstiff/if4.py:72-83, 85-94, 96-122. -/
noncomputable def IF4.progDiagonal (L : Vec ι) : CSProg (IFCoef (Vec ι)) ι where
  updateCoeffs := (IF4.diagonal L noNl).updateCoeffs
  init := [call NL1 u]
  stages c h := [
    set k fun x => c.EL2 * x u + bc h * c.EL2 * x NL1 / 2,
    call NL2 k,
    set k fun x => c.EL2 * x u + bc h * x NL2 / 2,
    call NL3 k,
    set k fun x => c.EL * x u + bc h * c.EL2 * x NL3,
    call NL4 k,
    set k fun x => c.EL * x u + bc h * (c.EL * x NL1 / 6 + c.EL2 * x NL2 / 3 + c.EL2 * x NL3 / 3 + x NL4 / 6),
    call NL1 k]

/-- `_IF4NonDiagonal`, rkstiff/if4.py:152-164, 166-168, 170-199. -/
noncomputable def IF4.progNonDiagonal (L : Mat ι) : CSProg (IFCoef (Mat ι)) ι where
  updateCoeffs := (IF4.nonDiagonal L noNl).updateCoeffs
  init := [call NL1 u]
  stages c h := [
    set k fun x => c.EL2 *ᵥ x u + bc h * (c.EL2 *ᵥ (x NL1 / 2)),
    call NL2 k,
    set k fun x => c.EL2 *ᵥ x u + bc h * x NL2 / 2,
    call NL3 k,
    set k fun x => c.EL *ᵥ x u + bc h * (c.EL2 *ᵥ x NL3),
    call NL4 k,
    set k fun x => c.EL *ᵥ x u + bc h * (c.EL *ᵥ (x NL1 / 6) + c.EL2 *ᵥ (x NL2 / 3) + c.EL2 *ᵥ (x NL3 / 3) + x NL4 / 6),
    call NL1 k]

/-- `_Etd4Diagonal`, rkstiff/etd4.py:87-139, 141-150, 152-175. -/
noncomputable def ETD4.progDiagonal (cfg : ETDConfig ℝ) (L : Vec ι) : CSProg (Etd4Coef (Vec ι)) ι where
  updateCoeffs := (ETD4.diagonal cfg L noNl).updateCoeffs
  init := [call NL1 u]
  stages c _h := [
    set k fun x => c.EL2 * x u + c.a21 * x NL1,
    call NL2 k,
    set k fun x => c.EL2 * x u + c.a31 * x NL1 + c.a32 * x NL2,
    call NL3 k,
    set k fun x => c.EL * x u + c.a41 * x NL1 + c.a43 * x NL3,
    call NL4 k,
    set k fun x => c.EL * x u + c.b1 * x NL1 + c.b2 * (x NL2 + x NL3) + c.b4 * x NL4,
    call NL1 k]

/-- `_Etd4NonDiagonal`, rkstiff/etd4.py:235-271, 273-282, 284-308. -/
noncomputable def ETD4.progNonDiagonal (cfg : ETDConfig ℝ) (L : Mat ι) : CSProg (Etd4Coef (Mat ι)) ι where
  updateCoeffs := (ETD4.nonDiagonal cfg L noNl).updateCoeffs
  init := [call NL1 u]
  stages c _h := [
    set k fun x => c.EL2 *ᵥ x u + c.a21 *ᵥ x NL1,
    call NL2 k,
    set k fun x => c.EL2 *ᵥ x u + c.a31 *ᵥ x NL1 + c.a32 *ᵥ x NL2,
    call NL3 k,
    set k fun x => c.EL *ᵥ x u + c.a41 *ᵥ x NL1 + c.a43 *ᵥ x NL3,
    call NL4 k,
    set k fun x => c.EL *ᵥ x u + c.b1 *ᵥ x NL1 + c.b2 *ᵥ (x NL2 + x NL3) + c.b4 *ᵥ x NL4,
    call NL1 k]

/-- `_Etd5Diagonal`, rkstiff/etd5.py:115-203, 205-217, 219-261. -/
noncomputable def ETD5.progDiagonal (cfg : ETDConfig ℝ) (L : Vec ι) : CSProg (Etd5Coef (Vec ι)) ι where
  updateCoeffs := (ETD5.diagonal cfg L noNl).updateCoeffs
  init := [call NL1 u]
  stages c _h := [
    set k fun x => c.EL14 * x u + c.a21 * x NL1,
    call NL2 k,
    set k fun x => c.EL14 * x u + c.a31 * x NL1 + c.a32 * x NL2,
    call NL3 k,
    set k fun x => c.EL12 * x u + c.a41 * x NL1 + c.a43 * x NL3,
    call NL4 k,
    set k fun x => c.EL34 * x u + c.a51 * x NL1 + c.a52 * (x NL2 - x NL3) + c.a54 * x NL4,
    call NL5 k,
    set k fun x => c.EL * x u + c.a61 * x NL1 + c.a62 * (x NL2 - 3 * x NL4 / 2) + c.a63 * x NL3 + c.a65 * x NL5,
    call NL6 k,
    set k fun x => c.EL * x u + c.b1 * x NL1 + c.b3 * x NL3 + c.b4 * x NL4 + c.b5 * x NL5 + c.b6 * x NL6,
    call NL1 k]

/-- `_Etd5NonDiagonal`, rkstiff/etd5.py:360-420, 422-433, 435-482. -/
noncomputable def ETD5.progNonDiagonal (cfg : ETDConfig ℝ) (L : Mat ι) : CSProg (Etd5Coef (Mat ι)) ι where
  updateCoeffs := (ETD5.nonDiagonal cfg L noNl).updateCoeffs
  init := [call NL1 u]
  stages c _h := [
    set k fun x => c.EL14 *ᵥ x u + c.a21 *ᵥ x NL1,
    call NL2 k,
    set k fun x => c.EL14 *ᵥ x u + c.a31 *ᵥ x NL1 + c.a32 *ᵥ x NL2,
    call NL3 k,
    set k fun x => c.EL12 *ᵥ x u + c.a41 *ᵥ x NL1 + c.a43 *ᵥ x NL3,
    call NL4 k,
    set k fun x => c.EL34 *ᵥ x u + c.a51 *ᵥ x NL1 + c.a52 *ᵥ (x NL2 - x NL3) + c.a54 *ᵥ x NL4,
    call NL5 k,
    set k fun x => c.EL *ᵥ x u + c.a61 *ᵥ x NL1 + c.a62 *ᵥ (x NL2 - 3 * x NL4 / 2) + c.a63 *ᵥ x NL3 + c.a65 *ᵥ x NL5,
    call NL6 k,
    set k fun x => c.EL *ᵥ x u + c.b1 *ᵥ x NL1 + c.b3 *ᵥ x NL3 + c.b4 *ᵥ x NL4 + c.b5 *ᵥ x NL5 + c.b6 *ᵥ x NL6,
    call NL1 k]

/-- `_If34Diagonal`, rkstiff/if34.py:81-93, 95-97, 99-131. -/
noncomputable def IF34.progDiagonal (L : Vec ι) : ASProg (IFCoef (Vec ι)) ι where
  updateCoeffs := (IF34.diagonal L noNl).updateCoeffs
  init := [call NL1 u]
  accepted := [set NL1 fun x => x NL5]
  stages c h := [
    set k fun x => c.EL2 * x u + bc h * c.EL2 * x NL1 / 2,
    call NL2 k,
    set k fun x => c.EL2 * x u + bc h * x NL2 / 2,
    call NL3 k,
    set k fun x => c.EL * x u + bc h * c.EL2 * x NL3,
    call NL4 k,
    set k fun x => c.EL * x u + bc h * (c.EL * x NL1 / 6 + c.EL2 * x NL2 / 3 + c.EL2 * x NL3 / 3 + x NL4 / 6),
    call NL5 k,
    set err fun x => bc h * (x NL4 - x NL5) / 6]
  out := k

/-- `_If34Diagonalized`, rkstiff/if34.py:168-172, 174-177, 179-196. -/
noncomputable def IF34.progDiagonalized (eig : Vec ι) (S Sinv : Mat ι) : ASProg (IFCoef (Vec ι)) ι where
  updateCoeffs := (IF34.diagonalized eig S Sinv noNl).updateCoeffs
  init := [call tmp u, set NL1 fun x => Sinv *ᵥ x tmp, set v fun x => Sinv *ᵥ x u]
  accepted := [set NL1 fun x => x NL5, set v fun x => Sinv *ᵥ x u]
  stages c h := [
    set k fun x => c.EL2 * x v + bc h * c.EL2 * x NL1 / 2,
    set tmp fun x => S *ᵥ x k, call tmp tmp, set NL2 fun x => Sinv *ᵥ x tmp,
    set k fun x => c.EL2 * x v + bc h * x NL2 / 2,
    set tmp fun x => S *ᵥ x k, call tmp tmp, set NL3 fun x => Sinv *ᵥ x tmp,
    set k fun x => c.EL * x v + bc h * c.EL2 * x NL3,
    set tmp fun x => S *ᵥ x k, call tmp tmp, set NL4 fun x => Sinv *ᵥ x tmp,
    set k fun x => c.EL * x v + bc h * (c.EL * x NL1 / 6 + c.EL2 * x NL2 / 3 + c.EL2 * x NL3 / 3 + x NL4 / 6),
    set tmp fun x => S *ᵥ x k, call tmp tmp, set NL5 fun x => Sinv *ᵥ x tmp,
    set err fun x => bc h * (x NL4 - x NL5) / 6,
    set tmp fun x => S *ᵥ x k]
  out := tmp

/-- `_If34NonDiagonal`, rkstiff/if34.py:225-229, 231-233, 235-254. -/
noncomputable def IF34.progNonDiagonal (L : Mat ι) : ASProg (IFCoef (Mat ι)) ι where
  updateCoeffs := (IF34.nonDiagonal L noNl).updateCoeffs
  init := [call NL1 u]
  accepted := [set NL1 fun x => x NL5]
  stages c h := [
    set k fun x => c.EL2 *ᵥ x u + bc h * (c.EL2 *ᵥ (x NL1 / 2)),
    call NL2 k,
    set k fun x => c.EL2 *ᵥ x u + bc h * x NL2 / 2,
    call NL3 k,
    set k fun x => c.EL *ᵥ x u + bc h * (c.EL2 *ᵥ x NL3),
    call NL4 k,
    set k fun x => c.EL *ᵥ x u + bc h * (c.EL *ᵥ (x NL1 / 6) + c.EL2 *ᵥ (x NL2 / 3) + c.EL2 *ᵥ (x NL3 / 3) + x NL4 / 6),
    call NL5 k,
    set err fun x => bc h * (x NL4 - x NL5) / 6]
  out := k

/-- `_Etd34Diagonal`, rkstiff/etd34.py:84-94, 151-160, 162-191. -/
noncomputable def ETD34.progDiagonal (cfg : ETDConfig ℝ) (L : Vec ι) : ASProg (Etd34Coef (Vec ι)) ι where
  updateCoeffs := (ETD34.diagonal cfg L noNl).updateCoeffs
  init := [call NL1 u]
  accepted := [set NL1 fun x => x NL5]
  stages c _h := [
    set k fun x => c.EL2 * x u + c.a21 * x NL1,
    call NL2 k,
    set k fun x => c.EL2 * x u + c.a31 * x NL1 + c.a32 * x NL2,
    call NL3 k,
    set k fun x => c.EL * x u + c.a41 * x NL1 + c.a43 * x NL3,
    call NL4 k,
    set k fun x => c.EL * x u + c.a51 * x NL1 + c.a52 * (x NL2 + x NL3) + c.a54 * x NL4,
    call NL5 k,
    set err fun x => c.a54 * (x NL4 - x NL5)]
  out := k

/-- `_Etd34Diagonalized`, rkstiff/etd34.py:248-258, 260-270, 272-304. -/
noncomputable def ETD34.progDiagonalized (cfg : ETDConfig ℝ) (eig : Vec ι) (S Sinv : Mat ι) :
    ASProg (Etd34Coef (Vec ι)) ι where
  updateCoeffs := (ETD34.diagonalized cfg eig S Sinv noNl).updateCoeffs
  init := [call tmp u, set NL1 fun x => Sinv *ᵥ x tmp, set v fun x => Sinv *ᵥ x u]
  accepted := [set NL1 fun x => x NL5, set v fun x => Sinv *ᵥ x u]
  stages c _h := [
    set k fun x => c.EL2 * x v + c.a21 * x NL1,
    set tmp fun x => S *ᵥ x k, call tmp tmp, set NL2 fun x => Sinv *ᵥ x tmp,
    set k fun x => c.EL2 * x v + c.a31 * x NL1 + c.a32 * x NL2,
    set tmp fun x => S *ᵥ x k, call tmp tmp, set NL3 fun x => Sinv *ᵥ x tmp,
    set k fun x => c.EL * x v + c.a41 * x NL1 + c.a43 * x NL3,
    set tmp fun x => S *ᵥ x k, call tmp tmp, set NL4 fun x => Sinv *ᵥ x tmp,
    set k fun x => c.EL * x v + c.a51 * x NL1 + c.a52 * (x NL2 + x NL3) + c.a54 * x NL4,
    set tmp fun x => S *ᵥ x k, call tmp tmp, set NL5 fun x => Sinv *ᵥ x tmp,
    set err fun x => c.a54 * (x NL4 - x NL5),
    set tmp fun x => S *ᵥ x k]
  out := tmp

/-- `_Etd34NonDiagonal`, rkstiff/etd34.py:356-392, 394-403, 405-436. -/
noncomputable def ETD34.progNonDiagonal (cfg : ETDConfig ℝ) (L : Mat ι) : ASProg (Etd34Coef (Mat ι)) ι where
  updateCoeffs := (ETD34.nonDiagonal cfg L noNl).updateCoeffs
  init := [call NL1 u]
  accepted := [set NL1 fun x => x NL5]
  stages c _h := [
    set k fun x => c.EL2 *ᵥ x u + c.a21 *ᵥ x NL1,
    call NL2 k,
    set k fun x => c.EL2 *ᵥ x u + c.a31 *ᵥ x NL1 + c.a32 *ᵥ x NL2,
    call NL3 k,
    set k fun x => c.EL *ᵥ x u + c.a41 *ᵥ x NL1 + c.a43 *ᵥ x NL3,
    call NL4 k,
    set k fun x => c.EL *ᵥ x u + c.a51 *ᵥ x NL1 + c.a52 *ᵥ (x NL2 + x NL3) + c.a54 *ᵥ x NL4,
    call NL5 k,
    set err fun x => c.a54 *ᵥ (x NL4 - x NL5)]
  out := k

/-- `_Etd35Diagonal`, rkstiff/etd35.py:157-167, 290-299, 301-345. -/
noncomputable def ETD35.progDiagonal (cfg : ETDConfig ℝ) (L : Vec ι) : ASProg (Etd35Coef (Vec ι)) ι where
  updateCoeffs := (ETD35.diagonal cfg L noNl).updateCoeffs
  init := [call NL1 u]
  accepted := [call NL1 u]
  stages c _h := [
    set k fun x => c.EL14 * x u + c.a21 * x NL1,
    call NL2 k,
    set k fun x => c.EL14 * x u + c.a31 * x NL1 + c.a32 * x NL2,
    call NL3 k,
    set k fun x => c.EL12 * x u + c.a41 * x NL1 + c.a43 * x NL3,
    call NL4 k,
    set k fun x => c.EL34 * x u + c.a51 * x NL1 + c.a52 * (x NL2 - x NL3) + c.a54 * x NL4,
    call NL5 k,
    set k fun x => c.EL * x u + c.a61 * x NL1 + c.a62 * (x NL2 - 3 * x NL4 / 2) + c.a63 * x NL3 + c.a65 * x NL5,
    call NL6 k,
    set k fun x => c.EL * x u + c.a71 * x NL1 + c.a73 * x NL3 + c.a74 * x NL4 + c.a75 * x NL5 + c.a76 * x NL6,
    set err fun x => c.a75 * (-x NL1 + 4 * x NL3 - 6 * x NL4 + 4 * x NL5 - x NL6)]
  out := k

/-- `_Etd35Diagonalized`, rkstiff/etd35.py:423-433, 436-446, 448-495. -/
noncomputable def ETD35.progDiagonalized (cfg : ETDConfig ℝ) (eig : Vec ι) (S Sinv : Mat ι) :
    ASProg (Etd35Coef (Vec ι)) ι where
  updateCoeffs := (ETD35.diagonalized cfg eig S Sinv noNl).updateCoeffs
  init := [call tmp u, set NL1 fun x => Sinv *ᵥ x tmp, set v fun x => Sinv *ᵥ x u]
  accepted := [call tmp u, set NL1 fun x => Sinv *ᵥ x tmp, set v fun x => Sinv *ᵥ x u]
  stages c _h := [
    set k fun x => c.EL14 * x v + c.a21 * x NL1,
    set tmp fun x => S *ᵥ x k, call tmp tmp, set NL2 fun x => Sinv *ᵥ x tmp,
    set k fun x => c.EL14 * x v + c.a31 * x NL1 + c.a32 * x NL2,
    set tmp fun x => S *ᵥ x k, call tmp tmp, set NL3 fun x => Sinv *ᵥ x tmp,
    set k fun x => c.EL12 * x v + c.a41 * x NL1 + c.a43 * x NL3,
    set tmp fun x => S *ᵥ x k, call tmp tmp, set NL4 fun x => Sinv *ᵥ x tmp,
    set k fun x => c.EL34 * x v + c.a51 * x NL1 + c.a52 * (x NL2 - x NL3) + c.a54 * x NL4,
    set tmp fun x => S *ᵥ x k, call tmp tmp, set NL5 fun x => Sinv *ᵥ x tmp,
    set k fun x => c.EL * x v + c.a61 * x NL1 + c.a62 * (x NL2 - 3 * x NL4 / 2) + c.a63 * x NL3 + c.a65 * x NL5,
    set tmp fun x => S *ᵥ x k, call tmp tmp, set NL6 fun x => Sinv *ᵥ x tmp,
    set k fun x => c.EL * x v + c.a71 * x NL1 + c.a73 * x NL3 + c.a74 * x NL4 + c.a75 * x NL5 + c.a76 * x NL6,
    set err fun x => c.a75 * (-x NL1 + 4 * x NL3 - 6 * x NL4 + 4 * x NL5 - x NL6),
    set tmp fun x => S *ᵥ x k]
  out := tmp

/-- `_Etd35NonDiagonal`, rkstiff/etd35.py:602-658, 660-669, 671-720. -/
noncomputable def ETD35.progNonDiagonal (cfg : ETDConfig ℝ) (L : Mat ι) : ASProg (Etd35Coef (Mat ι)) ι where
  updateCoeffs := (ETD35.nonDiagonal cfg L noNl).updateCoeffs
  init := [call NL1 u]
  accepted := [call NL1 u]
  stages c _h := [
    set k fun x => c.EL14 *ᵥ x u + c.a21 *ᵥ x NL1,
    call NL2 k,
    set k fun x => c.EL14 *ᵥ x u + c.a31 *ᵥ x NL1 + c.a32 *ᵥ x NL2,
    call NL3 k,
    set k fun x => c.EL12 *ᵥ x u + c.a41 *ᵥ x NL1 + c.a43 *ᵥ x NL3,
    call NL4 k,
    set k fun x => c.EL34 *ᵥ x u + c.a51 *ᵥ x NL1 + c.a52 *ᵥ (x NL2 - x NL3) + c.a54 *ᵥ x NL4,
    call NL5 k,
    set k fun x => c.EL *ᵥ x u + c.a61 *ᵥ x NL1 + c.a62 *ᵥ (x NL2 - 3 * x NL4 / 2) + c.a63 *ᵥ x NL3 + c.a65 *ᵥ x NL5,
    call NL6 k,
    set k fun x => c.EL *ᵥ x u + c.a71 *ᵥ x NL1 + c.a73 *ᵥ x NL3 + c.a74 *ᵥ x NL4 + c.a75 *ᵥ x NL5 + c.a76 *ᵥ x NL6,
    set err fun x => c.a75 *ᵥ (-x NL1 + 4 * x NL3 - 6 * x NL4 + 4 * x NL5 - x NL6)]
  out := k

/-- IF45DP, rkstiff/if45dp.py:205-237, 133, 135-136, 140-181. -/
noncomputable def IF45DP.prog (L : Vec ι) : ASProg (If45dpCoef ι) ι where
  updateCoeffs h := PyM.modify fun m => { m with coef := IF45DP.coefs L h }
  init := [call NL1 u]
  accepted := [set NL1 fun x => x NL7]
  stages c _h := [
    set k fun x => c.EL15 * x u + c.a21 * x NL1,
    call NL2 k,
    set k fun x => c.EL310 * x u + c.a31 * x NL1 + c.a32 * x NL2,
    call NL3 k,
    set k fun x => c.EL45 * x u + c.a41 * x NL1 + c.a42 * x NL2 + c.a43 * x NL3,
    call NL4 k,
    set k fun x => c.EL89 * x u + c.a51 * x NL1 + c.a52 * x NL2 + c.a53 * x NL3 + c.a54 * x NL4,
    call NL5 k,
    set k fun x => c.EL * x u + c.a61 * x NL1 + c.a62 * x NL2 + c.a63 * x NL3 + c.a64 * x NL4 + c.a65 * x NL5,
    call NL6 k,
    set k fun x => c.EL * x u + c.a71 * x NL1 + c.a73 * x NL3 + c.a74 * x NL4 + c.a75 * x NL5 + bc c.a76 * x NL6,
    call NL7 k,
    set err fun x => c.r1 * x NL1 + c.r3 * x NL3 + c.r4 * x NL4 + c.r5 * x NL5 + bc c.r6 * x NL6 + bc c.r7 * x NL7]
  out := k

end

namespace CSProg

variable {Coef : Type}

/-- `_update_coeffs`, rkstiff/if4.py:261-267, rkstiff/etd4.py:387-400, rkstiff/etd5.py:595-620. -/
noncomputable def coeffs (P : CSProg Coef ι) (h : ℝ) : PyM (Wrap (HMethod Coef ι)) Unit := do
  let s ← PyM.get
  if some h = s.hCoeff then pure ()
  else
    PyM.modify fun s => { s with hCoeff := some h }
    Wrap.onMethod (PyM.zoom (fun s => ⟨s.coef, 0, 0⟩) (fun s m => { s with coef := m.coef }) (P.updateCoeffs h))

/-- `_update_stages`, rkstiff/if4.py:269-275, rkstiff/etd4.py:402-422, rkstiff/etd5.py:622-655.  The array returned is
the one `_k` refers to. -/
noncomputable def updateStages (P : CSProg Coef ι) (nl : HeapNl ι) (u : ℕ) (h : ℝ) :
    PyM (Wrap (HMethod Coef ι)) ℕ := do
  P.coeffs h
  Wrap.onMethod (HMethod.arg u)
  let s ← PyM.get
  if s.n1init = false then
    Wrap.onMethod (HMethod.run nl P.init)
    PyM.modify fun s => { s with n1init := true }
  Wrap.onMethod do
    let s ← PyM.get
    HMethod.run nl (P.stages s.coef h)
    let s ← PyM.get
    pure (s.attr .k)

/-- A constant-step class over the heap; `_reset` as in `Verif.IF4.reset`.  The base class methods `step`, `evolve`,
`reset` (`Verif.Model.SolverCS`) are used with addresses as arrays: `self.u.append(u)` stores an address. -/
noncomputable def cls (P : CSProg Coef ι) (nl : HeapNl ι) : CSClass ℝ ℕ (Wrap (HMethod Coef ι)) :=
  ⟨fun s => { s with n1init := false, hCoeff := none }, P.updateStages nl⟩

end CSProg

/-- An array returned by a trial of an adaptive solver: its address and (ghost) the contents it had then.  `_compute_s`
runs directly after the trial (rkstiff/solveras.py:385-386), so `seen` is what it reads. -/
structure HArr (ι : Type) where
  ref : ℕ
  seen : Vec ι

namespace ASProg

variable {Coef : Type}

/-- `_update_coeffs`, rkstiff/if34.py:314-319, rkstiff/etd34.py:569-587, rkstiff/etd35.py:842-855,
rkstiff/if45dp.py:183-238. -/
noncomputable def coeffs (P : ASProg Coef ι) (h : ℝ) : PyM (Wrap (HMethod Coef ι)) Unit := do
  let s ← PyM.get
  if some h = s.hCoeff then pure ()
  else
    PyM.modify fun s => { s with hCoeff := some h }
    Wrap.onMethod (PyM.zoom (fun s => ⟨s.coef, 0, 0, 0, 0⟩) (fun s m => { s with coef := m.coef }) (P.updateCoeffs h))

/-- The stages and `return`. -/
noncomputable def body (P : ASProg Coef ι) (nl : HeapNl ι) (h : ℝ) : PyM (HMethod Coef ι) (HArr ι × HArr ι) := do
  let s ← PyM.get
  HMethod.run nl (P.stages s.coef h)
  let s ← PyM.get
  pure (⟨s.attr P.out, s.val P.out⟩, ⟨s.attr .err, s.val .err⟩)

/-- `_update_stages`, rkstiff/if34.py:321-334, rkstiff/etd34.py:589-609, rkstiff/etd35.py:857-878. -/
noncomputable def updateStages (P : ASProg Coef ι) (nl : HeapNl ι) (u : HArr ι) (h : ℝ) (accept : Bool) :
    PyM (Wrap (HMethod Coef ι)) (HArr ι × HArr ι) := do
  P.coeffs h
  Wrap.onMethod (HMethod.arg u.ref)
  let s ← PyM.get
  if s.n1init = false then
    Wrap.onMethod (HMethod.run nl P.init)
    PyM.modify fun s => { s with n1init := true }
  if accept then
    Wrap.onMethod (HMethod.run nl P.accepted)
  Wrap.onMethod (P.body nl h)

/-- `_update_stages` of IF45DP, rkstiff/if45dp.py:112-181. -/
noncomputable def updateStagesDP (P : ASProg Coef ι) (nl : HeapNl ι) (u : HArr ι) (h : ℝ) (accept : Bool) :
    PyM (Wrap (HMethod Coef ι)) (HArr ι × HArr ι) := do
  P.coeffs h
  Wrap.onMethod (HMethod.arg u.ref)
  let s ← PyM.get
  if s.n1init = false then
    Wrap.onMethod (HMethod.run nl P.init)
    PyM.modify fun s => { s with n1init := true }
  else if accept then
    Wrap.onMethod (HMethod.run nl P.accepted)
  Wrap.onMethod (P.body nl h)

end ASProg

section
variable [Fintype ι] [DecidableEq ι]

/-- An adaptive class over the heap, with the `q` of the class and its `_update_stages`. -/
noncomputable def heapAS {Coef : Type} (q : ℕ)
    (up : HArr ι → ℝ → Bool → PyM (Wrap (HMethod Coef ι)) (HArr ι × HArr ι)) :
    ASClass ℝ (HArr ι) (Wrap (HMethod Coef ι)) :=
  ⟨fun s => { s with n1init := false, hCoeff := none }, up, fun cfg u err => computeS q cfg u.seen err.seen⟩

namespace CSSolver

/-- The strategy object, as in `Verif.CSSolver.strategy`. -/
noncomputable def prog : (m : CSSolver ι) → CSProg m.Coef ι
  | if4 (.diag L) => IF4.progDiagonal L
  | if4 (.full L) => IF4.progNonDiagonal L
  | etd4 cfg (.diag L) => ETD4.progDiagonal cfg L
  | etd4 cfg (.full L) => ETD4.progNonDiagonal cfg L
  | etd5 cfg (.diag L) => ETD5.progDiagonal cfg L
  | etd5 cfg (.full L) => ETD5.progNonDiagonal cfg L

/-- A solver object over the heap. -/
abbrev HState (m : CSSolver ι) : Type := CSState ℝ ℕ (Wrap (HMethod m.Coef ι))

/-- The methods of the solver's class over the heap. -/
noncomputable def heapCls (m : CSSolver ι) (nl : HeapNl ι) : CSClass ℝ ℕ (Wrap (HMethod m.Coef ι)) := m.prog.cls nl

/-- A newly constructed solver object; its array attributes refer to a new array of zeros.  (In the code each has its
own array of zeros; none is read or written before the attribute is assigned.) -/
noncomputable def heapNew (m : CSSolver ι) (H : Heap ι) : m.HState :=
  CSClass.fresh ⟨false, none, ⟨m.init.method.coef, fun _ => H.next, H.alloc 0, 0⟩⟩

/-- The heap. -/
abbrev heap {m : CSSolver ι} (s : m.HState) : Heap ι := s.sub.method.heap

/-- The same solver object, with another heap: the caller's code has run. -/
abbrev setHeap {m : CSSolver ι} (s : m.HState) (H : Heap ι) : m.HState :=
  { s with sub := { s.sub with method := { s.sub.method with heap := H } } }

/-- `solver.step(u, h)` -/
noncomputable def heapStep (m : CSSolver ι) (f : HeapNl ι) (u : ℕ) (h : ℝ) : PyM m.HState ℕ := (m.heapCls f).step u h

/-- `solver.reset()` -/
noncomputable def heapReset (m : CSSolver ι) (f : HeapNl ι) : PyM m.HState Unit := (m.heapCls f).resetM

/-- `solver.evolve(u, t0, tf, h, store_data, store_freq)` -/
noncomputable def heapEvolve (m : CSSolver ι) (f : HeapNl ι) (rnd : ℝ → ℝ) (pyDiv : Bool) (fuel : ℕ) (u : ℕ)
    (t0 tf h : ℝ) (storeData : Bool) (freq : ℤ) : PyM m.HState (Option ℕ) :=
  (m.heapCls f).evolve rnd pyDiv fuel u t0 tf h storeData freq

end CSSolver

namespace ASSolver

/-- The methods of the solver's class over the heap, as in `Verif.ASSolver.cls`. -/
noncomputable def heapCls : (m : ASSolver ι) → HeapNl ι → ASClass ℝ (HArr ι) (Wrap (HMethod m.Coef ι))
  | if34 (.diag L), nl => heapAS 4 ((IF34.progDiagonal L).updateStages nl)
  | if34 (.full L), nl => heapAS 4 ((IF34.progNonDiagonal L).updateStages nl)
  | if34 (.eig lam S Sinv _), nl => heapAS 4 ((IF34.progDiagonalized lam S Sinv).updateStages nl)
  | etd34 cfg (.diag L), nl => heapAS 4 ((ETD34.progDiagonal cfg L).updateStages nl)
  | etd34 cfg (.full L), nl => heapAS 4 ((ETD34.progNonDiagonal cfg L).updateStages nl)
  | etd34 cfg (.eig lam S Sinv _), nl => heapAS 4 ((ETD34.progDiagonalized cfg lam S Sinv).updateStages nl)
  | etd35 cfg (.diag L), nl => heapAS 4 ((ETD35.progDiagonal cfg L).updateStages nl)
  | etd35 cfg (.full L), nl => heapAS 4 ((ETD35.progNonDiagonal cfg L).updateStages nl)
  | etd35 cfg (.eig lam S Sinv _), nl => heapAS 4 ((ETD35.progDiagonalized cfg lam S Sinv).updateStages nl)
  | if45dp L, nl => heapAS 5 ((IF45DP.prog L).updateStagesDP nl)

/-- A solver object over the heap. -/
abbrev HState (m : ASSolver ι) : Type := ASState ℝ (HArr ι) (Wrap (HMethod m.Coef ι))

/-- A newly constructed solver object. -/
noncomputable def heapNew (m : ASSolver ι) (H : Heap ι) : m.HState :=
  ASClass.fresh ⟨false, none, ⟨m.init.method.coef, fun _ => H.next, H.alloc 0, 0⟩⟩

/-- The heap. -/
abbrev heap {m : ASSolver ι} (s : m.HState) : Heap ι := s.sub.method.heap

/-- The same solver object, with another heap: the caller's code has run. -/
abbrev setHeap {m : ASSolver ι} (s : m.HState) (H : Heap ι) : m.HState :=
  { s with sub := { s.sub with method := { s.sub.method with heap := H } } }

/-- The array an argument refers to (the ghost contents are not read for an argument). -/
def argArr (u : ℕ) : HArr ι := ⟨u, 0⟩

/-- `solver.step(u, h)` -/
noncomputable def heapStep (m : ASSolver ι) (f : HeapNl ι) (rnd : ℝ → ℝ) (cfg : SolverConfig ℝ) (u : ℕ) (h : ℝ) :
    PyM m.HState (HArr ι × ℝ × ℝ) := (m.heapCls f).step rnd cfg (argArr u) h

/-- `solver.reset()` -/
noncomputable def heapReset (m : ASSolver ι) (f : HeapNl ι) : PyM m.HState Unit := (m.heapCls f).resetM

/-- `solver.evolve(u, t0, tf, h_init, store_data, store_freq)` -/
noncomputable def heapEvolve (m : ASSolver ι) (f : HeapNl ι) (rnd : ℝ → ℝ) (pyDiv : Bool) (cfg : SolverConfig ℝ)
    (fuel : ℕ) (u : ℕ) (t0 tf : ℝ) (hInit : Option ℝ) (storeData : Bool) (freq : ℤ) : PyM m.HState (Option (HArr ι)) :=
  (m.heapCls f).evolve rnd pyDiv cfg fuel (argArr u) t0 tf hInit storeData freq

end ASSolver

end

end Verif
