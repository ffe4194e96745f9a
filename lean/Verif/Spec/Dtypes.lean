import Verif.Model.Dtypes
import Verif.Spec.Limit

/-!
# What is said about dtypes (property C83)
-/

set_option linter.unusedSectionVars false

namespace Verif

namespace DType

/-- `a` comes before `b` in the order in which dtypes are promoted: `int64`, `float64`, `complex128`. -/
def le (a b : DType) : Prop := a.promote b = b

/-- A function that respects the order. -/
def Mono (ν : DType → DType) : Prop := ∀ a b : DType, a.le b → (ν a).le (ν b)

end DType

variable {A : Type}

/-- `nl_func` returns arrays of at least the dtypes that `ν` says. -/
def NlGe (nl : TArr A → Except PyErr (TArr A)) (ν : DType → DType) : Prop := ∀ x v, nl x = .ok v → (ν x.ty).le v.ty

/-- `nl_func` returns arrays of at most the dtypes that `ν` says. -/
def NlLe (nl : TArr A → Except PyErr (TArr A)) (ν : DType → DType) : Prop := ∀ x v, nl x = .ok v → v.ty.le (ν x.ty)

/-- `nl_func` returns real arrays for real arrays. -/
def NlReal (nl : TArr A → Except PyErr (TArr A)) : Prop := ∀ x v, nl x = .ok v → x.ty ≠ .complex128 → v.ty ≠ .complex128

/-- The dtype of the result of a step from an array of dtype `t`: the largest of those of the coefficients, of the argument and of the
values of `nl_func` at `float64` arrays. -/
def stepTy (cv : DType) (ν : DType → DType) (t : DType) : DType := (cv.promote t).promote (ν .float64)

variable {ι : Type}

/-- A run recorded `u` first, if it recorded anything, and then only arrays of which `P` is true; and `P` is true of the array that it
returned, unless there was no step, in which case it returned `u`. -/
def RunTail (P : TArr A → Prop) (u : TArr A) (storeData : Bool) (t0 tf : ℝ) (r : Except PyErr (Option (TArr A))) (rec : List (TArr A)) :
    Prop :=
  rec.head? = (if storeData then some u else none) ∧ (∀ a ∈ rec.tail, P a) ∧
    ∀ v, r = .ok (some v) → (v = u ∧ ¬ t0 < tf) ∨ P v

variable [Fintype ι] [DecidableEq ι]

/-- The entries are real if the dtype is. -/
def TArr.Fits (x : TArr (Vec ι)) : Prop := x.ty = .complex128 ∨ ∀ i, (x.val i).im = 0

/-- The entries of `lin_op` are real if its dtype is. -/
def CSSolver.OpFits (d : DType) (m : CSSolver ι) : Prop := d = .complex128 ∨ ∀ i j, (m.op.mat i j).im = 0

/-- The entries of `lin_op`, or, with `diagonalize`, its eigenvalues and eigenvectors, are real if their dtype is. -/
def ASSolver.OpFits (d e : DType) : ASSolver ι → Prop
  | if34 (.eig l S T _) | etd34 _ (.eig l S T _) | etd35 _ (.eig l S T _) =>
    e = .complex128 ∨ (∀ i, (l i).im = 0) ∧ (∀ i j, (S i j).im = 0) ∧ ∀ i j, (T i j).im = 0
  | m => d = .complex128 ∨ ∀ i j, (m.op.mat i j).im = 0

/-- Is `lin_op` replaced by its eigenvalues? -/
def ASSolver.IsEig : ASSolver ι → Prop
  | if34 (.eig _ _ _ _) | etd34 _ (.eig _ _ _ _) | etd35 _ (.eig _ _ _ _) => True
  | _ => False

end Verif
