import Mathlib.Algebra.Order.Field.Basic

/-!
# The fragment of Python semantics the model uses

* exceptions as values (`PyErr`), with the object state kept after a raise (`PyM`);
* floats including `nan`/`inf` as `Ext K`, with Python's comparison semantics.
-/

set_option linter.unusedSectionVars false

namespace Verif

/-- The exceptions that the modelled code raises or lets through.

`nlFunc c` is an arbitrary exception raised by the user's `nl_func` (`c` is a tag).
`maxLoopsExceeded`, `minimumStepReached` model the classes in rkstiff/solveras.py:246-253. -/
inductive PyErr where
  | valueError
  | typeError
  | assertionError
  | zeroDivisionError
  | indexError
  | linAlgError
  | maxLoopsExceeded
  | minimumStepReached
  | nlFunc (code : ℕ)
  deriving DecidableEq, Repr

/-- A Python method body acting on the object state `σ`: it returns or raises, and leaves a state behind in
both cases (no roll-back). -/
abbrev PyM (σ α : Type) : Type := σ → Except PyErr α × σ

namespace PyM

variable {σ τ α β : Type}

@[inline] protected def pure (a : α) : PyM σ α := fun s => (.ok a, s)

@[inline] protected def bind (x : PyM σ α) (f : α → PyM σ β) : PyM σ β := fun s =>
  match x s with
  | (.ok a, s') => f a s'
  | (.error e, s') => (.error e, s')

instance : Monad (PyM σ) where
  pure := PyM.pure
  bind := PyM.bind

/-- `raise e` -/
def throw (e : PyErr) : PyM σ α := fun s => (.error e, s)

/-- read `self` -/
def get : PyM σ σ := fun s => (.ok s, s)

/-- mutate `self` -/
def modify (f : σ → σ) : PyM σ Unit := fun s => (.ok (), f s)

/-- Run a computation on a part of the state (e.g. on the strategy object `self._method`). -/
def zoom (g : σ → τ) (p : σ → τ → σ) (x : PyM τ α) : PyM σ α := fun s =>
  match x (g s) with
  | (r, t) => (r, p s t)

@[simp] theorem pure_apply (a : α) (s : σ) : (pure a : PyM σ α) s = (.ok a, s) := rfl

theorem bind_apply (x : PyM σ α) (f : α → PyM σ β) (s : σ) :
    (x >>= f) s = match x s with
      | (.ok a, s') => f a s'
      | (.error e, s') => (.error e, s') := rfl

@[simp] theorem throw_apply (e : PyErr) (s : σ) : (throw e : PyM σ α) s = (.error e, s) := rfl
@[simp] theorem get_apply (s : σ) : (get : PyM σ σ) s = (.ok s, s) := rfl
@[simp] theorem modify_apply (f : σ → σ) (s : σ) : modify f s = (.ok (), f s) := rfl

@[simp] theorem zoom_apply (g : σ → τ) (p : σ → τ → σ) (x : PyM τ α) (s : σ) :
    zoom g p x s = ((x (g s)).1, p s (x (g s)).2) := rfl

theorem ite_apply (c : Prop) [Decidable c] (x y : PyM σ α) (s : σ) :
    (if c then x else y) s = if c then x s else y s := by split <;> rfl

theorem bind_ok {x : PyM σ α} {f : α → PyM σ β} {s s' : σ} {a : α} (h : x s = (.ok a, s')) :
    (x >>= f) s = f a s' := by simp [bind_apply, h]

theorem bind_error {x : PyM σ α} {f : α → PyM σ β} {s s' : σ} {e : PyErr} (h : x s = (.error e, s')) :
    (x >>= f) s = (.error e, s') := by simp [bind_apply, h]

@[simp] theorem bind_pure_unit (a : α) (f : α → PyM σ β) : ((pure a : PyM σ α) >>= f) = f a := rfl
@[simp] theorem bind_throw (e : PyErr) (f : α → PyM σ β) : ((throw e : PyM σ α) >>= f) = throw e := rfl
@[simp] theorem bind_get_apply (f : σ → PyM σ β) (s : σ) : ((get : PyM σ σ) >>= f) s = f s s := rfl
@[simp] theorem bind_modify_apply (g : σ → σ) (f : Unit → PyM σ β) (s : σ) :
    (modify g >>= f) s = f () (g s) := rfl

end PyM

/-- A Python/NumPy float: exact finite value, or one of the non-finite values. -/
inductive Ext (K : Type) where
  | nan
  | ninf
  | pinf
  | fin (x : K)
  deriving DecidableEq, Repr

/-- The comparisons `<`, `<=` used by the validation code, for any numeric type. -/
class PyOrd (T : Type) where
  lt : T → T → Bool
  le : T → T → Bool

namespace Ext
variable {K : Type} [Field K] [LinearOrder K]

/-- IEEE/Python `x < y`: false whenever a nan is involved. -/
def lt : Ext K → Ext K → Bool
  | nan, _ => false
  | _, nan => false
  | pinf, _ => false
  | _, ninf => false
  | ninf, _ => true
  | _, pinf => true
  | fin x, fin y => decide (x < y)

/-- IEEE/Python `x <= y`: false whenever a nan is involved. -/
def le : Ext K → Ext K → Bool
  | nan, _ => false
  | _, nan => false
  | ninf, _ => true
  | _, pinf => true
  | pinf, _ => false
  | _, ninf => false
  | fin x, fin y => decide (x ≤ y)

instance : PyOrd (Ext K) := ⟨lt, le⟩

/-- `np.isnan` -/
def isNan : Ext K → Bool
  | nan => true
  | _ => false

/-- `np.isinf` -/
def isInf : Ext K → Bool
  | pinf => true
  | ninf => true
  | _ => false

@[simp] theorem lt_fin_fin (x y : K) : lt (fin x) (fin y) = decide (x < y) := rfl
@[simp] theorem le_fin_fin (x y : K) : le (fin x) (fin y) = decide (x ≤ y) := rfl
@[simp] theorem lt_pinf_left (x : Ext K) : lt pinf x = false := by cases x <;> rfl
@[simp] theorem lt_nan_left (x : Ext K) : lt nan x = false := by cases x <;> rfl
@[simp] theorem lt_ninf_fin (x : K) : lt ninf (fin x) = true := rfl
@[simp] theorem isNan_fin (x : K) : isNan (fin x) = false := rfl
@[simp] theorem isInf_fin (x : K) : isInf (fin x) = false := rfl
@[simp] theorem isNan_nan : isNan (nan : Ext K) = true := rfl
@[simp] theorem isInf_pinf : isInf (pinf : Ext K) = true := rfl
@[simp] theorem isInf_ninf : isInf (ninf : Ext K) = true := rfl

end Ext

/-- `isinstance`-level view of a Python argument, for code that dispatches on the dynamic type. -/
inductive PyVal (K : Type) where
  | int (n : ℤ)
  | float (x : Ext K)
  | other
  deriving DecidableEq, Repr

end Verif
