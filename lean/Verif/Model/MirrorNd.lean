import Verif.Model.Derivatives

/-!
# `mirror_grid` of rkstiff/grids.py on arrays of any shape

`Verif.Model.Grids.mirrorGrid` has the same function on lists.
-/

set_option linter.unusedSectionVars false

namespace Verif

namespace NdArr

variable {α : Type}

/-- Reversal of an axis. -/
def flip (k : ℕ) (a : NdArr α) : NdArr α := ⟨a.shape, fun idx => a.get (idx.set k (a.shape.getD k 0 - 1 - idx.getD k 0))⟩

/-- `np.flipud` refuses arrays without axes. -/
def flipud (a : NdArr α) : Except PyErr (NdArr α) := if a.shape.length < 1 then .error .valueError else .ok (a.flip 0)

/-- `np.fliplr` refuses arrays with less than two axes. -/
def fliplr (a : NdArr α) : Except PyErr (NdArr α) := if a.shape.length < 2 then .error .valueError else .ok (a.flip 1)

/-- `np.concatenate([a, b], axis=k)`; the lengths of the other axes must agree. -/
def concat (k : ℕ) (a b : NdArr α) : Except PyErr (NdArr α) :=
  if a.shape.length ≤ k ∨ a.shape.set k 0 ≠ b.shape.set k 0 then .error .valueError
  else .ok ⟨a.shape.set k (a.shape.getD k 0 + b.shape.getD k 0), fun idx =>
    if idx.getD k 0 < a.shape.getD k 0 then a.get idx else b.get (idx.set k (idx.getD k 0 - a.shape.getD k 0))⟩

/-- `np.atleast_1d` -/
def atleast1 (a : NdArr α) : NdArr α :=
  match a.shape with
  | [] => ⟨[1], fun _ => a.get []⟩
  | _ => a

/-- `np.atleast_2d` -/
def atleast2 (a : NdArr α) : NdArr α :=
  match a.shape with
  | [] => ⟨[1, 1], fun _ => a.get []⟩
  | [n] => ⟨[1, n], fun idx => a.get idx.tail⟩
  | _ => a

/-- `np.hstack([a, b])` joins along the second axis, or along the only one of the first array. -/
def hstack (a b : NdArr α) : Except PyErr (NdArr α) :=
  concat (if a.atleast1.shape.length = 1 then 0 else 1) a.atleast1 b.atleast1

/-- `np.vstack([a, b])` joins along the first axis. -/
def vstack (a b : NdArr α) : Except PyErr (NdArr α) := concat 0 a.atleast2 b.atleast2

end NdArr

/-- `mirror_grid`, rkstiff/grids.py:267-321. -/
def mirrorGridNd {K α : Type} [Neg K] (r : NdArr K) (u : Option (NdArr α)) (axis : ℤ) : Except PyErr (NdArr K × Option (NdArr α)) := do
  let f ← r.flipud
  let rnew ← NdArr.hstack ⟨f.shape, fun idx => -f.get idx⟩ r
  match u with
  | none => return (rnew, none)
  | some u =>
    if axis = -1 then
      let v ← u.flipud
      let unew ← NdArr.hstack v u
      return (rnew, some unew)
    else if axis = 0 then
      let v ← u.flipud
      let unew ← NdArr.vstack v u
      return (rnew, some unew)
    else if axis = 1 then
      let v ← u.fliplr
      let unew ← NdArr.hstack v u
      return (rnew, some unew)
    else .error .valueError

end Verif
