import Verif.Model.Hankel
import Verif.Model.Broadcast
import Verif.Model.Models

/-!
# rkstiff/transforms.py and the soliton functions of rkstiff/models.py on arrays of any shape
-/

set_option linter.unusedSectionVars false

namespace Verif

open Finset

namespace HankelObj

/-- An entry of the matrix. -/
noncomputable def ent (Y : List (List ℝ)) (i l : ℕ) : ℂ := ((Y.getD i []).getD l 0 : ℝ)

/-- `Y.dot(f)` for a square matrix `Y` and an array of any shape: if `f` has no axes the product with a number, otherwise the sum over the only
axis, or the last but one. -/
noncomputable def dotNd (Y : List (List ℝ)) (f : NdArr ℂ) : Except PyErr (NdArr ℂ) :=
  match f.shape.reverse with
  | [] => .ok ⟨[Y.length, Y.length], fun idx => ent Y (idx.getD 0 0) (idx.getD 1 0) * f.get []⟩
  | [k] =>
    if k = Y.length then .ok ⟨[Y.length], fun idx => ∑ l ∈ range k, ent Y (idx.headD 0) l * f.get [l]⟩ else .error .valueError
  | b :: k :: lead =>
    if k = Y.length then
      .ok ⟨Y.length :: lead.reverse ++ [b], fun idx =>
        ∑ l ∈ range k, ent Y (idx.headD 0) l * f.get (idx.tail.dropLast ++ [l, idx.getLastD 0])⟩
    else .error .valueError

/-- `ht`, rkstiff/transforms.py:178-208. -/
noncomputable def htNd (o : HankelObj) (f : NdArr ℂ) : Except PyErr (NdArr ℂ) := do
  let g ← dotNd o.Y f
  return ⟨g.shape, fun idx => (o.scalefactor : ℂ) * g.get idx⟩

/-- `iht`, rkstiff/transforms.py:210-240. -/
noncomputable def ihtNd (o : HankelObj) (g : NdArr ℂ) : Except PyErr (NdArr ℂ) := do
  let f ← dotNd o.Y g
  return ⟨f.shape, fun idx => f.get idx / (o.scalefactor : ℂ)⟩

end HankelObj

/-- `kdv_soliton`, rkstiff/models.py:32-73. -/
noncomputable def kdvSolitonNd (x : NdArr ℝ) (ampl x0 t : ℝ) : NdArr ℝ := ⟨x.shape, fun idx => kdvSoliton (x.get idx) ampl x0 t⟩

/-- `kdv_multi_soliton`, rkstiff/models.py:76-110: `len(x)` of a number raises `TypeError`; `x.reshape(n, 1)` with `n = len(x)` raises
`ValueError` if `x` has not `n` entries, and otherwise lists the entries in the order of their indices. -/
noncomputable def kdvMultiSolitonNd (x : NdArr ℝ) (ampl x0 : List ℝ) (t : ℝ) : Except PyErr (NdArr ℝ) :=
  if x0.length ≠ ampl.length then .error .valueError
  else
    match x.shape with
    | [] => .error .typeError
    | n :: _ =>
      if x.size ≠ n then .error .valueError
      else .ok ⟨[n], fun idx =>
        let xi := x.get ((indices x.shape).getD (idx.headD 0) [])
        (List.zipWith (fun a x0j => 0.5 * a ^ 2 / Real.cosh (a * (xi - x0j - a ^ 2 * t) / 2) ^ 2) ampl x0).sum⟩

end Verif
