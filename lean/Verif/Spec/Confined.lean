import Verif.Spec.ERK
import Verif.Spec.Methods

/-!
# Problems confined to an affine set (C96)
-/

namespace Verif

open Matrix

variable {ι : Type} [Fintype ι] [DecidableEq ι]

/-- The right-hand side of `u' = L u + nl_func(u)` is tangent to the affine set `c + W`, separately in both terms: `L` maps `W` into
itself and `c` into `W`, and the values of `nl_func` on `c + W` (where it returns) belong to `W`. For instance, components of `u` that
are parameters of the problem: rows of `L` and components of `nl_func` that are zero. -/
structure Confined (W : Submodule ℂ (Vec ι)) (c : Vec ι) (L : Mat ι) (nl : Vec ι → Except PyErr (Vec ι)) : Prop where
  keeps : ∀ w ∈ W, L *ᵥ w ∈ W
  centre : L *ᵥ c ∈ W
  values : ∀ w n, w - c ∈ W → nl w = .ok n → n ∈ W

end Verif
