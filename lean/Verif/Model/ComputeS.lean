import Verif.Model.Method
import Mathlib.Analysis.SpecialFunctions.Pow.Real

/-!
# `BaseSolverAS._compute_s` (rkstiff/solveras.py:412-455)
-/

set_option linter.unusedSectionVars false

namespace Verif

variable {ι : Type} [Fintype ι]

/-- `np.linalg.norm(w[idx])`: Euclidean norm of the selected entries. -/
noncomputable def maskedNorm (idx : ι → Prop) [DecidablePred idx] (w : Vec ι) : ℝ :=
  Real.sqrt (∑ i, if idx i then ‖w i‖ ^ 2 else 0)

/-- Division of two finite NumPy floats: a zero denominator gives `nan` or an infinity. -/
noncomputable def npDiv (x y : ℝ) : Ext ℝ :=
  if y = 0 then (if x = 0 then .nan else if 0 < x then .pinf else .ninf) else .fin (x / y)

/-- `np.power(x, p)` for `p > 0`.  Negative bases (possible only for a negative `epsilon`, which the setter excludes)
give `nan`, negative infinity gives infinity. -/
noncomputable def npPower (x : Ext ℝ) (p : ℝ) : Ext ℝ :=
  match x with
  | .fin x => if x < 0 then .nan else .fin (x ^ p)
  | .pinf => .pinf
  | .ninf => .pinf
  | .nan => .nan

/-- Product of a finite float with any float. -/
noncomputable def npScale (c : ℝ) (x : Ext ℝ) : Ext ℝ :=
  match x with
  | .fin x => .fin (c * x)
  | .pinf => if c = 0 then .nan else if 0 < c then .pinf else .ninf
  | .ninf => if c = 0 then .nan else if 0 < c then .ninf else .pinf
  | .nan => .nan

/-- `_compute_s`, rkstiff/solveras.py:450-455.  `magu / magu.max() > adapt_cutoff`: when all entries are zero the quotient
is `nan` and no entry is selected.  (`magu.max()` raises on an empty array; the model is used with a nonempty index
type.) -/
noncomputable def computeS (q : ℕ) (cfg : SolverConfig ℝ) (u err : Vec ι) : Ext ℝ :=
  open Classical in
  let mx : ℝ := ⨆ i, ‖u i‖
  let idx : ι → Prop := fun i => mx ≠ 0 ∧ cfg.adapt_cutoff < ‖u i‖ / mx
  let tol := cfg.epsilon * maskedNorm idx u
  npScale cfg.safety_f (npPower (npDiv tol (maskedNorm idx err)) (1 / q))

end Verif
