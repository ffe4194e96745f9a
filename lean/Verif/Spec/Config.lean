import Verif.Model.Config

/-!
# Valid configurations (specification)

What the documentation of `SolverConfig` and `ETDConfig` promises about their attributes, and what a history of
assignments should leave behind.  `nan` is not excluded by any of the range checks of the code.
-/

set_option linter.unusedSectionVars false

namespace Verif

variable {K : Type} [Field K] [LinearOrder K]

/-- A value greater than `a` (possibly infinite). -/
def Ext.Above (a : K) (v : Ext K) : Prop := v = .pinf ∨ ∃ x, v = .fin x ∧ a < x

/-- A value less than `a` (possibly infinite). -/
def Ext.Below (a : K) (v : Ext K) : Prop := v = .ninf ∨ ∃ x, v = .fin x ∧ x < a

/-- A value at most `a` (possibly infinite). -/
def Ext.AtMost (a : K) (v : Ext K) : Prop := v = .ninf ∨ ∃ x, v = .fin x ∧ x ≤ a

/-- The documented range of an attribute of `SolverConfig`. -/
def SCAttr.Documented : SCAttr → Ext K → Prop
  | .epsilon => Ext.Above 0
  | .incr_f => Ext.Above 1
  | .decr_f => Ext.Below 1
  | .safety_f => Ext.AtMost 1
  | .adapt_cutoff => Ext.Below 1
  | .minh => Ext.Above 0

/-- What the setters let through: the documented range and `nan`. -/
def SCAttr.Accepts (a : SCAttr) (v : Ext K) : Prop := v = .nan ∨ a.Documented v

open Classical in
/-- The value an attribute should have after a history of assignments: the last acceptable value assigned to it, or the
value it had before. -/
noncomputable def lastAccepted (a : SCAttr) (v0 : Ext K) : List (SCAttr × Ext K) → Ext K
  | [] => v0
  | (b, v) :: rest => lastAccepted a (if b = a ∧ a.Accepts v then v else v0) rest

/-- Perform assignments one after another, catching the exceptions of those that fail. -/
def SolverConfig.assignAll (c : SolverConfig (Ext K)) : List (SCAttr × Ext K) → SolverConfig (Ext K)
  | [] => c
  | (a, v) :: rest => assignAll (SolverConfig.setAttr a v c).2 rest

namespace ETDConfig

/-- The documented ranges for `ETDConfig`. -/
def Assign.Documented : Assign K → Prop
  | .modecutoff v => ∃ x, v = .fin x ∧ 0 < x ∧ x ≤ 1
  | .contourPoints v => ∃ n, v = .int n ∧ 2 ≤ n
  | .contourRadius v => Ext.Above 0 v

/-- What the setters let through. -/
def Assign.Accepts : Assign K → Prop
  | .modecutoff v => v = .nan ∨ ∃ x, v = .fin x ∧ 0 < x ∧ x ≤ 1
  | .contourPoints v => ∃ n, v = .int n ∧ 2 ≤ n
  | .contourRadius v => v = .nan ∨ Ext.Above 0 v

/-- The exception raised otherwise. -/
def Assign.error : Assign K → PyErr
  | .contourPoints (.float _) => .typeError
  | .contourPoints .other => .typeError
  | _ => .valueError

/-- Perform assignments one after another, catching the exceptions of those that fail. -/
def assignAll (c : ETDConfig (Ext K)) : List (Assign K) → ETDConfig (Ext K)
  | [] => c
  | a :: rest => assignAll (assign a c).2 rest

/-- The configuration after the attribute was changed. -/
def changed (c : ETDConfig (Ext K)) : Assign K → ETDConfig (Ext K)
  | .modecutoff v => ⟨v, c.contour_points, c.contour_radius⟩
  | .contourPoints (.int n) => ⟨c.modecutoff, n, c.contour_radius⟩
  | .contourPoints _ => c
  | .contourRadius v => ⟨c.modecutoff, c.contour_points, v⟩

open Classical in
/-- The configuration that should result: each attribute has the last acceptable value assigned to it. -/
noncomputable def lastAccepted (c : ETDConfig (Ext K)) : List (Assign K) → ETDConfig (Ext K)
  | [] => c
  | a :: rest => lastAccepted (if a.Accepts then c.changed a else c) rest

end ETDConfig

end Verif
