import Verif.Model.Py

/-!
# `SolverConfig` (rkstiff/solveras.py:27-169) and `ETDConfig` (rkstiff/etd.py:46-131)

The validated configuration objects.  Attribute assignment `cfg.attr = value` goes through a property setter that
raises before storing when the value is out of range.
-/

set_option linter.unusedSectionVars false

namespace Verif

/-- The six attributes of `SolverConfig` (rkstiff/solveras.py:80-95). -/
structure SolverConfig (T : Type) where
  epsilon : T
  incr_f : T
  decr_f : T
  safety_f : T
  adapt_cutoff : T
  minh : T
  deriving DecidableEq, Repr

/-- Attribute names of `SolverConfig`. -/
inductive SCAttr where
  | epsilon | incr_f | decr_f | safety_f | adapt_cutoff | minh
  deriving DecidableEq, Repr

namespace SolverConfig

variable {K : Type} [Field K] [LinearOrder K]

/-- `epsilon.setter`, rkstiff/solveras.py:104-109: `if value <= 0: raise ValueError`. -/
def setEpsilon (v : Ext K) : PyM (SolverConfig (Ext K)) Unit := do
  if Ext.le v (.fin 0) then PyM.throw .valueError
  PyM.modify fun c => { c with epsilon := v }

/-- `incr_f.setter`, rkstiff/solveras.py:116-121: `if value <= 1.0: raise ValueError`. -/
def setIncrF (v : Ext K) : PyM (SolverConfig (Ext K)) Unit := do
  if Ext.le v (.fin 1) then PyM.throw .valueError
  PyM.modify fun c => { c with incr_f := v }

/-- `decr_f.setter`, rkstiff/solveras.py:128-133: `if value >= 1.0: raise ValueError`. -/
def setDecrF (v : Ext K) : PyM (SolverConfig (Ext K)) Unit := do
  if Ext.le (.fin 1) v then PyM.throw .valueError
  PyM.modify fun c => { c with decr_f := v }

/-- `safety_f.setter`, rkstiff/solveras.py:140-145: `if value > 1.0: raise ValueError`. -/
def setSafetyF (v : Ext K) : PyM (SolverConfig (Ext K)) Unit := do
  if Ext.lt (.fin 1) v then PyM.throw .valueError
  PyM.modify fun c => { c with safety_f := v }

/-- `adapt_cutoff.setter`, rkstiff/solveras.py:152-157: `if value >= 1.0: raise ValueError`. -/
def setAdaptCutoff (v : Ext K) : PyM (SolverConfig (Ext K)) Unit := do
  if Ext.le (.fin 1) v then PyM.throw .valueError
  PyM.modify fun c => { c with adapt_cutoff := v }

/-- `minh.setter`, rkstiff/solveras.py:164-169: `if value <= 0: raise ValueError`. -/
def setMinh (v : Ext K) : PyM (SolverConfig (Ext K)) Unit := do
  if Ext.le v (.fin 0) then PyM.throw .valueError
  PyM.modify fun c => { c with minh := v }

/-- `cfg.attr = v` -/
def setAttr : SCAttr → Ext K → PyM (SolverConfig (Ext K)) Unit
  | .epsilon => setEpsilon
  | .incr_f => setIncrF
  | .decr_f => setDecrF
  | .safety_f => setSafetyF
  | .adapt_cutoff => setAdaptCutoff
  | .minh => setMinh

/-- `cfg.attr` -/
def getAttr {T : Type} : SCAttr → SolverConfig T → T
  | .epsilon, c => c.epsilon
  | .incr_f, c => c.incr_f
  | .decr_f, c => c.decr_f
  | .safety_f, c => c.safety_f
  | .adapt_cutoff, c => c.adapt_cutoff
  | .minh, c => c.minh

/-- `SolverConfig.__init__`, rkstiff/solveras.py:71-94: the setters are applied in this order to an object whose
attributes are still unset.  (`blank` stands for the `None`s: it is not observable, since a raise in `__init__`
yields no object.) -/
def init (epsilon incr_f decr_f safety_f adapt_cutoff minh : Ext K) : Except PyErr (SolverConfig (Ext K)) :=
  let blank : SolverConfig (Ext K) := ⟨.nan, .nan, .nan, .nan, .nan, .nan⟩
  let body : PyM (SolverConfig (Ext K)) Unit := do
    setEpsilon epsilon
    setIncrF incr_f
    setDecrF decr_f
    setSafetyF safety_f
    setAdaptCutoff adapt_cutoff
    setMinh minh
  match body blank with
  | (.ok _, c) => .ok c
  | (.error e, _) => .error e

/-- Default arguments of `__init__`, rkstiff/solveras.py:73-78. -/
def default : SolverConfig (Ext K) :=
  ⟨.fin (1 / 10000), .fin (5 / 4), .fin (17 / 20), .fin (4 / 5), .fin (1 / 100), .fin (1 / 10 ^ 16)⟩

end SolverConfig

/-- The three attributes of `ETDConfig` (rkstiff/etd.py:82-84). -/
structure ETDConfig (T : Type) where
  modecutoff : T
  contour_points : ℤ
  contour_radius : T
  deriving DecidableEq, Repr

namespace ETDConfig

variable {K : Type} [Field K] [LinearOrder K]

/-- `modecutoff.setter`, rkstiff/etd.py:97-101: `if (value > 1.0) or (value <= 0): raise ValueError`. -/
def setModecutoff (v : Ext K) : PyM (ETDConfig (Ext K)) Unit := do
  if Ext.lt (.fin 1) v || Ext.le v (.fin 0) then PyM.throw .valueError
  PyM.modify fun c => { c with modecutoff := v }

/-- `contour_points.setter`, rkstiff/etd.py:111-117: `isinstance(value, int)` check first, then `value <= 1`. -/
def setContourPoints (v : PyVal K) : PyM (ETDConfig (Ext K)) Unit := do
  match v with
  | .int n =>
    if n ≤ 1 then PyM.throw .valueError
    PyM.modify fun c => { c with contour_points := n }
  | _ => PyM.throw .typeError

/-- `contour_radius.setter`, rkstiff/etd.py:127-131: `if value <= 0: raise ValueError`. -/
def setContourRadius (v : Ext K) : PyM (ETDConfig (Ext K)) Unit := do
  if Ext.le v (.fin 0) then PyM.throw .valueError
  PyM.modify fun c => { c with contour_radius := v }

/-- One assignment to an attribute of an `ETDConfig`. -/
inductive Assign (K : Type) where
  | modecutoff (v : Ext K)
  | contourPoints (v : PyVal K)
  | contourRadius (v : Ext K)

/-- `cfg.attr = v` -/
def assign : Assign K → PyM (ETDConfig (Ext K)) Unit
  | .modecutoff v => setModecutoff v
  | .contourPoints v => setContourPoints v
  | .contourRadius v => setContourRadius v

/-- `ETDConfig.__init__`, rkstiff/etd.py:81-87 (setters in this order). -/
def init (modecutoff : Ext K) (contour_points : PyVal K) (contour_radius : Ext K) :
    Except PyErr (ETDConfig (Ext K)) :=
  let blank : ETDConfig (Ext K) := ⟨.nan, 0, .nan⟩
  let body : PyM (ETDConfig (Ext K)) Unit := do
    setModecutoff modecutoff
    setContourPoints contour_points
    setContourRadius contour_radius
  match body blank with
  | (.ok _, c) => .ok c
  | (.error e, _) => .error e

end ETDConfig

end Verif
