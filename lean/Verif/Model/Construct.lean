import Verif.Model.Config
import Verif.Model.Logging

/-!
# Construction of solvers, shared objects

The constructors of the seven solver classes act on a global state: the registry of loggers and the heap of configuration
objects.  Default arguments of Python functions are evaluated once, when the function is defined, so each class has its
own default `SolverConfig` and `ETDConfig` objects, shared by all its instances.

Not modelled here: the arrays inside the strategy objects (see `Verif.Model.Method` and the models of the solvers) and
`lin_op`s that are not arrays.
-/

set_option linter.unusedSectionVars false

namespace Verif

/-- The solver classes exported by rkstiff. -/
inductive SolverClass where
  | if4 | etd4 | etd5 | if34 | etd34 | etd35 | if45dp
  deriving DecidableEq, Repr

/-- `cls.__name__` -/
def SolverClass.name : SolverClass → String
  | if4 => "IF4"
  | etd4 => "ETD4"
  | etd5 => "ETD5"
  | if34 => "IF34"
  | etd34 => "ETD34"
  | etd35 => "ETD35"
  | if45dp => "IF45DP"

/-- `logger_name` in `get_solver_logger`, rkstiff/util/loghelper.py:218. -/
def SolverClass.loggerName (c : SolverClass) : String := "rkstiff." ++ c.name

/-- Identity of a configuration object: the default object of a class, or the `n`-th object created by the user. -/
inductive Ref where
  | default (c : SolverClass)
  | user (n : ℕ)
  deriving DecidableEq, Repr

/-- How the linear operator is treated: the class of `self._method` (for IF45DP always elementwise). -/
inductive Strategy where
  | diagonal | diagonalized | full
  deriving DecidableEq, Repr

/-- A solver object, as far as it refers to shared state.  `methodEtd` is the reference to the `ETDConfig` inside the
strategy object (e.g. rkstiff/etd4.py:78), which is the one used to compute coefficients. -/
structure SolverObj where
  cls : SolverClass
  strategy : Strategy
  config : Option Ref
  etdConfig : Option Ref
  methodEtd : Option Ref
  deriving DecidableEq, Repr

/-- The global state. -/
structure World (K : Type) where
  loggers : Loggers
  configs : Ref → Option (SolverConfig (Ext K))
  etdConfigs : Ref → Option (ETDConfig (Ext K))
  nextConfig : ℕ
  nextEtd : ℕ
  solvers : List SolverObj

variable {K : Type} [Field K] [LinearOrder K]

/-- The state after `import rkstiff` in a program with the given loggers. -/
def World.start (loggers : Loggers) : World K where
  loggers := loggers
  configs
    | .default .if4 | .default .etd4 | .default .etd5 => none
    | .default _ => some .default
    | .user _ => none
  etdConfigs
    | .default .etd4 | .default .etd5 | .default .etd34 | .default .etd35 => some ⟨.fin (1 / 100), 32, .fin 1⟩
    | _ => none
  nextConfig := 0
  nextEtd := 0
  solvers := []

/-- Outcomes of the NumPy calls on `lin_op` in the constructors of the diagonalized strategies
(e.g. rkstiff/if34.py:158-165). -/
structure LinAlgOutcome (K : Type) where
  cond : Except PyErr (Ext K)
  eig : Except PyErr Unit
  inv : Except PyErr Unit

/-- Arguments of a constructor; `none` for a configuration that is not given.  Arguments that the class does not have are
not passed. -/
structure CtorArgs (K : Type) where
  shape : List ℕ
  config : Option Ref := none
  etdConfig : Option Ref := none
  diagonalize : Bool := false
  loglevel : LogArg := .str "WARNING"
  linalg : LinAlgOutcome K

/-- Run a computation on the loggers. -/
def World.onLoggers {α : Type} (x : PyM Loggers α) : PyM (World K) α :=
  PyM.zoom (·.loggers) (fun w l => { w with loggers := l }) x

/-- `BaseSolver.__init__`, rkstiff/solver.py:91-136: the logger is configured (line 118) before the shape is validated;
returns `_diag`. -/
def baseInit (upper : String → String) (c : SolverClass) (a : CtorArgs K) : PyM (World K) Bool := do
  World.onLoggers (setupLogger upper c.loggerName a.loglevel)
  if a.shape.length ≠ 1 ∧ a.shape.length ≠ 2 then PyM.throw .valueError
  if a.shape.length = 2 ∧ a.shape[0]? ≠ a.shape[1]? then PyM.throw .valueError
  return a.shape.length == 1

/-- Constructors of the diagonalized strategies (rkstiff/if34.py:149-166, rkstiff/etd34.py:212-245,
rkstiff/etd35.py:388-421). -/
def diagonalizedInit (a : CtorArgs K) : PyM (World K) Strategy := do
  if a.shape.length = 1 then PyM.throw .valueError
  let cond ← PyM.ofExcept a.linalg.cond
  if Ext.lt (.fin (10 ^ 16)) cond then PyM.throw .valueError
  PyM.ofExcept a.linalg.eig
  PyM.ofExcept a.linalg.inv
  return .diagonalized

/-- Choice of the strategy in the adaptive solvers (rkstiff/if34.py:299-303, rkstiff/etd34.py:547-553,
rkstiff/etd35.py:822-828). -/
def adaptiveStrategy (a : CtorArgs K) (diag : Bool) : PyM (World K) Strategy :=
  if diag then pure .diagonal else if a.diagonalize then diagonalizedInit a else pure .full

/-- The constructors of the solver classes: rkstiff/if4.py:240-254, rkstiff/etd4.py:345-372, rkstiff/etd5.py:535-576,
rkstiff/if34.py:289-306, rkstiff/etd34.py:508-555, rkstiff/etd35.py:784-830, rkstiff/if45dp.py:47-103, with those of the
intermediate classes (rkstiff/solveras.py:262-283, rkstiff/etd.py:216-226, 269-278). -/
def solverInit (upper : String → String) (c : SolverClass) (a : CtorArgs K) : PyM (World K) SolverObj := do
  let diag ← baseInit upper c a
  let config := a.config.getD (.default c)
  let etdConfig := a.etdConfig.getD (.default c)
  match c with
  | .if4 =>
    return ⟨c, if diag then .diagonal else .full, none, none, none⟩
  | .etd4 | .etd5 =>
    return ⟨c, if diag then .diagonal else .full, none, some etdConfig, some etdConfig⟩
  | .if34 =>
    let st ← adaptiveStrategy a diag
    return ⟨c, st, some config, none, none⟩
  | .etd34 | .etd35 =>
    let st ← adaptiveStrategy a diag
    return ⟨c, st, some config, some etdConfig, some etdConfig⟩
  | .if45dp =>
    if a.shape.length > 1 then PyM.throw .valueError
    return ⟨c, .diagonal, some config, none, none⟩

/-- What a program can do with the shared state. -/
inductive Op (K : Type) where
  /-- `SolverConfig(...)` -/
  | newConfig (epsilon incr_f decr_f safety_f adapt_cutoff minh : Ext K)
  /-- `ETDConfig(...)` -/
  | newEtdConfig (modecutoff : Ext K) (contour_points : PyVal K) (contour_radius : Ext K)
  /-- `IF4(...)`, ... -/
  | construct (c : SolverClass) (a : CtorArgs K)
  /-- `config.attr = v`, for any way to name the object (also `solver.config.attr = v`) -/
  | setAttr (r : Ref) (attr : SCAttr) (v : Ext K)
  /-- `etd_config.attr = v` -/
  | setEtdAttr (r : Ref) (a : ETDConfig.Assign K)
  /-- `solver.config = config` -/
  | rebind (i : ℕ) (r : Ref)
  /-- `solver.etd_config = etd_config` -/
  | rebindEtd (i : ℕ) (r : Ref)
  /-- `solver.set_loglevel(level)`, rkstiff/solver.py:165-181 -/
  | setLoglevel (i : ℕ) (level : LogArg)

/-- One operation.  A reference to an object that does not exist cannot be written in a program; it is an `IndexError`
here. -/
def Op.run (upper : String → String) : Op K → PyM (World K) Unit
  | .newConfig e i d s ac m => fun w =>
    match SolverConfig.init e i d s ac m with
    | .error x => (.error x, w)
    | .ok c => (.ok (), { w with configs := Function.update w.configs (.user w.nextConfig) (some c),
                                 nextConfig := w.nextConfig + 1 })
  | .newEtdConfig m p r => fun w =>
    match ETDConfig.init m p r with
    | .error x => (.error x, w)
    | .ok c => (.ok (), { w with etdConfigs := Function.update w.etdConfigs (.user w.nextEtd) (some c),
                                 nextEtd := w.nextEtd + 1 })
  | .construct c a => do
    let s ← solverInit upper c a
    PyM.modify fun w => { w with solvers := w.solvers ++ [s] }
  | .setAttr r attr v => fun w =>
    match w.configs r with
    | none => (.error .indexError, w)
    | some c =>
      match SolverConfig.setAttr attr v c with
      | (x, c') => (x, { w with configs := Function.update w.configs r (some c') })
  | .setEtdAttr r a => fun w =>
    match w.etdConfigs r with
    | none => (.error .indexError, w)
    | some c =>
      match ETDConfig.assign a c with
      | (x, c') => (x, { w with etdConfigs := Function.update w.etdConfigs r (some c') })
  | .rebind i r => fun w =>
    match w.solvers[i]? with
    | none => (.error .indexError, w)
    | some s => (.ok (), { w with solvers := w.solvers.set i { s with config := some r } })
  | .rebindEtd i r => fun w =>
    match w.solvers[i]? with
    | none => (.error .indexError, w)
    | some s => (.ok (), { w with solvers := w.solvers.set i { s with etdConfig := some r } })
  | .setLoglevel i level => fun w =>
    match w.solvers[i]? with
    | none => (.error .indexError, w)
    | some s => World.onLoggers (setLogLevel upper s.cls.loggerName level) w

/-- Run a program, catching the exceptions of the operations that fail. -/
def World.run (upper : String → String) (w : World K) : List (Op K) → World K
  | [] => w
  | o :: os => World.run upper (o.run upper w).2 os

end Verif
