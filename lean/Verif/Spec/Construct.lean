import Verif.Model.Construct

/-!
# Construction and shared state (specification)
-/

set_option linter.unusedSectionVars false

namespace Verif

/-- The log levels of the standard library, with the alternative names. -/
def StdLevel (name : String) (n : ℤ) : Prop :=
  (name = "CRITICAL" ∨ name = "FATAL") ∧ n = 50 ∨ name = "ERROR" ∧ n = 40 ∨ (name = "WARNING" ∨ name = "WARN") ∧ n = 30 ∨
    name = "INFO" ∧ n = 20 ∨ name = "DEBUG" ∧ n = 10 ∨ name = "NOTSET" ∧ n = 0

/-- The log level argument `a` asks for level `n`. -/
def LogArg.Asks (upper : String → String) (a : LogArg) (n : ℤ) : Prop :=
  (∃ s, a = .str s ∧ StdLevel (upper s) n) ∨ a = .int n

/-- Classes whose solvers accept an array of this shape as `lin_op`. -/
def SolverClass.AcceptsShape (c : SolverClass) (shape : List ℕ) : Prop :=
  (∃ n, shape = [n]) ∨ c ≠ .if45dp ∧ ∃ n, shape = [n, n]

/-- Solvers with the parameter `diagonalize`. -/
def SolverClass.CanDiagonalize (c : SolverClass) : Prop := c = .if34 ∨ c = .etd34 ∨ c = .etd35

/-- Adaptive solvers, which have a `SolverConfig`. -/
def SolverClass.Adaptive (c : SolverClass) : Prop := c = .if34 ∨ c = .etd34 ∨ c = .etd35 ∨ c = .if45dp

/-- Solvers with an `ETDConfig`. -/
def SolverClass.HasEtd (c : SolverClass) : Prop := c = .etd4 ∨ c = .etd5 ∨ c = .etd34 ∨ c = .etd35

variable {K : Type} [Field K] [LinearOrder K]

/-- The numerical diagonalization goes through. -/
def LinAlgOutcome.Fine (l : LinAlgOutcome K) : Prop :=
  (∃ x, l.cond = .ok x ∧ ¬ (x = .pinf ∨ ∃ y, x = .fin y ∧ 10 ^ 16 < y)) ∧ l.eig = .ok () ∧ l.inv = .ok ()

namespace World

/-- `solver.config`, as a value. -/
def configOf (w : World K) (i : ℕ) : Option (SolverConfig (Ext K)) :=
  match w.solvers[i]? with
  | some s => s.config.bind w.configs
  | none => none

/-- The `ETDConfig` that solver `i` uses to compute coefficients, as a value. -/
def etdOf (w : World K) (i : ℕ) : Option (ETDConfig (Ext K)) :=
  match w.solvers[i]? with
  | some s => s.methodEtd.bind w.etdConfigs
  | none => none

/-- Level of the logger of solver `i`. -/
def levelOf (w : World K) (i : ℕ) : Option ℤ :=
  match w.solvers[i]? with
  | some s => (w.loggers s.cls.loggerName).map Logger.level
  | none => none

end World

/-- Operations that do not give solver `i` another configuration object. -/
def Op.KeepsConfig (i : ℕ) : Op K → Prop
  | .rebind j _ => j ≠ i
  | _ => True

/-- Operations that ask for a level of the loggers of class `c`: constructions and `set_loglevel`. -/
def Op.Requests (w : World K) (c : SolverClass) : Op K → Prop
  | .construct c' _ => c' = c
  | .setLoglevel i _ => ∃ s, w.solvers[i]? = some s ∧ s.cls = c
  | _ => False

/-- A program in which nobody asks for a level of the loggers of class `c`. -/
def World.Quiet (upper : String → String) (c : SolverClass) (w : World K) : List (Op K) → Prop
  | [] => True
  | o :: os => ¬ o.Requests w c ∧ World.Quiet upper c (o.run upper w).2 os

/-- The operation (in state `w`) asks for the valid level `n` for the loggers of class `c`. -/
inductive Asked (upper : String → String) (w : World K) (c : SolverClass) (n : ℤ) : Op K → Prop
  | construct (a : CtorArgs K) (h : a.loglevel.Asks upper n) : Asked upper w c n (.construct c a)
  | setLoglevel (i : ℕ) (l : LogArg) (s : SolverObj) (hs : w.solvers[i]? = some s) (hc : s.cls = c)
      (h : l.Asks upper n) : Asked upper w c n (.setLoglevel i l)

/-- Operations that do not assign through the `SolverConfig` object `r`. -/
def Op.KeepsObject (r : Ref) : Op K → Prop
  | .setAttr r' _ _ => r' ≠ r
  | _ => True

end Verif
