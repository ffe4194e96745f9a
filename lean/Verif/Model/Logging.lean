import Verif.Model.Py

/-!
# rkstiff/util/loghelper.py

The registry of `logging.getLogger` is a map from names to loggers.  Of a logger only the level and the number of its own
handlers are modelled; emitting a message has no effect on this state.
-/

set_option linter.unusedSectionVars false

namespace Verif

/-- The argument `loglevel`: a string, an integer (Python's `bool` included) or anything else. -/
inductive LogArg where
  | str (s : String)
  | int (n : ℤ)
  | other
  deriving DecidableEq, Repr

/-- The attributes of the module `logging` whose value is an integer and whose name is unchanged by `str.upper`. -/
def loggingInts : List (String × ℤ) :=
  [("CRITICAL", 50), ("FATAL", 50), ("ERROR", 40), ("WARNING", 30), ("WARN", 30), ("INFO", 20), ("DEBUG", 10), ("NOTSET", 0)]

/-- `_parse_loglevel`, rkstiff/util/loghelper.py:42-73.  `upper` is Python's `str.upper`. -/
def parseLoglevel (upper : String → String) : LogArg → Except PyErr LogArg
  | .str s =>
    match loggingInts.lookup (upper s) with
    | some n => .ok (.int n)
    | none => .error .valueError
  | a => .ok a

/-- `get_level_name`, rkstiff/util/loghelper.py:76-104. -/
def levelName (level : ℤ) : String :=
  match [((10 : ℤ), "DEBUG"), (20, "INFO"), (30, "WARNING"), (40, "ERROR"), (50, "CRITICAL")].lookup level with
  | some s => s
  | none => "Level " ++ toString level

/-- A `logging.Logger`: its level and the number of its own handlers. -/
structure Logger where
  level : ℤ
  handlers : ℕ
  deriving DecidableEq, Repr

/-- The registry of loggers. -/
abbrev Loggers := String → Option Logger

/-- `logging.getLogger(name)`: creates the logger (level `NOTSET`, no handlers) if it does not exist. -/
def getLogger (name : String) : PyM Loggers Unit :=
  PyM.modify fun r => Function.update r name (some ((r name).getD ⟨0, 0⟩))

/-- `logger.setLevel(level)` of the standard library: `TypeError` unless the level is an integer or a string.  (A string
never reaches it, since `_parse_loglevel` has converted it.) -/
def setLevel (name : String) : LogArg → PyM Loggers Unit
  | .int n => PyM.modify fun r => Function.update r name ((r name).map fun l => { l with level := n })
  | .str _ => PyM.throw .valueError
  | .other => PyM.throw .typeError

/-- Lift a computation that does not depend on the state. -/
def PyM.ofExcept {σ α : Type} (x : Except PyErr α) : PyM σ α := fun s => (x, s)

/-- `setup_logger`, rkstiff/util/loghelper.py:107-156. -/
def setupLogger (upper : String → String) (name : String) (loglevel : LogArg) : PyM Loggers Unit := do
  getLogger name
  let numeric ← PyM.ofExcept (parseLoglevel upper loglevel)
  setLevel name numeric
  -- `if not logger.handlers: logger.addHandler(handler)`
  PyM.modify fun r => Function.update r name
    ((r name).map fun l => if l.handlers = 0 then { l with handlers := l.handlers + 1 } else l)

/-- `set_log_level`, rkstiff/util/loghelper.py:158-187. -/
def setLogLevel (upper : String → String) (name : String) (loglevel : LogArg) : PyM Loggers Unit := do
  let numeric ← PyM.ofExcept (parseLoglevel upper loglevel)
  setLevel name numeric

end Verif
