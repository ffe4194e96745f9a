import Verif.Model.Construct

/-!
# rkstiff/util/solver_type.py and the property `solver_type`

A class is represented by its method resolution order `cls.__mro__`, a list that starts with the class itself.  `isinstance(x, C)`
is membership of `C` in the order of `type(x)`, and attribute lookup takes the first class of the order that defines the
attribute.  Not modelled: virtual subclasses (`ABC.register`) and instance attributes (a property cannot be shadowed by one).
-/

set_option linter.unusedSectionVars false

namespace Verif

/-- `SolverType`, rkstiff/util/solver_type.py:21-39.  `CS` and `AS` are aliases of the two members (lines 38-39). -/
inductive SolverType where
  | constantStep
  | adaptiveStep
  deriving DecidableEq, Repr

/-- `SolverType.CS`, rkstiff/util/solver_type.py:38. -/
abbrev SolverType.CS : SolverType := .constantStep

/-- `SolverType.AS`, rkstiff/util/solver_type.py:39. -/
abbrev SolverType.AS : SolverType := .adaptiveStep

/-- `member.name` -/
def SolverType.name : SolverType → String
  | constantStep => "CONSTANT_STEP"
  | adaptiveStep => "ADAPTIVE_STEP"

/-- `str.title` on ASCII characters: a letter is upper case iff the character before it is not a letter. -/
def titleChars : Bool → List Char → List Char
  | _, [] => []
  | afterLetter, c :: cs => (if afterLetter then c.toLower else c.toUpper) :: titleChars c.isAlpha cs

/-- `SolverType.__str__`, rkstiff/util/solver_type.py:41-43. -/
def SolverType.str (s : SolverType) : String :=
  String.ofList (titleChars false (s.name.toList.map fun c => if c = '_' then ' ' else c))

/-- The classes of rkstiff that are relevant here, the two of Python, and any classes of the user. -/
inductive ClassId where
  | object
  | abc
  | baseSolver
  | baseSolverCS
  | baseSolverAS
  | etdcs
  | etdas
  | solver (c : SolverClass)
  | user (n : ℕ)
  deriving DecidableEq, Repr

/-- `cls.__mro__` of the classes of rkstiff: rkstiff/solver.py:30, solvercs.py:31, solveras.py:175, etd.py:185 and 229, if4.py:202,
etd4.py:311, etd5.py:485, if34.py:260, etd34.py:439, etd35.py:723, if45dp.py:8. -/
def SolverClass.mro : SolverClass → List ClassId
  | if4 => [.solver if4, .baseSolverCS, .baseSolver, .abc, .object]
  | etd4 => [.solver etd4, .etdcs, .baseSolverCS, .baseSolver, .abc, .object]
  | etd5 => [.solver etd5, .etdcs, .baseSolverCS, .baseSolver, .abc, .object]
  | if34 => [.solver if34, .baseSolverAS, .baseSolver, .abc, .object]
  | etd34 => [.solver etd34, .etdas, .baseSolverAS, .baseSolver, .abc, .object]
  | etd35 => [.solver etd35, .etdas, .baseSolverAS, .baseSolver, .abc, .object]
  | if45dp => [.solver if45dp, .baseSolverAS, .baseSolver, .abc, .object]

/-- The property `solver_type` as a class defines it itself: rkstiff/solvercs.py:103-120 and solveras.py:287-304; the abstract property of
rkstiff/solver.py:138-160 returns `None`, here `some none`.  `ov` are the definitions in classes of the user. -/
def ownSolverType (ov : ℕ → Option SolverType) : ClassId → Option (Option SolverType)
  | .baseSolver => some none
  | .baseSolverCS => some (some .constantStep)
  | .baseSolverAS => some (some .adaptiveStep)
  | .user n => (ov n).map some
  | _ => none

/-- `solver.solver_type` for an object whose class has this method resolution order; `none` is an `AttributeError`. -/
def solverTypeAttr (ov : ℕ → Option SolverType) (mro : List ClassId) : Option (Option SolverType) :=
  mro.findSome? (ownSolverType ov)

/-- `SolverType.from_solver(solver)`, rkstiff/util/solver_type.py:45-84. -/
def fromSolver (mro : List ClassId) : Except PyErr SolverType :=
  if ClassId.baseSolverAS ∈ mro then .ok .adaptiveStep
  else if ClassId.baseSolverCS ∈ mro then .ok .constantStep
  else .error .typeError

end Verif
