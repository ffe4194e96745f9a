import Verif.Model.Py

/-!
# `BaseSolverCS` (rkstiff/solvercs.py): constant-step solvers

The abstract base class, parametrised by the two methods a subclass implements.
-/

set_option linter.unusedSectionVars false

namespace Verif

/-- What a subclass of `BaseSolverCS` provides: `_reset` (rkstiff/solvercs.py:132-134) and `_update_stages`
(rkstiff/solvercs.py:139-158).  `Sub` is the part of the object state owned by the subclass. -/
structure CSClass (K V Sub : Type) where
  reset : Sub → Sub
  updateStages : V → K → PyM Sub V

/-- Object state of a constant-step solver: the public lists `t`, `u` (rkstiff/solver.py:126), the private
`__tf`, `__tc` (rkstiff/solvercs.py:129), and the subclass state. -/
structure CSState (K V Sub : Type) where
  t : List K
  u : List V
  tf : K
  tc : K
  sub : Sub

/-- The progress message of both `evolve` methods, rkstiff/solvercs.py:263-270 and rkstiff/solveras.py:629-636.
Its argument `100 * tc / tf` is evaluated eagerly, whatever the log level.  `pyDiv` says whether `tc` is a Python
number (division by zero raises) or a NumPy scalar (it does not); which one applies depends on the types of the
caller's arguments, so theorems treat it as arbitrary. -/
def progress {K σ : Type} [Field K] [DecidableEq K] (pyDiv : Bool) (count : ℕ) (tf : K) : PyM σ Unit :=
  if count % 100 = 0 then
    if pyDiv = true ∧ tf = 0 then PyM.throw .zeroDivisionError else pure ()
  else pure ()

namespace CSClass

variable {K V Sub : Type} [Field K] [LinearOrder K]

/-- `BaseSolverCS.__init__`, rkstiff/solver.py:126 and rkstiff/solvercs.py:93-101: empty lists; `__tf`, `__tc`
are set to 0. -/
def fresh (sub : Sub) : CSState K V Sub := ⟨[], [], 0, 0, sub⟩

/-- `reset`, rkstiff/solvercs.py:125-130. -/
def resetM (C : CSClass K V Sub) : PyM (CSState K V Sub) Unit :=
  PyM.modify fun s => { t := [], u := [], tf := 0, tc := 0, sub := C.reset s.sub }

/-- `step`, rkstiff/solvercs.py:163-186. -/
def step (C : CSClass K V Sub) (u : V) (h : K) : PyM (CSState K V Sub) V := do
  if ¬ (0 ≤ h) then PyM.throw .assertionError
  PyM.zoom CSState.sub (fun s m => { s with sub := m }) (C.updateStages u h)

/-- Storing a snapshot, rkstiff/solvercs.py:272-275 (and rkstiff/solveras.py:643-646): `step_count % store_freq`
is only evaluated when `store_data` holds, and raises for `store_freq = 0`. -/
def store (storeData : Bool) (storeFreq : ℤ) (count : ℕ) (u : V) : PyM (CSState K V Sub) Unit :=
  if storeData then
    if storeFreq = 0 then PyM.throw .zeroDivisionError
    else if (count : ℤ) % storeFreq = 0 then
      PyM.modify fun s => { s with t := s.t ++ [s.tc], u := s.u ++ [u] }
    else pure ()
  else pure ()

/-- The `while self.__tc < self.__tf` loop of `evolve`, rkstiff/solvercs.py:257-275.
`rnd` is the rounding of the addition `self.__tc += h`.  Out of fuel is `none`. -/
def loop (C : CSClass K V Sub) (rnd : K → K) (pyDiv : Bool) (h : K) (storeData : Bool) (storeFreq : ℤ) :
    ℕ → V → ℕ → PyM (CSState K V Sub) (Option V)
  | 0, _, _ => pure none
  | fuel + 1, u, count => do
    let s ← PyM.get
    if s.tc < s.tf then
      let u ← C.step u h
      PyM.modify fun s => { s with tc := rnd (s.tc + h) }
      let count := count + 1
      progress pyDiv count s.tf
      store storeData storeFreq count u
      C.loop rnd pyDiv h storeData storeFreq fuel u count
    else pure (some u)

/-- `evolve`, rkstiff/solvercs.py:191-279. -/
def evolve (C : CSClass K V Sub) (rnd : K → K) (pyDiv : Bool) (fuel : ℕ)
    (u : V) (t0 tf h : K) (storeData : Bool) (storeFreq : ℤ) : PyM (CSState K V Sub) (Option V) := do
  C.resetM
  PyM.modify fun s => { s with tf := tf, tc := t0 }
  if storeData then
    PyM.modify fun s => { s with t := s.t ++ [t0], u := s.u ++ [u] }
  let s ← PyM.get
  if s.tf < rnd (s.tc + h) then PyM.throw .valueError
  C.loop rnd pyDiv h storeData storeFreq fuel u 0

end CSClass

end Verif
