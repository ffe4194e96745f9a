import Verif.Model.Config
import Verif.Model.SolverCS

/-!
# `BaseSolverAS` (rkstiff/solveras.py): adaptive-step solvers

The abstract base class, parametrised by the methods a subclass implements.  Times and step sizes are elements of an
ordered field; the error factor `s` may be non-finite.
-/

set_option linter.unusedSectionVars false

namespace Verif

/-- What a subclass of `BaseSolverAS` provides: `_reset`, `_update_stages` (which reads, and never writes, the base
class flag `_accept`, passed here as the `Bool` argument) and, through `_q`, the factor `_compute_s`. -/
structure ASClass (K V Sub : Type) where
  reset : Sub → Sub
  updateStages : V → K → Bool → PyM Sub (V × V)
  computeS : SolverConfig K → V → V → Ext K

/-- Object state of an adaptive solver: `t`, `u` (rkstiff/solver.py:126), `__tf`, `__tc`, `_accept`
(rkstiff/solveras.py:281-282) and the subclass state.  `trials` is a ghost counter of calls of `_update_stages`.
(`__t0` is only read inside `evolve`, where it equals the argument.) -/
structure ASState (K V Sub : Type) where
  t : List K
  u : List V
  tf : K
  tc : K
  accept : Bool
  sub : Sub
  trials : ℕ

/-- `MAX_LOOPS`, rkstiff/solveras.py:255. -/
def MAX_LOOPS : ℕ := 50

namespace ASClass

variable {K V Sub : Type} [Field K] [LinearOrder K]

/-- `MAX_S`, rkstiff/solveras.py:256. -/
abbrev MAX_S : K := 4
/-- `MIN_S`, rkstiff/solveras.py:257. -/
abbrev MIN_S : K := 1 / 4

/-- `BaseSolverAS.__init__`, rkstiff/solveras.py:262-282. -/
def fresh (sub : Sub) : ASState K V Sub := ⟨[], [], 0, 0, false, sub, 0⟩

/-- `reset`, rkstiff/solveras.py:306-312. -/
def resetM (C : ASClass K V Sub) : PyM (ASState K V Sub) Unit :=
  PyM.modify fun s =>
    { t := [], u := [], tf := 0, tc := 0, accept := false, sub := C.reset s.sub, trials := s.trials }

/-- One call of `self._update_stages(u, h)`, rkstiff/solveras.py:385. -/
def trial (C : ASClass K V Sub) (u : V) (h : K) : PyM (ASState K V Sub) (V × V) := do
  let s ← PyM.get
  PyM.modify fun s => { s with trials := s.trials + 1 }
  PyM.zoom ASState.sub (fun s m => { s with sub := m }) (C.updateStages u h s.accept)

/-- `_reject_step_size`, rkstiff/solveras.py:457-506. -/
def rejectStepSize (cfg : SolverConfig K) (s : Ext K) (h : K) : PyM (ASState K V Sub) K := do
  PyM.modify fun st => { st with accept := false }
  match s with
  | .fin s => pure (min (max s MIN_S) cfg.decr_f * h)
  | _ => pure (MIN_S * h)

/-- `_accept_step_size`, rkstiff/solveras.py:508-554.  Only called with a finite `s`. -/
def acceptStepSize (cfg : SolverConfig K) (s : K) (h : K) : PyM (ASState K V Sub) K := do
  PyM.modify fun st => { st with accept := true }
  let s := min s MAX_S
  if cfg.incr_f < s then pure (s * h) else pure h

/-- The `while True` loop of `step`, rkstiff/solveras.py:383-410, entered with `numloops` rejections so far.
`rnd` is the rounding of the new step size.  The guard `np.isinf(s) or np.isnan(s) or s < 1.0` is the
match on `s`. -/
def stepLoop (C : ASClass K V Sub) (rnd : K → K) (cfg : SolverConfig K) (u : V) (numloops : ℕ) (h : K) :
    PyM (ASState K V Sub) (V × K × K) := do
  let r ← C.trial u h
  let s := C.computeS cfg r.1 r.2
  match s with
  | .fin x =>
    if x < 1 then
      let h' ← rejectStepSize cfg s h
      if numloops + 1 > MAX_LOOPS then PyM.throw .maxLoopsExceeded
      else if rnd h' < cfg.minh then PyM.throw .minimumStepReached
      else C.stepLoop rnd cfg u (numloops + 1) (rnd h')
    else
      let hs ← acceptStepSize cfg x h
      pure (r.1, h, rnd hs)
  | _ =>
    let h' ← rejectStepSize cfg s h
    if numloops + 1 > MAX_LOOPS then PyM.throw .maxLoopsExceeded
    else if rnd h' < cfg.minh then PyM.throw .minimumStepReached
    else C.stepLoop rnd cfg u (numloops + 1) (rnd h')
termination_by MAX_LOOPS + 1 - numloops

/-- `step`, rkstiff/solveras.py:336-410. -/
def step (C : ASClass K V Sub) (rnd : K → K) (cfg : SolverConfig K) (u : V) (h : K) :
    PyM (ASState K V Sub) (V × K × K) := do
  if ¬ (0 ≤ h) then PyM.throw .assertionError
  C.stepLoop rnd cfg u 0 h

/-- Storing a snapshot, rkstiff/solveras.py:643-646. -/
def store (storeData : Bool) (storeFreq : ℤ) (count : ℕ) (u : V) : PyM (ASState K V Sub) Unit :=
  if storeData then
    if storeFreq = 0 then PyM.throw .zeroDivisionError
    else if (count : ℤ) % storeFreq = 0 then
      PyM.modify fun s => { s with t := s.t ++ [s.tc], u := s.u ++ [u] }
    else pure ()
  else pure ()

/-- The clipping of the step size to the remaining interval, rkstiff/solveras.py:619-621 and 638-641. -/
def clip (rnd : K → K) (tc tf h : K) : K := if tf < rnd (tc + h) then rnd (tf - tc) else h

/-- The `while self.__tc < self.__tf` loop of `evolve`, rkstiff/solveras.py:623-646. -/
def loop (C : ASClass K V Sub) (rnd : K → K) (pyDiv : Bool) (cfg : SolverConfig K)
    (storeData : Bool) (storeFreq : ℤ) :
    ℕ → V → K → ℕ → PyM (ASState K V Sub) (Option V)
  | 0, _, _, _ => pure none
  | fuel + 1, u, h, count => do
    let s ← PyM.get
    if s.tc < s.tf then
      let r ← C.step rnd cfg u h
      PyM.modify fun s => { s with tc := rnd (s.tc + r.2.1) }
      let count := count + 1
      progress pyDiv count s.tf
      let s ← PyM.get
      let h := clip rnd s.tc s.tf r.2.2
      store storeData storeFreq count r.1
      C.loop rnd pyDiv cfg storeData storeFreq fuel r.1 h count
    else pure (some u)

/-- `evolve`, rkstiff/solveras.py:556-650. `h_init = None` selects `(tf - t0) / 100`. -/
def evolve (C : ASClass K V Sub) (rnd : K → K) (pyDiv : Bool) (cfg : SolverConfig K) (fuel : ℕ)
    (u : V) (t0 tf : K) (hInit : Option K) (storeData : Bool) (storeFreq : ℤ) :
    PyM (ASState K V Sub) (Option V) := do
  C.resetM
  PyM.modify fun s => { s with tf := tf, tc := t0 }
  if storeData then
    PyM.modify fun s => { s with t := s.t ++ [t0], u := s.u ++ [u] }
  let h := match hInit with
    | none => rnd (rnd (tf - t0) / 100)
    | some h => h
  C.loop rnd pyDiv cfg storeData storeFreq fuel u (clip rnd t0 tf h) 0

end ASClass

end Verif
