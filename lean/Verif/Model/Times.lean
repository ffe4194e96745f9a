import Verif.Model.SolverAS
import Verif.Model.NonFinite

/-!
# Times, step sizes and settings that may be infinite or `nan`

The base classes (rkstiff/solvercs.py, rkstiff/solveras.py) once more, for arguments `t0`, `tf`, `h`, `h_init` and settings that are any
floats.  `rnd` is the rounding of results, which may overflow.
-/

set_option linter.unusedSectionVars false

namespace Verif

/-- `np.min([x, y])`: `nan` if one of them is. -/
noncomputable def Ext.min : Ext ℝ → Ext ℝ → Ext ℝ
  | .nan, _ => .nan
  | _, .nan => .nan
  | x, y => if Ext.lt y x then y else x

variable {V Sub : Type}

/-- The progress message, rkstiff/solvercs.py:263-270 and rkstiff/solveras.py:629-636. -/
noncomputable def xProgress {σ : Type} (pyDiv : Bool) (count : ℕ) (tf : Ext ℝ) : PyM σ Unit :=
  if count % 100 = 0 then
    open Classical in if pyDiv = true ∧ tf = .fin 0 then PyM.throw .zeroDivisionError else pure ()
  else pure ()

namespace CSClass

variable (C : CSClass (Ext ℝ) V Sub) (rnd : ℝ → Ext ℝ)

/-- `reset`, rkstiff/solvercs.py:125-130. -/
def xReset : PyM (CSState (Ext ℝ) V Sub) Unit :=
  PyM.modify fun s => { t := [], u := [], tf := .fin 0, tc := .fin 0, sub := C.reset s.sub }

/-- `step`, rkstiff/solvercs.py:163-186. -/
noncomputable def xStep (u : V) (h : Ext ℝ) : PyM (CSState (Ext ℝ) V Sub) V := do
  if ¬ (Ext.le (.fin 0) h = true) then PyM.throw .assertionError
  PyM.zoom CSState.sub (fun s m => { s with sub := m }) (C.updateStages u h)

/-- Storing a snapshot, rkstiff/solvercs.py:272-275. -/
def xStore (storeData : Bool) (storeFreq : ℤ) (count : ℕ) (u : V) : PyM (CSState (Ext ℝ) V Sub) Unit :=
  if storeData then
    if storeFreq = 0 then PyM.throw .zeroDivisionError
    else if (count : ℤ) % storeFreq = 0 then
      PyM.modify fun s => { s with t := s.t ++ [s.tc], u := s.u ++ [u] }
    else pure ()
  else pure ()

/-- The loop of `evolve`, rkstiff/solvercs.py:257-275. -/
noncomputable def xLoop (pyDiv : Bool) (h : Ext ℝ) (storeData : Bool) (storeFreq : ℤ) :
    ℕ → V → ℕ → PyM (CSState (Ext ℝ) V Sub) (Option V)
  | 0, _, _ => pure none
  | fuel + 1, u, count => do
    let s ← PyM.get
    if Ext.lt s.tc s.tf = true then
      let u ← C.xStep u h
      PyM.modify fun s => { s with tc := .add rnd s.tc h }
      let count := count + 1
      xProgress pyDiv count s.tf
      xStore storeData storeFreq count u
      xLoop pyDiv h storeData storeFreq fuel u count
    else pure (some u)

/-- `evolve`, rkstiff/solvercs.py:191-279. -/
noncomputable def xEvolve (pyDiv : Bool) (fuel : ℕ) (u : V) (t0 tf h : Ext ℝ) (storeData : Bool) (storeFreq : ℤ) :
    PyM (CSState (Ext ℝ) V Sub) (Option V) := do
  C.xReset
  PyM.modify fun s => { s with tf := tf, tc := t0 }
  if storeData then
    PyM.modify fun s => { s with t := s.t ++ [t0], u := s.u ++ [u] }
  let s ← PyM.get
  if Ext.lt s.tf (.add rnd s.tc h) = true then PyM.throw .valueError
  C.xLoop rnd pyDiv h storeData storeFreq fuel u 0

end CSClass

/-- What a subclass of `BaseSolverAS` provides. -/
structure XASClass (V Sub : Type) where
  reset : Sub → Sub
  updateStages : V → Ext ℝ → Bool → PyM Sub (V × V)
  computeS : SolverConfig (Ext ℝ) → V → V → Ext ℝ

namespace XASClass

variable (C : XASClass V Sub) (rnd : ℝ → Ext ℝ)

/-- `reset`, rkstiff/solveras.py:306-312. -/
def resetM : PyM (ASState (Ext ℝ) V Sub) Unit :=
  PyM.modify fun s =>
    { t := [], u := [], tf := .fin 0, tc := .fin 0, accept := false, sub := C.reset s.sub, trials := s.trials }

/-- One call of `self._update_stages(u, h)`, rkstiff/solveras.py:385. -/
def trial (u : V) (h : Ext ℝ) : PyM (ASState (Ext ℝ) V Sub) (V × V) := do
  let s ← PyM.get
  PyM.modify fun s => { s with trials := s.trials + 1 }
  PyM.zoom ASState.sub (fun s m => { s with sub := m }) (C.updateStages u h s.accept)

/-- The size that `_reject_step_size` returns, rkstiff/solveras.py:457-506. -/
noncomputable def reduced (cfg : SolverConfig (Ext ℝ)) (s h : Ext ℝ) : Ext ℝ :=
  match s with
  | .fin s => .mul rnd (.min (.fin (max s (1 / 4))) cfg.decr_f) h
  | _ => .mul rnd (.fin (1 / 4)) h

/-- The size that `_accept_step_size` returns, rkstiff/solveras.py:508-554. -/
noncomputable def increased (cfg : SolverConfig (Ext ℝ)) (s : ℝ) (h : Ext ℝ) : Ext ℝ :=
  if Ext.lt cfg.incr_f (.fin (min s 4)) = true then .mul rnd (.fin (min s 4)) h else h

/-- The `while True` loop of `step`, rkstiff/solveras.py:383-410, entered with `numloops` rejections so far; `_accept` is set by
`_reject_step_size`, `_accept_step_size`. -/
noncomputable def stepLoop (cfg : SolverConfig (Ext ℝ)) (u : V) (numloops : ℕ) (h : Ext ℝ) :
    PyM (ASState (Ext ℝ) V Sub) (V × Ext ℝ × Ext ℝ) := do
  let r ← C.trial u h
  let s := C.computeS cfg r.1 r.2
  if s.isInf = true ∨ s.isNan = true ∨ Ext.lt s (.fin 1) = true then
    PyM.modify fun st => { st with accept := false }
    let h' := reduced rnd cfg s h
    if numloops + 1 > MAX_LOOPS then PyM.throw .maxLoopsExceeded
    else if Ext.lt h' cfg.minh = true then PyM.throw .minimumStepReached
    else stepLoop cfg u (numloops + 1) h'
  else
    PyM.modify fun st => { st with accept := true }
    match s with
    | .fin x => pure (r.1, h, increased rnd cfg x h)
    | _ => pure (r.1, h, h)
termination_by MAX_LOOPS + 1 - numloops

/-- `step`, rkstiff/solveras.py:336-410. -/
noncomputable def step (cfg : SolverConfig (Ext ℝ)) (u : V) (h : Ext ℝ) : PyM (ASState (Ext ℝ) V Sub) (V × Ext ℝ × Ext ℝ) := do
  if ¬ (Ext.le (.fin 0) h = true) then PyM.throw .assertionError
  C.stepLoop rnd cfg u 0 h

/-- Storing a snapshot, rkstiff/solveras.py:643-646. -/
def store (storeData : Bool) (storeFreq : ℤ) (count : ℕ) (u : V) : PyM (ASState (Ext ℝ) V Sub) Unit :=
  if storeData then
    if storeFreq = 0 then PyM.throw .zeroDivisionError
    else if (count : ℤ) % storeFreq = 0 then
      PyM.modify fun s => { s with t := s.t ++ [s.tc], u := s.u ++ [u] }
    else pure ()
  else pure ()

/-- The clipping of the step size to the remaining interval, rkstiff/solveras.py:619-621 and 638-641. -/
noncomputable def clip (tc tf h : Ext ℝ) : Ext ℝ := if Ext.lt tf (.add rnd tc h) = true then .sub rnd tf tc else h

/-- The loop of `evolve`, rkstiff/solveras.py:623-646. -/
noncomputable def loop (pyDiv : Bool) (cfg : SolverConfig (Ext ℝ)) (storeData : Bool) (storeFreq : ℤ) :
    ℕ → V → Ext ℝ → ℕ → PyM (ASState (Ext ℝ) V Sub) (Option V)
  | 0, _, _, _ => pure none
  | fuel + 1, u, h, count => do
    let s ← PyM.get
    if Ext.lt s.tc s.tf = true then
      let r ← C.step rnd cfg u h
      PyM.modify fun s => { s with tc := .add rnd s.tc r.2.1 }
      let count := count + 1
      xProgress pyDiv count s.tf
      let s ← PyM.get
      let h := clip rnd s.tc s.tf r.2.2
      store storeData storeFreq count r.1
      loop pyDiv cfg storeData storeFreq fuel r.1 h count
    else pure (some u)

/-- `evolve`, rkstiff/solveras.py:556-650. `h_init = None` selects `(tf - t0) / 100`. -/
noncomputable def evolve (pyDiv : Bool) (cfg : SolverConfig (Ext ℝ)) (fuel : ℕ) (u : V) (t0 tf : Ext ℝ) (hInit : Option (Ext ℝ))
    (storeData : Bool) (storeFreq : ℤ) : PyM (ASState (Ext ℝ) V Sub) (Option V) := do
  C.resetM
  PyM.modify fun s => { s with tf := tf, tc := t0 }
  if storeData then
    PyM.modify fun s => { s with t := s.t ++ [t0], u := s.u ++ [u] }
  let h := match hInit with
    | none => .div rnd (.sub rnd tf t0) (.fin 100)
    | some h => h
  C.loop rnd pyDiv cfg storeData storeFreq fuel u (clip rnd t0 tf h) 0

end XASClass

/-- `_compute_s`, rkstiff/solveras.py:450-455, with settings that are any floats. -/
noncomputable def xComputeS {ι : Type} [Fintype ι] (rnd : ℝ → Ext ℝ) (q : ℕ) (cfg : SolverConfig (Ext ℝ)) (u err : ι → CFl) : Ext ℝ :=
  let l : List ι := Finset.univ.toList
  let mx := flMax (l.map fun i => (u i).abs rnd)
  let sel := l.filter fun i => Ext.lt cfg.adapt_cutoff (.div rnd ((u i).abs rnd) mx)
  let tol := Ext.mul rnd cfg.epsilon (flNorm rnd (sel.map u))
  .mul rnd cfg.safety_f (.power rnd (.div rnd tol (flNorm rnd (sel.map err))) (1 / q))

/-- The methods of a class with constant step sizes, for any float as step size; `other` is what it does for those that are not finite. -/
def CSClass.withSizes {V Sub : Type} (C : CSClass ℝ V Sub) (other : V → Ext ℝ → PyM Sub V) : CSClass (Ext ℝ) V Sub where
  reset := C.reset
  updateStages u h := match h with
    | .fin h => C.updateStages u h
    | h => other u h

section

variable {ι : Type} [Fintype ι] [DecidableEq ι]

/-- The methods of the class of an adaptive solver with float arrays (`ASSolver.flCls`), for any floats as settings and step size; `other`
is what it does for step sizes that are not finite. -/
noncomputable def ASSolver.xCls (m : ASSolver ι) (rnd : ℝ → Ext ℝ) (load : ℂ → CFl) (coefs : ℝ → Except PyErr m.Coef)
    (nl : (ι → CFl) → Except PyErr (ι → CFl))
    (other : (ι → CFl) → Ext ℝ → Bool → PyM (Wrap (AMethod m.Coef (ι → CFl))) ((ι → CFl) × (ι → CFl))) :
    XASClass (ι → CFl) (Wrap (AMethod m.Coef (ι → CFl))) where
  reset := (m.flCls rnd load coefs nl).reset
  updateStages u h a := match h with
    | .fin h => (m.flCls rnd load coefs nl).updateStages u h a
    | h => other u h a
  computeS := xComputeS rnd (if m.isDP then 5 else 4)

end

end Verif
