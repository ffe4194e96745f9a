import Verif.Spec.Construct
import Mathlib.Tactic.NormNum

/-!
# Lemmas about construction
-/

set_option linter.unusedSectionVars false

namespace Verif

theorem lookup_loggingInts (s : String) (n : ℤ) : loggingInts.lookup s = some n ↔ StdLevel s n := by
  unfold StdLevel loggingInts
  simp only [List.lookup]
  by_cases h1 : s = "CRITICAL"; · subst h1; simp; omega
  by_cases h2 : s = "FATAL"; · subst h2; simp; omega
  by_cases h3 : s = "ERROR"; · subst h3; simp; omega
  by_cases h4 : s = "WARNING"; · subst h4; simp; omega
  by_cases h5 : s = "WARN"; · subst h5; simp; omega
  by_cases h6 : s = "INFO"; · subst h6; simp; omega
  by_cases h7 : s = "DEBUG"; · subst h7; simp; omega
  by_cases h8 : s = "NOTSET"; · subst h8; simp; omega
  have hb : ∀ t : String, ¬ s = t → (s == t) = false := fun t ht => by simpa using ht
  rw [hb _ h1, hb _ h2, hb _ h3, hb _ h4, hb _ h5, hb _ h6, hb _ h7, hb _ h8]
  simp [h1, h2, h3, h4, h5, h6, h7, h8]

theorem LogArg.Asks.unique {upper : String → String} {a : LogArg} {n m : ℤ} (h : a.Asks upper n) (h' : a.Asks upper m) :
    n = m := by
  rcases h with ⟨s, rfl, h⟩ | rfl <;> rcases h' with ⟨t, ht, h'⟩ | h'
  · cases ht
    rw [← lookup_loggingInts] at h h'
    rw [h] at h'; exact Option.some.inj h'
  · cases h'
  · cases ht
  · cases h'; rfl

/-- The error raised for a log level that asks for nothing. -/
def LogArg.error : LogArg → PyErr
  | .other => .typeError
  | _ => .valueError

theorem setLogLevel_ok {upper : String → String} {a : LogArg} {n : ℤ} (h : a.Asks upper n) (name : String) (r : Loggers) :
    setLogLevel upper name a r = (.ok (), Function.update r name ((r name).map fun l => { l with level := n })) := by
  rcases h with ⟨s, rfl, h⟩ | rfl
  · rw [← lookup_loggingInts] at h
    simp [setLogLevel, PyM.bind_apply, PyM.ofExcept, parseLoglevel, h, setLevel]
  · simp [setLogLevel, PyM.bind_apply, PyM.ofExcept, parseLoglevel, setLevel]

theorem setLogLevel_error {upper : String → String} {a : LogArg} (h : ¬ ∃ n, a.Asks upper n) (name : String) (r : Loggers) :
    setLogLevel upper name a r = (.error a.error, r) := by
  rcases a with s | n | _
  · have : loggingInts.lookup (upper s) = none := by
      rw [Option.eq_none_iff_forall_ne_some]
      intro n hn
      exact h ⟨n, Or.inl ⟨s, rfl, (lookup_loggingInts _ _).1 hn⟩⟩
    simp [setLogLevel, PyM.bind_apply, PyM.ofExcept, parseLoglevel, this, LogArg.error]
  · exact (h ⟨n, Or.inr rfl⟩).elim
  · simp [setLogLevel, PyM.bind_apply, PyM.ofExcept, parseLoglevel, setLevel, LogArg.error]

/-- The registry after somebody asked for level `n` of this logger. -/
def Loggers.asked (r : Loggers) (name : String) (n : ℤ) : Loggers :=
  Function.update r name (some ⟨n, max 1 (((r name).map Logger.handlers).getD 0)⟩)

theorem setupLogger_ok {upper : String → String} {a : LogArg} {n : ℤ} (h : a.Asks upper n) (name : String) (r : Loggers) :
    setupLogger upper name a r = (.ok (), r.asked name n) := by
  unfold Loggers.asked
  have hh : ∀ l : Option Logger, (if (l.getD ⟨0, 0⟩).handlers = 0 then
      (⟨n, (l.getD ⟨0, 0⟩).handlers + 1⟩ : Logger) else ⟨n, (l.getD ⟨0, 0⟩).handlers⟩) =
      ⟨n, max 1 ((l.map Logger.handlers).getD 0)⟩ := by
    rintro (_ | ⟨lv, _ | k⟩) <;> simp
  have := hh (r name)
  rcases h with ⟨s, rfl, h⟩ | rfl
  · rw [← lookup_loggingInts] at h
    simp [setupLogger, getLogger, PyM.bind_apply, PyM.ofExcept, parseLoglevel, h, setLevel, this]
  · simp [setupLogger, getLogger, PyM.bind_apply, PyM.ofExcept, parseLoglevel, setLevel, this]

theorem setupLogger_error {upper : String → String} {a : LogArg} (h : ¬ ∃ n, a.Asks upper n) (name : String) (r : Loggers) :
    setupLogger upper name a r = (.error a.error, Function.update r name (some ((r name).getD ⟨0, 0⟩))) := by
  rcases a with s | n | _
  · have : loggingInts.lookup (upper s) = none := by
      rw [Option.eq_none_iff_forall_ne_some]
      intro n hn
      exact h ⟨n, Or.inl ⟨s, rfl, (lookup_loggingInts _ _).1 hn⟩⟩
    simp [setupLogger, getLogger, PyM.bind_apply, PyM.ofExcept, parseLoglevel, this, LogArg.error]
  · exact (h ⟨n, Or.inr rfl⟩).elim
  · simp [setupLogger, getLogger, PyM.bind_apply, PyM.ofExcept, parseLoglevel, setLevel, LogArg.error]

theorem loggerName_injective {c c' : SolverClass} (h : c.loggerName = c'.loggerName) : c = c' := by
  cases c <;> cases c' <;> first | rfl | (exfalso; revert h; decide)

variable {K : Type} [Field K] [LinearOrder K]

open Classical in
/-- The loggers after a successful construction or `set_loglevel`. -/
theorem baseInit_ok {upper : String → String} {a : CtorArgs K} {n : ℤ} (h : a.loglevel.Asks upper n) (c : SolverClass)
    (w : World K) :
    baseInit upper c a w = (if (∃ k, a.shape = [k]) ∨ ∃ k, a.shape = [k, k] then .ok (a.shape.length == 1)
        else .error .valueError,
      { w with loggers := w.loggers.asked c.loggerName n }) := by
  obtain ⟨shape, config, etd, dg, lv, la⟩ := a
  have hl := setupLogger_ok h c.loggerName w.loggers
  simp only [baseInit, PyM.bind_apply, World.onLoggers, PyM.zoom_apply, hl]
  rcases shape with _ | ⟨p, _ | ⟨q, _ | ⟨r, t⟩⟩⟩
  · simp
  · simp
  · by_cases hpq : p = q
    · subst hpq; simp
    · have : ¬ ∃ k, p = k ∧ q = k := by rintro ⟨k, rfl, rfl⟩; exact hpq rfl
      simp [hpq, this]
  · simp

theorem baseInit_error {upper : String → String} {a : CtorArgs K} (h : ¬ ∃ n, a.loglevel.Asks upper n) (c : SolverClass)
    (w : World K) :
    baseInit upper c a w = (.error a.loglevel.error,
      { w with loggers := Function.update w.loggers c.loggerName (some ((w.loggers c.loggerName).getD ⟨0, 0⟩)) }) := by
  simp only [baseInit, PyM.bind_apply, World.onLoggers, PyM.zoom_apply, setupLogger_error h]

/-- The outcome of the diagonalization. -/
def CtorArgs.diagonalization (a : CtorArgs K) : Except PyErr Unit :=
  match a.linalg.cond with
  | .error e => .error e
  | .ok x =>
    if Ext.lt (.fin (10 ^ 16)) x then .error .valueError
    else match a.linalg.eig with
      | .error e => .error e
      | .ok _ => a.linalg.inv

theorem diagonalizedInit_eq (a : CtorArgs K) (h : a.shape.length ≠ 1) (w : World K) :
    diagonalizedInit a w = (a.diagonalization.map fun _ => .diagonalized, w) := by
  obtain ⟨shape, config, etd, dg, lv, cond, eig, inv⟩ := a
  simp only [diagonalizedInit, CtorArgs.diagonalization]
  rw [if_neg h]
  rcases cond with e | x
  · rfl
  · have hb : ∀ f : Ext K → PyM (World K) Strategy, ((PyM.ofExcept (Except.ok x) : PyM (World K) _) >>= f) = f x :=
      fun _ => rfl
    rw [hb]
    by_cases hx : Ext.lt (.fin (10 ^ 16)) x = true
    · simp only [hx, if_true]; rfl
    · simp only [hx]
      rcases eig with e | ⟨⟩
      · rfl
      · rcases inv with e | ⟨⟩ <;> rfl

theorem diagonalization_ok (a : CtorArgs K) : a.diagonalization = .ok () ↔ a.linalg.Fine := by
  obtain ⟨shape, config, etd, dg, lv, cond, eig, inv⟩ := a
  simp only [CtorArgs.diagonalization, LinAlgOutcome.Fine]
  rcases cond with e | x
  · simp
  · have : Ext.lt (.fin (10 ^ 16)) x = true ↔ (x = .pinf ∨ ∃ y, x = .fin y ∧ 10 ^ 16 < y) := by
      cases x <;> simp [Ext.lt]
    by_cases hx : Ext.lt (.fin (10 ^ 16)) x = true
    · simp only [hx, if_true, reduceCtorEq, false_iff]
      rintro ⟨⟨y, hy, hn⟩, -⟩
      cases hy
      exact hn (this.1 hx)
    · have hx' := mt this.2 hx
      rcases eig with e | ⟨⟩
      · simp [hx]
      · simp only [hx]
        constructor
        · intro h; exact ⟨⟨x, rfl, hx'⟩, trivial, h⟩
        · exact fun h => h.2.2

/-- The strategy object of a solver constructed with these arguments. -/
def strategyOf (c : SolverClass) (a : CtorArgs K) : Except PyErr Strategy :=
  if a.shape.length = 1 then .ok .diagonal
  else match c with
    | .if4 | .etd4 | .etd5 => .ok .full
    | .if45dp => .error .valueError
    | .if34 | .etd34 | .etd35 => if a.diagonalize then a.diagonalization.map fun _ => .diagonalized else .ok .full

/-- The references of a solver constructed with these arguments. -/
def configRef (c : SolverClass) (a : CtorArgs K) : Option Ref :=
  match c with
  | .if4 | .etd4 | .etd5 => none
  | _ => some (a.config.getD (.default c))

/-- Likewise. -/
def etdRef (c : SolverClass) (a : CtorArgs K) : Option Ref :=
  match c with
  | .if4 | .if34 | .if45dp => none
  | _ => some (a.etdConfig.getD (.default c))

theorem solverInit_eq (upper : String → String) (c : SolverClass) (a : CtorArgs K) (w : World K) :
    solverInit upper c a w =
      match baseInit upper c a w with
      | (.error e, w') => (.error e, w')
      | (.ok _, w') => ((strategyOf c a).map fun st => ⟨c, st, configRef c a, etdRef c a, etdRef c a⟩, w') := by
  have hd : ∀ d w', baseInit upper c a w = (.ok d, w') → d = (a.shape.length == 1) ∧ a.shape.length ∈ [1, 2] := by
    intro d w' h
    by_cases hl : ∃ n, a.loglevel.Asks upper n
    · obtain ⟨n, hn⟩ := hl
      rw [baseInit_ok hn] at h
      split_ifs at h with hs
      · cases h
        refine ⟨rfl, ?_⟩
        rcases hs with ⟨k, hk⟩ | ⟨k, hk⟩ <;> rw [hk] <;> simp
      · cases h
    · rw [baseInit_error hl] at h; cases h
  unfold solverInit
  rw [PyM.bind_apply]
  generalize hb : baseInit upper c a w = b
  obtain ⟨e | d, w'⟩ := b
  · rfl
  · obtain ⟨rfl, hlen⟩ := hd d w' hb
    simp only [List.mem_cons, List.not_mem_nil, or_false] at hlen
    rcases hlen with h1 | h2
    · cases c <;> simp [h1, adaptiveStrategy, strategyOf, configRef, etdRef, PyM.bind_apply, Except.map]
    · cases c <;> simp [h2, adaptiveStrategy, strategyOf, configRef, etdRef, PyM.bind_apply, Except.map] <;>
        (by_cases hdg : a.diagonalize = true
         · simp only [hdg, if_true]
           rw [diagonalizedInit_eq _ (by omega)]
           cases a.diagonalization <;> rfl
         · simp [hdg])

end Verif
