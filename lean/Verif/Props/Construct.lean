import Verif.Lemmas.Construct
import Verif.Props.Config

/-!
# Construction, shared configuration objects and loggers (properties C38–C41)
-/

set_option linter.unusedSectionVars false

namespace Verif

variable {K : Type} [Field K] [LinearOrder K]

/-! ### C41: log levels -/

/-- **C41.** A string is accepted exactly when its upper-casing is a level name, with the standard value. -/
theorem C41_parse_str (upper : String → String) (s : String) (r : Except PyErr LogArg) :
    parseLoglevel upper (.str s) = r ↔
      (∃ n, StdLevel (upper s) n ∧ r = .ok (.int n)) ∨ (¬ ∃ n, StdLevel (upper s) n) ∧ r = .error .valueError := by
  simp only [parseLoglevel]
  rcases h : loggingInts.lookup (upper s) with _ | n
  · have hn : ¬ ∃ n, StdLevel (upper s) n := by
      rintro ⟨n, hn⟩
      rw [← lookup_loggingInts, h] at hn; cases hn
    constructor
    · rintro rfl; exact Or.inr ⟨hn, rfl⟩
    · rintro (⟨n, h', -⟩ | ⟨-, rfl⟩)
      · exact (hn ⟨n, h'⟩).elim
      · rfl
  · have hn := (lookup_loggingInts _ _).1 h
    constructor
    · rintro rfl; exact Or.inl ⟨n, hn, rfl⟩
    · rintro (⟨m, h', rfl⟩ | ⟨h', -⟩)
      · rw [← lookup_loggingInts, h] at h'; cases h'; rfl
      · exact (h' ⟨n, hn⟩).elim

/-- **C41.** Everything else is passed through. -/
theorem C41_parse_other (upper : String → String) (a : LogArg) (h : ∀ s, a ≠ .str s) : parseLoglevel upper a = .ok a := by
  rcases a with s | n | _
  · exact (h s rfl).elim
  · rfl
  · rfl

/-- **C41.** `get_level_name` inverts the parsing of the canonical names (those which are their own upper-casing and not
one of the alternatives `FATAL`, `WARN`, nor `NOTSET`). -/
theorem C41_level_name (upper : String → String) (s : String) (n : ℤ) (hu : upper s = s) (h1 : s ≠ "FATAL")
    (h2 : s ≠ "WARN") (h3 : s ≠ "NOTSET") : parseLoglevel upper (.str s) = .ok (.int n) ↔
      levelName n = s ∧ (n = 10 ∨ n = 20 ∨ n = 30 ∨ n = 40 ∨ n = 50) := by
  rw [C41_parse_str, hu]
  constructor
  · rintro (⟨m, h, hm⟩ | ⟨-, h⟩)
    · cases hm
      rcases h with ⟨rfl | rfl, rfl⟩ | ⟨rfl, rfl⟩ | ⟨rfl | rfl, rfl⟩ | ⟨rfl, rfl⟩ | ⟨rfl, rfl⟩ | ⟨rfl, rfl⟩ <;>
        first | contradiction | (refine ⟨rfl, ?_⟩; norm_num)
    · cases h
  · rintro ⟨rfl, rfl | rfl | rfl | rfl | rfl⟩ <;> refine Or.inl ⟨_, ?_, rfl⟩ <;>
      simp [StdLevel, levelName, List.lookup]

/-- Examples. -/
example (upper : String → String) (h1 : upper "debug" = "DEBUG") (h2 : upper "Warn" = "WARN")
    (h3 : upper "verbose" = "VERBOSE") : parseLoglevel upper (.str "debug") = .ok (.int 10) ∧
    parseLoglevel upper (.str "Warn") = .ok (.int 30) ∧
    parseLoglevel upper (.str "verbose") = .error .valueError ∧ levelName 30 = "WARNING" := by
  simp [parseLoglevel, h1, h2, h3, loggingInts, List.lookup, levelName]

/-! ### C39: shapes and strategies -/

theorem acceptsShape_iff (c : SolverClass) (shape : List ℕ) : c.AcceptsShape shape ↔
    ((∃ k, shape = [k]) ∨ ∃ k, shape = [k, k]) ∧ (c = .if45dp → shape.length = 1) := by
  constructor
  · rintro (⟨n, rfl⟩ | ⟨h, n, rfl⟩)
    · exact ⟨Or.inl ⟨n, rfl⟩, fun _ => rfl⟩
    · exact ⟨Or.inr ⟨n, rfl⟩, fun h' => (h h').elim⟩
  · rintro ⟨h | ⟨n, rfl⟩, h'⟩
    · exact Or.inl h
    · refine Or.inr ⟨fun hc => ?_, n, rfl⟩
      simpa using h' hc

/-- The result of a construction. -/
theorem construct_eq (upper : String → String) (c : SolverClass) (a : CtorArgs K) (w : World K) :
    (Op.construct c a).run upper w =
      match solverInit upper c a w with
      | (.error e, w') => (.error e, w')
      | (.ok s, w') => (.ok (), { w' with solvers := w'.solvers ++ [s] }) := by
  show (solverInit upper c a >>= fun s => PyM.modify fun w => { w with solvers := w.solvers ++ [s] }) w = _
  rw [PyM.bind_apply]
  rcases solverInit upper c a w with ⟨e | s, w'⟩ <;> rfl

theorem construct_ok {upper : String → String} (c : SolverClass) {a : CtorArgs K} {n : ℤ} (h : a.loglevel.Asks upper n)
    (hs : c.AcceptsShape a.shape) (w : World K) :
    (Op.construct c a).run upper w =
      match strategyOf c a with
      | .error e => (.error e, { w with loggers := w.loggers.asked c.loggerName n })
      | .ok st => (.ok (), { w with loggers := w.loggers.asked c.loggerName n,
                                    solvers := w.solvers ++ [⟨c, st, configRef c a, etdRef c a, etdRef c a⟩] }) := by
  rw [construct_eq, solverInit_eq, baseInit_ok h, if_pos ((acceptsShape_iff c a.shape).1 hs).1]
  cases strategyOf c a <;> rfl

/-- **C39.** With a valid log level, a construction succeeds exactly when the shape of `lin_op` is acceptable and, for
`diagonalize=True` and a matrix, the diagonalization goes through. -/
theorem C39_success {upper : String → String} (c : SolverClass) (a : CtorArgs K) {n : ℤ} (h : a.loglevel.Asks upper n)
    (w : World K) :
    ((Op.construct c a).run upper w).1 = .ok () ↔
      c.AcceptsShape a.shape ∧ (a.shape.length = 2 → c.CanDiagonalize → a.diagonalize = true → a.linalg.Fine) := by
  by_cases hs : c.AcceptsShape a.shape
  · have hk : ((Op.construct c a).run upper w).1 = .ok () ↔ ∃ st, strategyOf c a = .ok st := by
      rw [construct_ok c h hs w]
      cases strategyOf c a <;> simp
    rw [hk]
    simp only [hs, true_and]
    rcases hs with ⟨k, hk⟩ | ⟨hc, k, hk⟩
    · have hst : strategyOf c a = .ok .diagonal := by rw [strategyOf.eq_def, hk]; rfl
      rw [hst]; simp [hk]
    · have h2 : a.shape.length = 2 := by rw [hk]; rfl
      have h1 : ¬ a.shape.length = 1 := by omega
      rw [← diagonalization_ok]
      have hdd : (∃ st, (if a.diagonalize = true then a.diagonalization.map fun _ => Strategy.diagonalized
          else .ok .full) = .ok st) ↔ (a.diagonalize = true → a.diagonalization = .ok ()) := by
        by_cases hd : a.diagonalize = true
        · cases a.diagonalization <;> simp [hd, Except.map]
        · simp [hd]
      cases c
      case if45dp => exact (hc rfl).elim
      all_goals rw [strategyOf.eq_def, if_neg h1]
      all_goals simp [h2, SolverClass.CanDiagonalize, hdd]
  · have : ((Op.construct c a).run upper w).1 ≠ .ok () := by
      rw [construct_eq, solverInit_eq, baseInit_ok h]
      by_cases hsh : (∃ k, a.shape = [k]) ∨ ∃ k, a.shape = [k, k]
      · rw [if_pos hsh]
        rw [acceptsShape_iff] at hs
        have : c = .if45dp ∧ ¬ a.shape.length = 1 := by
          by_contra hcon
          exact hs ⟨hsh, fun hc => by_contra fun hl => hcon ⟨hc, hl⟩⟩
        obtain ⟨rfl, hl⟩ := this
        simp [strategyOf, hl, Except.map]
      · rw [if_neg hsh]; simp
    simp [hs, this]

/-- **C39.** An unacceptable shape is a `ValueError`, and no solver exists afterwards that did not exist before. -/
theorem C39_shape_error {upper : String → String} (c : SolverClass) (a : CtorArgs K) {n : ℤ} (h : a.loglevel.Asks upper n)
    (hs : ¬ c.AcceptsShape a.shape) (w : World K) :
    ((Op.construct c a).run upper w).1 = .error .valueError ∧
      ((Op.construct c a).run upper w).2.solvers = w.solvers := by
  rw [construct_eq, solverInit_eq, baseInit_ok h]
  by_cases hsh : (∃ k, a.shape = [k]) ∨ ∃ k, a.shape = [k, k]
  · rw [if_pos hsh]
    rw [acceptsShape_iff] at hs
    have : c = .if45dp ∧ ¬ a.shape.length = 1 := by
      by_contra hcon
      exact hs ⟨hsh, fun hc => by_contra fun hl => hcon ⟨hc, hl⟩⟩
    obtain ⟨rfl, hl⟩ := this
    simp [strategyOf, hl, Except.map]
  · rw [if_neg hsh]; simp

/-- **C39.** A successful construction adds one solver, of the requested class.  It uses the diagonal strategy exactly for a
one-dimensional `lin_op` (whatever `diagonalize` is); for a matrix it is diagonalized exactly when `diagonalize=True` is
given to a class that has this parameter. -/
theorem C39_strategy {upper : String → String} (c : SolverClass) (a : CtorArgs K) (w : World K)
    (h : ((Op.construct c a).run upper w).1 = .ok ()) :
    ∃ s, ((Op.construct c a).run upper w).2.solvers = w.solvers ++ [s] ∧ s.cls = c ∧
      (s.strategy = .diagonal ↔ a.shape.length = 1) ∧
      (s.strategy = .diagonalized ↔ a.shape.length ≠ 1 ∧ c.CanDiagonalize ∧ a.diagonalize = true) ∧
      (s.strategy = .full ↔ a.shape.length ≠ 1 ∧ ¬ (c.CanDiagonalize ∧ a.diagonalize = true)) := by
  have hl : ∃ n, a.loglevel.Asks upper n := by
    by_contra hl
    rw [construct_eq, solverInit_eq, baseInit_error hl] at h
    cases h
  obtain ⟨n, hn⟩ := hl
  have hs := ((C39_success c a hn w).1 h).1
  rw [construct_ok c hn hs w] at h ⊢
  rcases hst : strategyOf c a with e | st
  · rw [hst] at h; cases h
  · refine ⟨_, rfl, rfl, ?_⟩
    show (st = .diagonal ↔ _) ∧ (st = .diagonalized ↔ _) ∧ (st = .full ↔ _)
    by_cases h1 : a.shape.length = 1
    · simp only [strategyOf, h1, if_true, Except.ok.injEq] at hst
      subst hst; simp [h1]
    · simp only [strategyOf, h1, if_false] at hst
      cases c
      case if45dp => simp at hst
      all_goals (by_cases hd : a.diagonalize = true)
      all_goals simp only [hd] at hst
      all_goals simp [h1, hd, SolverClass.CanDiagonalize]
      all_goals first
        | (simp at hst; subst hst; simp)
        | (simp only [if_true] at hst; cases hdg : a.diagonalization <;> rw [hdg] at hst <;> cases hst; simp)

/-- A diagonal and a full-matrix construction, and one that is refused. -/
example (upper : String → String) (hu : upper "WARNING" = "WARNING") (w : World ℚ) (la : LinAlgOutcome ℚ) :
    ((Op.construct .etd35 { shape := [4], diagonalize := true, linalg := la }).run upper w).1 = .ok () ∧
    ((Op.construct .etd4 { shape := [3, 3], linalg := la }).run upper w).1 = .ok () ∧
    ((Op.construct .if45dp { shape := [3, 3], linalg := la }).run upper w).1 = .error .valueError := by
  have hw : (LogArg.str "WARNING").Asks upper 30 := Or.inl ⟨"WARNING", rfl, by rw [hu]; simp [StdLevel]⟩
  refine ⟨(C39_success _ _ hw w).2 ⟨Or.inl ⟨4, rfl⟩, by simp⟩, (C39_success _ _ hw w).2 ⟨Or.inr ⟨by simp, 3, rfl⟩, ?_⟩,
    (C39_shape_error _ _ hw ?_ w).1⟩
  · rintro - (h | h | h) <;> cases h
  · rintro (⟨n, h⟩ | ⟨h, -⟩)
    · cases h
    · exact h rfl

/-! ### C40: loggers -/

/-- Each operation leaves the loggers alone, asks for a level of one logger, or creates one (with an invalid level). -/
theorem run_loggers (upper : String → String) (o : Op K) (w : World K) (c : SolverClass) (h : ¬ o.Requests w c) :
    (o.run upper w).2.loggers c.loggerName = w.loggers c.loggerName := by
  cases o with
  | newConfig e i d s ac m =>
    simp only [Op.run]
    cases SolverConfig.init e i d s ac m <;> rfl
  | newEtdConfig m p r =>
    simp only [Op.run]
    cases ETDConfig.init m p r <;> rfl
  | construct c' a =>
    have hc : c.loggerName ≠ c'.loggerName := fun he => h (loggerName_injective he).symm
    rw [construct_eq, solverInit_eq]
    by_cases hl : ∃ n, a.loglevel.Asks upper n
    · obtain ⟨n, hn⟩ := hl
      rw [baseInit_ok hn]
      have key : (w.loggers.asked c'.loggerName n) c.loggerName = w.loggers c.loggerName :=
        Function.update_of_ne hc _ _
      split_ifs
      · cases strategyOf c' a <;> exact key
      · exact key
    · rw [baseInit_error hl]
      exact Function.update_of_ne hc _ _
  | setAttr r attr v =>
    simp only [Op.run]
    cases w.configs r <;> rfl
  | setEtdAttr r a =>
    simp only [Op.run]
    cases w.etdConfigs r <;> rfl
  | rebind i r =>
    simp only [Op.run]
    cases w.solvers[i]? <;> rfl
  | rebindEtd i r =>
    simp only [Op.run]
    cases w.solvers[i]? <;> rfl
  | setLoglevel i l =>
    simp only [Op.run]
    rcases hs : w.solvers[i]? with _ | s
    · rfl
    · have hc : c.loggerName ≠ s.cls.loggerName := fun he => h ⟨s, hs, (loggerName_injective he).symm⟩
      show (setLogLevel upper s.cls.loggerName l w.loggers).2 c.loggerName = _
      by_cases hl : ∃ n, l.Asks upper n
      · obtain ⟨n, hn⟩ := hl
        rw [setLogLevel_ok hn]
        exact Function.update_of_ne hc _ _
      · rw [setLogLevel_error hl]

/-- **C40.** As long as nobody asks for a level for class `c`, its logger does not change; operations for other classes do
not affect it. -/
theorem C40_quiet (upper : String → String) (c : SolverClass) (w : World K) (ops : List (Op K))
    (h : w.Quiet upper c ops) : (w.run upper ops).loggers c.loggerName = w.loggers c.loggerName := by
  induction ops generalizing w with
  | nil => rfl
  | cons o os ih => rw [World.run, ih _ h.2, run_loggers upper o w c h.1]

/-- The solver list only grows, and classes are constant. -/
theorem run_cls (upper : String → String) (o : Op K) (w : World K) (i : ℕ) (s : SolverObj) (h : w.solvers[i]? = some s) :
    ∃ s', (o.run upper w).2.solvers[i]? = some s' ∧ s'.cls = s.cls ∧ s'.methodEtd = s.methodEtd ∧
      (o.KeepsConfig i → s'.config = s.config) := by
  have hi : i < w.solvers.length := (List.getElem?_eq_some_iff.1 h).1
  cases o with
  | newConfig e j d s0 ac m =>
    simp only [Op.run]
    cases SolverConfig.init e j d s0 ac m <;> exact ⟨s, h, rfl, rfl, fun _ => rfl⟩
  | newEtdConfig m p r =>
    simp only [Op.run]
    cases ETDConfig.init m p r <;> exact ⟨s, h, rfl, rfl, fun _ => rfl⟩
  | construct c a =>
    refine ⟨s, ?_, rfl, rfl, fun _ => rfl⟩
    rw [construct_eq, solverInit_eq]
    by_cases hl : ∃ n, a.loglevel.Asks upper n
    · obtain ⟨n, hn⟩ := hl
      rw [baseInit_ok hn]
      split_ifs
      · cases strategyOf c a
        · exact h
        · show (w.solvers ++ [_])[i]? = some s
          rw [List.getElem?_append_left hi]; exact h
      · exact h
    · rw [baseInit_error hl]
      exact h
  | setAttr r attr v =>
    simp only [Op.run]
    cases w.configs r <;> exact ⟨s, h, rfl, rfl, fun _ => rfl⟩
  | setEtdAttr r a =>
    simp only [Op.run]
    cases w.etdConfigs r <;> exact ⟨s, h, rfl, rfl, fun _ => rfl⟩
  | rebind j r =>
    simp only [Op.run]
    rcases hj : w.solvers[j]? with _ | t
    · exact ⟨s, h, rfl, rfl, fun _ => rfl⟩
    · by_cases hij : j = i
      · subst hij
        rw [h] at hj; cases hj
        exact ⟨{ s with config := some r }, by simp [hi], rfl, rfl, fun hk => (hk rfl).elim⟩
      · exact ⟨s, by simp [List.getElem?_set_ne hij, h], rfl, rfl, fun _ => rfl⟩
  | rebindEtd j r =>
    simp only [Op.run]
    rcases hj : w.solvers[j]? with _ | t
    · exact ⟨s, h, rfl, rfl, fun _ => rfl⟩
    · by_cases hij : j = i
      · subst hij
        rw [h] at hj; cases hj
        exact ⟨{ s with etdConfig := some r }, by simp [hi], rfl, rfl, fun _ => rfl⟩
      · exact ⟨s, by simp [List.getElem?_set_ne hij, h], rfl, rfl, fun _ => rfl⟩
  | setLoglevel j l =>
    simp only [Op.run]
    cases w.solvers[j]? <;> exact ⟨s, h, rfl, rfl, fun _ => rfl⟩

theorem run_all_cls (upper : String → String) (ops : List (Op K)) (w : World K) (i : ℕ) (s : SolverObj)
    (h : w.solvers[i]? = some s) :
    ∃ s', (w.run upper ops).solvers[i]? = some s' ∧ s'.cls = s.cls ∧ s'.methodEtd = s.methodEtd ∧
      ((∀ o ∈ ops, o.KeepsConfig i) → s'.config = s.config) := by
  induction ops generalizing w s with
  | nil => exact ⟨s, h, rfl, rfl, fun _ => rfl⟩
  | cons o os ih =>
    obtain ⟨s1, h1, c1, e1, k1⟩ := run_cls upper o w i s h
    obtain ⟨s2, h2, c2, e2, k2⟩ := ih _ s1 h1
    exact ⟨s2, h2, c2.trans c1, e2.trans e1, fun hk => (k2 fun o ho => hk o (List.mem_cons_of_mem _ ho)).trans
      (k1 (hk o List.mem_cons_self))⟩

theorem run_asked {upper : String → String} {w : World K} {c : SolverClass} {n : ℤ} {o : Op K} (h : Asked upper w c n o)
    (hw : ∀ (i : ℕ) s, w.solvers[i]? = some s → w.loggers s.cls.loggerName ≠ none) :
    ((o.run upper w).2.loggers c.loggerName).map Logger.level = some n := by
  rcases h with ⟨a, h⟩ | ⟨i, l, s, hs, rfl, h⟩
  · rw [construct_eq, solverInit_eq, baseInit_ok h]
    have key : ((w.loggers.asked c.loggerName n) c.loggerName).map Logger.level = some n := by
      simp [Loggers.asked]
    split_ifs
    · cases strategyOf c a <;> exact key
    · exact key
  · simp only [Op.run, hs]
    show ((setLogLevel upper s.cls.loggerName l w.loggers).2 s.cls.loggerName).map Logger.level = some n
    rw [setLogLevel_ok h]
    rcases hl : w.loggers s.cls.loggerName with _ | lg
    · exact (hw i s hs hl).elim
    · simp

/-- Every solver has its logger, with a handler. -/
def World.HasLoggers (w : World K) : Prop :=
  ∀ (i : ℕ) s, w.solvers[i]? = some s → ∃ l, w.loggers s.cls.loggerName = some l ∧ l.handlers ≠ 0

theorem asked_ne_zero (r : Loggers) (name : String) (n : ℤ) : ∃ l, r.asked name n name = some l ∧ l.handlers ≠ 0 :=
  ⟨_, Function.update_self _ _ _, by simp⟩

/-- What an operation does to a logger that exists: its handlers stay, unless it had none. -/
theorem run_handlers (upper : String → String) (o : Op K) (w : World K) (name : String) :
    (o.run upper w).2.loggers name = w.loggers name ∨
    ((w.loggers name).map Logger.handlers).getD 0 ≠ 0 ∧
      ((o.run upper w).2.loggers name).map Logger.handlers = (w.loggers name).map Logger.handlers ∨
    ((w.loggers name).map Logger.handlers).getD 0 = 0 ∧
      (((o.run upper w).2.loggers name).map Logger.handlers = some 0 ∨
       ((o.run upper w).2.loggers name).map Logger.handlers = some 1) := by
  have hasked : ∀ (n' : String) (n : ℤ) (r : Loggers), r.asked n' n name = r name ∨
      ((r name).map Logger.handlers).getD 0 ≠ 0 ∧ (r.asked n' n name).map Logger.handlers = (r name).map Logger.handlers ∨
      ((r name).map Logger.handlers).getD 0 = 0 ∧ ((r.asked n' n name).map Logger.handlers = some 0 ∨
        (r.asked n' n name).map Logger.handlers = some 1) := by
    intro n' n r
    by_cases hn : name = n'
    · subst hn
      simp only [Loggers.asked, Function.update_self]
      rcases hr : r name with _ | ⟨lv, _ | k⟩ <;> simp
    · exact Or.inl (Function.update_of_ne hn _ _)
  cases o with
  | newConfig e i d s ac m =>
    simp only [Op.run]
    cases SolverConfig.init e i d s ac m <;> exact Or.inl rfl
  | newEtdConfig m p r =>
    simp only [Op.run]
    cases ETDConfig.init m p r <;> exact Or.inl rfl
  | construct c' a =>
    rw [construct_eq, solverInit_eq]
    by_cases hl : ∃ n, a.loglevel.Asks upper n
    · obtain ⟨n, hn⟩ := hl
      rw [baseInit_ok hn]
      split_ifs
      · cases strategyOf c' a <;> exact hasked _ n _
      · exact hasked _ n _
    · rw [baseInit_error hl]
      show Function.update w.loggers c'.loggerName _ name = _ ∨ _ ∧ (Function.update w.loggers c'.loggerName _ name).map _ = _ ∨
        _ ∧ ((Function.update w.loggers c'.loggerName _ name).map _ = _ ∨ (Function.update w.loggers c'.loggerName _ name).map _ = _)
      by_cases hn : name = c'.loggerName
      · subst hn
        simp only [Function.update_self]
        rcases hr : w.loggers c'.loggerName with _ | ⟨lv, _ | k⟩ <;> simp
      · exact Or.inl (Function.update_of_ne hn _ _)
  | setAttr r attr v =>
    simp only [Op.run]
    cases w.configs r <;> exact Or.inl rfl
  | setEtdAttr r a =>
    simp only [Op.run]
    cases w.etdConfigs r <;> exact Or.inl rfl
  | rebind i r =>
    simp only [Op.run]
    cases w.solvers[i]? <;> exact Or.inl rfl
  | rebindEtd i r =>
    simp only [Op.run]
    cases w.solvers[i]? <;> exact Or.inl rfl
  | setLoglevel i l =>
    simp only [Op.run]
    rcases hs : w.solvers[i]? with _ | s
    · exact Or.inl rfl
    · show (setLogLevel upper s.cls.loggerName l w.loggers).2 name = _ ∨
        _ ∧ ((setLogLevel upper s.cls.loggerName l w.loggers).2 name).map _ = _ ∨
        _ ∧ (((setLogLevel upper s.cls.loggerName l w.loggers).2 name).map _ = _ ∨
          ((setLogLevel upper s.cls.loggerName l w.loggers).2 name).map _ = _)
      by_cases hl : ∃ n, l.Asks upper n
      · obtain ⟨n, hn⟩ := hl
        rw [setLogLevel_ok hn]
        by_cases hn : name = s.cls.loggerName
        · subst hn
          simp only [Function.update_self]
          rcases hr : w.loggers s.cls.loggerName with _ | ⟨lv, _ | k⟩ <;> simp
        · exact Or.inl (Function.update_of_ne hn _ _)
      · rw [setLogLevel_error hl]; exact Or.inl rfl

/-- **C40.** Handlers are never duplicated: over every program, a logger that had handlers keeps their number, and one that
had none gets at most one. -/
theorem C40_handlers (upper : String → String) (w : World K) (ops : List (Op K)) (name : String) :
    (((w.run upper ops).loggers name).map Logger.handlers).getD 0 = ((w.loggers name).map Logger.handlers).getD 0 ∨
    ((w.loggers name).map Logger.handlers).getD 0 = 0 ∧ (((w.run upper ops).loggers name).map Logger.handlers).getD 0 = 1 := by
  induction ops generalizing w with
  | nil => exact Or.inl rfl
  | cons o os ih =>
    rw [World.run]
    have h1 := ih (o.run upper w).2
    rcases run_handlers upper o w name with h | ⟨hn, h⟩ | ⟨h0, h | h⟩
    · rw [h] at h1; exact h1
    · rw [h] at h1; exact h1
    · rw [h] at h1
      rw [h0]
      simpa using h1
    · rw [h] at h1
      rw [h0]
      simp only [Option.getD_some] at h1
      omega

theorem run_hasLoggers (upper : String → String) (o : Op K) (w : World K) (h : w.HasLoggers) :
    (o.run upper w).2.HasLoggers := by
  -- loggers with a handler persist
  have hp : ∀ name, (∃ l, w.loggers name = some l ∧ l.handlers ≠ 0) →
      ∃ l, (o.run upper w).2.loggers name = some l ∧ l.handlers ≠ 0 := by
    rintro name ⟨l, hl, hn⟩
    rcases run_handlers upper o w name with h' | ⟨_, h'⟩ | ⟨h0, _⟩
    · exact ⟨l, h'.trans hl, hn⟩
    · rw [hl, Option.map_some, Option.map_eq_some_iff] at h'
      obtain ⟨l', hl', he⟩ := h'
      exact ⟨l', hl', he ▸ hn⟩
    · rw [hl] at h0; exact (hn h0).elim
  intro i s hs
  by_cases hi : i < w.solvers.length
  · obtain ⟨s', hs', hc, -⟩ := run_cls upper o w i w.solvers[i] (List.getElem?_eq_getElem hi)
    rw [hs] at hs'; cases hs'
    rw [hc]
    exact hp _ (h i _ (List.getElem?_eq_getElem hi))
  · -- a new solver: the operation is a construction
    have hlen : w.solvers.length < (o.run upper w).2.solvers.length := by
      have := (List.getElem?_eq_some_iff.1 hs).1; omega
    cases o with
    | construct c a =>
      rw [construct_eq, solverInit_eq] at hlen hs ⊢
      by_cases hl : ∃ n, a.loglevel.Asks upper n
      · obtain ⟨n, hn⟩ := hl
        rw [baseInit_ok hn] at hlen hs ⊢
        split_ifs at hlen hs ⊢
        · rcases hst : strategyOf c a with e | st
          · rw [hst] at hlen; simp [Except.map] at hlen
          · rw [hst] at hs
            simp only [Except.map] at hs
            have : s.cls = c := by
              rw [List.getElem?_append_right (by omega)] at hs
              rcases hk : i - w.solvers.length with _ | k
              · rw [hk] at hs; simp at hs; rw [← hs]
              · rw [hk] at hs; simp at hs
            rw [this]
            exact asked_ne_zero _ _ n
        · simp at hlen
      · rw [baseInit_error hl] at hlen; simp at hlen
    | newConfig e j d s0 ac m =>
      simp only [Op.run] at hlen
      cases hi' : SolverConfig.init e j d s0 ac m <;> rw [hi'] at hlen <;> simp at hlen
    | newEtdConfig m p r =>
      simp only [Op.run] at hlen
      cases hi' : ETDConfig.init m p r <;> rw [hi'] at hlen <;> simp at hlen
    | setAttr r attr v =>
      simp only [Op.run] at hlen
      cases hr : w.configs r <;> rw [hr] at hlen <;> simp at hlen
    | setEtdAttr r a =>
      simp only [Op.run] at hlen
      cases hr : w.etdConfigs r <;> rw [hr] at hlen <;> simp at hlen
    | rebind j r =>
      simp only [Op.run] at hlen
      cases hr : w.solvers[j]? <;> rw [hr] at hlen <;> simp at hlen
    | rebindEtd j r =>
      simp only [Op.run] at hlen
      cases hr : w.solvers[j]? <;> rw [hr] at hlen <;> simp at hlen
    | setLoglevel j l =>
      simp only [Op.run] at hlen
      cases hr : w.solvers[j]? <;> rw [hr] at hlen <;> simp [World.onLoggers] at hlen

theorem run_all_hasLoggers (upper : String → String) (ops : List (Op K)) (w : World K) (h : w.HasLoggers) :
    (w.run upper ops).HasLoggers := by
  induction ops generalizing w with
  | nil => exact h
  | cons o os ih => exact ih _ (run_hasLoggers upper o w h)

theorem start_hasLoggers (l : Loggers) : (World.start l : World K).HasLoggers := by
  intro i s h
  simp [World.start] at h

/-- **C40.** In every program, each solver that exists has a logger with at least one handler (exactly one, by `C40_handlers`,
unless the program had attached handlers to it beforehand). -/
theorem C40_has_handler (upper : String → String) (l : Loggers) (ops : List (Op K)) (i : ℕ) (s : SolverObj)
    (h : ((World.start l : World K).run upper ops).solvers[i]? = some s) :
    ∃ lg, ((World.start l : World K).run upper ops).loggers s.cls.loggerName = some lg ∧ lg.handlers ≠ 0 :=
  run_all_hasLoggers upper ops _ (start_hasLoggers l) i s h

/-- **C40.** In every program, the level of every solver of class `c` is the one most recently asked for by a construction
in this class (even one that failed on the shape of `lin_op`) or by `set_loglevel` of a solver of this class. -/
theorem C40_level (upper : String → String) (l : Loggers) (ops ops' : List (Op K)) (c : SolverClass) (n : ℤ) (o : Op K)
    (h : Asked upper ((World.start l : World K).run upper ops) c n o)
    (hq : (o.run upper ((World.start l : World K).run upper ops)).2.Quiet upper c ops') (i : ℕ) (s : SolverObj)
    (hs : ((o.run upper ((World.start l : World K).run upper ops)).2.run upper ops').solvers[i]? = some s) (hc : s.cls = c) :
    ((o.run upper ((World.start l : World K).run upper ops)).2.run upper ops').levelOf i = some n := by
  rw [World.levelOf, hs]
  subst hc
  show (((o.run upper ((World.start l : World K).run upper ops)).2.run upper ops').loggers s.cls.loggerName).map _ = _
  rw [C40_quiet _ _ _ _ hq]
  apply run_asked h
  intro j t ht hnone
  obtain ⟨lg, hlg, -⟩ := C40_has_handler upper l ops j t ht
  rw [hlg] at hnone; cases hnone

/-- **C40.** A level that is not one is refused (`ValueError` for a string, `TypeError` otherwise) and changes no level. -/
theorem C40_invalid (upper : String → String) (a : LogArg) (ha : ¬ ∃ n, a.Asks upper n) (w : World K) (i : ℕ) (s : SolverObj)
    (hs : w.solvers[i]? = some s) :
    (Op.setLoglevel i a).run upper w = (.error (if a = .other then .typeError else .valueError), w) := by
  simp only [Op.run, hs, World.onLoggers, PyM.zoom_apply, setLogLevel_error ha]
  rcases a with t | n | _ <;> simp [LogArg.error]

/-! ### C38: shared configuration objects -/

theorem newest (upper : String → String) (c : SolverClass) (a : CtorArgs K) (w : World K)
    (h : ((Op.construct c a).run upper w).1 = .ok ()) :
    ∃ st l, ((Op.construct c a).run upper w).2 =
      { w with loggers := l, solvers := w.solvers ++ [⟨c, st, configRef c a, etdRef c a, etdRef c a⟩] } := by
  have hl : ∃ n, a.loglevel.Asks upper n := by
    by_contra hl
    rw [construct_eq, solverInit_eq, baseInit_error hl] at h
    cases h
  obtain ⟨n, hn⟩ := hl
  have hs := ((C39_success c a hn w).1 h).1
  rw [construct_ok c hn hs w] at h ⊢
  rcases hst : strategyOf c a with e | st
  · rw [hst] at h; cases h
  · exact ⟨st, _, rfl⟩

/-- **C38.** Two solvers of the same adaptive class constructed without a configuration, at any two points of a program, read
the same configuration at every later time (as long as nobody replaces `solver.config` of one of them). -/
theorem C38_shared (upper : String → String) (c : SolverClass) (hc : c.Adaptive) (a a' : CtorArgs K) (ha : a.config = none)
    (ha' : a'.config = none) (w0 w1 w2 : World K) (ops ops' : List (Op K))
    (h0 : (Op.construct c a).run upper w0 = (.ok (), w1)) (hw2 : w2 = w1.run upper ops)
    (w3 w4 : World K) (h2 : (Op.construct c a').run upper w2 = (.ok (), w3)) (hw4 : w4 = w3.run upper ops')
    (hk : ∀ o ∈ ops ++ ops', o.KeepsConfig w0.solvers.length) (hk' : ∀ o ∈ ops', o.KeepsConfig w2.solvers.length) :
    w4.configOf w0.solvers.length = w4.configOf w2.solvers.length := by
  have hcr : ∀ b : CtorArgs K, b.config = none → configRef c b = some (.default c) := by
    intro b hb
    rcases hc with rfl | rfl | rfl | rfl <;> simp [configRef, hb]
  obtain ⟨st, l, e1⟩ := newest upper c a w0 (by rw [h0])
  obtain ⟨st', l', e2⟩ := newest upper c a' w2 (by rw [h2])
  rw [h0] at e1; rw [h2] at e2
  simp only at e1 e2
  rw [hcr a ha] at e1; rw [hcr a' ha'] at e2
  have g1 : w1.solvers[w0.solvers.length]? = some ⟨c, st, some (.default c), etdRef c a, etdRef c a⟩ := by
    rw [e1]; simp
  have g2 : w3.solvers[w2.solvers.length]? = some ⟨c, st', some (.default c), etdRef c a', etdRef c a'⟩ := by
    rw [e2]; simp
  obtain ⟨s1, k1, -, -, c1⟩ := run_all_cls upper ops w1 _ _ g1
  rw [← hw2] at k1
  have k1' : w3.solvers[w0.solvers.length]? = some s1 := by
    rw [e2]
    show (w2.solvers ++ _)[w0.solvers.length]? = _
    rw [List.getElem?_append_left (List.getElem?_eq_some_iff.1 k1).1, k1]
  obtain ⟨s2, k2, -, -, c2⟩ := run_all_cls upper ops' w3 _ _ k1'
  obtain ⟨s3, k3, -, -, c3⟩ := run_all_cls upper ops' w3 _ _ g2
  rw [← hw4] at k2 k3
  rw [World.configOf, World.configOf, k2, k3]
  simp only
  rw [c2 fun o ho => hk o (List.mem_append_right _ ho), c1 fun o ho => hk o (List.mem_append_left _ ho), c3 hk']

/-- **C38.** Likewise for the `ETDConfig` used to compute coefficients (which nothing can replace after construction). -/
theorem C38_shared_etd (upper : String → String) (c : SolverClass) (hc : c.HasEtd) (a a' : CtorArgs K)
    (ha : a.etdConfig = none) (ha' : a'.etdConfig = none) (w0 w1 w2 : World K) (ops ops' : List (Op K))
    (h0 : (Op.construct c a).run upper w0 = (.ok (), w1)) (hw2 : w2 = w1.run upper ops)
    (w3 w4 : World K) (h2 : (Op.construct c a').run upper w2 = (.ok (), w3)) (hw4 : w4 = w3.run upper ops') :
    w4.etdOf w0.solvers.length = w4.etdOf w2.solvers.length := by
  have hcr : ∀ b : CtorArgs K, b.etdConfig = none → etdRef c b = some (.default c) := by
    intro b hb
    rcases hc with rfl | rfl | rfl | rfl <;> simp [etdRef, hb]
  obtain ⟨st, l, e1⟩ := newest upper c a w0 (by rw [h0])
  obtain ⟨st', l', e2⟩ := newest upper c a' w2 (by rw [h2])
  rw [h0] at e1; rw [h2] at e2
  simp only at e1 e2
  rw [hcr a ha] at e1; rw [hcr a' ha'] at e2
  have g1 : w1.solvers[w0.solvers.length]? = some ⟨c, st, configRef c a, some (.default c), some (.default c)⟩ := by
    rw [e1]; simp
  have g2 : w3.solvers[w2.solvers.length]? = some ⟨c, st', configRef c a', some (.default c), some (.default c)⟩ := by
    rw [e2]; simp
  obtain ⟨s1, k1, -, c1, -⟩ := run_all_cls upper ops w1 _ _ g1
  rw [← hw2] at k1
  have k1' : w3.solvers[w0.solvers.length]? = some s1 := by
    rw [e2]
    show (w2.solvers ++ _)[w0.solvers.length]? = _
    rw [List.getElem?_append_left (List.getElem?_eq_some_iff.1 k1).1, k1]
  obtain ⟨s2, k2, -, c2, -⟩ := run_all_cls upper ops' w3 _ _ k1'
  obtain ⟨s3, k3, -, c3, -⟩ := run_all_cls upper ops' w3 _ _ g2
  rw [← hw4] at k2 k3
  rw [World.etdOf, World.etdOf, k2, k3]
  simp only
  rw [c2, c1, c3]

/-- **C38.** An assignment through the configuration of one solver acts on what every solver with the same object reads, and
on nothing else: the solvers that have another object read what they read before. -/
theorem C38_assign (upper : String → String) (w : World K) (r : Ref) (c : SolverConfig (Ext K)) (hc : w.configs r = some c)
    (attr : SCAttr) (v : Ext K) :
    (∀ j t, w.solvers[j]? = some t → t.config = some r →
      ((Op.setAttr r attr v).run upper w).2.configOf j = some (SolverConfig.setAttr attr v c).2) ∧
    (∀ j t, w.solvers[j]? = some t → t.config ≠ some r →
      ((Op.setAttr r attr v).run upper w).2.configOf j = w.configOf j) := by
  simp only [Op.run, hc]
  constructor
  · intro j t hj ht
    simp [World.configOf, hj, ht]
  · intro j t hj ht
    rw [World.configOf, World.configOf, hj]
    simp only
    rcases htc : t.config with _ | r'
    · rfl
    · have : r' ≠ r := fun he => ht (by rw [htc, he])
      simp [Function.update_of_ne this]

/-- **C38.** A solver constructed without configuration sees the assignments made through earlier solvers of its class, and a
solver constructed with an explicit configuration object has that object. -/
theorem C38_new (upper : String → String) (c : SolverClass) (hc : c.Adaptive) (a : CtorArgs K) (w w' : World K)
    (h : (Op.construct c a).run upper w = (.ok (), w')) :
    (a.config = none → w'.configOf w.solvers.length = w.configs (.default c)) ∧
    (∀ r, a.config = some r → w'.configOf w.solvers.length = w.configs r) := by
  obtain ⟨st, l, e1⟩ := newest upper c a w (by rw [h])
  rw [h] at e1
  simp only at e1
  have hcr : configRef c a = some (a.config.getD (.default c)) := by
    rcases hc with rfl | rfl | rfl | rfl <;> rfl
  rw [hcr] at e1
  constructor
  · intro ha; rw [e1, World.configOf]; simp [ha]
  · intro r ha; rw [e1, World.configOf]; simp [ha]

theorem run_configs (upper : String → String) (o : Op K) (w : World K) (hw : ∀ n, w.nextConfig ≤ n → w.configs (.user n) = none) :
    (∀ n, (o.run upper w).2.nextConfig ≤ n → (o.run upper w).2.configs (.user n) = none) ∧
    (∀ r, w.configs r ≠ none → o.KeepsObject r → (o.run upper w).2.configs r = w.configs r) := by
  cases o with
  | newConfig e i d s ac m =>
    simp only [Op.run]
    rcases SolverConfig.init e i d s ac m with x | c
    · exact ⟨hw, fun _ _ _ => rfl⟩
    · refine ⟨fun n hn => ?_, fun r hr _ => ?_⟩
      · have : Ref.user n ≠ .user w.nextConfig := by
          intro he; cases he; simp at hn
        show Function.update w.configs (.user w.nextConfig) (some c) (.user n) = none
        rw [Function.update_of_ne this]
        exact hw n (by simp at hn; omega)
      · have : r ≠ .user w.nextConfig := by
          rintro rfl; exact hr (hw _ le_rfl)
        exact Function.update_of_ne this _ _
  | newEtdConfig m p r =>
    simp only [Op.run]
    cases ETDConfig.init m p r <;> exact ⟨hw, fun _ _ _ => rfl⟩
  | construct c a =>
    rw [construct_eq, solverInit_eq]
    by_cases hl : ∃ n, a.loglevel.Asks upper n
    · obtain ⟨n, hn⟩ := hl
      rw [baseInit_ok hn]
      split_ifs
      · cases strategyOf c a <;> exact ⟨hw, fun _ _ _ => rfl⟩
      · exact ⟨hw, fun _ _ _ => rfl⟩
    · rw [baseInit_error hl]
      exact ⟨hw, fun _ _ _ => rfl⟩
  | setAttr r attr v =>
    simp only [Op.run]
    rcases hr : w.configs r with _ | c
    · exact ⟨hw, fun _ _ _ => rfl⟩
    · refine ⟨fun n hn => ?_, fun r' _ hk => Function.update_of_ne (Ne.symm hk) _ _⟩
      have : Ref.user n ≠ r := by
        rintro rfl
        rw [hw n hn] at hr; cases hr
      show Function.update w.configs r _ (.user n) = none
      rw [Function.update_of_ne this]
      exact hw n hn
  | setEtdAttr r a =>
    simp only [Op.run]
    cases w.etdConfigs r <;> exact ⟨hw, fun _ _ _ => rfl⟩
  | rebind i r =>
    simp only [Op.run]
    cases w.solvers[i]? <;> exact ⟨hw, fun _ _ _ => rfl⟩
  | rebindEtd i r =>
    simp only [Op.run]
    cases w.solvers[i]? <;> exact ⟨hw, fun _ _ _ => rfl⟩
  | setLoglevel i l =>
    simp only [Op.run]
    cases w.solvers[i]? <;> exact ⟨hw, fun _ _ _ => rfl⟩

theorem run_all_configs (upper : String → String) (ops : List (Op K)) (w : World K)
    (hw : ∀ n, w.nextConfig ≤ n → w.configs (.user n) = none) :
    (∀ n, (w.run upper ops).nextConfig ≤ n → (w.run upper ops).configs (.user n) = none) ∧
    (∀ r, w.configs r ≠ none → (∀ o ∈ ops, o.KeepsObject r) → (w.run upper ops).configs r = w.configs r) := by
  induction ops generalizing w with
  | nil => exact ⟨hw, fun _ _ _ => rfl⟩
  | cons o os ih =>
    obtain ⟨h1, h2⟩ := run_configs upper o w hw
    obtain ⟨h3, h4⟩ := ih _ h1
    refine ⟨h3, fun r hr hk => ?_⟩
    have e := h2 r hr (hk o List.mem_cons_self)
    rw [World.run, h4 r (e ▸ hr) fun o ho => hk o (List.mem_cons_of_mem _ ho), e]

/-- **C38.** The configuration of a solver never changes during a program that neither assigns through the object it has
(under any name) nor gives it another one: assignments through all other objects, and constructions, do not matter. -/
theorem C38_unaffected (upper : String → String) (l : Loggers) (ops ops' : List (Op K)) (i : ℕ) (s : SolverObj) (r : Ref)
    (hs : ((World.start l : World K).run upper ops).solvers[i]? = some s) (hr : s.config = some r)
    (hx : ((World.start l : World K).run upper ops).configs r ≠ none)
    (h1 : ∀ o ∈ ops', o.KeepsObject r) (h2 : ∀ o ∈ ops', o.KeepsConfig i) :
    (((World.start l : World K).run upper ops).run upper ops').configOf i =
      ((World.start l : World K).run upper ops).configOf i := by
  obtain ⟨s', hs', -, -, hc⟩ := run_all_cls upper ops' _ i s hs
  have h0 := (run_all_configs upper ops (World.start l : World K) fun _ _ => rfl).1
  rw [World.configOf, World.configOf, hs, hs']
  simp only
  rw [hc h2, hr]
  exact (run_all_configs upper ops' _ h0).2 r hx h1

/-- **C38.** Replacing `solver.etd_config` by another object has no effect on the coefficients that any solver computes: the
strategy object keeps the one of the construction. -/
theorem C38_rebind_etd (upper : String → String) (w : World K) (i j : ℕ) (r : Ref) :
    ((Op.rebindEtd i r).run upper w).2.etdOf j = w.etdOf j := by
  simp only [Op.run]
  rcases hi : w.solvers[i]? with _ | s
  · rfl
  · rw [World.etdOf, World.etdOf]
    by_cases hij : i = j
    · subst hij
      have : i < w.solvers.length := (List.getElem?_eq_some_iff.1 hi).1
      rw [hi, List.getElem?_set_self this]
    · simp [List.getElem?_set_ne hij]

/-- The documented default values of `SolverConfig`. -/
def SolverConfig.Documented (c : SolverConfig (Ext K)) : Prop :=
  c.epsilon = .fin (1 / 10 ^ 4) ∧ c.incr_f = .fin (125 / 100) ∧ c.decr_f = .fin (85 / 100) ∧ c.safety_f = .fin (8 / 10) ∧
    c.adapt_cutoff = .fin (1 / 100) ∧ c.minh = .fin (1 / 10 ^ 16)

/-- The documented default values of `ETDConfig`. -/
def ETDConfig.Documented (c : ETDConfig (Ext K)) : Prop :=
  c.modecutoff = .fin (1 / 100) ∧ c.contour_points = 32 ∧ c.contour_radius = .fin 1

/-- **C38.** As long as nobody assigns through the default configuration of a class, solvers of this class constructed without
configuration read the documented default values, whatever else the program does. -/
theorem C38_defaults [IsStrictOrderedRing K] (upper : String → String) (l : Loggers) (ops : List (Op K)) (c : SolverClass) (hc : c.Adaptive)
    (a : CtorArgs K) (ha : a.config = none) (hk : ∀ o ∈ ops, o.KeepsObject (.default c)) (w w' : World K)
    (hw : w = (World.start l : World K).run upper ops) (h : (Op.construct c a).run upper w = (.ok (), w')) :
    ∃ cfg, w'.configOf w.solvers.length = some cfg ∧ cfg.Documented := by
  rw [(C38_new upper c hc a w w' h).1 ha, hw]
  have hd : (World.start l : World K).configs (.default c) = some .default := by
    rcases hc with rfl | rfl | rfl | rfl <;> rfl
  rw [(run_all_configs upper ops (World.start l : World K) fun _ _ => rfl).2 _ (by rw [hd]; exact Option.some_ne_none _) hk, hd]
  refine ⟨_, rfl, ?_⟩
  norm_num [SolverConfig.Documented, SolverConfig.default]

/-- All configuration objects have values in the documented ranges, and the default objects exist. -/
def World.ConfigsFine (w : World K) : Prop :=
  (∀ r c, w.configs r = some c → ∀ a : SCAttr, a.Accepts (SolverConfig.getAttr a c)) ∧
  (∀ c : SolverClass, c.Adaptive → w.configs (.default c) ≠ none) ∧
  (∀ r c, w.etdConfigs r = some c → c.InRange) ∧
  ∀ c : SolverClass, c.HasEtd → w.etdConfigs (.default c) ≠ none

theorem start_configsFine [IsStrictOrderedRing K] (l : Loggers) : (World.start l : World K).ConfigsFine := by
  refine ⟨?_, ?_, ?_, ?_⟩
  · intro r c hc a
    have : c = .default := by
      rcases r with (_ | _ | _ | _ | _ | _ | _) | n <;> simp_all [World.start]
    subst this
    right
    cases a <;> norm_num [SCAttr.Documented, SolverConfig.getAttr, SolverConfig.default, Ext.Above, Ext.Below, Ext.AtMost]
  · intro c hc
    rcases hc with rfl | rfl | rfl | rfl <;> simp [World.start]
  · intro r c hc
    have : c = ⟨.fin (1 / 100), 32, .fin 1⟩ := by
      rcases r with (_ | _ | _ | _ | _ | _ | _) | n <;> simp_all [World.start]
    subst this
    refine ⟨Or.inr ⟨_, rfl, ?_, ?_⟩, ?_, Or.inr (Or.inr ⟨_, rfl, ?_⟩)⟩ <;> norm_num
  · intro c hc
    rcases hc with rfl | rfl | rfl | rfl <;> simp [World.start]

theorem run_configsFine (upper : String → String) (o : Op K) (w : World K) (h : w.ConfigsFine) :
    (o.run upper w).2.ConfigsFine := by
  obtain ⟨h1, h2, h3, h4⟩ := h
  cases o with
  | newConfig e i d s ac m =>
    simp only [Op.run]
    rcases hi : SolverConfig.init e i d s ac m with x | c
    · exact ⟨h1, h2, h3, h4⟩
    · refine ⟨fun r c' hr a => ?_, fun c' hc' => ?_, h3, h4⟩
      · by_cases hn : r = .user w.nextConfig
        · subst hn
          simp only [Function.update_self, Option.some.injEq] at hr
          subst hr
          exact C36_invariant e i d s ac m c hi [] a
        · exact h1 r c' (by simpa [Function.update_of_ne hn] using hr) a
      · simpa using h2 c' hc'
  | newEtdConfig m p r =>
    simp only [Op.run]
    rcases hi : ETDConfig.init m p r with x | c
    · exact ⟨h1, h2, h3, h4⟩
    · refine ⟨h1, h2, fun r' c' hr => ?_, fun c' hc' => ?_⟩
      · by_cases hn : r' = .user w.nextEtd
        · subst hn
          simp only [Function.update_self, Option.some.injEq] at hr
          subst hr
          rcases C37_init m r p with ⟨n, -, he, hf⟩ | ⟨-, he⟩ | ⟨-, -, he⟩ | ⟨-, -, -, he⟩ <;> rw [hi] at he <;> cases he
          exact hf
        · exact h3 r' c' (by simpa [Function.update_of_ne hn] using hr)
      · simpa using h4 c' hc'
  | construct c a =>
    rw [construct_eq, solverInit_eq]
    by_cases hl : ∃ n, a.loglevel.Asks upper n
    · obtain ⟨n, hn⟩ := hl
      rw [baseInit_ok hn]
      split_ifs
      · cases strategyOf c a <;> exact ⟨h1, h2, h3, h4⟩
      · exact ⟨h1, h2, h3, h4⟩
    · rw [baseInit_error hl]
      exact ⟨h1, h2, h3, h4⟩
  | setAttr r attr v =>
    simp only [Op.run]
    rcases hr : w.configs r with _ | c
    · exact ⟨h1, h2, h3, h4⟩
    · refine ⟨fun r' c' hr' a => ?_, fun c' hc' => ?_, h3, h4⟩
      · by_cases hn : r' = r
        · subst hn
          simp only [Function.update_self, Option.some.injEq] at hr'
          subst hr'
          by_cases hv : attr.Accepts v
          · rw [((C36_assign attr v c).1 hv).2 a]
            split_ifs with ha
            · exact ha ▸ hv
            · exact h1 _ _ hr a
          · rw [(C36_assign attr v c).2 hv]
            exact h1 _ _ hr a
        · exact h1 r' c' (by simpa [Function.update_of_ne hn] using hr') a
      · by_cases hn : Ref.default c' = r
        · subst hn; simp
        · simpa [Function.update_of_ne hn] using h2 c' hc'
  | setEtdAttr r a =>
    simp only [Op.run]
    rcases hr : w.etdConfigs r with _ | c
    · exact ⟨h1, h2, h3, h4⟩
    · refine ⟨h1, h2, fun r' c' hr' => ?_, fun c' hc' => ?_⟩
      · by_cases hn : r' = r
        · subst hn
          simp only [Function.update_self, Option.some.injEq] at hr'
          subst hr'
          exact C37_invariant c (h3 _ _ hr) [a]
        · exact h3 r' c' (by simpa [Function.update_of_ne hn] using hr')
      · by_cases hn : Ref.default c' = r
        · subst hn; simp
        · simpa [Function.update_of_ne hn] using h4 c' hc'
  | rebind i r =>
    simp only [Op.run]
    cases w.solvers[i]? <;> exact ⟨h1, h2, h3, h4⟩
  | rebindEtd i r =>
    simp only [Op.run]
    cases w.solvers[i]? <;> exact ⟨h1, h2, h3, h4⟩
  | setLoglevel i l =>
    simp only [Op.run]
    cases w.solvers[i]? <;> exact ⟨h1, h2, h3, h4⟩

/-- **C38.** In every state that a program can reach, the configuration a solver reads is in the documented ranges (or `nan`), and
the shared default objects exist: a solver constructed without configuration can always read one. -/
theorem C38_in_range [IsStrictOrderedRing K] (upper : String → String) (l : Loggers) (ops : List (Op K)) (w : World K)
    (hw : w = (World.start l : World K).run upper ops) :
    (∀ i c, w.configOf i = some c → ∀ a : SCAttr, a.Accepts (SolverConfig.getAttr a c)) ∧
    (∀ i c, w.etdOf i = some c → c.InRange) ∧
    (∀ c : SolverClass, c.Adaptive → w.configs (.default c) ≠ none) ∧
    ∀ c : SolverClass, c.HasEtd → w.etdConfigs (.default c) ≠ none := by
  have key : ∀ (ops : List (Op K)) (w : World K), w.ConfigsFine → (w.run upper ops).ConfigsFine := by
    intro ops
    induction ops with
    | nil => exact fun w h => h
    | cons o os ih => exact fun w h => ih _ (run_configsFine upper o w h)
  obtain ⟨h1, h2, h3, h4⟩ := key ops _ (start_configsFine l)
  rw [← hw] at h1 h2 h3 h4
  refine ⟨fun i c hi => ?_, fun i c hi => ?_, h2, h4⟩
  · unfold World.configOf at hi
    rcases hs : w.solvers[i]? with _ | s <;> rw [hs] at hi
    · cases hi
    · obtain ⟨r, -, hr⟩ := Option.bind_eq_some_iff.1 hi
      exact h1 r c hr
  · unfold World.etdOf at hi
    rcases hs : w.solvers[i]? with _ | s <;> rw [hs] at hi
    · cases hi
    · obtain ⟨r, -, hr⟩ := Option.bind_eq_some_iff.1 hi
      exact h3 r c hr

/-! ### An example -/

namespace ConstructExample

/-- `lin_op` of length 4, default arguments. -/
def args : CtorArgs ℚ where
  shape := [4]
  linalg := ⟨.ok (.fin 1), .ok (), .ok ()⟩

/-- With a configuration and a log level. -/
def args' : CtorArgs ℚ where
  shape := [4]
  config := some (.user 0)
  loglevel := .int 10
  linalg := ⟨.ok (.fin 1), .ok (), .ok ()⟩

/-- A program: `a = IF34(lin_op, nl)`, `c = SolverConfig(...)`, `b = IF34(lin_op, nl, config=c, loglevel=10)`,
`a.config.epsilon = 1/2`, `d = IF34(lin_op, nl)`. -/
def prog : List (Op ℚ) :=
  [.construct .if34 args,
   .newConfig (.fin (1 / 100)) (.fin 2) (.fin (1 / 2)) (.fin (1 / 2)) (.fin (1 / 100)) (.fin (1 / 100)),
   .construct .if34 args',
   .setAttr (.default .if34) .epsilon (.fin (1 / 2)),
   .construct .if34 args]

/-- The epsilons of the three solvers afterwards are 1/2, 1/100, 1/2; they share a logger, whose level is WARNING again and
which has one handler. -/
example (upper : String → String) (h : upper "WARNING" = "WARNING") (w : World ℚ)
    (hw : w = (World.start fun _ => none).run upper prog) :
    (w.configOf 0).map SolverConfig.epsilon = some (.fin (1 / 2)) ∧
    (w.configOf 1).map SolverConfig.epsilon = some (.fin (1 / 100)) ∧
    (w.configOf 2).map SolverConfig.epsilon = some (.fin (1 / 2)) ∧
    w.levelOf 1 = some 30 ∧ (w.loggers "rkstiff.IF34").map Logger.handlers = some 1 := by
  have hl : ∀ a : CtorArgs ℚ, a.loglevel = .str "WARNING" → a.loglevel.Asks upper 30 := fun a ha =>
    Or.inl ⟨_, ha, by rw [h]; right; right; left; exact ⟨Or.inl rfl, rfl⟩⟩
  have hs : SolverClass.AcceptsShape .if34 [4] := Or.inl ⟨4, rfl⟩
  have e0 := construct_ok .if34 (hl args rfl) hs
  have e1 := construct_ok .if34 (show args'.loglevel.Asks upper 10 from Or.inr rfl) hs
  have n1 : SolverConfig.init (.fin (1 / 100)) (.fin 2) (.fin (1 / 2)) (.fin (1 / 2)) (.fin (1 / 100)) (.fin (1 / 100)) =
      .ok (⟨.fin (1 / 100), .fin 2, .fin (1 / 2), .fin (1 / 2), .fin (1 / 100), .fin (1 / 100)⟩ : SolverConfig (Ext ℚ)) := by
    norm_num [SolverConfig.init, SolverConfig.setEpsilon, SolverConfig.setIncrF, SolverConfig.setDecrF,
      SolverConfig.setSafetyF, SolverConfig.setAdaptCutoff, SolverConfig.setMinh, PyM.bind_apply, Ext.le, Ext.lt]
  have s1 : ∀ c : SolverConfig (Ext ℚ), SolverConfig.setAttr .epsilon (.fin (1 / 2)) c = (.ok (), { c with epsilon := .fin (1 / 2) }) := by
    intro c
    norm_num [SolverConfig.setAttr, SolverConfig.setEpsilon, PyM.bind_apply, Ext.le]
  have t0 : strategyOf .if34 args = .ok .diagonal := rfl
  have t1 : strategyOf .if34 args' = .ok .diagonal := rfl
  have r0 : configRef .if34 args = some (.default .if34) := rfl
  have r1 : configRef .if34 args' = some (.user 0) := rfl
  have o1 : ∀ w : World ℚ, ((Op.newConfig (.fin (1 / 100)) (.fin 2) (.fin (1 / 2)) (.fin (1 / 2)) (.fin (1 / 100))
      (.fin (1 / 100))).run upper w).2 = (⟨w.loggers, Function.update w.configs (.user w.nextConfig)
        (some ⟨.fin (1 / 100), .fin 2, .fin (1 / 2), .fin (1 / 2), .fin (1 / 100), .fin (1 / 100)⟩), w.etdConfigs,
        w.nextConfig + 1, w.nextEtd, w.solvers⟩ : World ℚ) := by
    intro w
    simp only [Op.run, n1]
  have o2 : ∀ (w : World ℚ) c, w.configs (.default .if34) = some c →
      ((Op.setAttr (.default .if34) .epsilon (.fin (1 / 2))).run upper w).2 = (⟨w.loggers, Function.update w.configs (.default .if34)
        (some { c with epsilon := .fin (1 / 2) }), w.etdConfigs, w.nextConfig, w.nextEtd, w.solvers⟩ : World ℚ) := by
    intro w c hc
    simp only [Op.run, hc, s1]
  subst hw
  simp only [prog, World.run, e0, e1, t0, t1, r0, r1, o1]
  rw [o2 _ SolverConfig.default rfl]
  simp [World.start,  World.configOf, World.levelOf, Loggers.asked, SolverClass.loggerName, SolverClass.name]

/-- `c = SolverConfig(...)`, `c.epsilon = 1/2`, `b = IF34(lin_op, nl, config=c)`, `a = IF34(lin_op, nl)`: the last solver has the
documented tolerance. -/
example (upper : String → String) (h : upper "WARNING" = "WARNING") : ∃ (w w' : World ℚ) (cfg : SolverConfig (Ext ℚ)),
    w = (World.start fun _ => none).run upper
      [.newConfig (.fin (1 / 100)) (.fin 2) (.fin (1 / 2)) (.fin (1 / 2)) (.fin (1 / 100)) (.fin (1 / 100)),
       .setAttr (.user 0) .epsilon (.fin (1 / 2)), .construct .if34 args'] ∧
    (Op.construct .if34 args).run upper w = (.ok (), w') ∧ w'.configOf w.solvers.length = some cfg ∧
    cfg.epsilon = .fin (1 / 10000) := by
  have hl : args.loglevel.Asks upper 30 := Or.inl ⟨_, rfl, by rw [h]; right; right; left; exact ⟨Or.inl rfl, rfl⟩⟩
  have e0 := construct_ok .if34 hl (Or.inl ⟨4, rfl⟩)
  obtain ⟨cfg, h1, h2⟩ := C38_defaults upper (fun _ => none)
    [.newConfig (.fin (1 / 100)) (.fin 2) (.fin (1 / 2)) (.fin (1 / 2)) (.fin (1 / 100)) (.fin (1 / 100)),
     .setAttr (.user 0) .epsilon (.fin (1 / 2)), .construct .if34 args'] .if34 (Or.inl rfl) args rfl
    (by simp [Op.KeepsObject]) _ _ rfl (e0 _)
  refine ⟨_, _, cfg, rfl, e0 _, h1, ?_⟩
  rw [h2.1]; norm_num

/-- Levels by name: `"ERROR"` is 40; other objects are passed on. -/
example (upper : String → String) (h : upper "Error" = "ERROR") (h' : upper "ERROR" = "ERROR") (hv : upper "loud" = "LOUD") :
    parseLoglevel upper (.str "Error") = .ok (.int 40) ∧ parseLoglevel upper (.str "ERROR") = .ok (.int 40) ∧
    parseLoglevel upper (.str "loud") = .error .valueError ∧ parseLoglevel upper (.int 7) = .ok (.int 7) :=
  ⟨(C41_parse_str upper _ _).2 (Or.inl ⟨40, by simp [h, StdLevel], rfl⟩),
   (C41_level_name upper "ERROR" 40 h' (by simp) (by simp) (by simp)).2 ⟨rfl, by norm_num⟩,
   (C41_parse_str upper _ _).2 (Or.inr ⟨by simp [hv, StdLevel], rfl⟩), C41_parse_other upper _ (by simp)⟩

theorem warn (upper : String → String) (h : upper "WARNING" = "WARNING") : (LogArg.str "WARNING").Asks upper 30 :=
  Or.inl ⟨_, rfl, by rw [h]; right; right; left; exact ⟨Or.inl rfl, rfl⟩⟩

/-- A construction with default arguments and a one-dimensional `lin_op` succeeds. -/
theorem construct_args {upper : String → String} (h : upper "WARNING" = "WARNING") (c : SolverClass) (w : World ℚ) :
    ((Op.construct c args).run upper w).1 = .ok () := by
  rw [C39_success c args (warn upper h)]
  exact ⟨Or.inl ⟨4, rfl⟩, by simp [args]⟩

theorem construct_args' {upper : String → String} (h : upper "WARNING" = "WARNING") (c : SolverClass) (w : World ℚ) :
    (Op.construct c args).run upper w = (.ok (), ((Op.construct c args).run upper w).2) := by
  rw [← construct_args h c w]

/-- The strategy of `ETD35(lin_op, nl_func)` with `lin_op` of length 4. -/
example (upper : String → String) (h : upper "WARNING" = "WARNING") (w : World ℚ) :
    ∃ s, ((Op.construct .etd35 args).run upper w).2.solvers = w.solvers ++ [s] ∧ s.strategy = .diagonal := by
  obtain ⟨s, h1, -, h2, -⟩ := C39_strategy .etd35 args w (construct_args h .etd35 w)
  exact ⟨s, h1, h2.2 rfl⟩

/-- A second IF34 shares the configuration of the first, whatever happens to an ETD34 in between and afterwards. -/
example (upper : String → String) (h : upper "WARNING" = "WARNING") (w0 w1 w2 w3 w4 : World ℚ)
    (h1 : w1 = ((Op.construct .if34 args).run upper w0).2)
    (h2 : w2 = w1.run upper [.construct .etd34 args, .setAttr (.default .if34) .epsilon (.fin (1 / 2))])
    (h3 : w3 = ((Op.construct .if34 args).run upper w2).2)
    (h4 : w4 = w3.run upper [.setAttr (.default .if34) .minh (.fin (1 / 9))]) :
    w4.configOf w0.solvers.length = w4.configOf w2.solvers.length :=
  C38_shared upper .if34 (Or.inl rfl) args args rfl rfl w0 w1 w2 _ _ (h1 ▸ construct_args' h .if34 w0) h2 w3 w4
    (h3 ▸ construct_args' h .if34 w2) h4 (by simp [Op.KeepsConfig]) (by simp [Op.KeepsConfig])

/-- Two ETD4 share their contour settings. -/
example (upper : String → String) (h : upper "WARNING" = "WARNING") (w0 w1 w2 w3 w4 : World ℚ)
    (h1 : w1 = ((Op.construct .etd4 args).run upper w0).2)
    (h2 : w2 = w1.run upper [.construct .etd34 args, .rebindEtd w0.solvers.length (.user 0)])
    (h3 : w3 = ((Op.construct .etd4 args).run upper w2).2)
    (h4 : w4 = w3.run upper [.setEtdAttr (.default .etd4) (.contourRadius (.fin 2))]) :
    w4.etdOf w0.solvers.length = w4.etdOf w2.solvers.length :=
  C38_shared_etd upper .etd4 (Or.inl rfl) args args rfl rfl w0 w1 w2 _ _ (h1 ▸ construct_args' h .etd4 w0) h2 w3 w4
    (h3 ▸ construct_args' h .etd4 w2) h4

/-- After `IF34(...)` in a new process: the default configuration; assigning to it changes it; assigning to that of ETD34
does not; the level is 30 whatever ETD34 does, there is a handler, and asking for `"loud"` raises. -/
example (upper : String → String) (h : upper "WARNING" = "WARNING") (hv : upper "loud" = "LOUD") (w w' : World ℚ)
    (hw : w = World.start fun _ => none) (hw' : w' = ((Op.construct .if34 args).run upper w).2) :
    w'.configOf 0 = some SolverConfig.default ∧
    ((Op.setAttr (.default .if34) .epsilon (.fin (1 / 2))).run upper w').2.configOf 0 =
      some (SolverConfig.setAttr .epsilon (.fin (1 / 2)) (SolverConfig.default : SolverConfig (Ext ℚ))).2 ∧
    (w'.run upper [.setAttr (.default .etd34) .epsilon (.fin (1 / 2)), .construct .if34 args]).configOf 0 = some SolverConfig.default ∧
    (w'.run upper [.construct .etd34 args]).levelOf 0 = some 30 ∧
    (w'.run upper [.construct .etd34 args]).loggers "rkstiff.IF34" = w'.loggers "rkstiff.IF34" ∧
    (∃ lg, w'.loggers "rkstiff.IF34" = some lg ∧ lg.handlers ≠ 0) ∧
    (Op.setLoglevel 0 (.str "loud")).run upper w' = (.error .valueError, w') ∧
    ((Op.rebindEtd 0 (.user 5)).run upper w').2.etdOf 0 = w'.etdOf 0 := by
  have hs : w'.solvers = [⟨.if34, .diagonal, some (.default .if34), none, none⟩] := by
    rw [hw', construct_ok .if34 (warn upper h) (Or.inl ⟨4, rfl⟩), hw]
    rfl
  have h0 : w.solvers.length = 0 := by rw [hw]; rfl
  have hc : w'.configOf 0 = some SolverConfig.default := by
    have := (C38_new upper .if34 (Or.inl rfl) args w w' (hw' ▸ construct_args' h .if34 w)).1 rfl
    rw [h0] at this
    rw [this, hw]; rfl
  have hr : w'.configs (.default .if34) = some SolverConfig.default := by
    simpa [World.configOf, hs] using hc
  have hrun : w' = (World.start fun _ => none : World ℚ).run upper [.construct .if34 args] := by rw [hw', hw]; rfl
  have hq : ¬ (Op.construct .etd34 args).Requests w' .if34 := by simp [Op.Requests]
  refine ⟨hc, (C38_assign upper w' _ _ hr _ _).1 0 _ (by rw [hs]; rfl) rfl, ?_, ?_, ?_, ?_, ?_, C38_rebind_etd upper w' 0 0 _⟩
  · rw [hrun] at hr hc hs ⊢
    rw [C38_unaffected upper _ _ _ 0 _ (.default .if34) (by rw [hs]; rfl) rfl (by rw [hr]; simp) (by simp [Op.KeepsObject])
      (by simp [Op.KeepsConfig]), hc]
  · have := C40_level upper (fun _ => none) [] [.construct .etd34 args] .if34 30 (.construct .if34 args)
      (.construct args (warn upper h)) (by refine ⟨?_, trivial⟩; simp [Op.Requests]) 0
    subst hw hw'
    refine this ⟨.if34, .diagonal, some (.default .if34), none, none⟩ ?_ rfl
    have e := construct_ok .etd34 (warn upper h) (a := args) (Or.inl ⟨4, rfl⟩) ((Op.construct .if34 args).run upper
      (World.start fun _ => none : World ℚ)).2
    have t : strategyOf .etd34 args = .ok .diagonal := rfl
    rw [t] at e
    simp only [World.run, e, hs]
    rfl
  · exact C40_quiet upper .if34 w' _ ⟨hq, trivial⟩
  · rw [hrun] at hs ⊢
    exact C40_has_handler upper _ _ 0 _ (by rw [hs]; rfl)
  · rw [C40_invalid upper (.str "loud") (by simp [LogArg.Asks, hv, StdLevel]) w' 0 _ (by rw [hs]; rfl)]
    simp

/-- However often solvers are created, there is at most one handler; settings stay in range. -/
example (upper : String → String) (n : ℕ) (w : World ℚ)
    (hw : w = (World.start fun _ => none : World ℚ).run upper (List.replicate n (.construct .if34 args))) :
    (((w.loggers "rkstiff.IF34").map Logger.handlers).getD 0 = 0 ∨
      ((w.loggers "rkstiff.IF34").map Logger.handlers).getD 0 = 1) ∧
    ∀ i c, w.configOf i = some c → SCAttr.epsilon.Accepts (SolverConfig.getAttr .epsilon c) := by
  refine ⟨?_, fun i c hi => (C38_in_range upper _ _ w hw).1 i c hi _⟩
  rcases C40_handlers upper (World.start fun _ => none : World ℚ) (List.replicate n (.construct .if34 args)) "rkstiff.IF34" with h | h
  · left; rw [hw, h]; rfl
  · right; rw [hw]; exact h.2

end ConstructExample

end Verif
