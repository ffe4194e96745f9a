import Verif.Spec.Config
import Mathlib.Tactic.NormNum
import Mathlib.Tactic.SplitIfs

/-!
# Configuration objects (properties C36, C37)
-/

set_option linter.unusedSectionVars false

namespace Verif

variable {K : Type} [Field K] [LinearOrder K]

theorem Ext.le_fin_iff (v : Ext K) (a : K) : Ext.le v (.fin a) = true ↔ ¬ (v = .nan ∨ Ext.Above a v) := by
  cases v <;> simp [Ext.le, Ext.Above]

theorem Ext.fin_le_iff (v : Ext K) (a : K) : Ext.le (.fin a) v = true ↔ ¬ (v = .nan ∨ Ext.Below a v) := by
  cases v <;> simp [Ext.le, Ext.Below]

theorem Ext.fin_lt_iff (v : Ext K) (a : K) : Ext.lt (.fin a) v = true ↔ ¬ (v = .nan ∨ Ext.AtMost a v) := by
  cases v <;> simp [Ext.lt, Ext.AtMost]

/-- The setter of attribute `a` as a function. -/
def SolverConfig.put (a : SCAttr) (v : Ext K) (c : SolverConfig (Ext K)) : SolverConfig (Ext K) :=
  match a with
  | .epsilon => { c with epsilon := v }
  | .incr_f => { c with incr_f := v }
  | .decr_f => { c with decr_f := v }
  | .safety_f => { c with safety_f := v }
  | .adapt_cutoff => { c with adapt_cutoff := v }
  | .minh => { c with minh := v }

open Classical in
theorem SolverConfig.setAttr_eq (a : SCAttr) (v : Ext K) (c : SolverConfig (Ext K)) :
    SolverConfig.setAttr a v c = if a.Accepts v then (.ok (), SolverConfig.put a v c) else (.error .valueError, c) := by
  have key : ∀ (b : Bool) (f : SolverConfig (Ext K) → SolverConfig (Ext K)), (b = true ↔ ¬ a.Accepts v) →
      ((do if b then PyM.throw .valueError
           PyM.modify f : PyM (SolverConfig (Ext K)) Unit) c) =
        if a.Accepts v then (.ok (), f c) else (.error .valueError, c) := by
    intro b f hb
    by_cases h : a.Accepts v
    · have : b = false := by simpa [h] using hb
      subst this; simp [h]
    · have : b = true := by simpa [h] using hb
      subst this; simp [h]
  cases a
  · exact key _ _ (Ext.le_fin_iff v 0)
  · exact key _ _ (Ext.le_fin_iff v 1)
  · exact key _ _ (Ext.fin_le_iff v 1)
  · exact key _ _ (Ext.fin_lt_iff v 1)
  · exact key _ _ (Ext.fin_le_iff v 1)
  · exact key _ _ (Ext.le_fin_iff v 0)

theorem SolverConfig.get_put (a b : SCAttr) (v : Ext K) (c : SolverConfig (Ext K)) :
    SolverConfig.getAttr b (SolverConfig.put a v c) = if a = b then v else SolverConfig.getAttr b c := by
  cases a <;> cases b <;> rfl

/-- **C36.** An assignment succeeds exactly when the value is in the documented range or `nan`; it then changes this
attribute only.  Otherwise `ValueError` is raised and nothing changes. -/
theorem C36_assign (a : SCAttr) (v : Ext K) (c : SolverConfig (Ext K)) :
    (a.Accepts v → (SolverConfig.setAttr a v c).1 = .ok () ∧
      ∀ b, SolverConfig.getAttr b (SolverConfig.setAttr a v c).2 = if a = b then v else SolverConfig.getAttr b c) ∧
    (¬ a.Accepts v → SolverConfig.setAttr a v c = (.error .valueError, c)) := by
  rw [SolverConfig.setAttr_eq]
  constructor <;> intro h
  · rw [if_pos h]; exact ⟨rfl, fun b => SolverConfig.get_put a b v c⟩
  · rw [if_neg h]

/-- **C36.** After any history of assignments every attribute has the last acceptable value assigned to it. -/
theorem C36_last (c : SolverConfig (Ext K)) (ops : List (SCAttr × Ext K)) (a : SCAttr) :
    SolverConfig.getAttr a (c.assignAll ops) = lastAccepted a (SolverConfig.getAttr a c) ops := by
  induction ops generalizing c with
  | nil => rfl
  | cons o ops ih =>
    obtain ⟨b, v⟩ := o
    rw [SolverConfig.assignAll, ih, lastAccepted]
    congr 1
    by_cases h : b.Accepts v
    · rw [((C36_assign b v c).1 h).2 a]
      by_cases hb : b = a
      · subst hb; simp [h]
      · simp [hb]
    · rw [(C36_assign b v c).2 h, if_neg]
      rintro ⟨rfl, h'⟩; exact h h'

/-- Of three assignments to `epsilon` the second is refused and the third, to another attribute, does not matter. -/
example (c : SolverConfig (Ext ℚ)) :
    SolverConfig.getAttr .epsilon (c.assignAll [(.epsilon, .fin (1 / 10)), (.epsilon, .fin (-1)), (.minh, .fin 1)]) = .fin (1 / 10) ∧
    SolverConfig.setAttr .epsilon (.fin (-1)) c = (.error .valueError, c) := by
  refine ⟨?_, (C36_assign .epsilon (.fin (-1)) c).2 (by norm_num [SCAttr.Accepts, SCAttr.Documented, Ext.Above]; simp)⟩
  rw [C36_last]
  norm_num [lastAccepted, SCAttr.Accepts, SCAttr.Documented, Ext.Above]
  simp

theorem lastAccepted_accepts (a : SCAttr) (v : Ext K) (hv : a.Accepts v) (ops : List (SCAttr × Ext K)) :
    a.Accepts (lastAccepted a v ops) := by
  induction ops generalizing v with
  | nil => exact hv
  | cons o ops ih =>
    obtain ⟨b, w⟩ := o
    rw [lastAccepted]
    apply ih
    split_ifs with h
    · exact h.2
    · exact hv

/-- **C36.** Construction succeeds exactly when all six arguments are acceptable; the attributes are then the
arguments.  Otherwise `ValueError` is raised. -/
theorem C36_init (e i d s ac m : Ext K) :
    SolverConfig.init e i d s ac m = .ok ⟨e, i, d, s, ac, m⟩ ∧ SCAttr.epsilon.Accepts e ∧ SCAttr.incr_f.Accepts i ∧
      SCAttr.decr_f.Accepts d ∧ SCAttr.safety_f.Accepts s ∧ SCAttr.adapt_cutoff.Accepts ac ∧ SCAttr.minh.Accepts m ∨
    SolverConfig.init e i d s ac m = .error .valueError ∧ ¬ (SCAttr.epsilon.Accepts e ∧ SCAttr.incr_f.Accepts i ∧
      SCAttr.decr_f.Accepts d ∧ SCAttr.safety_f.Accepts s ∧ SCAttr.adapt_cutoff.Accepts ac ∧ SCAttr.minh.Accepts m) := by
  have h1 := SolverConfig.setAttr_eq .epsilon e
  have h2 := SolverConfig.setAttr_eq .incr_f i
  have h3 := SolverConfig.setAttr_eq .decr_f d
  have h4 := SolverConfig.setAttr_eq .safety_f s
  have h5 := SolverConfig.setAttr_eq .adapt_cutoff ac
  have h6 := SolverConfig.setAttr_eq .minh m
  simp only [SolverConfig.setAttr, SolverConfig.put] at h1 h2 h3 h4 h5 h6
  unfold SolverConfig.init
  simp only [PyM.bind_apply, h1, h2, h3, h4, h5, h6]
  by_cases a1 : SCAttr.epsilon.Accepts e
  swap; · right; simp [a1]
  by_cases a2 : SCAttr.incr_f.Accepts i
  swap; · right; simp [a1, a2]
  by_cases a3 : SCAttr.decr_f.Accepts d
  swap; · right; simp [a1, a2, a3]
  by_cases a4 : SCAttr.safety_f.Accepts s
  swap; · right; simp [a1, a2, a3, a4]
  by_cases a5 : SCAttr.adapt_cutoff.Accepts ac
  swap; · right; simp [a1, a2, a3, a4, a5]
  by_cases a6 : SCAttr.minh.Accepts m
  swap; · right; simp [a1, a2, a3, a4, a5, a6]
  left
  simp [a1, a2, a3, a4, a5, a6]

/-- **C36.** Over every history of assignments after construction, each attribute is `nan` or in its documented range. -/
theorem C36_invariant (e i d s ac m : Ext K) (c : SolverConfig (Ext K)) (hc : SolverConfig.init e i d s ac m = .ok c)
    (ops : List (SCAttr × Ext K)) (a : SCAttr) :
    SolverConfig.getAttr a (c.assignAll ops) = .nan ∨ a.Documented (SolverConfig.getAttr a (c.assignAll ops)) := by
  rw [C36_last]
  apply lastAccepted_accepts
  rcases C36_init e i d s ac m with ⟨h, h1, h2, h3, h4, h5, h6⟩ | ⟨h, -⟩
  · rw [h, Except.ok.injEq] at hc
    subst hc
    cases a <;> assumption
  · rw [h] at hc; cases hc

/-- **C36.** In particular, as long as no `nan` is assigned all values are in their documented ranges. -/
theorem C36_no_nan (e i d s ac m : Ext K) (c : SolverConfig (Ext K)) (hc : SolverConfig.init e i d s ac m = .ok c)
    (hn : e ≠ .nan ∧ i ≠ .nan ∧ d ≠ .nan ∧ s ≠ .nan ∧ ac ≠ .nan ∧ m ≠ .nan) (ops : List (SCAttr × Ext K))
    (ho : ∀ o ∈ ops, o.2 ≠ .nan) (a : SCAttr) : a.Documented (SolverConfig.getAttr a (c.assignAll ops)) := by
  refine (C36_invariant e i d s ac m c hc ops a).resolve_left ?_
  rw [C36_last]
  have h0 : SolverConfig.getAttr a c ≠ .nan := by
    rcases C36_init e i d s ac m with ⟨h, -⟩ | ⟨h, -⟩
    · rw [h, Except.ok.injEq] at hc
      subst hc
      obtain ⟨n1, n2, n3, n4, n5, n6⟩ := hn
      cases a <;> assumption
    · rw [h] at hc; cases hc
  generalize SolverConfig.getAttr a c = v0 at h0
  induction ops generalizing v0 with
  | nil => exact h0
  | cons o ops ih =>
    obtain ⟨b, w⟩ := o
    rw [lastAccepted]
    refine ih (fun o ho' => ho o (List.mem_cons_of_mem _ ho')) _ ?_
    split_ifs
    · exact ho _ List.mem_cons_self
    · exact h0

/-- The default settings, after three assignments, satisfy the documented ranges. -/
example : ∃ c, SolverConfig.init (.fin (1 / 10000 : ℚ)) (.fin (5 / 4)) (.fin (17 / 20)) (.fin (4 / 5)) (.fin (1 / 100))
      (.fin (1 / 10 ^ 16)) = .ok c ∧
    ∀ a, (a : SCAttr).Documented (SolverConfig.getAttr a (c.assignAll [(.epsilon, .fin (1 / 10)), (.incr_f, .fin 0), (.minh, .pinf)])) := by
  have h := C36_init (.fin (1 / 10000 : ℚ)) (.fin (5 / 4)) (.fin (17 / 20)) (.fin (4 / 5)) (.fin (1 / 100)) (.fin (1 / 10 ^ 16))
  rcases h with ⟨h, -⟩ | ⟨-, h⟩
  · exact ⟨_, h, fun a => C36_no_nan _ _ _ _ _ _ _ h (by simp) _ (by simp) a⟩
  · norm_num [SCAttr.Accepts, SCAttr.Documented, Ext.Above, Ext.Below, Ext.AtMost] at h

/-- **C36.** `nan` is accepted by every setter: the ranges are not guaranteed if it is assigned. -/
theorem C36_nan (a : SCAttr) (c : SolverConfig (Ext K)) :
    (SolverConfig.setAttr a .nan c).1 = .ok () ∧ SolverConfig.getAttr a (SolverConfig.setAttr a .nan c).2 = .nan := by
  have h := (C36_assign a .nan c).1 (Or.inl rfl)
  exact ⟨h.1, by rw [h.2]; simp⟩

/-- The invariant with `nan`: the attribute holds `nan` afterwards, the others their documented ranges. -/
example : ∃ c, SolverConfig.init (.fin (1 / 10000 : ℚ)) .nan (.fin (17 / 20)) (.fin (4 / 5)) (.fin (1 / 100)) (.fin (1 / 10 ^ 16)) = .ok c ∧
    SolverConfig.getAttr .epsilon (SolverConfig.setAttr .epsilon .nan c).2 = .nan ∧
    ∀ a, SolverConfig.getAttr a (c.assignAll [(.minh, .nan)]) = .nan ∨ (a : SCAttr).Documented (SolverConfig.getAttr a (c.assignAll [(.minh, .nan)])) := by
  rcases C36_init (.fin (1 / 10000 : ℚ)) .nan (.fin (17 / 20)) (.fin (4 / 5)) (.fin (1 / 100)) (.fin (1 / 10 ^ 16)) with ⟨h, -⟩ | ⟨-, h⟩
  · exact ⟨_, h, (C36_nan _ _).2, fun a => C36_invariant _ _ _ _ _ _ _ h _ a⟩
  · norm_num [SCAttr.Accepts, SCAttr.Documented, Ext.Above, Ext.Below, Ext.AtMost] at h

/-- The default configuration is constructible; of these assignments the first and the last succeed. -/
example : ∃ c, SolverConfig.init (.fin (1 / 10000 : ℚ)) (.fin (5 / 4)) (.fin (17 / 20)) (.fin (4 / 5)) (.fin (1 / 100))
      (.fin (1 / 10 ^ 16)) = .ok c ∧ c = SolverConfig.default ∧
    c.assignAll [(.epsilon, .fin (1 / 10)), (.incr_f, .fin 1), (.epsilon, .fin (-1)), (.minh, .pinf)] =
      { c with epsilon := .fin (1 / 10), minh := .pinf } := by
  refine ⟨SolverConfig.default, ?_, rfl, ?_⟩
  · norm_num [SolverConfig.init, SolverConfig.default, SolverConfig.setEpsilon, SolverConfig.setIncrF, SolverConfig.setDecrF,
      SolverConfig.setSafetyF, SolverConfig.setAdaptCutoff, SolverConfig.setMinh, PyM.bind_apply]
  · norm_num [SolverConfig.assignAll, SolverConfig.setAttr, SolverConfig.default, SolverConfig.setEpsilon, SolverConfig.setIncrF,
      SolverConfig.setMinh, PyM.bind_apply, Ext.le]

/-! ### C37 -/

namespace ETDConfig

theorem modecutoff_check (v : Ext K) :
    (Ext.lt (.fin 1) v || Ext.le v (.fin 0)) = true ↔ ¬ (v = .nan ∨ ∃ x, v = .fin x ∧ 0 < x ∧ x ≤ 1) := by
  cases v with
  | nan => simp [Ext.lt, Ext.le]
  | ninf => simp [Ext.lt, Ext.le]
  | pinf => simp [Ext.lt, Ext.le]
  | fin x =>
    simp only [Ext.lt_fin_fin, Ext.le_fin_fin, Bool.or_eq_true, decide_eq_true_eq, reduceCtorEq, Ext.fin.injEq, false_or,
      exists_eq_left', not_and_or, not_lt, not_le]
    exact or_comm

end ETDConfig

/-- **C37.** An assignment to an attribute of `ETDConfig` succeeds exactly for acceptable values, with the stated effect;
otherwise the stated exception is raised (`TypeError` for every value of `contour_points` that is not an integer) and
nothing changes. -/
theorem C37_assign (a : ETDConfig.Assign K) (c : ETDConfig (Ext K)) :
    (a.Accepts → ETDConfig.assign a c = (.ok (), c.changed a)) ∧
    (¬ a.Accepts → ETDConfig.assign a c = (.error a.error, c)) := by
  have key : ∀ (P : Prop) (b : Bool) (f : ETDConfig (Ext K) → ETDConfig (Ext K)), (b = true ↔ ¬ P) →
      (P → ((do if b then PyM.throw .valueError
                PyM.modify f : PyM (ETDConfig (Ext K)) Unit) c) = (.ok (), f c)) ∧
      (¬ P → ((do if b then PyM.throw .valueError
                  PyM.modify f : PyM (ETDConfig (Ext K)) Unit) c) = (.error .valueError, c)) := by
    intro P b f hb
    constructor <;> intro h
    · have : b = false := by simpa [h] using hb
      subst this; rfl
    · have : b = true := by simpa [h] using hb
      subst this; rfl
  rcases a with v | v | v
  · have h := key (ETDConfig.Assign.modecutoff v).Accepts _ (fun c => { c with modecutoff := v })
      (ETDConfig.modecutoff_check v)
    exact h
  · rcases v with n | x | _
    · by_cases hn : 2 ≤ n
      · refine ⟨fun ha => ?_, fun ha => (ha ⟨n, rfl, hn⟩).elim⟩
        show (ETDConfig.setContourPoints (PyVal.int n) c) = _
        have : ¬ n ≤ 1 := by omega
        simp [ETDConfig.setContourPoints, ETDConfig.changed, this]
      · refine ⟨fun ⟨k, hk, h2⟩ => ?_, fun _ => ?_⟩
        · cases hk; exact (hn h2).elim
        · show (ETDConfig.setContourPoints (PyVal.int n) c) = _
          have : n ≤ 1 := by omega
          simp [ETDConfig.setContourPoints, ETDConfig.Assign.error, this]
    · exact ⟨fun ⟨k, hk, _⟩ => (by cases hk), fun _ => rfl⟩
    · exact ⟨fun ⟨k, hk, _⟩ => (by cases hk), fun _ => rfl⟩
  · have h := key (ETDConfig.Assign.contourRadius v).Accepts _ (fun c => { c with contour_radius := v })
      (Ext.le_fin_iff v 0)
    exact h

/-- **C37.** After any history of assignments each attribute has the last acceptable value assigned to it. -/
theorem C37_last (c : ETDConfig (Ext K)) (ops : List (ETDConfig.Assign K)) :
    c.assignAll ops = ETDConfig.lastAccepted c ops := by
  induction ops generalizing c with
  | nil => rfl
  | cons a ops ih =>
    rw [ETDConfig.assignAll, ih, ETDConfig.lastAccepted]
    congr 1
    by_cases h : a.Accepts
    · rw [(C37_assign a c).1 h, if_pos h]
    · rw [(C37_assign a c).2 h, if_neg h]

/-- The documented ranges, with `nan` for the floats. -/
def ETDConfig.InRange (c : ETDConfig (Ext K)) : Prop :=
  (c.modecutoff = .nan ∨ ∃ x, c.modecutoff = .fin x ∧ 0 < x ∧ x ≤ 1) ∧ 2 ≤ c.contour_points ∧
    (c.contour_radius = .nan ∨ Ext.Above 0 c.contour_radius)

/-- **C37.** Every history of assignments preserves the documented ranges. -/
theorem C37_invariant (c : ETDConfig (Ext K)) (hc : c.InRange) (ops : List (ETDConfig.Assign K)) :
    (c.assignAll ops).InRange := by
  induction ops generalizing c with
  | nil => exact hc
  | cons a ops ih =>
    rw [ETDConfig.assignAll]
    apply ih
    by_cases h : a.Accepts
    · rw [(C37_assign a c).1 h]
      obtain ⟨h1, h2, h3⟩ := hc
      rcases a with v | (n | _ | _) | v
      · exact ⟨h, h2, h3⟩
      · obtain ⟨k, hk, hk2⟩ := h
        cases hk
        exact ⟨h1, hk2, h3⟩
      · exact ⟨h1, h2, h3⟩
      · exact ⟨h1, h2, h3⟩
      · exact ⟨h1, h2, h⟩
    · rw [(C37_assign a c).2 h]; exact hc

/-- **C37.** Construction succeeds exactly when all arguments are acceptable, and gives a configuration in range with the
arguments as attributes.  Otherwise the exception is that of the first argument that is not acceptable. -/
theorem C37_init (m r : Ext K) (p : PyVal K) :
    (∃ n, p = .int n ∧ ETDConfig.init m p r = .ok ⟨m, n, r⟩ ∧ (⟨m, n, r⟩ : ETDConfig (Ext K)).InRange) ∨
    (¬ (ETDConfig.Assign.modecutoff m).Accepts ∧ ETDConfig.init m p r = .error .valueError) ∨
    ((ETDConfig.Assign.modecutoff m).Accepts ∧ ¬ (ETDConfig.Assign.contourPoints p).Accepts ∧
      ETDConfig.init m p r = .error (ETDConfig.Assign.contourPoints p).error) ∨
    ((ETDConfig.Assign.modecutoff m).Accepts ∧ (ETDConfig.Assign.contourPoints p).Accepts ∧
      ¬ (ETDConfig.Assign.contourRadius r).Accepts ∧ ETDConfig.init m p r = .error .valueError) := by
  have h1 := fun c => C37_assign (.modecutoff m : ETDConfig.Assign K) c
  have h2 := fun c => C37_assign (.contourPoints p : ETDConfig.Assign K) c
  have h3 := fun c => C37_assign (.contourRadius r : ETDConfig.Assign K) c
  simp only [ETDConfig.assign] at h1 h2 h3
  unfold ETDConfig.init
  by_cases a1 : (ETDConfig.Assign.modecutoff m).Accepts
  swap
  · right; left
    refine ⟨a1, ?_⟩
    simp [PyM.bind_apply, (h1 _).2 a1, ETDConfig.Assign.error]
  by_cases a2 : (ETDConfig.Assign.contourPoints p).Accepts
  swap
  · right; right; left
    refine ⟨a1, a2, ?_⟩
    simp [PyM.bind_apply, (h1 _).1 a1, (h2 _).2 a2]
  by_cases a3 : (ETDConfig.Assign.contourRadius r).Accepts
  swap
  · right; right; right
    refine ⟨a1, a2, a3, ?_⟩
    simp [PyM.bind_apply, (h1 _).1 a1, (h2 _).1 a2, (h3 _).2 a3, ETDConfig.Assign.error]
  left
  have a2' := a2
  obtain ⟨n, rfl, hn⟩ := a2'
  refine ⟨n, rfl, ?_, a1, hn, a3⟩
  simp [PyM.bind_apply, (h1 _).1 a1, (h2 _).1 a2, (h3 _).1 a3, ETDConfig.changed]

/-- An assignment of `16.0` is a `TypeError` and changes nothing; `contour_points = 1` is refused by the constructor;
assignments keep the ranges. -/
example (c : ETDConfig (Ext ℚ)) :
    ETDConfig.assign (.contourPoints (.float (.fin 16))) c = (.error .typeError, c) ∧
    (ETDConfig.init (.fin (1 / 100 : ℚ)) (.int 1) (.fin 1) = .error .valueError) ∧
    ETDConfig.assignAll (⟨.fin (1 / 100), 32, .fin 1⟩ : ETDConfig (Ext ℚ)) [.contourPoints (.int 64), .contourPoints (.int 0)] =
      ⟨.fin (1 / 100), 64, .fin 1⟩ ∧
    (ETDConfig.assignAll (⟨.fin (1 / 100), 32, .fin 1⟩ : ETDConfig (Ext ℚ)) [.contourPoints (.int 64), .contourRadius (.fin (-1))]).InRange := by
  refine ⟨(C37_assign _ c).2 ?_, ?_, ?_, C37_invariant _ ?_ _⟩
  · simp [ETDConfig.Assign.Accepts]
  · rcases C37_init (.fin (1 / 100 : ℚ)) (.fin 1) (.int 1) with ⟨n, hn, -, h⟩ | ⟨-, h⟩ | ⟨-, -, h⟩ | ⟨-, -, -, h⟩
    · have := h.2.1
      obtain rfl : 1 = n := by simpa using hn
      norm_num at this
    · exact h
    · exact h
    · exact h
  · rw [C37_last]
    norm_num [ETDConfig.lastAccepted, ETDConfig.Assign.Accepts, ETDConfig.changed]
  · norm_num [ETDConfig.InRange, Ext.Above]

/-- A history with assignments of every kind; only the second and the last succeed. -/
example : (ETDConfig.assignAll ⟨.fin (1 / 100 : ℚ), 32, .fin 1⟩
      [.modecutoff (.fin 2), .contourPoints (.int 64), .contourPoints (.float (.fin 16)), .contourPoints (.int 1),
        .contourRadius .ninf, .contourRadius (.fin 3)]) = ⟨.fin (1 / 100), 64, .fin 3⟩ := by
  norm_num [ETDConfig.assignAll, ETDConfig.assign, ETDConfig.setModecutoff, ETDConfig.setContourPoints,
    ETDConfig.setContourRadius, PyM.bind_apply, Ext.le]

end Verif
