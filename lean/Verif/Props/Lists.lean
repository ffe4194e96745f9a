import Verif.Props.History
import Verif.Model.Settings
import Verif.Model.Operator

/-!
# What `solver.t` and `solver.u` hold (property C71)
-/

set_option linter.unusedSectionVars false

namespace Verif

variable {ι : Type} [Fintype ι] [DecidableEq ι]

namespace ASClass

variable {K V Sub : Type} [Field K] [LinearOrder K] {C : ASClass K V Sub}

theorem stepLoop_public (rnd : K → K) (cfg : SolverConfig K) (u : V) :
    ∀ (d n : ℕ) (h : K) (s : ASState K V Sub), MAX_LOOPS - n = d → n ≤ MAX_LOOPS → SamePublic s (C.stepLoop rnd cfg u n h s).2 := by
  intro d
  induction d with
  | zero =>
    intro n h s hd hn
    cases hr : (C.updateStages u h s.accept s.sub).1 with
    | error e => rw [stepLoop_error rnd cfg u n h s e hr]; simp [afterTrial, SamePublic]
    | ok r =>
      by_cases hacc : Acceptable (C.factor cfg r)
      · obtain ⟨x, hx, h1⟩ := hacc
        rw [stepLoop_accept rnd cfg u n h s r hr x hx h1]; simp [afterTrial, SamePublic]
      · rw [stepLoop_reject rnd cfg u n h s r hr hacc, if_pos (by omega)]; simp [afterTrial, SamePublic]
  | succ d ih =>
    intro n h s hd hn
    cases hr : (C.updateStages u h s.accept s.sub).1 with
    | error e => rw [stepLoop_error rnd cfg u n h s e hr]; simp [afterTrial, SamePublic]
    | ok r =>
      by_cases hacc : Acceptable (C.factor cfg r)
      · obtain ⟨x, hx, h1⟩ := hacc
        rw [stepLoop_accept rnd cfg u n h s r hr x hx h1]; simp [afterTrial, SamePublic]
      · rw [stepLoop_reject rnd cfg u n h s r hr hacc, if_neg (by omega)]
        split
        · simp [afterTrial, SamePublic]
        · obtain ⟨h1, h2, h3, h4⟩ := ih (n + 1) (rnd (shrink cfg.decr_f (C.factor cfg r) * h)) { C.afterTrial u h s with accept := false }
            (by omega) (by omega)
          exact ⟨h1, h2, h3, h4⟩

theorem step_public (rnd : K → K) (cfg : SolverConfig K) (u : V) (h : K) (s : ASState K V Sub) :
    SamePublic s (C.step rnd cfg u h s).2 := by
  by_cases hh : 0 ≤ h
  · rw [step_nonneg _ _ _ _ hh]
    exact stepLoop_public rnd cfg u MAX_LOOPS 0 h s rfl (Nat.zero_le _)
  · rw [step_neg _ _ _ _ hh]; simp [SamePublic]

end ASClass

namespace CSClass

variable {K V Sub : Type} [Field K] [LinearOrder K] {C : CSClass K V Sub}

/-- The second state holds the snapshots of the first and further ones; none if `storeData` is false. -/
def Appends (storeData : Bool) (s s' : CSState K V Sub) : Prop :=
  ∃ l : List (K × V), s'.t = s.t ++ l.map Prod.fst ∧ s'.u = s.u ++ l.map Prod.snd ∧ (storeData = false → l = [])

theorem Appends.of_eq {storeData : Bool} {s s' : CSState K V Sub} (h1 : s'.t = s.t) (h2 : s'.u = s.u) : Appends storeData s s' :=
  ⟨[], by simp [h1], by simp [h2], fun _ => rfl⟩

theorem Appends.trans {storeData : Bool} {s s' s'' : CSState K V Sub} (h : Appends storeData s s') (h' : Appends storeData s' s'') :
    Appends storeData s s'' := by
  obtain ⟨l, a1, a2, a3⟩ := h
  obtain ⟨l', b1, b2, b3⟩ := h'
  exact ⟨l ++ l', by simp [b1, a1], by simp [b2, a2], fun h => by simp [a3 h, b3 h]⟩

theorem store_appends (storeData : Bool) (freq : ℤ) (c : ℕ) (u : V) (s : CSState K V Sub) :
    Appends storeData s (store (K := K) (Sub := Sub) storeData freq c u s).2 := by
  unfold store
  split
  · rename_i hs
    split
    · exact .of_eq rfl rfl
    · split
      · exact ⟨[(s.tc, u)], rfl, rfl, fun h => by simp [h] at hs⟩
      · exact .of_eq rfl rfl
  · exact .of_eq rfl rfl

theorem progress_state {σ : Type} (pyDiv : Bool) (c : ℕ) (tf : K) (s : σ) : (progress pyDiv c tf s).2 = s := by
  unfold progress
  split
  · split <;> rfl
  · rfl

theorem step_keeps (u : V) (h : K) (s : CSState K V Sub) : (C.step u h s).2.t = s.t ∧ (C.step u h s).2.u = s.u := by
  by_cases hh : 0 ≤ h
  · rw [step_apply _ _ hh]; exact ⟨rfl, rfl⟩
  · rw [step_neg _ _ hh]; exact ⟨rfl, rfl⟩

theorem loop_appends (rnd : K → K) (pyDiv : Bool) (h : K) (storeData : Bool) (freq : ℤ) (fuel : ℕ) :
    ∀ (u : V) (c : ℕ) (s : CSState K V Sub), Appends storeData s (C.loop rnd pyDiv h storeData freq fuel u c s).2 := by
  induction fuel with
  | zero => intro u c s; exact .of_eq rfl rfl
  | succ fuel ih =>
    intro u c s
    by_cases hlt : s.tc < s.tf
    · rw [loop]
      simp only [PyM.bind_get_apply, hlt, if_true]
      obtain ⟨k1, k2⟩ := step_keeps (C := C) u h s
      rcases hst : C.step u h s with ⟨r, s1⟩
      rw [hst] at k1 k2
      cases r with
      | error e => rw [PyM.bind_error hst]; exact .of_eq k1 k2
      | ok v =>
        rw [PyM.bind_ok hst]
        refine Appends.trans (.of_eq k1 k2) ?_
        simp only [PyM.bind_modify_apply]
        refine Appends.trans (s' := { s1 with tc := rnd (s1.tc + h) }) (.of_eq rfl rfl) ?_
        generalize ({ s1 with tc := rnd (s1.tc + h) } : CSState K V Sub) = s2
        have hp := progress_state pyDiv (c + 1) s.tf s2
        rcases hpr : progress pyDiv (c + 1) s.tf s2 with ⟨r, s3⟩
        rw [hpr] at hp
        subst hp
        cases r with
        | error e => rw [PyM.bind_error hpr]; exact .of_eq rfl rfl
        | ok _ =>
          rw [PyM.bind_ok hpr]
          have hs := store_appends storeData freq (c + 1) v s3
          rcases hsr : store (K := K) (Sub := Sub) storeData freq (c + 1) v s3 with ⟨r, s4⟩
          rw [hsr] at hs
          cases r with
          | error e => rw [PyM.bind_error hsr]; exact hs
          | ok _ =>
            rw [PyM.bind_ok hsr]
            exact hs.trans (ih v (c + 1) s4)
    · rw [loop_done _ _ _ _ _ _ _ _ _ hlt]; exact .of_eq rfl rfl

end CSClass

/-- A call on a constant-step solver object.  Calls that raise are included. -/
inductive CSCall (ι : Type) where
  | step (u : Vec ι) (h : ℝ)
  | reset
  | evolve (rnd : ℝ → ℝ) (pyDiv : Bool) (fuel : ℕ) (u : Vec ι) (t0 tf h : ℝ) (storeData : Bool) (freq : ℤ)

/-- A call on an adaptive solver object, with the settings in force at that time. -/
inductive ASCall (ι : Type) where
  | step (rnd : ℝ → ℝ) (cfg : SolverConfig ℝ) (u : Vec ι) (h : ℝ)
  | reset
  | evolve (rnd : ℝ → ℝ) (pyDiv : Bool) (cfg : SolverConfig ℝ) (fuel : ℕ) (u : Vec ι) (t0 tf : ℝ) (hInit : Option ℝ) (storeData : Bool)
      (freq : ℤ)

def CSCall.IsStep : CSCall ι → Prop
  | .step _ _ => True
  | _ => False

def ASCall.IsStep : ASCall ι → Prop
  | .step _ _ _ _ => True
  | _ => False

/-- The state after a call. -/
noncomputable def CSSolver.after (m : CSSolver ι) (nl : NlFunc ι) (s : m.State) : CSCall ι → m.State
  | .step u h => (m.step nl u h s).2
  | .reset => (m.reset nl s).2
  | .evolve rnd pyDiv fuel u t0 tf h storeData freq => (m.evolve nl rnd pyDiv fuel u t0 tf h storeData freq s).2

noncomputable def ASSolver.after (m : ASSolver ι) (nl : NlFunc ι) (s : m.State) : ASCall ι → m.State
  | .step rnd cfg u h => (m.step nl rnd cfg u h s).2
  | .reset => (m.reset nl s).2
  | .evolve rnd pyDiv cfg fuel u t0 tf hInit storeData freq => (m.evolve nl rnd pyDiv cfg fuel u t0 tf hInit storeData freq s).2

theorem CSSolver.step_lists (m : CSSolver ι) (nl : NlFunc ι) (u : Vec ι) (h : ℝ) (s : m.State) :
    (m.step nl u h s).2.t = s.t ∧ (m.step nl u h s).2.u = s.u := by
  unfold CSSolver.step
  by_cases hh : 0 ≤ h
  · rw [CSClass.step_apply _ _ hh]; exact ⟨rfl, rfl⟩
  · rw [CSClass.step_neg _ _ hh]; exact ⟨rfl, rfl⟩

theorem CSSolver.steps_lists (m : CSSolver ι) (nl : NlFunc ι) (cs : List (CSCall ι)) (hcs : ∀ c ∈ cs, c.IsStep) (s : m.State) :
    (cs.foldl (m.after nl) s).t = s.t ∧ (cs.foldl (m.after nl) s).u = s.u := by
  induction cs generalizing s with
  | nil => exact ⟨rfl, rfl⟩
  | cons c cs ih =>
    obtain ⟨h1, h2⟩ := ih (fun c hc => hcs c (List.mem_cons_of_mem _ hc)) (m.after nl s c)
    have := hcs c List.mem_cons_self
    cases c with
    | step u h =>
      obtain ⟨h3, h4⟩ := m.step_lists nl u h s
      exact ⟨h1.trans h3, h2.trans h4⟩
    | reset => exact this.elim
    | evolve => exact this.elim

theorem ASSolver.steps_lists (m : ASSolver ι) (nl : NlFunc ι) (cs : List (ASCall ι)) (hcs : ∀ c ∈ cs, c.IsStep) (s : m.State) :
    (cs.foldl (m.after nl) s).t = s.t ∧ (cs.foldl (m.after nl) s).u = s.u := by
  induction cs generalizing s with
  | nil => exact ⟨rfl, rfl⟩
  | cons c cs ih =>
    obtain ⟨h1, h2⟩ := ih (fun c hc => hcs c (List.mem_cons_of_mem _ hc)) (m.after nl s c)
    have := hcs c List.mem_cons_self
    cases c with
    | step rnd cfg u h =>
      obtain ⟨h3, h4, -⟩ := ASClass.step_public (C := m.cls nl) rnd cfg u h s
      exact ⟨h1.trans h3, h2.trans h4⟩
    | reset => exact this.elim
    | evolve => exact this.elim

/-- **C71.** As long as a solver object has only made steps, successful or not, its lists are empty. -/
theorem C71_steps_cs (m : CSSolver ι) (nl : NlFunc ι) (cs : List (CSCall ι)) (hcs : ∀ c ∈ cs, c.IsStep) :
    (cs.foldl (m.after nl) m.new).t = [] ∧ (cs.foldl (m.after nl) m.new).u = [] := m.steps_lists nl cs hcs m.new

theorem C71_steps_as (m : ASSolver ι) (nl : NlFunc ι) (cs : List (ASCall ι)) (hcs : ∀ c ∈ cs, c.IsStep) :
    (cs.foldl (m.after nl) m.new).t = [] ∧ (cs.foldl (m.after nl) m.new).u = [] := m.steps_lists nl cs hcs m.new

/-- **C65.** Assigning to the attributes of `etd_config`, and any steps after that, leave the recorded times and states as
they were. -/
theorem C65_lists_cs (m : CSSolver ι) (nl : NlFunc ι) (s : m.State) (c : ETDConfig ℝ) (cs : List (CSCall ι))
    (hcs : ∀ c ∈ cs, c.IsStep) :
    (cs.foldl ((m.withEtd c).after nl) (m.keep c s)).t = s.t ∧ (cs.foldl ((m.withEtd c).after nl) (m.keep c s)).u = s.u :=
  (m.withEtd c).steps_lists nl cs hcs (m.keep c s)

theorem C65_lists_as (m : ASSolver ι) (nl : NlFunc ι) (s : m.State) (c : ETDConfig ℝ) (cs : List (ASCall ι))
    (hcs : ∀ c ∈ cs, c.IsStep) :
    (cs.foldl ((m.withEtd c).after nl) (m.keep c s)).t = s.t ∧ (cs.foldl ((m.withEtd c).after nl) (m.keep c s)).u = s.u :=
  (m.withEtd c).steps_lists nl cs hcs (m.keep c s)

/-- The solution list of a recorded run survives an assignment and two steps, the second of which is refused. -/
example (L : LinOp ι) (u : Vec ι) (s : (CSSolver.etd4 ⟨1 / 100, 32, 1⟩ L).State) (hs : s.t = [0, 1]) :
    ([CSCall.step u 1, .step u (-1)].foldl ((CSSolver.etd4 ⟨1, 64, 2⟩ L).after (fun x => .ok x))
      ((CSSolver.etd4 ⟨1 / 100, 32, 1⟩ L).keep ⟨1, 64, 2⟩ s)).t = [0, 1] :=
  (C65_lists_cs (CSSolver.etd4 ⟨1 / 100, 32, 1⟩ L) (fun x => .ok x) s ⟨1, 64, 2⟩ [.step u 1, .step u (-1)]
    (by simp [CSCall.IsStep])).1.trans hs

example (L : ASOp ι) (u : Vec ι) (s : (ASSolver.etd34 ⟨1 / 100, 32, 1⟩ L).State) (cfg : SolverConfig ℝ) (hs : s.t = [0, 1]) :
    ([ASCall.step id cfg u 1, .step id cfg u (-1)].foldl ((ASSolver.etd34 ⟨1, 64, 2⟩ L).after (fun x => .ok x))
      ((ASSolver.etd34 ⟨1 / 100, 32, 1⟩ L).keep ⟨1, 64, 2⟩ s)).t = [0, 1] :=
  (C65_lists_as (ASSolver.etd34 ⟨1 / 100, 32, 1⟩ L) (fun x => .ok x) s ⟨1, 64, 2⟩ [.step id cfg u 1, .step id cfg u (-1)]
    (by simp [ASCall.IsStep])).1.trans hs

/-- **C72.** Writing into the array passed as `lin_op`, and any steps after that, leave the recorded times and states as they were. -/
theorem C72_lists_cs (m : CSSolver ι) (nl : NlFunc ι) (s : m.State) (c128 : Bool) (vec : Vec ι) (mat : Mat ι) (cs : List (CSCall ι))
    (hcs : ∀ c ∈ cs, c.IsStep) :
    let x := m.heldWrite c128 vec mat
    (cs.foldl ((m.withHeld x).after nl) (m.hold x s)).t = s.t ∧ (cs.foldl ((m.withHeld x).after nl) (m.hold x s)).u = s.u :=
  (m.withHeld _).steps_lists nl cs hcs (m.hold _ s)

theorem C72_lists_as (m : ASSolver ι) (nl : NlFunc ι) (s : m.State) (c128 : Bool) (vec : Vec ι) (mat : Mat ι) (cs : List (ASCall ι))
    (hcs : ∀ c ∈ cs, c.IsStep) :
    let x := m.heldWrite c128 vec mat
    (cs.foldl ((m.withHeld x).after nl) (m.hold x s)).t = s.t ∧ (cs.foldl ((m.withHeld x).after nl) (m.hold x s)).u = s.u :=
  (m.withHeld _).steps_lists nl cs hcs (m.hold _ s)

/-- The times of a recorded run survive a write into the operator and two steps, the second of which is refused. -/
example (L L' u : Vec ι) (s : (CSSolver.if4 (.diag L)).State) (hs : s.t = [0, 1]) :
    ([CSCall.step u 1, .step u (-1)].foldl ((CSSolver.if4 (.diag L')).after (fun x => .ok x))
      ((CSSolver.if4 (.diag L)).hold ⟨⟨1 / 100, 32, 1⟩, L', 0⟩ s)).t = [0, 1] :=
  (C72_lists_cs (CSSolver.if4 (.diag L)) (fun x => .ok x) s true L' 0 [.step u 1, .step u (-1)] (by simp [CSCall.IsStep])).1.trans hs

example (L L' u : Vec ι) (cfg : SolverConfig ℝ) (s : (ASSolver.if34 (.diag L)).State) (hs : s.t = [0, 1]) :
    ([ASCall.step id cfg u 1, .step id cfg u (-1)].foldl ((ASSolver.if34 (.diag L')).after (fun x => .ok x))
      ((ASSolver.if34 (.diag L)).hold ⟨⟨1 / 100, 32, 1⟩, L', 0⟩ s)).t = [0, 1] :=
  (C72_lists_as (ASSolver.if34 (.diag L)) (fun x => .ok x) s true L' 0 [.step id cfg u 1, .step id cfg u (-1)]
    (by simp [ASCall.IsStep])).1.trans hs

/-- **C71.** `reset` empties them, and steps leave them empty. -/
theorem C71_reset_cs (m : CSSolver ι) (nl : NlFunc ι) (before cs : List (CSCall ι)) (hcs : ∀ c ∈ cs, c.IsStep) :
    ((before ++ .reset :: cs).foldl (m.after nl) m.new).t = [] ∧ ((before ++ .reset :: cs).foldl (m.after nl) m.new).u = [] := by
  rw [List.foldl_append, List.foldl_cons]
  exact m.steps_lists nl cs hcs _

theorem C71_reset_as (m : ASSolver ι) (nl : NlFunc ι) (before cs : List (ASCall ι)) (hcs : ∀ c ∈ cs, c.IsStep) :
    ((before ++ .reset :: cs).foldl (m.after nl) m.new).t = [] ∧ ((before ++ .reset :: cs).foldl (m.after nl) m.new).u = [] := by
  rw [List.foldl_append, List.foldl_cons]
  exact m.steps_lists nl cs hcs _

/-- **C71.** Otherwise the lists are those of the last `evolve`, as a new object would have made them, whatever was called before and
whatever steps were made since; also if that `evolve` raised. -/
theorem C71_evolve_cs (m : CSSolver ι) (nl : NlFunc ι) (before cs : List (CSCall ι)) (hcs : ∀ c ∈ cs, c.IsStep)
    (rnd : ℝ → ℝ) (pyDiv : Bool) (fuel : ℕ) (u : Vec ι) (t0 tf h : ℝ) (storeData : Bool) (freq : ℤ) :
    ((before ++ .evolve rnd pyDiv fuel u t0 tf h storeData freq :: cs).foldl (m.after nl) m.new).t =
      (m.evolve nl rnd pyDiv fuel u t0 tf h storeData freq m.new).2.t ∧
    ((before ++ .evolve rnd pyDiv fuel u t0 tf h storeData freq :: cs).foldl (m.after nl) m.new).u =
      (m.evolve nl rnd pyDiv fuel u t0 tf h storeData freq m.new).2.u := by
  rw [List.foldl_append, List.foldl_cons]
  obtain ⟨h1, h2⟩ := m.steps_lists nl cs hcs (m.after nl (before.foldl (m.after nl) m.new) (.evolve rnd pyDiv fuel u t0 tf h storeData freq))
  obtain ⟨-, h3, h4⟩ := C14_evolve_fresh_cs m nl rnd pyDiv fuel u t0 tf h storeData freq (before.foldl (m.after nl) m.new)
  exact ⟨h1.trans h3, h2.trans h4⟩

theorem C71_evolve_as (m : ASSolver ι) (nl : NlFunc ι) (before cs : List (ASCall ι)) (hcs : ∀ c ∈ cs, c.IsStep)
    (rnd : ℝ → ℝ) (pyDiv : Bool) (cfg : SolverConfig ℝ) (fuel : ℕ) (u : Vec ι) (t0 tf : ℝ) (hInit : Option ℝ) (storeData : Bool) (freq : ℤ) :
    ((before ++ .evolve rnd pyDiv cfg fuel u t0 tf hInit storeData freq :: cs).foldl (m.after nl) m.new).t =
      (m.evolve nl rnd pyDiv cfg fuel u t0 tf hInit storeData freq m.new).2.t ∧
    ((before ++ .evolve rnd pyDiv cfg fuel u t0 tf hInit storeData freq :: cs).foldl (m.after nl) m.new).u =
      (m.evolve nl rnd pyDiv cfg fuel u t0 tf hInit storeData freq m.new).2.u := by
  rw [List.foldl_append, List.foldl_cons]
  obtain ⟨h1, h2⟩ := m.steps_lists nl cs hcs (m.after nl (before.foldl (m.after nl) m.new) (.evolve rnd pyDiv cfg fuel u t0 tf hInit storeData freq))
  obtain ⟨-, h3, h4⟩ := C14_evolve_fresh_as m nl rnd pyDiv cfg fuel u t0 tf hInit storeData freq (before.foldl (m.after nl) m.new)
  exact ⟨h1.trans h3, h2.trans h4⟩

/-- What an `evolve` of a constant-step solver leaves in the lists, whether it returns or raises and however the clock is rounded: the initial
state first and one array for every time, or nothing without `store_data`. -/
theorem CSSolver.evolve_lists (m : CSSolver ι) (nl : NlFunc ι) (rnd : ℝ → ℝ) (pyDiv : Bool) (fuel : ℕ) (u : Vec ι) (t0 tf h : ℝ)
    (storeData : Bool) (freq : ℤ) (s : m.State) : ∃ l : List (ℝ × Vec ι),
      (m.evolve nl rnd pyDiv fuel u t0 tf h storeData freq s).2.t = (if storeData then t0 :: l.map Prod.fst else []) ∧
      (m.evolve nl rnd pyDiv fuel u t0 tf h storeData freq s).2.u = (if storeData then u :: l.map Prod.snd else []) := by
  have key : CSClass.Appends storeData ((m.cls nl).start u t0 tf storeData s) (m.evolve nl rnd pyDiv fuel u t0 tf h storeData freq s).2 := by
    unfold CSSolver.evolve
    rw [CSClass.evolve_apply]
    split
    · exact .of_eq rfl rfl
    · exact CSClass.loop_appends _ _ _ _ _ _ _ _ _
  obtain ⟨l, h1, h2, h3⟩ := key
  refine ⟨l, ?_, ?_⟩
  · rw [h1]; cases storeData <;> simp_all [CSClass.start]
  · rw [h2]; cases storeData <;> simp_all [CSClass.start]

theorem ASSolver.evolve_lists (m : ASSolver ι) (nl : NlFunc ι) (rnd : ℝ → ℝ) (pyDiv : Bool) (cfg : SolverConfig ℝ) (fuel : ℕ) (u : Vec ι)
    (t0 tf : ℝ) (hInit : Option ℝ) (storeData : Bool) (freq : ℤ) (s : m.State) : ∃ l : List (ℝ × Vec ι),
      (m.evolve nl rnd pyDiv cfg fuel u t0 tf hInit storeData freq s).2.t = (if storeData then t0 :: l.map Prod.fst else []) ∧
      (m.evolve nl rnd pyDiv cfg fuel u t0 tf hInit storeData freq s).2.u = (if storeData then u :: l.map Prod.snd else []) := by
  obtain ⟨n, tm, st, hp, hu, a1, a2, a3, a4, a5, a6, -⟩ := ASClass.evolve_run (m.lawful nl) rnd pyDiv cfg fuel u t0 tf hInit storeData freq s
  have e : ∃ l, storedUpTo freq n = 0 :: l := by
    exact ⟨_, storedUpTo_eq freq n⟩
  obtain ⟨l, hl⟩ := e
  refine ⟨l.map fun k => (tm k, st k), ?_, ?_⟩
  · refine a5.trans ?_
    rw [hl]; simp [a1, Function.comp_def]
  · refine a6.trans ?_
    rw [hl]; simp [a2, Function.comp_def]

/-- **C71.** After any calls whatsoever the two lists have the same length. -/
theorem C71_lengths_cs (m : CSSolver ι) (nl : NlFunc ι) (cs : List (CSCall ι)) :
    (cs.foldl (m.after nl) m.new).t.length = (cs.foldl (m.after nl) m.new).u.length := by
  suffices ∀ s : m.State, s.t.length = s.u.length → (cs.foldl (m.after nl) s).t.length = (cs.foldl (m.after nl) s).u.length from
    this m.new rfl
  induction cs with
  | nil => exact fun s h => h
  | cons c cs ih =>
    refine fun s h => ih _ ?_
    cases c with
    | step u h' =>
      obtain ⟨h1, h2⟩ := m.step_lists nl u h' s
      show (m.step nl u h' s).2.t.length = (m.step nl u h' s).2.u.length
      rw [h1, h2, h]
    | reset => rfl
    | evolve rnd pyDiv fuel u t0 tf h' storeData freq =>
      obtain ⟨l, h1, h2⟩ := m.evolve_lists nl rnd pyDiv fuel u t0 tf h' storeData freq s
      show (m.evolve nl rnd pyDiv fuel u t0 tf h' storeData freq s).2.t.length = _
      rw [h1]
      show _ = (m.evolve nl rnd pyDiv fuel u t0 tf h' storeData freq s).2.u.length
      rw [h2]; split <;> simp

theorem C71_lengths_as (m : ASSolver ι) (nl : NlFunc ι) (cs : List (ASCall ι)) :
    (cs.foldl (m.after nl) m.new).t.length = (cs.foldl (m.after nl) m.new).u.length := by
  suffices ∀ s : m.State, s.t.length = s.u.length → (cs.foldl (m.after nl) s).t.length = (cs.foldl (m.after nl) s).u.length from
    this m.new rfl
  induction cs with
  | nil => exact fun s h => h
  | cons c cs ih =>
    refine fun s h => ih _ ?_
    cases c with
    | step rnd cfg u h' =>
      obtain ⟨h1, h2, -⟩ := ASClass.step_public (C := m.cls nl) rnd cfg u h' s
      exact (congrArg List.length h1).trans (h.trans (congrArg List.length h2).symm)
    | reset => rfl
    | evolve rnd pyDiv cfg fuel u t0 tf hInit storeData freq =>
      obtain ⟨l, h1, h2⟩ := m.evolve_lists nl rnd pyDiv cfg fuel u t0 tf hInit storeData freq s
      show (m.evolve nl rnd pyDiv cfg fuel u t0 tf hInit storeData freq s).2.t.length = _
      rw [h1]
      show _ = (m.evolve nl rnd pyDiv cfg fuel u t0 tf hInit storeData freq s).2.u.length
      rw [h2]; split <;> simp

/-- **C71.** The first entries are the arguments of the last `evolve`; without `store_data` there are none.  This holds also if it raised. -/
theorem C71_first_cs (m : CSSolver ι) (nl : NlFunc ι) (before cs : List (CSCall ι)) (hcs : ∀ c ∈ cs, c.IsStep)
    (rnd : ℝ → ℝ) (pyDiv : Bool) (fuel : ℕ) (u : Vec ι) (t0 tf h : ℝ) (storeData : Bool) (freq : ℤ) :
    ((before ++ .evolve rnd pyDiv fuel u t0 tf h storeData freq :: cs).foldl (m.after nl) m.new).t.head? = (if storeData then some t0 else none) ∧
    ((before ++ .evolve rnd pyDiv fuel u t0 tf h storeData freq :: cs).foldl (m.after nl) m.new).u.head? = (if storeData then some u else none) := by
  obtain ⟨h1, h2⟩ := C71_evolve_cs m nl before cs hcs rnd pyDiv fuel u t0 tf h storeData freq
  obtain ⟨l, h3, h4⟩ := m.evolve_lists nl rnd pyDiv fuel u t0 tf h storeData freq m.new
  rw [h1, h2, h3, h4]
  cases storeData <;> simp

theorem C71_first_as (m : ASSolver ι) (nl : NlFunc ι) (before cs : List (ASCall ι)) (hcs : ∀ c ∈ cs, c.IsStep)
    (rnd : ℝ → ℝ) (pyDiv : Bool) (cfg : SolverConfig ℝ) (fuel : ℕ) (u : Vec ι) (t0 tf : ℝ) (hInit : Option ℝ) (storeData : Bool) (freq : ℤ) :
    ((before ++ .evolve rnd pyDiv cfg fuel u t0 tf hInit storeData freq :: cs).foldl (m.after nl) m.new).t.head? =
      (if storeData then some t0 else none) ∧
    ((before ++ .evolve rnd pyDiv cfg fuel u t0 tf hInit storeData freq :: cs).foldl (m.after nl) m.new).u.head? =
      (if storeData then some u else none) := by
  obtain ⟨h1, h2⟩ := C71_evolve_as m nl before cs hcs rnd pyDiv cfg fuel u t0 tf hInit storeData freq
  obtain ⟨l, h3, h4⟩ := m.evolve_lists nl rnd pyDiv cfg fuel u t0 tf hInit storeData freq m.new
  rw [h1, h2, h3, h4]
  cases storeData <;> simp

/-- Steps only: nothing is recorded.  A run followed by steps: what the run recorded on a new object.  After `reset`: nothing. -/
example (L : Vec ι) (nl : NlFunc ι) (u v : Vec ι) (cfg : SolverConfig ℝ) :
    (let m := CSSolver.if4 (.diag L)
     (([.step u 1, .step v (-1)] : List (CSCall ι)).foldl (m.after nl) m.new).t = [] ∧
     (([.evolve id true 5 u 0 1 2 true 1, .reset, .step v 1] : List (CSCall ι)).foldl (m.after nl) m.new).u = [] ∧
     (([.step u 1, .evolve id true 5 u 0 1 (1 / 4) true 1, .step v 1] : List (CSCall ι)).foldl (m.after nl) m.new).u =
      (m.evolve nl id true 5 u 0 1 (1 / 4) true 1 m.new).2.u ∧
     (([.step u 1, .evolve id true 5 u 0 1 (1 / 4) true 1, .step v 1] : List (CSCall ι)).foldl (m.after nl) m.new).t.length =
      (([.step u 1, .evolve id true 5 u 0 1 (1 / 4) true 1, .step v 1] : List (CSCall ι)).foldl (m.after nl) m.new).u.length) ∧
    (let m := ASSolver.if34 (.diag L)
     (([.step id cfg u 1, .step id cfg v 2] : List (ASCall ι)).foldl (m.after nl) m.new).t = [] ∧
     (([.step id cfg u 1, .evolve id true cfg 5 u 0 1 none true 1, .step id cfg v 1] : List (ASCall ι)).foldl (m.after nl) m.new).t =
      (m.evolve nl id true cfg 5 u 0 1 none true 1 m.new).2.t ∧
     (([.step id cfg u 1, .evolve id true cfg 5 u 0 1 none true 1, .step id cfg v 1] : List (ASCall ι)).foldl (m.after nl) m.new).u.head? = some u ∧
     (([.step id cfg u 1, .evolve id true cfg 5 u 0 1 none true 1] : List (ASCall ι)).foldl (m.after nl) m.new).t.length =
      (([.step id cfg u 1, .evolve id true cfg 5 u 0 1 none true 1] : List (ASCall ι)).foldl (m.after nl) m.new).u.length) :=
  ⟨⟨(C71_steps_cs _ nl _ (by simp [CSCall.IsStep])).1,
    (C71_reset_cs _ nl [.evolve id true 5 u 0 1 2 true 1] [.step v 1] (by simp [CSCall.IsStep])).2,
    (C71_evolve_cs _ nl [.step u 1] [.step v 1] (by simp [CSCall.IsStep]) id true 5 u 0 1 (1 / 4) true 1).2, C71_lengths_cs _ nl _⟩,
   (C71_steps_as _ nl _ (by simp [ASCall.IsStep])).1,
   (C71_evolve_as _ nl [.step id cfg u 1] [.step id cfg v 1] (by simp [ASCall.IsStep]) id true cfg 5 u 0 1 none true 1).1,
   (C71_first_as _ nl [.step id cfg u 1] [.step id cfg v 1] (by simp [ASCall.IsStep]) id true cfg 5 u 0 1 none true 1).2,
   C71_lengths_as _ nl _⟩

/-- A step that raises, a run over an interval that is refused, and another step: the initial state of the refused run is in the lists. -/
example (L : Vec ι) (nl : NlFunc ι) (u v : Vec ι) :
    let m := CSSolver.if4 (.diag L)
    let calls : List (CSCall ι) := [.step u (-1), .evolve id true 5 u 0 1 2 true 1, .step v 1]
    (calls.foldl (m.after nl) m.new).t.head? = some 0 ∧ (calls.foldl (m.after nl) m.new).u.head? = some u :=
  C71_first_cs (.if4 (.diag L)) nl [.step u (-1)] [.step v 1] (by simp [CSCall.IsStep]) id true 5 u 0 1 2 true 1

/-- An adaptive object after a run without `store_data` and a reset. -/
example (L : Vec ι) (nl : NlFunc ι) (u v : Vec ι) (cfg : SolverConfig ℝ) :
    let m := ASSolver.if45dp L
    let calls : List (ASCall ι) := [.evolve id true cfg 5 u 0 1 none true 2, .reset, .step id cfg v 1]
    (calls.foldl (m.after nl) m.new).t = [] ∧ (calls.foldl (m.after nl) m.new).u = [] :=
  C71_reset_as (.if45dp L) nl [.evolve id true cfg 5 u 0 1 none true 2] [.step id cfg v 1] (by simp [ASCall.IsStep])

end Verif
