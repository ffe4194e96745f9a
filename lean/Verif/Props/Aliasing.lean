import Verif.Lemmas.HeapBuffer
import Verif.Props.ConstStep

/-!
# Arrays are mutable objects (properties C63, C64)

The other modules treat arrays as values.  C63 says when this is right: for every program that uses a solver object, with
a nonlinear function that may allocate, keep and overwrite work buffers of its own, the calls over the heap do what the
calls on values do; they leave the caller's arrays alone, and what they return is new.  C64 says what happens when the
nonlinear function returns a buffer that it overwrites later.
-/

set_option linter.unusedSectionVars false

namespace Verif

open Matrix

variable {ι : Type} [Fintype ι] [DecidableEq ι] {f : HeapNl ι} {nl : NlFunc ι}

/-! ### C63: well-behaved nonlinear functions -/

/-- **C63.** At any point of a program the object over the heap shows what the object on values shows: the same times, and
snapshots that are distinct arrays with these contents. -/
theorem C63_lists_cs (hf : CleanNl f nl) {m : CSSolver ι} {s : m.HState} {s' : m.State} (h : m.Session f nl s s') :
    s.t = s'.t ∧ s.u.map (CSSolver.heap s).cell = s'.u ∧ s.u.Nodup := by
  obtain ⟨h1, -, -, h4, -, h6⟩ := h.rel hf
  refine ⟨h1, ?_, h6⟩
  generalize s.u = l at h4
  generalize s'.u = l' at h4
  induction h4 with
  | nil => rfl
  | cons h _ ih => rw [List.map_cons, ih, h.2]

/-- **C63.** The same for adaptive solvers. -/
theorem C63_lists_as (hf : CleanNl f nl) {m : ASSolver ι} {s : m.HState} {s' : m.State} (h : m.Session f nl s s') :
    s.t = s'.t ∧ (s.u.map HArr.ref).map (ASSolver.heap s).cell = s'.u ∧ (s.u.map HArr.ref).Nodup := by
  obtain ⟨h1, -, -, -, -, h4, -, h6⟩ := h.rel hf
  refine ⟨h1, ?_, h6⟩
  generalize s.u.map HArr.ref = l at h4
  generalize s'.u = l' at h4
  induction h4 with
  | nil => rfl
  | cons h _ ih => rw [List.map_cons, ih, h.2]

/-- **C63.** `step` of a constant-step solver, at any point of a program: it returns a new array with the contents that
the step on values returns, or raises the same exception; no array of the caller is changed. -/
theorem C63_step_cs (hf : CleanNl f nl) {m : CSSolver ι} {s : m.HState} {s' : m.State} (h : m.Session f nl s s') {u : ℕ}
    {w : Vec ι} (hu : (CSSolver.heap s).Den u w) (dt : ℝ) :
    let H' := CSSolver.heap (m.heapStep f u dt s).2
    (CSSolver.heap s).Keeps H' ∧
    RelE (fun r v => H'.Den r v ∧ (CSSolver.heap s).next ≤ r) (m.heapStep f u dt s).1 (m.step nl w dt s').1 := by
  have := (m.sim hf).step (h.rel hf) u w dt hu
  exact ⟨this.keeps, this.res⟩

/-- **C63.** `step` of an adaptive solver. -/
theorem C63_step_as (hf : CleanNl f nl) {m : ASSolver ι} {s : m.HState} {s' : m.State} (h : m.Session f nl s s') {u : ℕ}
    {w : Vec ι} (hu : (ASSolver.heap s).Den u w) (rnd : ℝ → ℝ) (cfg : SolverConfig ℝ) (dt : ℝ) :
    let H' := ASSolver.heap (m.heapStep f rnd cfg u dt s).2
    (ASSolver.heap s).Keeps H' ∧
    RelE (fun r v => H'.Den r.1.ref v.1 ∧ (ASSolver.heap s).next ≤ r.1.ref ∧ r.2 = v.2) (m.heapStep f rnd cfg u dt s).1
      (m.step nl rnd cfg w dt s').1 := by
  have := (m.sim hf).step rnd cfg (ASSolver.argArr u) w dt (h.rel hf) hu
  exact ⟨this.keeps, this.res.mono fun r v hrv => ⟨hrv.1.1, hrv.2.1, hrv.2.2⟩⟩

/-- **C63.** `evolve` of a constant-step solver: the result has the contents that the run on values returns; it is the
caller's own array if no step was made, and a new array otherwise; no array of the caller is changed. -/
theorem C63_evolve_cs (hf : CleanNl f nl) {m : CSSolver ι} {s : m.HState} {s' : m.State} (h : m.Session f nl s s') {u : ℕ}
    {w : Vec ι} (hu : (CSSolver.heap s).Den u w) (rnd : ℝ → ℝ) (pyDiv : Bool) (fuel : ℕ) (t0 tf dt : ℝ)
    (storeData : Bool) (freq : ℤ) :
    let r := m.heapEvolve f rnd pyDiv fuel u t0 tf dt storeData freq s
    (CSSolver.heap s).Keeps (CSSolver.heap r.2) ∧
    RelE (RelO fun a v => (CSSolver.heap r.2).Den a v ∧ (a = u ∨ (CSSolver.heap s).next ≤ a)) r.1
      (m.evolve nl rnd pyDiv fuel w t0 tf dt storeData freq s').1 := by
  have := (m.sim hf).evolve rnd pyDiv fuel u w t0 tf dt storeData freq (h.rel hf) hu
  refine ⟨this.keeps, this.res.mono fun a v hav => ?_⟩
  cases a <;> cases v <;> exact hav

/-- **C63.** `evolve` of an adaptive solver. -/
theorem C63_evolve_as (hf : CleanNl f nl) {m : ASSolver ι} {s : m.HState} {s' : m.State} (h : m.Session f nl s s') {u : ℕ}
    {w : Vec ι} (hu : (ASSolver.heap s).Den u w) (rnd : ℝ → ℝ) (pyDiv : Bool) (cfg : SolverConfig ℝ) (fuel : ℕ)
    (t0 tf : ℝ) (hInit : Option ℝ) (storeData : Bool) (freq : ℤ) :
    let r := m.heapEvolve f rnd pyDiv cfg fuel u t0 tf hInit storeData freq s
    (ASSolver.heap s).Keeps (ASSolver.heap r.2) ∧
    RelE (RelO fun a v => (ASSolver.heap r.2).Den a.ref v ∧ (a.ref = u ∨ (ASSolver.heap s).next ≤ a.ref)) r.1
      (m.evolve nl rnd pyDiv cfg fuel w t0 tf hInit storeData freq s').1 := by
  have := (m.sim hf).evolve rnd pyDiv cfg fuel (ASSolver.argArr u) w t0 tf hInit storeData freq (h.rel hf) hu
  refine ⟨this.keeps, this.res.mono fun a v hav => ?_⟩
  cases a <;> cases v <;> exact hav

/-- **C63.** When snapshots are stored, the first one is the caller's own array (an alias, not a copy): later changes of
that array by the caller change the snapshot. -/
theorem C63_first_snapshot_cs (m : CSSolver ι) (f : HeapNl ι) (rnd : ℝ → ℝ) (pyDiv : Bool) (fuel : ℕ) (u : ℕ)
    (t0 tf dt : ℝ) (freq : ℤ) (s : m.HState) :
    (m.heapEvolve f rnd pyDiv fuel u t0 tf dt true freq s).2.u.head? = some u :=
  CSClass.evolve_head (m.heapCls f) rnd pyDiv fuel u t0 tf dt freq s

/-- **C63.** The same for adaptive solvers. -/
theorem C63_first_snapshot_as (m : ASSolver ι) (f : HeapNl ι) (rnd : ℝ → ℝ) (pyDiv : Bool) (cfg : SolverConfig ℝ)
    (fuel : ℕ) (u : ℕ) (t0 tf : ℝ) (hInit : Option ℝ) (freq : ℤ) (s : m.HState) :
    (m.heapEvolve f rnd pyDiv cfg fuel u t0 tf hInit true freq s).2.u.head?.map HArr.ref = some u := by
  have := ASClass.evolve_head (m.heapCls f) rnd pyDiv cfg fuel (ASSolver.argArr u) t0 tf hInit freq s
  change (ASClass.evolve _ _ _ _ _ _ _ _ _ _ _ _).2.u.head?.map HArr.ref = some u
  rw [this]
  rfl

example (L : Vec (Fin 2)) (cfg : SolverConfig ℝ) :
    let m := ASSolver.if34 (.diag L)
    (m.heapEvolve (newNl fun w => w * w) id true cfg 10 0 0 1 none true 2 (m.heapNew demoHeap)).2.u.head?.map HArr.ref = some 0 :=
  C63_first_snapshot_as ..

/-- **C63.** When `nl_func` returns new arrays, the array returned by a step is not needed by the object: the caller may
write to it (`CSSolver.Session.write`). -/
theorem C63_returned_free_cs (hf : CleanNl f nl) (hn : FreshNl f) {m : CSSolver ι} {s : m.HState} {s' : m.State}
    (h : m.Session f nl s s') {u r : ℕ} {w : Vec ι} (hu : (CSSolver.heap s).Den u w) {dt : ℝ} {s1 : m.HState}
    (he : m.heapStep f u dt s = (.ok r, s1)) : ¬ CSSolver.Needs s1 r := by
  have hr := h.rel hf
  obtain ⟨-, -, h3⟩ := (m.sim hf).step hr u w dt hu
  have hh : 0 ≤ dt := by
    by_contra hh
    rw [CSSolver.heapStep, CSClass.step_neg _ _ hh] at he
    cases he
  change RelE _ (m.heapStep f u dt s).1 _ at h3
  rw [he] at h3
  obtain ⟨v, -, -, hge⟩ := h3.ok rfl
  rw [CSSolver.heapStep, CSClass.step_apply _ _ hh] at he
  rcases hx : (m.heapCls f).updateStages u dt s.sub with ⟨x, sub1⟩
  rw [hx] at he
  simp only [Prod.mk.injEq] at he
  obtain ⟨rfl, rfl⟩ := he
  rintro (hmem | heq)
  · have := List.Forall₂.pub hr.u hmem
    omega
  · have hk : ∀ c h, assigns .k (m.prog.stages c h) = true := by
      rcases m with (L | L) | ⟨cfg, L | L⟩ | ⟨cfg, L | L⟩ <;> exact fun _ _ => rfl
    exact CSProg.updateStages_distinct hn hk (fun a => (hr.sub.pub a).1) hu.1.1 hx .NL1 (by simp) heq

/-- **C63.** The same for adaptive solvers. -/
theorem C63_returned_free_as (hf : CleanNl f nl) (hn : FreshNl f) {m : ASSolver ι} {s : m.HState} {s' : m.State}
    (h : m.Session f nl s s') {u : ℕ} {r : HArr ι × ℝ × ℝ} {w : Vec ι} (hu : (ASSolver.heap s).Den u w) {rnd : ℝ → ℝ}
    {cfg : SolverConfig ℝ} {dt : ℝ} {s1 : m.HState} (he : m.heapStep f rnd cfg u dt s = (.ok r, s1)) :
    ¬ ASSolver.Needs s1 r.1.ref := by
  have hr := h.rel hf
  obtain ⟨-, ⟨-, hl⟩, h3⟩ := (m.sim hf).step' rnd cfg (ASSolver.argArr u) w dt ⟨hr, rfl⟩ hu
  have hh : 0 ≤ dt := by
    by_contra hh
    rw [ASSolver.heapStep, ASClass.step_neg _ _ _ _ hh] at he
    cases he
  change RelE _ (m.heapStep f rnd cfg u dt s).1 _ at h3
  change (m.heapStep f rnd cfg u dt s).2.u = _ at hl
  rw [he] at h3 hl
  obtain ⟨v, -, -, hge, -⟩ := h3.ok rfl
  simp only [ASSolver.heapStep, ASClass.step, hh, not_true_eq_false, if_false] at he
  obtain ⟨h', a, x1, err, hI, hlast⟩ := ASClass.stepLoop_final (m.heapCls f) rnd cfg (ASSolver.argArr u)
    (fun x => ∃ x', DenAS m.last x x' ∧ x.method.heap.Den u w) (fun h a x hx => by
      obtain ⟨x', d1, d2⟩ := hx
      have := (m.sim hf).stages (ASSolver.argArr u) w h a x x' d1 d2
      exact ⟨_, this.inv, d2.mono this.keeps⟩) 0 dt s s1 r ⟨_, hr.sub, hu⟩ he
  obtain ⟨x', d1, d2⟩ := hI
  have key : ∀ y : Attr, y ≠ .k → y ≠ .tmp → r.1.ref ≠ s1.sub.method.attr y := by
    intro y hy1 hy2
    have d3 : (ASSolver.argArr u : HArr ι).ref < x1.method.heap.next := d2.1.1
    have d4 : x1.method.Bdd := fun a => (d1.pub a).1
    rcases m with (L | L | ⟨l, S, T, hS⟩) | ⟨cfg, L | L | ⟨l, S, T, hS⟩⟩ | ⟨cfg, L | L | ⟨l, S, T, hS⟩⟩ | L
    · exact ASProg.updateStages_distinct (P := IF34.progDiagonal L) hn (fun _ _ => rfl) d4 d3 (Or.inl hlast) y hy1
    · exact ASProg.updateStages_distinct (P := IF34.progNonDiagonal L) hn (fun _ _ => rfl) d4 d3 (Or.inl hlast) y hy1
    · exact ASProg.updateStages_distinct (P := IF34.progDiagonalized l S T) hn (fun _ _ => rfl) d4 d3 (Or.inl hlast) y hy2
    · exact ASProg.updateStages_distinct (P := ETD34.progDiagonal cfg L) hn (fun _ _ => rfl) d4 d3 (Or.inl hlast) y hy1
    · exact ASProg.updateStages_distinct (P := ETD34.progNonDiagonal cfg L) hn (fun _ _ => rfl) d4 d3 (Or.inl hlast) y hy1
    · exact ASProg.updateStages_distinct (P := ETD34.progDiagonalized cfg l S T) hn (fun _ _ => rfl) d4 d3 (Or.inl hlast) y hy2
    · exact ASProg.updateStages_distinct (P := ETD35.progDiagonal cfg L) hn (fun _ _ => rfl) d4 d3 (Or.inl hlast) y hy1
    · exact ASProg.updateStages_distinct (P := ETD35.progNonDiagonal cfg L) hn (fun _ _ => rfl) d4 d3 (Or.inl hlast) y hy1
    · exact ASProg.updateStages_distinct (P := ETD35.progDiagonalized cfg l S T) hn (fun _ _ => rfl) d4 d3 (Or.inl hlast) y hy2
    · exact ASProg.updateStages_distinct (P := IF45DP.prog L) hn (fun _ _ => rfl) d4 d3 (Or.inr hlast) y hy1
  rintro (hmem | heq | heq | heq | heq)
  · rw [hl] at hmem
    have := List.Forall₂.pub hr.u hmem
    omega
  · exact key .NL1 (by simp) (by simp) heq
  · exact key .NL5 (by simp) (by simp) heq
  · exact key .NL7 (by simp) (by simp) heq
  · exact key .v (by simp) (by simp) heq

/-- **C63.** `FreshNl` is needed there: with `nl_func = lambda u: u`, which is well behaved, the array that a step of a
constant-step solver returns is the array the object keeps as the stored value of `nl_func`. -/
theorem C63_returned_needed_cs (m : CSSolver ι) {s s1 : m.HState} {u r : ℕ} {dt : ℝ}
    (he : m.heapStep sameNl u dt s = (.ok r, s1)) : CSSolver.Needs s1 r := by
  have hh : 0 ≤ dt := by
    by_contra hh
    rw [CSSolver.heapStep, CSClass.step_neg _ _ hh] at he
    cases he
  rw [CSSolver.heapStep, CSClass.step_apply _ _ hh] at he
  rcases hx : (m.heapCls sameNl).updateStages u dt s.sub with ⟨x, sub1⟩
  rw [hx] at he
  simp only [Prod.mk.injEq] at he
  obtain ⟨rfl, rfl⟩ := he
  refine Or.inr (CSProg.updateStages_same (P := m.prog) (fun c h => (m.prog.stages c h).dropLast) ?_ hx)
  rcases m with (L | L) | ⟨cfg, L | L⟩ | ⟨cfg, L | L⟩ <;> exact fun _ _ => rfl

theorem sameNl_clean : CleanNl (sameNl : HeapNl ι) (total id) := fun r H hr =>
  ⟨⟨le_rfl, fun _ h => ⟨h.2, rfl⟩⟩, hr, rfl⟩

theorem newNl_clean (g : Vec ι → Vec ι) : CleanNl (newNl g) (total g) := by
  refine fun r H hr => ⟨⟨Nat.le_succ _, fun a ha => ?_⟩, ⟨Nat.lt_succ_self _, ?_⟩, ?_⟩
  · have : a ≠ H.next := ha.1.ne
    simpa [newNl, Heap.alloc, this] using ha.2
  · simp [newNl, Heap.alloc]
  · simp [newNl, Heap.alloc]

theorem newNl_fresh (g : Vec ι → Vec ι) : FreshNl (newNl g) := by
  refine fun r H => ⟨Nat.le_succ _, ?_⟩
  rintro r' h
  cases h
  exact ⟨le_rfl, Nat.lt_succ_self _⟩

theorem workNl_clean (g : Vec ι → Vec ι) : CleanNl (workNl g) (total g) := by
  refine fun r H hr => ⟨⟨Nat.le_succ _, fun a ha => ?_⟩, ⟨Nat.lt_succ_self _, ?_⟩, ?_⟩
  · have : a ≠ H.next := ha.1.ne
    simpa [workNl, Heap.alloc, this, ha.2] using ha.2
  · simp [workNl, Heap.alloc]
  · simp [workNl, Heap.alloc]

/-- A heap with an array of ones, at address 0, and an array that `nl_func` keeps for itself, at address 1. -/
def demoHeap : Heap ι := ⟨fun _ => 1, 2, fun a => a = 1⟩

theorem demoHeap_den : (demoHeap : Heap ι).Den 0 1 := ⟨⟨Nat.zero_lt_two, by simp [demoHeap]⟩, rfl⟩

/-- The array of ones is still there when a solver has been constructed. -/
theorem demoHeap_new : ((demoHeap : Heap ι).alloc 0).Den 0 1 := ⟨⟨by simp [demoHeap, Heap.alloc], by simp [demoHeap, Heap.alloc]⟩, by
  simp [demoHeap, Heap.alloc]⟩

/-- A program: construct IF4, make a step with the array of ones, make an array of zeros, evolve from the array of
ones, and overwrite the array that a last step has returned.  The first run is over the heap, and the other on values. -/
example (L : Vec (Fin 2)) (r : ℕ) (s1 : (CSSolver.if4 (.diag L)).HState) :
    let m := CSSolver.if4 (.diag L)
    let f := newNl fun w => w * w
    let a := (m.heapStep f 0 1 (m.heapNew demoHeap)).2
    let b := CSSolver.setHeap a ((CSSolver.heap a).alloc 0)
    let c := (m.heapEvolve f id true 10 0 0 1 (1 / 4) true 2 b).2
    m.heapStep f 0 1 c = (.ok r, s1) →
    ∃ s', m.Session f (total fun w => w * w) (CSSolver.setHeap s1 ((CSSolver.heap s1).write r 5)) s' := by
  intro m f a b c he
  have hf := newNl_clean fun w : Vec (Fin 2) => w * w
  have h0 : m.Session f (total fun w => w * w) (m.heapNew demoHeap) m.new := .new _
  have k0 : (CSSolver.heap (m.heapNew demoHeap)).Den 0 1 := demoHeap_new
  have ha : m.Session f (total fun w => w * w) a _ := .step 1 h0 k0
  have ka : (CSSolver.heap a).Den 0 1 := k0.mono (C63_step_cs hf h0 k0 1).1
  have hb : m.Session f (total fun w => w * w) b _ := .alloc 0 ha
  have kb : (CSSolver.heap b).Den 0 1 := by
    refine ka.mono ⟨Nat.le_succ _, fun x hx => ?_⟩
    have : x ≠ (CSSolver.heap a).next := hx.1.ne
    simpa [b, Heap.alloc, this] using hx.2
  have hc : m.Session f (total fun w => w * w) c _ := .evolve id true 10 0 1 (1 / 4) true 2 hb kb
  have kc : (CSSolver.heap c).Den 0 1 := kb.mono (C63_evolve_cs hf hb kb id true 10 0 1 (1 / 4) true 2).1
  have hd := CSSolver.Session.step 1 hc kc
  rw [he] at hd
  exact ⟨_, .write 5 hd (C63_returned_free_cs hf (newNl_fresh _) hc kc he)⟩

/-- `C63_lists_cs`, `C63_evolve_cs` for IF4 and a nonlinear function that spoils its work buffer: after `evolve` with
`store_data`, the stored arrays have the contents of the snapshots of the run on values. -/
example (L : Vec (Fin 2)) :
    let m := CSSolver.if4 (.diag L)
    let s := (m.heapEvolve (workNl fun w => w * w) id true 10 0 0 1 (1 / 4) true 2 (m.heapNew demoHeap)).2
    s.u.map (CSSolver.heap s).cell = (m.evolve (total fun w => w * w) id true 10 1 0 1 (1 / 4) true 2 m.new).2.u :=
  (C63_lists_cs (workNl_clean _) (.evolve id true 10 0 1 (1 / 4) true 2 (.new demoHeap) demoHeap_new)).2.1

/-- The same for ETDRK35 with a 2D operator; then a step: the array the caller gave is unchanged, and the step does what
the step on values does. -/
example (M : Mat (Fin 2)) (rnd : ℝ → ℝ) (cfg : SolverConfig ℝ) (e : ETDConfig ℝ) :
    let m := ASSolver.etd35 e (.full M)
    let f := workNl fun w => w * w
    let s := (m.heapEvolve f rnd true cfg 10 0 0 1 none true 2 (m.heapNew demoHeap)).2
    let s' := (m.evolve (total fun w => w * w) rnd true cfg 10 1 0 1 none true 2 m.new).2
    (s.u.map HArr.ref).map (ASSolver.heap s).cell = s'.u ∧
    (ASSolver.heap (m.heapStep f rnd cfg 0 1 s).2).cell 0 = 1 ∧
    ∀ v, (m.step (total fun w => w * w) rnd cfg 1 1 s').1 = .ok v →
      ∃ r, (m.heapStep f rnd cfg 0 1 s).1 = .ok r ∧ (ASSolver.heap (m.heapStep f rnd cfg 0 1 s).2).cell r.1.ref = v.1 ∧
        r.2 = v.2 := by
  intro m f s s'
  have hf := workNl_clean fun w : Vec (Fin 2) => w * w
  have h0 : m.Session f (total fun w => w * w) s s' :=
    .evolve rnd true cfg 10 0 1 none true 2 (.new demoHeap) demoHeap_new
  have k0 : (ASSolver.heap s).Den 0 1 :=
    Heap.Den.mono (C63_evolve_as hf (.new demoHeap) demoHeap_new rnd true cfg 10 0 1 none true 2).1 demoHeap_new
  refine ⟨(C63_lists_as hf h0).2.1, ?_, fun v hv => ?_⟩
  · exact ((k0.mono (C63_step_as hf h0 k0 rnd cfg 1).1)).2
  · have h1 := (C63_step_as hf h0 k0 rnd cfg 1).2
    rw [hv] at h1
    rcases hr : (m.heapStep f rnd cfg 0 1 s).1 with e | r
    · rw [hr] at h1; exact h1.elim
    · rw [hr] at h1
      exact ⟨r, rfl, h1.1.2, h1.2.2⟩

/-- `C63_first_snapshot_cs`. -/
example (L : Vec (Fin 2)) :
    let m := CSSolver.if4 (.diag L)
    (m.heapEvolve (newNl fun w => w * w) id true 10 0 0 1 (1 / 4) true 2 (m.heapNew demoHeap)).2.u.head? = some 0 :=
  C63_first_snapshot_cs ..

/-- `C63_returned_needed_cs`: the step with `lambda u: u` succeeds. -/
example (L : Vec (Fin 2)) :
    let m := CSSolver.if4 (.diag L)
    ∃ r s1, m.heapStep sameNl 0 1 (m.heapNew demoHeap) = (.ok r, s1) ∧ CSSolver.Needs s1 r := by
  intro m
  have h1 := (C63_step_cs (sameNl_clean) (m := m) (.new demoHeap) demoHeap_new 1).2
  obtain ⟨v, hv⟩ : ∃ v, (m.step (total id) 1 1 m.new).1 = .ok v := by
    rw [m.step_new _ _ _ zero_le_one]
    exact m.oneStep_total _ (fun x => ⟨x, rfl⟩) 1 trivial 1
  rw [hv] at h1
  rcases hr : m.heapStep sameNl 0 1 (m.heapNew demoHeap) with ⟨e | r, s1⟩
  · rw [hr] at h1; exact h1.elim
  · exact ⟨r, s1, rfl, C63_returned_needed_cs m hr⟩

/-! ### C64: a reused output buffer -/

/-- What the invariant of `ASSolver.buffer` gives for every state of a program. -/
theorem ASSolver.Uses.inv {m : ASSolver ι} {I : Wrap (HMethod m.Coef ι) → Prop}
    (h1 : ∀ s, s.n1init = false → I s) (h2 : ∀ s H, I s → I { s with method := { s.method with heap := H } })
    (h3 : ∀ s, ((m.heapCls f).reset s).n1init = false)
    (h4 : ∀ u h a s, I s → I ((m.heapCls f).updateStages u h a s).2 ∧
        ∀ p, ((m.heapCls f).updateStages u h a s).1 = .ok p → ∀ cfg x, (m.heapCls f).computeS cfg p.1 p.2 ≠ .fin x)
    {s : m.HState} (hs : m.Uses f s) : I s.sub := by
  induction hs with
  | new H => exact h1 _ rfl
  | step rnd cfg u h _ ih => exact (ASClass.step_never (m.heapCls f) rnd cfg (ASSolver.argArr u) (h4 _) h _ ih).1
  | evolve rnd pyDiv cfg fuel u t0 tf hInit storeData freq _ ih =>
    exact (ASClass.evolve_never (m.heapCls f) rnd pyDiv cfg fuel (ASSolver.argArr u) t0 tf hInit storeData freq (h4 _) _
      (h1 _ (h3 _))).1
  | reset _ ih => exact h1 _ (h3 _)
  | caller H _ ih => exact h2 _ _ ih

/-- **C64.** IF34, ETD34 and ETD35 (1D operator, or 2D and not diagonalized) with a nonlinear function that returns the
same array every time: no step ever succeeds, whatever the function computes and whatever the settings.  (The estimate of
the error is a difference of that array with itself, hence 0, and the factor is not finite.) -/
theorem C64_step {m : ASSolver ι} (hm : m.Direct) {b : ℕ} (hf : BufferNl b f) {s : m.HState} (hs : m.Uses f s)
    (rnd : ℝ → ℝ) (cfg : SolverConfig ℝ) (u : ℕ) (dt : ℝ) : ∃ e, (m.heapStep f rnd cfg u dt s).1 = .error e := by
  obtain ⟨I, h1, h2, h3, h4⟩ := ASSolver.buffer hm hf
  exact (ASClass.step_never (m.heapCls f) rnd cfg (ASSolver.argArr u) (h4 _) dt s
    (ASSolver.Uses.inv h1 h2 h3 h4 hs)).2

/-- **C64.** Every `evolve` over a nonempty interval raises an exception (from any state). -/
theorem C64_evolve {m : ASSolver ι} (hm : m.Direct) {b : ℕ} (hf : BufferNl b f) (s : m.HState) (rnd : ℝ → ℝ)
    (pyDiv : Bool) (cfg : SolverConfig ℝ) (fuel : ℕ) (hfuel : 0 < fuel) (u : ℕ) (t0 tf : ℝ) (ht : t0 < tf)
    (hInit : Option ℝ) (storeData : Bool) (freq : ℤ) :
    ∃ e, (m.heapEvolve f rnd pyDiv cfg fuel u t0 tf hInit storeData freq s).1 = .error e := by
  obtain ⟨I, h1, h2, h3, h4⟩ := ASSolver.buffer hm hf
  exact (ASClass.evolve_never (m.heapCls f) rnd pyDiv cfg fuel (ASSolver.argArr u) t0 tf hInit storeData freq (h4 _) s
    (h1 _ (h3 _))).2 ht hfuel

/-- **C64.** A step of IF4 with such a function does not fail: it returns wrong numbers.  All four stage values are the
last one computed, so that the result is as given here (the step on values would be as in `C16`). -/
theorem C64_if4 (L : Vec ι) (g : Vec ι → Vec ι) (H : Heap ι) {u b : ℕ} (hu : u < H.next) (hb : b < H.next) (hub : u ≠ b)
    {h : ℝ} (hh : 0 ≤ h) :
    let w := H.cell u
    let E : Vec ι := fun i => Complex.exp (h * L i)
    let E2 : Vec ι := fun i => Complex.exp (h * L i / 2)
    let k2 := E2 * w + bc h * E2 * g w / 2
    let k3 := E2 * w + bc h * g k2 / 2
    let k4 := E * w + bc h * E2 * g k3
    let q := (CSSolver.if4 (.diag L)).heapStep (bufferNl b (total g)) u h ((CSSolver.if4 (.diag L)).heapNew H)
    ∃ r, q.1 = .ok r ∧ (CSSolver.heap q.2).cell r = E * w + bc h * (E / 6 + 2 * E2 / 3 + 1 / 6) * g k4 := by
  intro w E E2 k2 k3 k4 q
  obtain ⟨r, s, h1, h2⟩ := IF4.updateStages_buffer L g H hu hb hub h (CSSolver.if4 (.diag L)).init.method.coef
  have hq : q = (.ok r, { (CSSolver.if4 (.diag L)).heapNew H with sub := s }) := by
    simp only [q, CSSolver.heapStep]
    rw [CSClass.step_apply _ _ hh]
    exact congrArg (fun p : Except PyErr ℕ × Wrap (HMethod (IFCoef (Vec ι)) ι) =>
      (p.1, { (CSSolver.if4 (.diag L)).heapNew H with sub := p.2 })) h1
  rw [hq]
  exact ⟨_, rfl, h2⟩

theorem bufferNl_buffer (b : ℕ) (nl : NlFunc ι) : BufferNl b (bufferNl b nl) := by
  intro r H r' h
  rw [bufferNl] at h
  split at h <;> cases h
  rfl

/-- `C64_step` and `C64_evolve`: ETDRK35 with a nonlinear function that computes into the array at address 1 and returns
it.  On values the equation is `u' = L u + u²`. -/
example (L : Vec (Fin 2)) (rnd : ℝ → ℝ) (cfg : SolverConfig ℝ) (e : ETDConfig ℝ) :
    let m := ASSolver.etd35 e (.diag L)
    let f := bufferNl 1 (total fun w => w * w)
    (∃ e, (m.heapStep f rnd cfg 0 (1 / 8) (m.heapNew demoHeap)).1 = .error e) ∧
    ∃ e, (m.heapEvolve f rnd true cfg 10 0 0 1 none true 1 (m.heapNew demoHeap)).1 = .error e :=
  ⟨C64_step (m := .etd35 e (.diag L)) trivial (bufferNl_buffer 1 _) (.new _) rnd cfg 0 (1 / 8),
    C64_evolve (m := .etd35 e (.diag L)) trivial (bufferNl_buffer 1 _) _ rnd true cfg 10 (by decide) 0 0 1 one_pos none true 1⟩

/-- `C64_if4` for `u' = u`, with the identity as nonlinear function and linear part 0: the result is
`(1 + h + h² + h³/2 + h⁴/4) u`, which is not even of second order, where the classical method gives
`(1 + h + h²/2 + h³/6 + h⁴/24) u`. -/
example {h : ℝ} (hh : 0 ≤ h) :
    let m := CSSolver.if4 (.diag (0 : Vec (Fin 1)))
    let q := m.heapStep (bufferNl 1 (total id)) 0 h (m.heapNew demoHeap)
    ∃ r, q.1 = .ok r ∧ (CSSolver.heap q.2).cell r = bc (1 + h + h ^ 2 + h ^ 3 / 2 + h ^ 4 / 4 : ℂ) := by
  intro m q
  obtain ⟨r, h1, h2⟩ := C64_if4 (0 : Vec (Fin 1)) id demoHeap (u := 0) (b := 1) Nat.zero_lt_two Nat.one_lt_two
    zero_ne_one hh
  refine ⟨r, h1, h2.trans ?_⟩
  funext i
  simp [demoHeap, bc]
  ring

/-- The first step of IF34 from the array `1` at address 0. -/
example (L : Vec (Fin 2)) (cfg : SolverConfig ℝ) (r : HArr (Fin 2) × ℝ × ℝ) (s1 : (ASSolver.if34 (.diag L)).HState)
    (he : (ASSolver.if34 (.diag L)).heapStep (newNl fun w => w * w) id cfg 0 1 ((ASSolver.if34 (.diag L)).heapNew demoHeap) =
      (.ok r, s1)) : ¬ ASSolver.Needs s1 r.1.ref :=
  C63_returned_free_as (newNl_clean _) (newNl_fresh _) (.new demoHeap) demoHeap_new he

end Verif
