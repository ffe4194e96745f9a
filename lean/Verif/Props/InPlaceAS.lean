import Verif.Lemmas.InPlaceEvolve
import Verif.Lemmas.Witness
import Verif.Props.InPlace

/-!
# C90: adaptive solvers with a nonlinear function that works in place
-/

set_option linter.unusedSectionVars false

namespace Verif

open Matrix Attr

variable {ι : Type} [Fintype ι] [DecidableEq ι]

theorem ASSolver.heapCls_reset (m : ASSolver ι) (f : HeapNl ι) (H : Heap ι) :
    (m.heapCls f).reset (m.heapNew H).sub = (m.heapNew H).sub := by
  rcases m with (L | L | ⟨l, S, T, hS⟩) | ⟨cfg, L | L | ⟨l, S, T, hS⟩⟩ | ⟨cfg, L | L | ⟨l, S, T, hS⟩⟩ | L <;> rfl

/-- **C90.** The first `step` of a new adaptive solver object when `nl_func` overwrites its argument and returns it.  The outcome
is that of the documented control of the step size for the distorted trials from `g(w)`, where `w` was in the caller's array; if an
array is returned, its contents are those named there, the caller's array holds `g(w)`, and no other array of the caller is
changed. -/
theorem C90_adaptive_first (m : ASSolver ι) (g : Vec ι → Vec ι) (H : Heap ι) {u : ℕ} (hu : u < H.next) (rnd : ℝ → ℝ)
    (cfg : SolverConfig ℝ) {h : ℝ} (hh : 0 ≤ h) :
    let z : Bent ι := ⟨g (H.cell u), g (H.cell u), H.cell u⟩
    let q := m.heapStep (inPlaceNl g) rnd cfg u h (m.heapNew H)
    (∀ e, q.1 = .error e → StepSpec (m.bentTrial g) (m.bentFactor g cfg) cfg rnd z h (.error e)) ∧
    ∀ r h' hs, q.1 = .ok (r, h', hs) →
      ∃ b, StepSpec (m.bentTrial g) (m.bentFactor g cfg) cfg rnd z h (.ok (b, h', hs)) ∧ (ASSolver.heap q.2).cell r.ref = b.out ∧
        r.ref ≠ u ∧ (ASSolver.heap q.2).cell u = g (H.cell u) ∧
        ∀ a, a < H.next → a ≠ u → (ASSolver.heap q.2).cell a = H.cell a := by
  intro z q
  obtain ⟨o, o1, o2⟩ := m.step_inPlace g rnd cfg (ASSolver.argArr u) z hh (m.heapNew H) (.start m g H hu _)
  change m.Outcome g _ u z q o at o2
  rcases o with e | ⟨b, h1, h2⟩
  · have hq : q.1 = .error e := o2
    refine ⟨fun e' he => ?_, fun r h' hs he => ?_⟩
    · rw [hq] at he; cases he; exact o1
    · rw [hq] at he; cases he
  · obtain ⟨r1, q1, q2, q3, q4, q5, q6, q7, q8, q9, q10⟩ := o2
    refine ⟨fun e' he => ?_, fun r h' hs he => ?_⟩
    · rw [q1] at he; cases he
    · rw [q1] at he
      cases he
      have hn : (ASSolver.heap (m.heapNew H)).next = H.next + 1 := rfl
      rw [hn] at q4 q10
      refine ⟨b, o1, q3.trans q2, by omega, q8, fun a ha hau => ?_⟩
      rw [q10 a (by omega) hau]
      have : a ≠ H.next := ha.ne
      simp [ASSolver.heap, ASSolver.heapNew, ASClass.fresh, Heap.alloc, this]

/-- **C90.** A run of `evolve` of an adaptive solver that returns an array.  It consists of distorted steps (`AdaptiveRun` says how
sizes and times follow).  `solver.t` holds the times as usual.  The arrays in `solver.u`, looked at after the run, hold the
`snapshot`s: the first one, which is the caller's array, holds `g(w)` and not the initial condition `w`, and for ETD35 each one
that a step started from holds `g(v)` and not the result `v` of the step that returned it. -/
theorem C90_adaptive_evolve (m : ASSolver ι) (g : Vec ι → Vec ι) (H : Heap ι) {u : ℕ} (hu : u < H.next) (rnd : ℝ → ℝ) (pyDiv : Bool)
    (cfg : SolverConfig ℝ) (fuel : ℕ) {t0 tf : ℝ} (ht : t0 < tf) (hInit : Option ℝ) (storeData : Bool) (freq : ℤ)
    {r : HArr ι} {s : m.HState}
    (hr : m.heapEvolve (inPlaceNl g) rnd pyDiv cfg fuel u t0 tf hInit storeData freq (m.heapNew H) = (.ok (some r), s)) :
    ∃ (n : ℕ) (tm : ℕ → ℝ) (st : ℕ → Bent ι) (hp hu : ℕ → ℝ), 0 < n ∧ tm 0 = t0 ∧
      st 0 = ⟨g (H.cell u), g (H.cell u), H.cell u⟩ ∧ hp 0 = ASClass.firstSize rnd t0 tf hInit ∧
      AdaptiveRun (m.bentTrial g) (m.bentFactor g cfg) cfg rnd tf n tm st hp hu ∧ tf ≤ tm n ∧
      (ASSolver.heap s).cell r.ref = (st n).out ∧ (ASSolver.heap s).cell u = g (H.cell u) ∧
      s.t = (if storeData then (storedUpTo freq n).map tm else []) ∧
      s.u.map (fun a => (ASSolver.heap s).cell a.ref) = (if storeData then (storedUpTo freq n).map (Bent.snapshot st n) else []) ∧
      ∀ a, a < H.next → a ≠ u → (ASSolver.heap s).cell a = H.cell a := by
  rw [ASSolver.heapEvolve, ASClass.evolve_apply] at hr
  set s0 := (m.heapCls (inPlaceNl g)).start (ASSolver.argArr u) t0 tf storeData (m.heapNew H) with hs0
  have h00 : s0.sub = (m.heapNew H).sub := m.heapCls_reset _ _
  have hH : ASSolver.heap s0 = H.alloc 0 := congrArg (fun w => w.method.heap) h00
  have hi : m.InState g s0.sub s0.accept u ⟨g (H.cell u), g (H.cell u), H.cell u⟩ := by
    rw [h00]; exact ASSolver.InState.start m g H hu _
  obtain ⟨n, tm, st, hp, hus, l, i1, i2, i3, i4, i5, i6, i7, i8, i9, i10, i11, i12⟩ :=
    m.loop_inPlace g rnd pyDiv cfg storeData freq fuel (ASSolver.argArr u) _ 0 s0
      ⟨g (H.cell u), g (H.cell u), H.cell u⟩ r s hi hr
  have hn : 0 < n := by
    by_contra h0
    obtain rfl : n = 0 := by omega
    rw [i1] at i5
    exact i5 ht
  obtain ⟨j1, j2⟩ := i10 hn
  refine ⟨n, tm, st, hp, hus, hn, i1, i2, i3, i4, not_lt.mp i5, j2, j1, ?_, ?_, fun a ha hau => ?_⟩
  · rw [i6]; exact start_listsAS _ _ _ _ _ i1
  · rw [i7, List.map_append, i8, ← start_listsAS storeData freq n (Bent.snapshot st n) _ rfl]
    congr 1
    have h0 : Bent.snapshot st n 0 = g (H.cell u) := by simp [Bent.snapshot, hn, i2]
    rw [h0]
    cases storeData with
    | false => rfl
    | true => exact congrArg (fun x => [x]) j1
  · have : a ≠ H.next := ha.ne
    rw [i12 a (by rw [hH]; simp only [Heap.alloc]; omega) hau, hH]
    simp [Heap.alloc, this]

/-- Solvers that call `nl_func` with arrays of their own and reuse the last stage: IF34 and ETD34 with `diagonalize=True`. -/
def ASSolver.Own : ASSolver ι → Prop
  | if34 (.eig _ _ _ _) => True
  | etd34 _ (.eig _ _ _ _) => True
  | _ => False

/-- A trial that starts properly is a proper one. -/
theorem ASSolver.bentTrial_own (m : ASSolver ι) (hm : m.Own) (g : Vec ι → Vec ι) (h : ℝ) (x w : Vec ι) :
    m.bentTrial g h ⟨x, g x, w⟩ =
      (m.oneTrial (total g) h x).map fun r => (⟨r.1, g r.1, r.1⟩, ⟨r.2, r.2, r.2⟩) := by
  have h0 : (m.method h).E 0 = 1 := by
    rcases m with (L | L | ⟨l, S, T, hS⟩) | ⟨cfg, L | L | ⟨l, S, T, hS⟩⟩ | ⟨cfg, L | L | ⟨l, S, T, hS⟩⟩ | L
    all_goals first | exact absurd hm id | skip
    · exact (IF34.rawDiagonalized l S T hS (total g)).first h
    · exact (ETD34.rawDiagonalized cfg l S T hS (total g)).first h
  have hb : ∀ y, m.bentAfter g y = ⟨y, g y, y⟩ := by
    rcases m with (L | L | ⟨l, S, T, hS⟩) | ⟨cfg, L | L | ⟨l, S, T, hS⟩⟩ | ⟨cfg, L | L | ⟨l, S, T, hS⟩⟩ | L
    all_goals first | exact absurd hm id | exact fun _ => rfl
  have hn : (fun w => .ok (m.op.prj (g (m.op.emb w))) : NlFunc ι) = fun w => (total g (m.op.emb w)).map m.op.prj := rfl
  rw [bentTrial, oneTrial]
  split
  · rw [hn, ERK.step_eq_stepFrom _ _ _ (m.op.prj (g x)) h0 (by simp only [total, Except.map, m.emb_prj])]
    cases (m.method h).stepFrom (fun w => (total g (m.op.emb w)).map m.op.prj) (m.op.prj (g x)) (m.op.prj x) with
    | error e => rfl
    | ok r => simp only [Except.map, hb]
  · rfl

theorem ASSolver.bent_own (m : ASSolver ι) (hm : m.Own) (g : Vec ι → Vec ι) (rnd : ℝ → ℝ) (cfg : SolverConfig ℝ) {h : ℝ} (hh : 0 ≤ h)
    (x w : Vec ι) {b : Bent ι} {h' hs : ℝ}
    (hb : StepSpec (m.bentTrial g) (m.bentFactor g cfg) cfg rnd ⟨x, g x, w⟩ h (.ok (b, h', hs))) :
    (m.step (total g) rnd cfg x h m.new).1 = .ok (b.out, h', hs) ∧ b = ⟨b.out, g b.out, b.out⟩ := by
  have trial : ∀ {h r}, m.bentTrial g h ⟨x, g x, w⟩ = .ok r → ∃ y, m.oneTrial (total g) h x = .ok y ∧
      r = (⟨y.1, g y.1, y.1⟩, ⟨y.2, y.2, y.2⟩) := by
    intro h r hr
    rw [m.bentTrial_own hm] at hr
    cases hy : m.oneTrial (total g) h x with
    | error e => rw [hy] at hr; cases hr
    | ok y => rw [hy] at hr; exact ⟨y, rfl, (Except.ok.inj hr).symm⟩
  have rej : ∀ {j h h'}, RejectsTo (m.bentTrial g) (m.bentFactor g cfg) cfg rnd ⟨x, g x, w⟩ j h h' →
      RejectsTo (m.oneTrial (total g)) (m.factor (total g) cfg) cfg rnd x j h h' := by
    intro j h h' hr
    induction hr with
    | zero h => exact .zero h
    | succ _ h2 h3 h4 ih =>
      obtain ⟨y, hy, rfl⟩ := trial h2
      exact .succ ih hy h3 h4
  rw [← m.stepSpec_iff _ _ _ _ _ hh]
  generalize ho : (Except.ok (b, h', hs) : Except PyErr (Bent ι × ℝ × ℝ)) = o at hb
  cases hb with
  | accept h1 h2 h3 h4 h5 =>
    obtain ⟨y, hy, rfl⟩ := trial h3
    simp only [Except.ok.injEq, Prod.mk.injEq] at ho
    obtain ⟨rfl, rfl, rfl⟩ := ho
    exact ⟨.accept h1 (rej h2) hy h4 h5, rfl⟩
  | minStep => cases ho
  | maxLoops => cases ho
  | raised => cases ho

theorem ASSolver.own_run (m : ASSolver ι) (hm : m.Own) (g : Vec ι → Vec ι) (rnd : ℝ → ℝ) (cfg : SolverConfig ℝ) {tf : ℝ} {n : ℕ}
    {tm : ℕ → ℝ} {st : ℕ → Bent ι} {hp hu : ℕ → ℝ}
    (hr : AdaptiveRun (m.bentTrial g) (m.bentFactor g cfg) cfg rnd tf n tm st hp hu) (k : ℕ) (hk : k + 1 < n) :
    ∃ hs, (m.step (total g) rnd cfg (st (k + 1)).out (hp (k + 1)) m.new).1 = .ok ((st (k + 2)).out, hu (k + 1), hs) ∧
      tm (k + 2) = rnd (tm (k + 1) + hu (k + 1)) ∧ hp (k + 2) = limitTo rnd (tm (k + 2)) tf hs := by
  have key : ∀ k, k < n → ∃ x, st (k + 1) = ⟨x, g x, x⟩ := by
    intro k hk
    obtain ⟨-, hs, h1, -⟩ := hr.step k hk
    generalize ho : (Except.ok (st (k + 1), hu k, hs) : Except PyErr (Bent ι × ℝ × ℝ)) = o at h1
    cases h1 with
    | @accept j h' x r _ _ h3 _ _ =>
      simp only [Except.ok.injEq, Prod.mk.injEq] at ho
      rw [ho.1]
      rw [ASSolver.bentTrial] at h3
      split at h3
      · cases hq : (m.method h').stepFrom (fun w => .ok (m.op.prj (g (m.op.emb w)))) (m.op.prj (st k).first) (m.op.prj (st k).start) with
        | error e => rw [hq] at h3; cases h3
        | ok y =>
          rw [hq] at h3
          refine ⟨m.op.emb y.1, ?_⟩
          rw [← Except.ok.inj h3]
          rcases m with (L | L | ⟨l, S, T, hS⟩) | ⟨cfg, L | L | ⟨l, S, T, hS⟩⟩ | ⟨cfg, L | L | ⟨l, S, T, hS⟩⟩ | L
          all_goals first | exact absurd hm id | rfl
      · cases h3
    | minStep => cases ho
    | maxLoops => cases ho
    | raised => cases ho
  obtain ⟨hh, hs, h1, h2, h3⟩ := hr.step (k + 1) hk
  obtain ⟨x, hx⟩ := key k (by omega)
  rw [hx] at h1 ⊢
  exact ⟨hs, (m.bent_own hm g rnd cfg hh x x h1).1, h2, h3⟩

/-- **C90.** IF34 and ETD34 with `diagonalize=True`: in a run that returns an array, all steps but the first are those of a new
solver object with a proper nonlinear function. -/
theorem C90_adaptive_own (m : ASSolver ι) (hm : m.Own) (g : Vec ι → Vec ι) (H : Heap ι) {u : ℕ} (hu : u < H.next) (rnd : ℝ → ℝ)
    (pyDiv : Bool) (cfg : SolverConfig ℝ) (fuel : ℕ) {t0 tf : ℝ} (ht : t0 < tf) (hInit : Option ℝ) (storeData : Bool) (freq : ℤ)
    {r : HArr ι} {s : m.HState}
    (hr : m.heapEvolve (inPlaceNl g) rnd pyDiv cfg fuel u t0 tf hInit storeData freq (m.heapNew H) = (.ok (some r), s)) :
    ∃ (n : ℕ) (tm : ℕ → ℝ) (x : ℕ → Vec ι) (hp hu : ℕ → ℝ), 0 < n ∧ tf ≤ tm n ∧ (ASSolver.heap s).cell r.ref = x n ∧
      (∃ b hs, StepSpec (m.bentTrial g) (m.bentFactor g cfg) cfg rnd ⟨g (H.cell u), g (H.cell u), H.cell u⟩
        (ASClass.firstSize rnd t0 tf hInit) (.ok (b, hu 0, hs)) ∧ b.out = x 1 ∧ tm 1 = rnd (t0 + hu 0) ∧
        hp 1 = limitTo rnd (tm 1) tf hs) ∧
      ∀ k, 0 < k → k < n → ∃ hs, (m.step (total g) rnd cfg (x k) (hp k) m.new).1 = .ok (x (k + 1), hu k, hs) ∧
        tm (k + 1) = rnd (tm k + hu k) ∧ hp (k + 1) = limitTo rnd (tm (k + 1)) tf hs := by
  obtain ⟨n, tm, st, hp, hus, h0, h1, h2, h3, h4, h5, h6, -⟩ := C90_adaptive_evolve m g H hu rnd pyDiv cfg fuel ht hInit storeData freq hr
  refine ⟨n, tm, fun k => (st k).out, hp, hus, h0, h5, h6, ?_, fun k hk hkn => ?_⟩
  · obtain ⟨-, hs, k1, k2, k3⟩ := h4.step 0 h0
    rw [h2, h3] at k1
    rw [h1] at k2
    exact ⟨st 1, hs, k1, rfl, k2, k3⟩
  · obtain ⟨k, rfl⟩ : ∃ j, k = j + 1 := ⟨k - 1, by omega⟩
    exact m.own_run hm g rnd cfg h4 k hkn

/-- A trial of IF34 for `u' = -u` with `np.negative(u, out=u)`. -/
theorem demo_bent (w : Vec (Fin 1)) : demo.bentTrial (fun x => -x) 1 ⟨-1, -1, w⟩ =
    .ok (⟨bc (11 / 24 : ℂ), bc (11 / 24 : ℂ), bc (11 / 24 : ℂ)⟩, ⟨bc (7 / 144 : ℂ), bc (7 / 144 : ℂ), bc (7 / 144 : ℂ)⟩) := by
  have hc : demo.CoefOk 1 := trivial
  have key : (demo.method 1).stepFrom (fun w => .ok (demo.op.prj (-demo.op.emb w))) (demo.op.prj (-1)) (demo.op.prj (-1)) =
      .ok (-bc (11 / 24 : ℂ), bc (7 / 144 : ℂ)) := by
    simp only [demo, ASSolver.method, ASSolver.op, ASOp.inner, ASOp.emb, ASOp.prj, LinOp.mat, lawson, expm_zeroMat, rk4, ERK.stepFrom,
      ERK.stagesFrom, ERK.arg, ERK.out, ERK.err, Finset.sum_range_succ, Finset.sum_range_zero, id, smul_mulVec, one_mulVec, Function.update]
    simp
    constructor <;> (funext i; simp [bc]; norm_num)
  rw [ASSolver.bentTrial, if_pos hc]
  change Except.map _ ((demo.method 1).stepFrom (fun w => .ok (demo.op.prj (-demo.op.emb w))) (demo.op.prj (-1)) (demo.op.prj (-1))) = _
  rw [key]
  change Except.ok (demo.bentAfter (fun x => -x) (-bc (11 / 24 : ℂ)), _) = _
  rw [show demo.bentAfter (fun x => -x) (-bc (11 / 24 : ℂ)) = ⟨- -bc (11 / 24 : ℂ), - -bc (11 / 24 : ℂ), - -bc (11 / 24 : ℂ)⟩ from rfl,
    neg_neg]

theorem demo_bent_step (w : Vec (Fin 1)) : ∃ hs, StepSpec (demo.bentTrial fun x => -x) (demo.bentFactor (fun x => -x) demoCfg) demoCfg id
    ⟨-1, -1, w⟩ 1 (.ok (⟨bc (11 / 24 : ℂ), bc (11 / 24 : ℂ), bc (11 / 24 : ℂ)⟩, 1, hs)) := by
  have hf : demo.bentFactor (fun x => -x) demoCfg
      (⟨bc (11 / 24 : ℂ), bc (11 / 24 : ℂ), bc (11 / 24 : ℂ)⟩, ⟨bc (7 / 144 : ℂ), bc (7 / 144 : ℂ), bc (7 / 144 : ℂ)⟩) =
      .fin ((66 / 7 : ℝ) ^ ((1 : ℝ) / 4)) := by
    have := factor_one 4 demoCfg (by norm_num [demoCfg]) (by norm_num [demoCfg]) (bc (11 / 24 : ℂ)) (bc (7 / 144 : ℂ))
      (by norm_num [bc]) (by norm_num [bc])
    change computeS 4 demoCfg _ _ = _
    rw [this]
    norm_num [demoCfg, bc]
  exact ⟨_, .accept (j := 0) (by norm_num) (.zero 1) (demo_bent w) hf (Real.one_le_rpow (by norm_num) (by norm_num))⟩

/-- A run of one step. -/
theorem ASClass.evolve_once {V Sub : Type} (C : ASClass ℝ V Sub) {cfg : SolverConfig ℝ} {u r : V} {s : ASState ℝ V Sub} {hs : ℝ}
    (hr : (C.step id cfg u 1 (C.start u 0 1 true s)).1 = .ok (r, 1, hs)) :
    ∃ s', C.evolve id true cfg 2 u 0 1 (some 1) true 1 s = (.ok (some r), s') := by
  have h1 : ASClass.firstSize (K := ℝ) id 0 1 (some 1) = 1 := by norm_num [ASClass.firstSize, limitTo]
  have h3 : (C.start u 0 1 true s).tc < (C.start u 0 1 true s).tf := zero_lt_one (α := ℝ)
  obtain ⟨p1, p2, p3, p4⟩ := ASClass.step_public (C := C) id cfg u 1 (C.start u 0 1 true s)
  rw [ASClass.evolve_apply, h1, ASClass.loop]
  simp only [PyM.bind_get_apply, h3, if_true]
  rw [PyM.bind_ok (Prod.ext hr rfl)]
  simp only [PyM.bind_modify_apply]
  rw [PyM.bind_ok (CSClass.progress_apply _ _ _ _ (by simp [CSClass.ProgressRaises]))]
  simp only [PyM.bind_get_apply]
  rw [PyM.bind_ok (ASClass.store_apply true 1 _ _ _ (by simp))]
  rw [ASClass.loop]
  simp only [PyM.bind_get_apply]
  rw [if_neg]
  · exact ⟨_, rfl⟩
  · show ¬ ((C.step id cfg u 1 (C.start u 0 1 true s)).2.tc + 1 < (C.step id cfg u 1 (C.start u 0 1 true s)).2.tf)
    rw [p3, p4]
    simp [ASClass.start]

theorem demo_bent_evolve : ∃ r s, demo.heapEvolve (inPlaceNl fun x => -x) id true demoCfg 2 0 0 1 (some 1) true 1 (demo.heapNew demoHeap) =
    (.ok (some r), s) := by
  set s0 := (demo.heapCls (inPlaceNl fun x => -x)).start (ASSolver.argArr 0) 0 1 true (demo.heapNew demoHeap) with hs0
  have h00 : s0.sub = (demo.heapNew demoHeap).sub := demo.heapCls_reset (inPlaceNl fun x => -x) _
  have hi : demo.InState (fun x => -x) s0.sub s0.accept 0 ⟨-1, -1, 1⟩ := by
    rw [h00]; exact ASSolver.InState.start demo (fun x => -x) demoHeap (u := 0) Nat.zero_lt_two 1
  obtain ⟨o, o1, o2⟩ := demo.step_inPlace (fun x => -x) id demoCfg (ASSolver.argArr 0) _ zero_le_one s0 hi
  obtain ⟨hs, h1⟩ := demo_bent_step 1
  rw [o1.det h1] at o2
  obtain ⟨r, h2, -⟩ := o2
  exact ⟨r, ASClass.evolve_once _ h2⟩

/-- `C90_adaptive_first`: IF34 for `u' = -u`, treated as nonlinear, with `def nl_func(u): np.negative(u, out=u); return u`, from the
caller's array of ones with size 1: the caller's array holds -1 afterwards and the result is 11/24 (the classical method gives
3/8). -/
example : let q := demo.heapStep (inPlaceNl fun x => -x) id demoCfg 0 1 (demo.heapNew demoHeap)
    ∃ r hs, q.1 = .ok (r, 1, hs) ∧ (ASSolver.heap q.2).cell r.ref = bc (11 / 24 : ℂ) ∧ (ASSolver.heap q.2).cell 0 = -1 := by
  intro q
  obtain ⟨h1, h2⟩ := C90_adaptive_first demo (fun x => -x) demoHeap (u := 0) Nat.zero_lt_two id demoCfg zero_le_one
  obtain ⟨hs, h3⟩ := demo_bent_step 1
  rcases hq : q.1 with e | ⟨r, h', hs'⟩
  · have := (h1 e hq).det h3
    cases this
  · obtain ⟨b, h4, h5, -, h6, -⟩ := h2 r h' hs' hq
    have := h4.det h3
    simp only [Except.ok.injEq, Prod.mk.injEq] at this
    obtain ⟨rfl, rfl, rfl⟩ := this
    exact ⟨r, hs', rfl, h5, h6⟩

/-- `C90_adaptive_evolve` on the same data: the run over `[0, 1]` returns; `solver.u[0]` is the caller's array and holds -1. -/
example : ∃ r s, demo.heapEvolve (inPlaceNl fun x => -x) id true demoCfg 2 0 0 1 (some 1) true 1 (demo.heapNew demoHeap) =
      (.ok (some r), s) ∧ (ASSolver.heap s).cell 0 = -1 ∧
    ∃ n, 0 < n ∧ s.t.length = (storedUpTo 1 n).length := by
  obtain ⟨r, s, hr⟩ := demo_bent_evolve
  obtain ⟨n, tm, st, hp, hu, h1, -, -, -, -, -, -, h8, h9, -⟩ :=
    C90_adaptive_evolve demo (fun x => -x) demoHeap (u := 0) Nat.zero_lt_two id true demoCfg 2 zero_lt_one (some 1) true 1 hr
  exact ⟨r, s, hr, h8, n, h1, by rw [h9]; simp⟩

/-- `C90_adaptive_own`: its hypotheses are met by IF34 with `diagonalize=True`, when such a run returns. -/
example (l : Vec (Fin 2)) (S T : Mat (Fin 2)) (hS : S * T = 1) (cfg : SolverConfig ℝ) (r : HArr (Fin 2)) (s)
    (hr : (ASSolver.if34 (.eig l S T hS)).heapEvolve (inPlaceNl fun x => x * x) id true cfg 200 0 0 1 none true 1
      ((ASSolver.if34 (.eig l S T hS)).heapNew demoHeap) = (.ok (some r), s)) :
    ∃ (n : ℕ) (x : ℕ → Vec (Fin 2)) (hp hu : ℕ → ℝ), 0 < n ∧ (ASSolver.heap s).cell r.ref = x n ∧
      ∀ k, 0 < k → k < n → ∃ hs, ((ASSolver.if34 (.eig l S T hS)).step (total fun x => x * x) id cfg (x k) (hp k)
        (ASSolver.if34 (.eig l S T hS)).new).1 = .ok (x (k + 1), hu k, hs) := by
  obtain ⟨n, tm, x, hp, hu, h1, -, h2, -, h3⟩ := C90_adaptive_own (.if34 (.eig l S T hS)) trivial (fun x => x * x) demoHeap (u := 0)
    Nat.zero_lt_two id true cfg 200 zero_lt_one none true 1 hr
  refine ⟨n, x, hp, hu, h1, h2, fun k hk hkn => ?_⟩
  obtain ⟨hs, h4, -⟩ := h3 k hk hkn
  exact ⟨hs, h4⟩

end Verif
