import Verif.Lemmas.HeapInPlace
import Verif.Props.Aliasing

/-!
# C90: a nonlinear function that works in place
-/

set_option linter.unusedSectionVars false

namespace Verif

open Matrix Attr

variable {ι : Type} [Fintype ι] [DecidableEq ι]

theorem CSSolver.heapStep_inPlace (m : CSSolver ι) (g : Vec ι → Vec ι) (s : m.HState) {u : ℕ} {z : Vec ι}
    (hs : m.InState g s.sub u z) {h : ℝ} (hh : 0 ≤ h) (hc : m.CoefOk h) :
    ∃ r s1 v e, m.heapStep (inPlaceNl g) u h s = (.ok r, s1) ∧
      (m.method h).stepFrom (total g) z z = .ok (v, e) ∧ m.InState g s1.sub r (g v) ∧ s1.sub.n1init = true ∧
      (CSSolver.heap s1).cell u = z ∧ (CSSolver.heap s).next ≤ r ∧
      ∀ a, a < (CSSolver.heap s).next → a ≠ u → (CSSolver.heap s1).cell a = (CSSolver.heap s).cell a := by
  obtain ⟨r, s1, v, e, h1, h2, h3, h4, h5, h6, h7⟩ := m.updateStages_inPlace g s.sub hs hc
  refine ⟨r, { s with sub := s1 }, v, e, ?_, h2, h3, h4, h5, h6, h7⟩
  rw [CSSolver.heapStep, CSClass.step_apply _ _ hh]
  exact congrArg (fun p : Except PyErr ℕ × Wrap (HMethod m.Coef ι) => (p.1, { s with sub := p.2 })) h1

theorem CSSolver.InState.start (m : CSSolver ι) (g : Vec ι → Vec ι) (H : Heap ι) {u : ℕ} (hu : u < H.next) :
    m.InState g (m.heapNew H).sub u (g (H.cell u)) := by
  have h1 : u ≠ H.next := hu.ne
  refine ⟨fun a => ?_, ?_, ?_, ?_, ?_⟩
  · simp [CSSolver.heapNew, CSClass.fresh, Heap.alloc]
  · simp [CSSolver.heapNew, CSClass.fresh, Heap.alloc]; omega
  · simp [CSSolver.heapNew, CSClass.fresh]
  · simp [CSSolver.heapNew, CSClass.fresh, Heap.alloc, h1]
  · simp [CSSolver.heapNew, CSClass.fresh]

/-- **C90.** The first step of a new solver object when `nl_func` overwrites its argument and returns it.  No exception is
raised.  The caller's array `w` is overwritten with `g(w)`.  The step is made from that, with the same array as the first
stage, and the array returned holds not the result `v` of the step but `g(v)`.  No other array of the caller is changed. -/
theorem C90_first (m : CSSolver ι) (g : Vec ι → Vec ι) (H : Heap ι) {u : ℕ} (hu : u < H.next) {h : ℝ} (hh : 0 ≤ h)
    (hc : m.CoefOk h) :
    let z := g (H.cell u)
    ∃ r s v e, m.heapStep (inPlaceNl g) u h (m.heapNew H) = (.ok r, s) ∧
      (m.method h).stepFrom (total g) z z = .ok (v, e) ∧ (CSSolver.heap s).cell r = g v ∧ r ≠ u ∧
      (CSSolver.heap s).cell u = z ∧ ∀ a, a < H.next → a ≠ u → (CSSolver.heap s).cell a = H.cell a := by
  intro z
  obtain ⟨r, s, v, e, h1, h2, h3, h4, h5, h6, h7⟩ := m.heapStep_inPlace g (m.heapNew H) (.start m g H hu) hh hc
  have hn : (CSSolver.heap (m.heapNew H)).next = H.next + 1 := rfl
  rw [hn] at h6 h7
  refine ⟨r, s, v, e, h1, h2, (h3.old h4).1, by omega, h5, fun a ha hau => ?_⟩
  rw [h7 a (by omega) hau]
  have : a ≠ H.next := ha.ne
  simp [CSSolver.heap, CSSolver.heapNew, CSClass.fresh, Heap.alloc, this]

/-- **C90.** Any sequence of steps, each from the array that the step before returned. -/
theorem C90_steps (m : CSSolver ι) (g : Vec ι → Vec ι) (H : Heap ι) {u : ℕ} (hu : u < H.next) (h : ℝ) (hs : List ℝ)
    (hok : ∀ h' ∈ h :: hs, 0 ≤ h' ∧ m.CoefOk h') :
    ∃ r s, m.heapSteps (inPlaceNl g) (h :: hs) u (m.heapNew H) = (.ok r, s) ∧
      m.Distorted g (h :: hs) (g (H.cell u)) ((CSSolver.heap s).cell r) ∧ (CSSolver.heap s).cell u = g (H.cell u) ∧
      ∀ a, a < H.next → a ≠ u → (CSSolver.heap s).cell a = H.cell a := by
  -- later steps
  have key : ∀ (hs : List ℝ) (s : m.HState) (r : ℕ) (z : Vec ι), (∀ h' ∈ hs, 0 ≤ h' ∧ m.CoefOk h') →
      m.InState g s.sub r z → s.sub.n1init = true →
      ∃ r' s', m.heapSteps (inPlaceNl g) hs r s = (.ok r', s') ∧ m.Distorted g hs z ((CSSolver.heap s').cell r') ∧
        ∀ a, a < (CSSolver.heap s).next → (CSSolver.heap s').cell a = (CSSolver.heap s).cell a := by
    intro hs
    induction hs with
    | nil =>
      intro s r z _ hi hn
      refine ⟨r, s, rfl, ?_, fun _ _ => rfl⟩
      have hz : (CSSolver.heap s).cell r = z := (hi.old hn).1
      rw [hz]
      exact .nil z
    | cons h hs ih =>
      intro s r z hok hi hn
      obtain ⟨r1, s1, v, e, h1, h2, h3, h4, h5, h6, h7⟩ := m.heapStep_inPlace g s hi (hok h (by simp)).1 (hok h (by simp)).2
      obtain ⟨r', s', k1, k2, k3⟩ := ih s1 r1 (g v) (fun h' hm => hok h' (by simp [hm])) h3 h4
      refine ⟨r', s', ?_, .cons h2 k2, fun a ha => ?_⟩
      · rw [CSSolver.heapSteps, PyM.bind_ok h1]; exact k1
      · have hlt : (CSSolver.heap s).next ≤ (CSSolver.heap s1).next := h6.trans h3.arg.le
        rw [k3 a (ha.trans_le hlt)]
        by_cases har : a = r
        · subst har
          rw [h5]
          exact (hi.old hn).1.symm
        · exact h7 a ha har
  obtain ⟨r1, s1, v, e, h1, h2, h3, h4, h5, h6, h7⟩ :=
    m.heapStep_inPlace g (m.heapNew H) (.start m g H hu) (hok h (by simp)).1 (hok h (by simp)).2
  have hn : (CSSolver.heap (m.heapNew H)).next = H.next + 1 := rfl
  rw [hn] at h6 h7
  have hr : r1 < (CSSolver.heap s1).next := h3.arg
  obtain ⟨r', s', k1, k2, k3⟩ := key hs s1 r1 (g v) (fun h' hm => hok h' (by simp [hm])) h3 h4
  refine ⟨r', s', ?_, .cons h2 k2, ?_, fun a ha hau => ?_⟩
  · rw [CSSolver.heapSteps, PyM.bind_ok h1]; exact k1
  · rw [k3 u (by omega)]; exact h5
  · rw [k3 a (by omega), h7 a (by omega) hau]
    have : a ≠ H.next := ha.ne
    simp [CSSolver.heap, CSSolver.heapNew, CSClass.fresh, Heap.alloc, this]

/-- One iteration of the loop of `evolve` that is part of a run that returns. -/
theorem CSClass.loop_returned {V Sub : Type} (C : CSClass ℝ V Sub) {rnd : ℝ → ℝ} {pyDiv : Bool} {h : ℝ} {storeData : Bool} {freq : ℤ}
    {fuel : ℕ} {u v r : V} {c : ℕ} {s s1 s' : CSState ℝ V Sub} (hlt : s.tc < s.tf) (hs : C.step u h s = (.ok v, s1))
    (hr : C.loop rnd pyDiv h storeData freq (fuel + 1) u c s = (.ok (some r), s')) :
    ∃ s2, C.loop rnd pyDiv h storeData freq fuel v (c + 1) s2 = (.ok (some r), s') ∧ s2.sub = s1.sub ∧
      (s2.u = s1.u ∨ s2.u = s1.u ++ [v]) := by
  rw [CSClass.loop] at hr
  simp only [PyM.bind_get_apply, hlt, if_true] at hr
  rw [PyM.bind_ok hs] at hr
  simp only [PyM.bind_modify_apply] at hr
  by_cases hp : CSClass.ProgressRaises pyDiv s.tf (c + 1)
  · rw [PyM.bind_error (CSClass.progress_raises pyDiv (c + 1) s.tf _ hp)] at hr
    cases hr
  · rw [PyM.bind_ok (CSClass.progress_apply pyDiv (c + 1) s.tf _ hp)] at hr
    by_cases hf : storeData = true → freq ≠ 0
    · rw [PyM.bind_ok (CSClass.store_apply storeData freq (c + 1) v _ hf)] at hr
      refine ⟨_, hr, ?_, ?_⟩
      · split <;> rfl
      · split
        · exact .inr rfl
        · exact .inl rfl
    · obtain ⟨h1, h2⟩ := _root_.not_imp.mp hf
      rw [PyM.bind_error (e := .zeroDivisionError) (s' := { s1 with tc := rnd (s1.tc + h) })
        (by simp [CSClass.store, h1, not_not.mp h2])] at hr
      cases hr

/-- **C90.** A run of `evolve` that returns an array, on any interval: if it made at least one step (`t0 < tf`), the caller's array
has been overwritten and the result comes from `n` distorted steps; so does every snapshot: the first one, which is the
caller's array, holds `g(w)` and not the initial condition `w`. -/
theorem C90_evolve (m : CSSolver ι) (g : Vec ι → Vec ι) (H : Heap ι) {u : ℕ} (hu : u < H.next) {h : ℝ} (hh : 0 ≤ h)
    (hc : m.CoefOk h) (rnd : ℝ → ℝ) (pyDiv : Bool) (fuel : ℕ) {t0 tf : ℝ} (ht : t0 < tf) (storeData : Bool) (freq : ℤ)
    {r : ℕ} {s : m.HState}
    (hr : m.heapEvolve (inPlaceNl g) rnd pyDiv fuel u t0 tf h storeData freq (m.heapNew H) = (.ok (some r), s)) :
    ∃ n, 0 < n ∧ m.Distorted g (List.replicate n h) (g (H.cell u)) ((CSSolver.heap s).cell r) ∧
      (CSSolver.heap s).cell u = g (H.cell u) ∧
      ∀ a ∈ s.u, ∃ j ≤ n, m.Distorted g (List.replicate j h) (g (H.cell u)) ((CSSolver.heap s).cell a) := by
  -- the loop, after the first step
  have key : ∀ (fuel : ℕ) (c : ℕ) (s : m.HState) (r : ℕ) (z : Vec ι) (r' : ℕ) (s' : m.HState),
      m.InState g s.sub r z → s.sub.n1init = true →
      (m.heapCls (inPlaceNl g)).loop rnd pyDiv h storeData freq fuel r c s = (.ok (some r'), s') →
      ∃ n l, m.Distorted g (List.replicate n h) z ((CSSolver.heap s').cell r') ∧ s'.u = s.u ++ l ∧
        (∀ a ∈ l, ∃ j ≤ n, m.Distorted g (List.replicate j h) z ((CSSolver.heap s').cell a)) ∧
        ∀ a, a < (CSSolver.heap s).next → (CSSolver.heap s').cell a = (CSSolver.heap s).cell a := by
    intro fuel
    induction fuel with
    | zero => intro c s r z r' s' _ _ hl; cases hl
    | succ fuel ih =>
      intro c s r z r' s' hi hn hl
      have hz : (CSSolver.heap s).cell r = z := (hi.old hn).1
      by_cases hlt : s.tc < s.tf
      · obtain ⟨r1, s1, v, e, h1, h2, h3, h4, h5, h6, h7⟩ := m.heapStep_inPlace g s hi hh hc
        obtain ⟨s2, k1, k2, k3⟩ := CSClass.loop_returned _ hlt h1 hl
        have hu1 : s1.u = s.u := by
          have := congrArg (fun p => p.2.u) h1
          rw [CSSolver.heapStep, CSClass.step_apply _ _ hh] at this
          exact this.symm
        have h2h : CSSolver.heap s2 = CSSolver.heap s1 := congrArg (fun w => w.method.heap) k2
        obtain ⟨n, l, q1, q2, q3, q4⟩ := ih (c + 1) s2 r1 (g v) r' s' (by rw [k2]; exact h3) (by rw [k2]; exact h4) k1
        have hlt1 : (CSSolver.heap s).next ≤ (CSSolver.heap s1).next := h6.trans h3.arg.le
        have hr1 : (CSSolver.heap s').cell r1 = g v := by
          rw [q4 r1 (by rw [h2h]; exact h3.arg), h2h]
          exact (h3.old h4).1
        have q3' : ∀ a ∈ l, ∃ j ≤ n + 1, m.Distorted g (List.replicate j h) z ((CSSolver.heap s').cell a) := by
          intro a ha
          obtain ⟨j, hj, hd⟩ := q3 a ha
          exact ⟨j + 1, by omega, .cons h2 hd⟩
        have q4' : ∀ a, a < (CSSolver.heap s).next → (CSSolver.heap s').cell a = (CSSolver.heap s).cell a := by
          intro a ha
          rw [q4 a (by rw [h2h]; omega), h2h]
          by_cases har : a = r
          · subst har; rw [h5, hz]
          · exact h7 a ha har
        rcases k3 with k3 | k3
        · exact ⟨n + 1, l, .cons h2 q1, by rw [q2, k3, hu1], q3', q4'⟩
        · refine ⟨n + 1, r1 :: l, .cons h2 q1, by rw [q2, k3, hu1]; simp, ?_, q4'⟩
          intro a ha
          rcases List.mem_cons.mp ha with rfl | ha
          · refine ⟨1, by omega, .cons h2 ?_⟩
            rw [hr1]
            exact .nil _
          · exact q3' a ha
      · rw [CSClass.loop_done _ _ _ _ _ _ _ _ _ hlt] at hl
        cases hl
        refine ⟨0, [], ?_, by simp, by simp, fun _ _ => rfl⟩
        rw [hz]
        exact .nil z
  rw [CSSolver.heapEvolve, CSClass.evolve_apply] at hr
  split at hr
  · cases hr
  cases fuel with
  | zero => cases hr
  | succ fuel =>
    set s0 := (m.heapCls (inPlaceNl g)).start u t0 tf storeData (m.heapNew H) with hs0
    have hi : m.InState g s0.sub u (g (H.cell u)) := CSSolver.InState.start m g H hu
    obtain ⟨r1, s1, v, e, h1, h2, h3, h4, h5, h6, h7⟩ := m.heapStep_inPlace g s0 hi hh hc
    obtain ⟨s2, k1, k2, k3⟩ := CSClass.loop_returned _ (show s0.tc < s0.tf from ht) h1 hr
    have h2h : CSSolver.heap s2 = CSSolver.heap s1 := congrArg (fun w => w.method.heap) k2
    obtain ⟨n, l, q1, q2, q3, q4⟩ := key fuel (0 + 1) s2 r1 (g v) r s (by rw [k2]; exact h3) (by rw [k2]; exact h4) k1
    have hu1 : s1.u = s0.u := by
      have := congrArg (fun p => p.2.u) h1
      rw [CSSolver.heapStep, CSClass.step_apply _ _ hh] at this
      exact this.symm
    have hr1 : (CSSolver.heap s).cell r1 = g v := by
      rw [q4 r1 (by rw [h2h]; exact h3.arg), h2h]
      exact (h3.old h4).1
    have hlt1 : (CSSolver.heap s0).next ≤ (CSSolver.heap s1).next := h6.trans h3.arg.le
    have hcu : (CSSolver.heap s).cell u = g (H.cell u) := by
      rw [q4 u (by rw [h2h]; exact hi.arg.trans_le hlt1), h2h]
      exact h5
    refine ⟨n + 1, by omega, .cons h2 q1, hcu, fun a ha => ?_⟩
    have hmem : a = u ∨ a = r1 ∨ a ∈ l := by
      have hs0u : a ∈ s0.u → a = u := by
        intro h
        rw [hs0, CSClass.start] at h
        cases storeData <;> simp_all
      rw [q2, List.mem_append] at ha
      rcases ha with ha | ha
      · rcases k3 with k3 | k3
        · rw [k3, hu1] at ha; exact .inl (hs0u ha)
        · rw [k3, hu1, List.mem_append, List.mem_singleton] at ha
          rcases ha with ha | ha
          · exact .inl (hs0u ha)
          · exact .inr (.inl ha)
      · exact .inr (.inr ha)
    rcases hmem with rfl | rfl | ha
    · refine ⟨0, by omega, ?_⟩
      rw [hcu]
      exact .nil _
    · refine ⟨1, by omega, .cons h2 ?_⟩
      rw [hr1]
      exact .nil _
    · obtain ⟨j, hj, hd⟩ := q3 a ha
      exact ⟨j + 1, by omega, .cons h2 hd⟩

/-- **C90.** The first step of IF4 with a 1D operator, written out. -/
theorem C90_if4 (L : Vec ι) (g : Vec ι → Vec ι) (H : Heap ι) {u : ℕ} (hu : u < H.next) {h : ℝ} (hh : 0 ≤ h) :
    let z := g (H.cell u)
    let E : Vec ι := fun i => Complex.exp (h * L i)
    let E2 : Vec ι := fun i => Complex.exp (h * L i / 2)
    let k2 := E2 * z + bc h * E2 * z / 2
    let k3 := E2 * z + bc h * g k2 / 2
    let k4 := E * z + bc h * E2 * g k3
    let q := (CSSolver.if4 (.diag L)).heapStep (inPlaceNl g) u h ((CSSolver.if4 (.diag L)).heapNew H)
    ∃ r, q.1 = .ok r ∧ (CSSolver.heap q.2).cell r =
      g (E * z + bc h * (E * z / 6 + E2 * g k2 / 3 + E2 * g k3 / 3 + g k4 / 6)) := by
  intro z E E2 k2 k3 k4 q
  obtain ⟨r, s, v, e, h1, h2, h3, -⟩ := C90_first (.if4 (.diag L)) g H hu hh trivial
  refine ⟨r, by rw [show q = _ from h1], ?_⟩
  rw [show q = _ from h1]
  refine h3.trans (congrArg g ?_)
  have hE : npExp (bc (h : ℂ) * L) = E := by funext i; simp [E, npExp, bc]
  have hE2 : npExp (bc (h : ℂ) * L / 2) = E2 := by funext i; simp [E2, npExp, bc]
  have hcf : ((CSSolver.if4 (.diag L)).law (total g)).coefs h = ⟨E, E2⟩ := by rw [← hE, ← hE2]; rfl
  obtain ⟨l1, -⟩ := ((CSSolver.if4 (.diag L)).law (total g)).stages z h ⟨⟨E, E2⟩, z, 0⟩ hcf.symm
  obtain ⟨n, hn, -⟩ := l1 _ h2
  exact (Except.ok.inj (congrArg Prod.fst hn)).symm

/-- `C90_first` for ETDRK4 with a 2D operator and `def nl_func(u): u *= u; return u`: the caller's array of ones and a step of
size 1/2 (when the contour points are such that the matrices are invertible). -/
example (cfg : ETDConfig ℝ) (L : Mat (Fin 2)) (hc : (CSSolver.etd4 cfg (.full L)).CoefOk (1 / 2)) :
    let m := CSSolver.etd4 cfg (.full L)
    ∃ r s v e, m.heapStep (inPlaceNl fun x => x * x) 0 (1 / 2) (m.heapNew demoHeap) = (.ok r, s) ∧
      (m.method (1 / 2)).stepFrom (total fun x => x * x) (1 * 1) (1 * 1) = .ok (v, e) ∧ (CSSolver.heap s).cell r = v * v := by
  obtain ⟨r, s, v, e, h1, h2, h3, -⟩ := C90_first (.etd4 cfg (.full L)) (fun x => x * x) demoHeap (u := 0) Nat.zero_lt_two
    (h := 1 / 2) (by norm_num) hc
  exact ⟨r, s, v, e, h1, h2, h3⟩

/-- `C90_if4` for `u' = -u`, with `def nl_func(u): np.negative(u, out=u); return u` and linear part 0.  The caller's array of
ones becomes -1.  The result is `1 - 2h/3 + h²/6 - h⁴/24`, where the classical method gives `1 - h + h²/2 - h³/6 + h⁴/24`. -/
example {h : ℝ} (hh : 0 ≤ h) :
    let m := CSSolver.if4 (.diag (0 : Vec (Fin 1)))
    let q := m.heapStep (inPlaceNl fun x => -x) 0 h (m.heapNew demoHeap)
    ∃ r, q.1 = .ok r ∧ (CSSolver.heap q.2).cell r = bc (1 - 2 * h / 3 + h ^ 2 / 6 - h ^ 4 / 24 : ℂ) := by
  intro m q
  obtain ⟨r, h1, h2⟩ := C90_if4 (0 : Vec (Fin 1)) (fun x => -x) demoHeap (u := 0) Nat.zero_lt_two hh
  refine ⟨r, h1, h2.trans ?_⟩
  funext i
  simp [bc, demoHeap]
  ring

/-- `C90_steps`: two steps of size 0 of IF4 with the same function.  Each returns the negative of its argument; the
caller's array has changed, too. -/
example : let m := CSSolver.if4 (.diag (0 : Vec (Fin 1)))
    ∃ r s z, m.heapSteps (inPlaceNl fun x => -x) [0, 0] 0 (m.heapNew demoHeap) = (.ok r, s) ∧
      m.Distorted (fun x => -x) [0, 0] (-1) z ∧ (CSSolver.heap s).cell r = z ∧ (CSSolver.heap s).cell 0 = -1 := by
  obtain ⟨r, s, h1, h2, h3, -⟩ := C90_steps (.if4 (.diag (0 : Vec (Fin 1)))) (fun x => -x) demoHeap (u := 0) Nat.zero_lt_two 0 [0]
    (by rintro h' h; simp at h; subst h; exact ⟨le_rfl, trivial⟩)
  exact ⟨r, s, _, h1, h2, rfl, h3⟩

/-- A run of one step. -/
theorem CSClass.evolve_once {V Sub : Type} (C : CSClass ℝ V Sub) {u r : V} {s : CSState ℝ V Sub}
    (hr : (C.updateStages u 1 (C.reset s.sub)).1 = .ok r) :
    ∃ s', C.evolve id true 2 u 0 1 1 true 1 s = (.ok (some r), s') := by
  rw [CSClass.evolve_apply, if_neg (by norm_num),
    CSClass.loop_succ_ok (v := r) (hh := zero_le_one) (hlt := by simp [CSClass.start])
      (hr := hr) (hp := by simp [CSClass.ProgressRaises]) (hf := by simp), CSClass.loop_done]
  · exact ⟨_, rfl⟩
  · simp [CSClass.start]

theorem CSSolver.inPlace_once (m : CSSolver ι) (g : Vec ι → Vec ι) (H : Heap ι) {u : ℕ} (hu : u < H.next) (hc : m.CoefOk 1) :
    ∃ r s, m.heapEvolve (inPlaceNl g) id true 2 u 0 1 1 true 1 (m.heapNew H) = (.ok (some r), s) := by
  obtain ⟨r, s1, v, e, h1, -⟩ := m.updateStages_inPlace g (m.heapNew H).sub (CSSolver.InState.start m g H hu) hc
  exact ⟨r, CSClass.evolve_once (m.heapCls (inPlaceNl g)) (congrArg Prod.fst h1)⟩

/-- `C90_evolve`: ETDRK5 with a 1D operator on `[0, 1]`, one step of size 1, all snapshots.  The run returns; both snapshots and
the result are as stated. -/
example (cfg : ETDConfig ℝ) (L : Vec (Fin 2)) :
    let m := CSSolver.etd5 cfg (.diag L)
    ∃ r s, m.heapEvolve (inPlaceNl fun x => x * x) id true 2 0 0 1 1 true 1 (m.heapNew demoHeap) = (.ok (some r), s) ∧
      (CSSolver.heap s).cell 0 = 1 * 1 ∧ ∃ n, 0 < n ∧
        m.Distorted (fun x => x * x) (List.replicate n 1) (1 * 1) ((CSSolver.heap s).cell r) := by
  intro m
  obtain ⟨r, s, hs⟩ := m.inPlace_once (fun x => x * x) demoHeap (u := 0) Nat.zero_lt_two trivial
  obtain ⟨n, h2, h3, h4, -⟩ := C90_evolve m (fun x => x * x) demoHeap (u := 0) Nat.zero_lt_two zero_le_one trivial id true 2 zero_lt_one
    true 1 hs
  exact ⟨r, s, hs, h4, n, h2, h3⟩

end Verif
