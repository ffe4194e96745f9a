import Verif.Spec.InPlace
import Verif.Lemmas.Heap
import Verif.Lemmas.RoundedTie

/-!
# Running constant-step strategies with a nonlinear function that works in place
-/

set_option linter.unusedSectionVars false

namespace Verif

open Matrix Attr

variable {ι : Type} {Coef : Type}

/-- The expression does not read `_k`. -/
def OffK (e : (Attr → Vec ι) → Vec ι) : Prop := ∀ x y : Attr → Vec ι, (∀ a, a ≠ k → x a = y a) → e x = e y

/-- Pairs `self._k = e; self.x = self.nl_func(self._k)`, the last one for `_NL1`. -/
inductive Pairs : List (Instr ι) → Prop
  | last {e} : OffK e → Pairs [.set k e, .call NL1 k]
  | cons {e x is} : OffK e → Pairs is → Pairs (.set k e :: .call x k :: is)

theorem HMethod.run_inPlace (g : Vec ι → Vec ι) {is : List (Instr ι)} (hp : Pairs is) :
    ∀ (s : HMethod Coef ι) (q : RState ι), (∀ a, s.attr a < s.heap.next) → (∀ a, a ≠ k → s.val a = q.val a) →
    ∃ s' q', HMethod.run (inPlaceNl g) is s = (.ok (), s') ∧ RState.run (total g) is q = (.ok (), q') ∧
      s'.coef = s.coef ∧ (∀ a, s'.attr a < s'.heap.next) ∧ s'.val k = g (q'.val k) ∧ s'.val NL1 = g (q'.val k) ∧
      s.heap.next ≤ s'.attr k ∧ ∀ a, a < s.heap.next → s'.heap.cell a = s.heap.cell a := by
  -- one pair
  have pair : ∀ (e) (x : Attr) (is : List (Instr ι)), OffK e → ∀ (s : HMethod Coef ι) (q : RState ι),
      (∀ a, s.attr a < s.heap.next) → (∀ a, a ≠ k → s.val a = q.val a) →
      ∃ s1 q1, HMethod.run (inPlaceNl g) (.set k e :: .call x k :: is) s = HMethod.run (inPlaceNl g) is s1 ∧
        RState.run (total g) (.set k e :: .call x k :: is) q = RState.run (total g) is q1 ∧ s1.coef = s.coef ∧
        (∀ a, s1.attr a < s1.heap.next) ∧ (∀ a, a ≠ k → s1.val a = q1.val a) ∧ s.heap.next ≤ s1.heap.next ∧
        (∀ a, a < s.heap.next → s1.heap.cell a = s.heap.cell a) ∧
        (x ≠ k → s1.attr k = s.heap.next ∧ s1.val k = g (q1.val k) ∧ s1.val x = g (q1.val k)) := by
    intro e x is he s q h1 h2
    have hv : e s.val = e q.val := he _ _ h2
    refine ⟨⟨s.coef, Function.update (Function.update s.attr k s.heap.next) x s.heap.next,
      (s.heap.alloc (e s.val)).write s.heap.next (g (e s.val)), s.evals + 1⟩,
      ⟨Function.update (Function.update q.val k (e q.val)) x (g (e q.val)), q.evals + 1⟩, ?_, ?_, rfl, ?_, ?_, ?_, ?_, ?_⟩
    · simp [HMethod.run, HMethod.exec, PyM.bind_apply, inPlaceNl, Heap.alloc, Heap.write]
    · simp [RState.run, RState.exec, PyM.bind_apply, total]
    · intro a
      have := h1 a
      by_cases ha : a = x
      · subst ha; simp [Heap.write, Heap.alloc]
      · by_cases hk : a = k
        · subst hk; simp [Heap.write, Heap.alloc, ha]
        · simp [Heap.write, Heap.alloc, ha, hk]; omega
    · intro a hk
      by_cases ha : a = x
      · subst ha; simp [HMethod.val, Heap.write, hv]
      · have : s.attr a ≠ s.heap.next := (h1 a).ne
        have h3 := h2 a hk
        simp only [HMethod.val] at h3
        simp [HMethod.val, Heap.write, Heap.alloc, ha, hk, this, h3]
    · simp [Heap.write, Heap.alloc]
    · intro a ha
      have : a ≠ s.heap.next := ha.ne
      simp [Heap.write, Heap.alloc, this]
    · intro hx
      have hx' : k ≠ x := fun h => hx h.symm
      refine ⟨by simp [hx'], by simp [HMethod.val, Heap.write, hx', hv], by simp [HMethod.val, Heap.write, hx', hv]⟩
  induction hp with
  | @last e he =>
    intro s q h1 h2
    obtain ⟨s1, q1, a1, a2, a3, a4, -, -, a7, a8⟩ := pair e NL1 [] he s q h1 h2
    obtain ⟨b1, b2, b3⟩ := a8 (by simp)
    exact ⟨s1, q1, a1, a2, a3, a4, b2, b3, b1.ge, a7⟩
  | @cons e x is he _ ih =>
    intro s q h1 h2
    obtain ⟨s1, q1, a1, a2, a3, a4, a5, a6, a7, -⟩ := pair e x is he s q h1 h2
    obtain ⟨s', q', b1, b2, b3, b4, b5, b6, b7, b8⟩ := ih s1 q1 a4 a5
    exact ⟨s', q', a1.trans b1, a2.trans b2, b3.trans a3, b4, b5, b6, a6.trans b7,
      fun a ha => (b8 a (ha.trans_le a6)).trans (a7 a ha)⟩

section
variable [Fintype ι] [DecidableEq ι]

theorem CSSolver.pairs (m : CSSolver ι) (c : m.Coef) (h : ℝ) : Pairs (m.prog.stages c h) := by
  rcases m with (L | L) | ⟨cfg, L | L⟩ | ⟨cfg, L | L⟩ <;>
  · repeat' constructor
    all_goals
      intro x y hxy
      simp only [hxy .u (by simp), hxy NL1 (by simp), hxy NL2 (by simp), hxy NL3 (by simp), hxy NL4 (by simp),
        hxy NL5 (by simp), hxy NL6 (by simp)]

theorem CSSolver.init_call (m : CSSolver ι) : m.prog.init = [.call NL1 .u] := by
  rcases m with (L | L) | ⟨cfg, L | L⟩ | ⟨cfg, L | L⟩ <;> rfl

/-- The object is such that the next step from the array at address `u` distorts `z`. -/
structure CSSolver.InState (m : CSSolver ι) (g : Vec ι → Vec ι) (s : Wrap (HMethod m.Coef ι)) (u : ℕ) (z : Vec ι) : Prop where
  bdd : ∀ a, s.method.attr a < s.method.heap.next
  arg : u < s.method.heap.next
  coef : ∀ h, s.hCoeff = some h → s.method.coef = (m.law (total g)).coefs h
  new : s.n1init = false → g (s.method.heap.cell u) = z
  old : s.n1init = true → s.method.heap.cell u = z ∧ s.method.val NL1 = z

theorem CSSolver.coeffs_inPlace (m : CSSolver ι) (g : Vec ι → Vec ι) (s : Wrap (HMethod m.Coef ι)) {h : ℝ}
    (hc : m.CoefOk h) (hs : ∀ h, s.hCoeff = some h → s.method.coef = (m.law (total g)).coefs h) :
    m.prog.coeffs h s =
      (.ok (), ⟨s.n1init, some h, { s.method with coef := (m.law (total g)).coefs h }⟩) := by
  obtain ⟨b, o, c, a, H, n⟩ := s
  simp only [CSProg.coeffs, PyM.bind_get_apply]
  split
  · rename_i hh
    simp only at hs hh
    rw [PyM.pure_apply, ← hs h hh.symm, hh]
  · have h1 := (m.tie (total g)).coeffs h ⟨c, 0, 0⟩
    rw [(m.law (total g)).coeffs_ok h _ hc] at h1
    simp only [Prod.mk.injEq, CSMethod.mk.injEq, and_true] at h1
    simp only [PyM.bind_modify_apply, Wrap.onMethod, PyM.zoom_apply, ← h1.1, ← h1.2]

theorem CSSolver.updateStages_inPlace (m : CSSolver ι) (g : Vec ι → Vec ι) (s : Wrap (HMethod m.Coef ι)) {u : ℕ} {z : Vec ι}
    (hs : m.InState g s u z) {h : ℝ} (hc : m.CoefOk h) :
    ∃ r s1 v e, m.prog.updateStages (inPlaceNl g) u h s = (.ok r, s1) ∧
      (m.method h).stepFrom (total g) z z = .ok (v, e) ∧ m.InState g s1 r (g v) ∧ s1.n1init = true ∧
      s1.method.heap.cell u = z ∧ s.method.heap.next ≤ r ∧
      ∀ a, a < s.method.heap.next → a ≠ u → s1.method.heap.cell a = s.method.heap.cell a := by
  -- the stages, after `n1_init`
  have key : ∀ m2 : HMethod m.Coef ι, m2.coef = (m.law (total g)).coefs h → (∀ a, m2.attr a < m2.heap.next) →
      m2.val .u = z → m2.val NL1 = z →
      ∃ s3 v e, (Wrap.onMethod (do
            let s ← PyM.get
            HMethod.run (inPlaceNl g) (m.prog.stages s.coef h)
            let s ← PyM.get
            pure (s.attr .k)) : PyM (Wrap (HMethod m.Coef ι)) ℕ) ⟨true, some h, m2⟩ = (.ok (s3.attr k), ⟨true, some h, s3⟩) ∧
        (m.method h).stepFrom (total g) z z = .ok (v, e) ∧ m.InState g ⟨true, some h, s3⟩ (s3.attr k) (g v) ∧
        m2.heap.next ≤ s3.attr k ∧ ∀ a, a < m2.heap.next → s3.heap.cell a = m2.heap.cell a := by
    intro m2 k1 k2 k3 k4
    obtain ⟨s', q', b1, b2, b3, b4, b5, b6, b7, b8⟩ :=
      HMethod.run_inPlace g (m.pairs m2.coef h) m2 ⟨m2.val, m2.evals⟩ k2 (fun _ _ => rfl)
    have hS := (m.tie (total g)).stages h m2.coef m2.val m2.evals
    rw [b2, k3, k4] at hS
    obtain ⟨l1, l2⟩ := (m.law (total g)).stages z h ⟨m2.coef, z, m2.evals⟩ k1
    rw [hS] at l1 l2
    cases hq : (m.method h).stepFrom (total g) z z with
    | error e => obtain ⟨j, -, hj⟩ := l2 e hq; simp [Except.map] at hj
    | ok r =>
      obtain ⟨n, hn, -⟩ := l1 r hq
      simp only [Except.map, Prod.mk.injEq, Except.ok.injEq] at hn
      refine ⟨s', r.1, r.2, ?_, rfl, ⟨b4, b4 k, ?_, by simp, fun _ => ⟨?_, ?_⟩⟩, b7, b8⟩
      · simp only [Wrap.onMethod, PyM.zoom_apply, PyM.bind_get_apply]
        rw [PyM.bind_ok b1]
        rfl
      · rintro h' ⟨⟩
        exact b3.trans k1
      · rw [← hn.1]; exact b5
      · rw [← hn.1]; exact b6
  obtain ⟨b, o, c, at0, H, n⟩ := s
  obtain ⟨h1, h2, h3, h4, h5⟩ := hs
  simp only at h1 h2 h3 h4 h5
  set m1 : HMethod m.Coef ι := ⟨(m.law (total g)).coefs h, Function.update at0 .u u, H, n⟩ with hm1
  have hb : ∀ a, m1.attr a < H.next := by
    intro a
    by_cases ha : a = .u
    · subst ha; simpa [hm1] using h2
    · simpa [hm1, ha] using h1 a
  have harg : (Wrap.onMethod (HMethod.arg u) : PyM (Wrap (HMethod m.Coef ι)) Unit)
      ⟨b, some h, ⟨(m.law (total g)).coefs h, at0, H, n⟩⟩ = (.ok (), ⟨b, some h, m1⟩) := rfl
  simp only [CSProg.updateStages]
  rw [PyM.bind_ok (m.coeffs_inPlace g ⟨b, o, c, at0, H, n⟩ hc h3), PyM.bind_ok harg]
  simp only [PyM.bind_get_apply]
  cases b with
  | true =>
    obtain ⟨a1, a2⟩ := h5 rfl
    obtain ⟨s3, v, e, x1, x2, x3, x4, x5⟩ := key m1 rfl hb (by simpa [hm1, HMethod.val] using a1)
      (by simpa [hm1, HMethod.val] using a2)
    simp only [Bool.true_eq_false, if_false]
    exact ⟨_, _, v, e, x1, x2, x3, rfl, (x5 u h2).trans a1, x4, fun a ha _ => x5 a ha⟩
  | false =>
    have a1 := h4 rfl
    set m2 : HMethod m.Coef ι := ⟨(m.law (total g)).coefs h, Function.update m1.attr NL1 u, H.write u (g (H.cell u)), n + 1⟩
      with hm2
    have hi : (Wrap.onMethod (HMethod.run (inPlaceNl g) m.prog.init) : PyM (Wrap (HMethod m.Coef ι)) Unit)
        ⟨false, some h, m1⟩ = (.ok (), ⟨false, some h, m2⟩) := by
      rw [m.init_call]
      simp [Wrap.onMethod, HMethod.run, HMethod.exec, PyM.bind_apply, inPlaceNl, hm1, hm2]
    simp only [if_true]
    rw [PyM.bind_ok hi]
    simp only [PyM.bind_modify_apply]
    obtain ⟨s3, v, e, x1, x2, x3, x4, x5⟩ := key m2 rfl (fun a => by
        by_cases ha : a = NL1
        · subst ha; simpa [hm2, Heap.write] using h2
        · simpa [hm2, ha, Heap.write] using hb a)
      (by simpa [hm2, hm1, HMethod.val, Heap.write] using a1) (by simpa [hm2, HMethod.val, Heap.write] using a1)
    refine ⟨_, _, v, e, x1, x2, x3, rfl, (x5 u h2).trans (by simpa [hm2, Heap.write] using a1), x4, fun a ha hau => ?_⟩
    rw [x5 a ha]
    simp [hm2, Heap.write, hau]

end

end Verif
