import Verif.Lemmas.HeapInPlaceAS

/-!
# One trial of an adaptive solver with a nonlinear function that works in place
-/

set_option linter.unusedSectionVars false

namespace Verif

open Matrix Attr

variable {ι : Type} [Fintype ι] [DecidableEq ι]

namespace ASSolver

theorem coeffs_inPlace (m : ASSolver ι) (g : Vec ι → Vec ι) (s : Wrap (HMethod m.Coef ι)) {h : ℝ}
    (hs : ∀ h, s.hCoeff = some h → m.CoefOk h ∧ s.method.coef = (m.stale (total g)).coefs h) (hc : m.CoefOk h) :
    m.prog.coeffs h s = (.ok (), ⟨s.n1init, some h, { s.method with coef := (m.stale (total g)).coefs h }⟩) := by
  obtain ⟨b, o, c, a, H, n⟩ := s
  simp only [ASProg.coeffs, PyM.bind_get_apply]
  split
  · rename_i hh
    simp only at hs hh
    rw [PyM.pure_apply, ← (hs h hh.symm).2, hh]
  · have h1 := (m.prog_tie (total g)).coeffs h ⟨c, 0, 0, 0, 0⟩
    rw [(m.stale (total g)).coeffs_ok h _ hc] at h1
    simp only [Prod.mk.injEq, ASMethod.mk.injEq, and_true] at h1
    simp only [PyM.bind_modify_apply, Wrap.onMethod, PyM.zoom_apply, ← h1.1, ← h1.2]

theorem coeffs_inPlace_err (m : ASSolver ι) (g : Vec ι → Vec ι) (s : Wrap (HMethod m.Coef ι)) {h : ℝ}
    (hs : ∀ h, s.hCoeff = some h → m.CoefOk h ∧ s.method.coef = (m.stale (total g)).coefs h) (hc : ¬ m.CoefOk h) :
    ∃ s', m.prog.coeffs h s = (.error .linAlgError, s') := by
  obtain ⟨b, o, c, a, H, n⟩ := s
  simp only [ASProg.coeffs, PyM.bind_get_apply]
  split
  · rename_i hh
    exact absurd (hs h hh.symm).1 hc
  · have h1 := (m.prog_tie (total g)).coeffs h ⟨c, 0, 0, 0, 0⟩
    obtain ⟨c', hc'⟩ := (m.stale (total g)).coeffs_err h ⟨c, 0, 0, 0, 0⟩ hc
    rw [hc'] at h1
    simp only [Prod.mk.injEq] at h1
    simp only [PyM.bind_modify_apply, Wrap.onMethod, PyM.zoom_apply, ← h1.1]
    exact ⟨_, rfl⟩

theorem trial_inPlace_err (m : ASSolver ι) (g : Vec ι → Vec ι) (s : Wrap (HMethod m.Coef ι)) {a : Bool} {u : HArr ι} {z : Bent ι}
    (hs : m.InState g s a u.ref z) {h : ℝ} (hc : ¬ m.CoefOk h) :
    ((m.heapCls (inPlaceNl g)).updateStages u h a s).1 = .error .linAlgError := by
  rw [m.heapCls_stages _ _ _ _ _ fun hn => (hs.new hn).1]
  obtain ⟨s', h1⟩ := m.coeffs_inPlace_err g s hs.coef hc
  simp only [ASProg.updateStages]
  rw [PyM.bind_error h1]

theorem trial_inPlace (m : ASSolver ι) (g : Vec ι → Vec ι) (s : Wrap (HMethod m.Coef ι)) {a : Bool} {u : HArr ι} {z : Bent ι}
    (hs : m.InState g s a u.ref z) {h : ℝ} (hc : m.CoefOk h) :
    ∃ r1 r2 s' x e, (m.heapCls (inPlaceNl g)).updateStages u h a s = (.ok (r1, r2), s') ∧
      (m.method h).stepFrom (fun w => .ok (m.op.prj (g (m.op.emb w)))) (m.op.prj z.first) (m.op.prj z.start) = .ok (x, e) ∧
      r1.seen = (m.bentAfter g (m.op.emb x)).out ∧ r2.seen = e ∧
      m.InState g s' false u.ref z ∧ m.InState g s' true r1.ref (m.bentAfter g (m.op.emb x)) ∧ s'.n1init = true ∧
      s'.method.heap.cell r1.ref = r1.seen ∧ s.method.heap.next ≤ r1.ref ∧ s'.method.heap.cell u.ref = z.start ∧
      s.method.heap.next ≤ s'.method.heap.next ∧
      ∀ a, a < s.method.heap.next → a ≠ u.ref → s'.method.heap.cell a = s.method.heap.cell a := by
  rw [m.heapCls_stages _ _ _ _ _ fun hn => (hs.new hn).1]
  -- from the state before the stages
  have key : ∀ (m1 m2 : HMethod m.Coef ι), m1.heap = s.method.heap → m2.coef = (m.stale (total g)).coefs h →
      (∀ a, m2.attr a < m2.heap.next) → m2.val NL1 = m.op.prj z.first →
      (m.useV = true → m2.val v = m.op.prj z.start) → m2.val .u = z.start → m2.attr .u = u.ref → m1.heap.next ≤ m2.heap.next →
      (∀ a, a < m1.heap.next → a ≠ u.ref → m2.heap.cell a = m1.heap.cell a) →
      ∃ r1 r2 s' x e, (Wrap.onMethod (m.prog.body (inPlaceNl g) h) : PyM (Wrap (HMethod m.Coef ι)) _) ⟨true, some h, m2⟩ =
          (.ok (r1, r2), s') ∧
        (m.method h).stepFrom (fun w => .ok (m.op.prj (g (m.op.emb w)))) (m.op.prj z.first) (m.op.prj z.start) = .ok (x, e) ∧
        r1.seen = (m.bentAfter g (m.op.emb x)).out ∧ r2.seen = e ∧
        m.InState g s' false u.ref z ∧ m.InState g s' true r1.ref (m.bentAfter g (m.op.emb x)) ∧ s'.n1init = true ∧
        s'.method.heap.cell r1.ref = r1.seen ∧ s.method.heap.next ≤ r1.ref ∧ s'.method.heap.cell u.ref = z.start ∧
        s.method.heap.next ≤ s'.method.heap.next ∧
        ∀ a, a < s.method.heap.next → a ≠ u.ref → s'.method.heap.cell a = s.method.heap.cell a := by
    intro m1 m2 k0 k1 k2 k3 k4 k5 k6 k7 k8
    obtain ⟨r1, r2, s', x, e, b1, b2, b3, b4, b5, b6, b7, b8, b9, b10⟩ := m.body_inPlace g m2 hc k1 k2 k3 k4 k5
    rw [k6] at b5
    rw [k0] at k7 k8
    refine ⟨r1, r2, ⟨true, some h, s'⟩, x, e, ?_, b2, b3, b4, b5, b6, rfl, b7, k7.trans b8, ?_, k7.trans b9, fun a ha hau => ?_⟩
    · simp only [Wrap.onMethod, PyM.zoom_apply, b1]
    · have := b10 _ (k2 .u)
      rw [k6] at this
      rw [this, ← k5, HMethod.val, k6]
    · rw [b10 a (ha.trans_le k7), k8 a ha hau]
  have hco := m.coeffs_inPlace g s hs.coef hc
  obtain ⟨b, o, c, at0, H, n⟩ := s
  obtain ⟨h1, h2, h3, h4, h5, h6, h7⟩ := hs
  simp only at h1 h2 h3 h4 h5 h6 h7
  set m1 : HMethod m.Coef ι := ⟨(m.stale (total g)).coefs h, Function.update at0 .u u.ref, H, n⟩ with hm1
  have hb : ∀ a, m1.attr a < m1.heap.next := by
    intro a
    by_cases ha : a = .u
    · subst ha; simpa [hm1] using h2
    · simpa [hm1, ha] using h1 a
  have hu1 : m1.attr .u = u.ref := by simp [hm1]
  have hcu : m1.val .u = H.cell u.ref := by simp [hm1, HMethod.val]
  have hva : ∀ a, a ≠ .u → m1.val a = (⟨c, at0, H, n⟩ : HMethod m.Coef ι).val a := fun a ha => by simp [hm1, HMethod.val, ha]
  have harg : (Wrap.onMethod (HMethod.arg u.ref) : PyM (Wrap (HMethod m.Coef ι)) Unit)
      ⟨b, some h, ⟨(m.stale (total g)).coefs h, at0, H, n⟩⟩ = (.ok (), ⟨b, some h, m1⟩) := rfl
  simp only [ASProg.updateStages]
  rw [PyM.bind_ok hco, PyM.bind_ok harg]
  simp only [PyM.bind_get_apply]
  cases b with
  | false =>
    obtain ⟨a1, a2, a3⟩ := h4 rfl
    obtain ⟨m2, x1, x2, x3, x4, x5, x6, x7, x8, x9⟩ := m.load_inPlace g m1 hb
    have hi : (Wrap.onMethod (HMethod.run (inPlaceNl g) m.prog.init) : PyM (Wrap (HMethod m.Coef ι)) Unit)
        ⟨false, some h, m1⟩ = (.ok (), ⟨false, some h, m2⟩) := by
      rw [m.prog_init]
      simp only [Wrap.onMethod, PyM.zoom_apply, x1]
    simp only [if_true]
    rw [PyM.bind_ok hi]
    simp only [PyM.bind_modify_apply, a1, Bool.false_eq_true, if_false]
    rw [hcu, a2] at x4 x5 x6
    exact key m1 m2 rfl x2 x3 (by rw [x4, a3]) x5 x6 (x7.trans hu1) x8 (fun a ha hau => x9 a ha (by rwa [hu1]))
  | true =>
    simp only [Bool.true_eq_false, if_false]
    cases a with
    | false =>
      obtain ⟨a1, a2, a3⟩ := h5 rfl rfl
      simp only [Bool.false_eq_true, if_false]
      exact key m1 m1 rfl rfl hb ((hva _ (by simp)).trans a1) (fun hv => (hva _ (by simp)).trans (a2 hv)) (hcu.trans a3) hu1 le_rfl
        (fun _ _ _ => rfl)
    | true =>
      simp only [if_true]
      by_cases hm : m.isFsal
      · obtain ⟨a1, a2⟩ := h6 rfl rfl hm
        obtain ⟨m2, x1, x2, x3, x4, x5, x6, x7, x8, x9⟩ := m.take_inPlace (inPlaceNl g) hm m1 hb
        have hi : (Wrap.onMethod (HMethod.run (inPlaceNl g) m.prog.accepted) : PyM (Wrap (HMethod m.Coef ι)) Unit)
            ⟨true, some h, m1⟩ = (.ok (), ⟨true, some h, m2⟩) := by
          simp only [Wrap.onMethod, PyM.zoom_apply, x1]
        rw [PyM.bind_ok hi]
        rw [hcu, a2] at x5 x6
        exact key m1 m2 rfl x2 x3 (by rw [x4, hva _ m.last_ne, a1]) x5 x6 (x7.trans hu1) x8 (fun a ha _ => x9 a ha)
      · obtain ⟨a2, a3⟩ := h7 rfl rfl hm
        obtain ⟨m2, x1, x2, x3, x4, x5, x6, x7, x8, x9⟩ := m.load_inPlace g m1 hb
        have hi : (Wrap.onMethod (HMethod.run (inPlaceNl g) m.prog.accepted) : PyM (Wrap (HMethod m.Coef ι)) Unit)
            ⟨true, some h, m1⟩ = (.ok (), ⟨true, some h, m2⟩) := by
          rw [m.prog_accepted_fresh hm]
          simp only [Wrap.onMethod, PyM.zoom_apply, x1]
        rw [PyM.bind_ok hi]
        rw [hcu, a2] at x4 x5 x6
        exact key m1 m2 rfl x2 x3 (by rw [x4, a3]) x5 x6 (x7.trans hu1) x8 (fun a ha hau => x9 a ha (by rwa [hu1]))

end ASSolver

end Verif
