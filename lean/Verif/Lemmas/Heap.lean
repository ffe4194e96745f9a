import Verif.Spec.Heap
import Verif.Lemmas.HeapTie
import Verif.Lemmas.RelLoop

/-!
# Running the strategies over the heap
-/

set_option linter.unusedSectionVars false

namespace Verif

open Matrix Attr

variable {ι : Type}

namespace Heap

theorem Keeps.refl (H : Heap ι) : H.Keeps H := ⟨le_rfl, fun _ h => ⟨h.2, rfl⟩⟩

theorem Pub.mono {H H' : Heap ι} (h : H.Keeps H') {r : ℕ} (hr : H.Pub r) : H'.Pub r :=
  ⟨lt_of_lt_of_le hr.1 h.1, (h.2 r hr).1⟩

theorem Keeps.trans {H H' H'' : Heap ι} (h : H.Keeps H') (h' : H'.Keeps H'') : H.Keeps H'' :=
  ⟨h.1.trans h'.1, fun r hr => ⟨(h'.2 r (hr.mono h)).1, by rw [(h'.2 r (hr.mono h)).2, (h.2 r hr).2]⟩⟩

theorem Den.mono {H H' : Heap ι} (h : H.Keeps H') {r : ℕ} {v : Vec ι} (hr : H.Den r v) : H'.Den r v :=
  ⟨hr.1.mono h, by rw [(h.2 r hr.1).2, hr.2]⟩

theorem keeps_alloc (H : Heap ι) (v : Vec ι) : H.Keeps (H.alloc v) :=
  ⟨Nat.le_succ _, fun r hr => by
    have : r ≠ H.next := hr.1.ne
    exact ⟨by simpa [alloc, this] using hr.2, by simp [alloc, this]⟩⟩

theorem den_alloc (H : Heap ι) (v : Vec ι) : (H.alloc v).Den H.next v :=
  ⟨⟨Nat.lt_succ_self _, by simp [alloc]⟩, by simp [alloc]⟩

end Heap

theorem RelE.eq_unit {x y : Except PyErr Unit} {R : Unit → Unit → Prop} (h : RelE R x y) : x = y := by
  cases x <;> cases y
  · exact congrArg _ h
  · exact h.elim
  · exact h.elim
  · rfl

section
variable {Coef : Type} {f : HeapNl ι} {nl : NlFunc ι}

/-- What a run over the heap (`r`) and a run with arrays as values (`q`) have to do with each other. -/
structure RunSim (s : HMethod Coef ι) (r : Except PyErr Unit × HMethod Coef ι) (q : Except PyErr Unit × RState ι) : Prop where
  res : r.1 = q.1
  keeps : s.heap.Keeps r.2.heap
  pub : ∀ a, r.2.heap.Pub (r.2.attr a)
  val : r.2.val = q.2.val
  evals : r.2.evals = q.2.evals
  coef : r.2.coef = s.coef

theorem HMethod.exec_sim (hf : CleanNl f nl) (i : Instr ι) (s : HMethod Coef ι) (hp : ∀ a, s.heap.Pub (s.attr a)) :
    RunSim s (HMethod.exec f i s) (RState.exec nl i ⟨s.val, s.evals⟩) := by
  cases i with
  | set x e =>
    refine ⟨rfl, Heap.keeps_alloc _ _, fun a => ?_, ?_, rfl, rfl⟩
    · by_cases ha : a = x
      · subst ha
        simpa [HMethod.exec] using (Heap.den_alloc _ _).1
      · simpa [HMethod.exec, ha] using (hp a).mono (Heap.keeps_alloc s.heap (e s.val))
    · funext a
      by_cases ha : a = x
      · subst ha
        simpa [HMethod.exec, HMethod.val, RState.exec] using (Heap.den_alloc s.heap (e s.val)).2
      · simpa [HMethod.exec, HMethod.val, RState.exec, ha] using
          ((Heap.keeps_alloc s.heap (e s.val)).2 _ (hp a)).2
  | call x y =>
    obtain ⟨h1, h2⟩ := hf (s.attr y) s.heap (hp y)
    rcases hr : f (s.attr y) s.heap with ⟨r, H⟩
    rw [hr] at h1 h2
    change RelE _ _ (nl (s.val y)) at h2
    cases r with
    | error e =>
      have hn := h2.error rfl
      simp only [HMethod.exec, hr, RState.exec, hn]
      refine ⟨rfl, h1, fun a => (hp a).mono h1, ?_, rfl, rfl⟩
      funext a
      exact (h1.2 _ (hp a)).2
    | ok r =>
      obtain ⟨v, hn, hv⟩ := h2.ok rfl
      simp only [HMethod.exec, hr, RState.exec, hn]
      refine ⟨rfl, h1, fun a => ?_, ?_, rfl, rfl⟩
      · by_cases ha : a = x
        · subst ha; simpa using hv.1
        · simpa [ha] using (hp a).mono h1
      · funext a
        by_cases ha : a = x
        · subst ha; simpa [HMethod.val] using hv.2
        · simpa [HMethod.val, ha] using (h1.2 _ (hp a)).2

theorem HMethod.run_sim (hf : CleanNl f nl) (is : List (Instr ι)) (s : HMethod Coef ι)
    (hp : ∀ a, s.heap.Pub (s.attr a)) : RunSim s (HMethod.run f is s) (RState.run nl is ⟨s.val, s.evals⟩) := by
  induction is generalizing s with
  | nil => exact ⟨rfl, Heap.Keeps.refl _, hp, rfl, rfl, rfl⟩
  | cons i is ih =>
    have h1 := exec_sim hf i s hp
    simp only [HMethod.run, RState.run, PyM.bind_apply]
    rcases he : HMethod.exec f i s with ⟨r, s1⟩
    rcases he' : RState.exec nl i ⟨s.val, s.evals⟩ with ⟨r', q1⟩
    rw [he, he'] at h1
    obtain ⟨a1, a2, a3, a4, a5, a6⟩ := h1
    simp only at a1 a2 a3 a4 a5 a6
    subst a1
    cases r with
    | error e => exact ⟨rfl, a2, a3, a4, a5, a6⟩
    | ok _ =>
      have h2 := ih s1 a3
      have hq : (⟨s1.val, s1.evals⟩ : RState ι) = q1 := by rw [a4, a5]
      rw [hq] at h2
      exact ⟨h2.res, a2.trans h2.keeps, h2.pub, h2.val, h2.evals, h2.coef.trans a6⟩

theorem freshAfter_mono (x : Attr) (is : List (Instr ι)) (h : freshAfter x false is = true) (b : Bool) :
    freshAfter x b is = true := by
  induction is generalizing b with
  | nil => cases h
  | cons i is ih =>
    cases i with
    | set y e =>
      simp only [freshAfter, Bool.false_or] at h ⊢
      by_cases hy : (y == x) = true
      · rw [hy] at h ⊢; simpa using h
      · rw [Bool.not_eq_true] at hy
        rw [hy] at h ⊢
        exact ih h _
    | call y z =>
      simp only [freshAfter, Bool.false_and] at h ⊢
      exact ih h _

theorem freshAfter_append (x : Attr) (is js : List (Instr ι)) (h : freshAfter x false js = true) (b : Bool) :
    freshAfter x b (is ++ js) = true := by
  induction is generalizing b with
  | nil => exact freshAfter_mono x js h b
  | cons i is ih => cases i <;> exact ih _

theorem HMethod.run_fresh (hf : CleanNl f nl) (x : Attr) (n : ℕ) (is : List (Instr ι)) (s s' : HMethod Coef ι)
    (hp : ∀ a, s.heap.Pub (s.attr a)) (hr : HMethod.run f is s = (.ok (), s')) (b : Bool)
    (hb : b = true → n ≤ s.attr x) (hn : n ≤ s.heap.next) (hx : freshAfter x b is = true) : n ≤ s'.attr x := by
  induction is generalizing s b with
  | nil =>
    cases hr
    exact hb hx
  | cons i is ih =>
    have h1 := exec_sim hf i s hp
    simp only [HMethod.run, PyM.bind_apply] at hr
    rcases he : HMethod.exec f i s with ⟨r, s1⟩
    rw [he] at hr h1
    cases r with
    | error e => cases hr
    | ok _ =>
      simp only at hr
      have hn1 : n ≤ s1.heap.next := hn.trans h1.keeps.1
      cases i with
      | set y e =>
        refine ih s1 h1.pub hr (b || y == x) (fun hb1 => ?_) hn1 hx
        simp only [HMethod.exec, Prod.mk.injEq, true_and] at he
        subst he
        by_cases hy : y = x
        · subst hy; simpa using hn
        · have hy' : x ≠ y := fun h => hy h.symm
          simp only [Bool.or_eq_true, beq_iff_eq, hy, or_false] at hb1
          simpa [hy'] using hb hb1
      | call y z =>
        refine ih s1 h1.pub hr (b && !(y == x)) (fun hb1 => ?_) hn1 hx
        simp only [Bool.and_eq_true, Bool.not_eq_true', beq_eq_false_iff_ne, ne_eq] at hb1
        have hy' : x ≠ y := fun h => hb1.2 h.symm
        simp only [HMethod.exec] at he
        rcases hz : f (s.attr z) s.heap with ⟨_ | r, H⟩
        · rw [hz] at he; cases he
        · rw [hz] at he
          simp only [Prod.mk.injEq, true_and] at he
          subst he
          simpa [hy'] using hb hb1.1

theorem RState.run_append (is js : List (Instr ι)) (s : RState ι) :
    RState.run nl (is ++ js) s = (RState.run nl is >>= fun _ => RState.run nl js) s := by
  induction is generalizing s with
  | nil => rfl
  | cons i is ih =>
    simp only [List.cons_append, RState.run, PyM.bind_apply]
    rcases RState.exec nl i s with ⟨r | r, s1⟩
    · rfl
    · exact ih s1

theorem HMethod.run_append (is js : List (Instr ι)) (s : HMethod Coef ι) :
    HMethod.run f (is ++ js) s = (HMethod.run f is >>= fun _ => HMethod.run f js) s := by
  induction is generalizing s with
  | nil => rfl
  | cons i is ih =>
    simp only [List.cons_append, HMethod.run, PyM.bind_apply]
    rcases HMethod.exec f i s with ⟨r | r, s1⟩
    · rfl
    · exact ih s1

end

/-! ### Public classes -/

section
variable {Coef : Type} {f : HeapNl ι} {nl : NlFunc ι}

/-- The object over the heap (`s`) stands for the object with arrays as values (`s'`). -/
structure DenCS (s : Wrap (HMethod Coef ι)) (s' : Wrap (CSMethod Coef ι)) : Prop where
  n1init : s.n1init = s'.n1init
  hCoeff : s.hCoeff = s'.hCoeff
  coef : s.method.coef = s'.method.coef
  evals : s.method.evals = s'.method.evals
  pub : ∀ a, s.method.heap.Pub (s.method.attr a)
  NL1 : s.method.val NL1 = s'.method.NL1

/-- Outcomes that correspond. -/
structure OutCS (s : Wrap (HMethod Coef ι)) (r : Except PyErr ℕ × Wrap (HMethod Coef ι))
    (q : Except PyErr (Vec ι) × Wrap (CSMethod Coef ι)) : Prop where
  keeps : s.method.heap.Keeps r.2.method.heap
  den : DenCS r.2 q.2
  res : RelE (fun a v => r.2.method.heap.Den a v ∧ s.method.heap.next ≤ a) r.1 q.1

variable {P : CSProg Coef ι} {S : CSStrategy Coef ι}

theorem CSProg.coeffs_sim (ht : TieCS P S nl) (h : ℝ) {s : Wrap (HMethod Coef ι)} {s' : Wrap (CSMethod Coef ι)}
    (hd : DenCS s s') :
    (P.coeffs h s).1 = (IF4.updateCoeffs S h s').1 ∧ DenCS (P.coeffs h s).2 (IF4.updateCoeffs S h s').2 ∧
    (P.coeffs h s).2.method.heap = s.method.heap := by
  obtain ⟨d1, d2, d3, d4, d5, d6⟩ := hd
  simp only [CSProg.coeffs, IF4.updateCoeffs, PyM.bind_get_apply, d2]
  by_cases hh : some h = s'.hCoeff
  · simp only [hh, if_true]
    exact ⟨rfl, ⟨d1, d2, d3, d4, d5, d6⟩, rfl⟩
  · simp only [hh, if_false, PyM.bind_modify_apply, Wrap.onMethod, PyM.zoom_apply, ht.coeffs, d3]
    exact ⟨trivial, ⟨d1, rfl, rfl, d4, d5, d6⟩, trivial⟩

theorem CSProg.updateStages_sim (hf : CleanNl f nl) (ht : TieCS P S nl) (u : ℕ) (h : ℝ) {s : Wrap (HMethod Coef ι)}
    {s' : Wrap (CSMethod Coef ι)} (hd : DenCS s s') {w : Vec ι} (hu : s.method.heap.Den u w) :
    OutCS s (P.updateStages f u h s) (IF4.updateStages S w h s') := by
  obtain ⟨c1, c2, c3⟩ := CSProg.coeffs_sim ht h hd
  rcases he : P.coeffs h s with ⟨r, s1⟩
  rcases he' : IF4.updateCoeffs S h s' with ⟨r', s1'⟩
  rw [he, he'] at c1 c2
  rw [he] at c3
  simp only at c1 c2 c3
  subst c1
  have hk : s.method.heap.Keeps s1.method.heap := by rw [c3]; exact Heap.Keeps.refl _
  simp only [CSProg.updateStages, IF4.updateStages]
  cases r with
  | error e =>
    rw [PyM.bind_error he, PyM.bind_error he']
    exact ⟨hk, c2, rfl⟩
  | ok _ =>
    rw [PyM.bind_ok he, PyM.bind_ok he']
    -- passing the argument
    set m2 : HMethod Coef ι := { s1.method with attr := Function.update s1.method.attr .u u } with hm2
    have p2 : ∀ a, m2.heap.Pub (m2.attr a) := by
      intro a
      by_cases ha : a = .u
      · subst ha; simpa [hm2, c3] using hu.1
      · simpa [hm2, ha] using c2.pub a
    have v2 : m2.val .u = w := by simpa [hm2, HMethod.val, c3] using hu.2
    have n2 : m2.val NL1 = s1'.method.NL1 := by simpa [hm2, HMethod.val] using c2.NL1
    have key : ∀ (m : HMethod Coef ι) (m' : CSMethod Coef ι) (b : Bool) (o : Option ℝ), (∀ a, m.heap.Pub (m.attr a)) →
        m.val .u = w → m.val NL1 = m'.NL1 → m.coef = m'.coef → m.evals = m'.evals → s.method.heap.Keeps m.heap →
        OutCS s (Wrap.onMethod (do
            let s ← PyM.get
            HMethod.run f (P.stages s.coef h)
            let s ← PyM.get
            pure (s.attr .k)) ⟨b, o, m⟩) (Wrap.onMethod (S.updateStages w h) ⟨b, o, m'⟩) := by
      intro m m' b o q1 q2 q3 q4 q5 q6
      have := HMethod.run_sim hf (P.stages m.coef h) m q1
      have hS := ht.stages h m.coef m.val m.evals
      obtain ⟨x1, x2, x3⟩ := m'
      simp only at q3 q4 q5
      rw [q2, q3, q4, q5] at hS
      rw [q4, q5] at this
      simp only [Wrap.onMethod, PyM.zoom_apply, PyM.bind_get_apply, hS, q4]
      rcases hr : HMethod.run f (P.stages x1 h) m with ⟨r, m3⟩
      rw [hr] at this
      obtain ⟨a1, a2, a3, a4, a5, a6⟩ := this
      simp only at a1 a2 a3 a4 a5 a6
      rw [← a1, ← a4, ← a5]
      cases r with
      | error e =>
        rw [PyM.bind_error hr]
        exact ⟨q6.trans a2, ⟨rfl, rfl, a6.trans q4, rfl, a3, rfl⟩, rfl⟩
      | ok _ =>
        rw [PyM.bind_ok hr]
        exact ⟨q6.trans a2, ⟨rfl, rfl, a6.trans q4, rfl, a3, rfl⟩, ⟨a3 _, rfl⟩,
          q6.1.trans (HMethod.run_fresh hf k m.heap.next _ m m3 q1 hr false (by simp) le_rfl (ht.fresh x1 h))⟩
    obtain ⟨b, o, m1⟩ := s1
    obtain ⟨b', o', m1'⟩ := s1'
    obtain ⟨d1, d2, d3, d4, d5, d6⟩ := c2
    simp only at d1 d2 d3 d4 d5 d6 c3 hk n2
    subst d1 d2
    have harg : (Wrap.onMethod (HMethod.arg u) : PyM (Wrap (HMethod Coef ι)) Unit) ⟨b, o, m1⟩ = (.ok (), ⟨b, o, m2⟩) := rfl
    rw [PyM.bind_ok harg]
    simp only [PyM.bind_get_apply]
    cases b with
    | true => exact key m2 m1' true o p2 v2 n2 d3 d4 hk
    | false =>
      simp only [if_true]
      have hrun := HMethod.run_sim hf P.init m2 p2
      have hS := ht.init m2.coef m2.val m2.evals
      obtain ⟨x1, x2, x3⟩ := m1'
      simp only at n2 d3 d4 d6
      have d3' : m2.coef = x1 := d3
      have d4' : m2.evals = x3 := d4
      rw [v2, n2, d3', d4'] at hS
      rw [d4'] at hrun
      rcases hr : HMethod.run f P.init m2 with ⟨r, m3⟩
      rw [hr] at hrun
      obtain ⟨a1, a2, a3, a4, a5, a6⟩ := hrun
      simp only at a1 a2 a3 a4 a5 a6
      rw [← a1, ← a4, ← a5] at hS
      have e1 : (Wrap.onMethod (HMethod.run f P.init) : PyM (Wrap (HMethod Coef ι)) Unit) ⟨false, o, m2⟩ =
          (r, ⟨false, o, m3⟩) := by simp [Wrap.onMethod, hr]
      have e2 : (Wrap.onMethod (S.n1Init w) : PyM (Wrap (CSMethod Coef ι)) Unit) ⟨false, o, ⟨x1, x2, x3⟩⟩ =
          (r, ⟨false, o, ⟨x1, m3.val NL1, m3.evals⟩⟩) := by simp [Wrap.onMethod, hS.1]
      cases r with
      | error e =>
        rw [PyM.bind_error e1, PyM.bind_error e2]
        exact ⟨hk.trans a2, ⟨rfl, rfl, a6.trans d3', rfl, a3, rfl⟩, rfl⟩
      | ok _ =>
        rw [PyM.bind_ok e1, PyM.bind_ok e2]
        simp only [PyM.bind_modify_apply]
        exact key m3 _ true o a3 hS.2 rfl (a6.trans d3') rfl (hk.trans a2)

end

section
variable {Coef : Type} {f : HeapNl ι} {nl : NlFunc ι} {last : Attr}

/-- The object over the heap (`s`) stands for the object with arrays as values (`s'`). -/
structure DenAS (last : Attr) (s : Wrap (HMethod Coef ι)) (s' : Wrap (ASMethod Coef ι)) : Prop where
  n1init : s.n1init = s'.n1init
  hCoeff : s.hCoeff = s'.hCoeff
  coef : s.method.coef = s'.method.coef
  evals : s.method.evals = s'.method.evals
  pub : ∀ a, s.method.heap.Pub (s.method.attr a)
  NL1 : s.method.val NL1 = s'.method.NL1
  NLlast : s.method.val last = s'.method.NLlast
  v : s.method.val v = s'.method.v

/-- An array returned by a trial, and the value it stands for. -/
def Heap.Arr (H : Heap ι) (a : HArr ι) (v : Vec ι) : Prop := H.Den a.ref v ∧ a.seen = v

/-- Outcomes that correspond. -/
structure OutAS (last : Attr) (s : Wrap (HMethod Coef ι)) (r : Except PyErr (HArr ι × HArr ι) × Wrap (HMethod Coef ι))
    (q : Except PyErr (Vec ι × Vec ι) × Wrap (ASMethod Coef ι)) : Prop where
  keeps : s.method.heap.Keeps r.2.method.heap
  den : DenAS last r.2 q.2
  res : RelE (fun p p' => (r.2.method.heap.Arr p.1 p'.1 ∧ r.2.method.heap.Arr p.2 p'.2) ∧ s.method.heap.next ≤ p.1.ref)
    r.1 q.1

variable {P : ASProg Coef ι} {S : ASStrategy Coef ι}

theorem ASProg.coeffs_sim (ht : TieAS P S last nl) (h : ℝ) {s : Wrap (HMethod Coef ι)} {s' : Wrap (ASMethod Coef ι)}
    (hd : DenAS last s s') :
    (P.coeffs h s).1 = (IF34.updateCoeffs S h s').1 ∧ DenAS last (P.coeffs h s).2 (IF34.updateCoeffs S h s').2 ∧
    (P.coeffs h s).2.method.heap = s.method.heap := by
  obtain ⟨d1, d2, d3, d4, d5, d6, d7, d8⟩ := hd
  simp only [ASProg.coeffs, IF34.updateCoeffs, PyM.bind_get_apply, d2]
  by_cases hh : some h = s'.hCoeff
  · simp only [hh, if_true]
    exact ⟨rfl, ⟨d1, d2, d3, d4, d5, d6, d7, d8⟩, rfl⟩
  · simp only [hh, if_false, PyM.bind_modify_apply, Wrap.onMethod, PyM.zoom_apply, ht.coeffs, d3]
    exact ⟨trivial, ⟨d1, rfl, rfl, d4, d5, d6, d7, d8⟩, trivial⟩

/-- The state of a strategy object during a call with argument `w`. -/
structure InCall (last : Attr) (w : Vec ι) (H : Heap ι) (m : HMethod Coef ι) (m' : ASMethod Coef ι) : Prop where
  keeps : H.Keeps m.heap
  coef : m.coef = m'.coef
  evals : m.evals = m'.evals
  pub : ∀ a, m.heap.Pub (m.attr a)
  u : m.val .u = w
  NL1 : m.val NL1 = m'.NL1
  NLlast : m.val last = m'.NLlast
  v : m.val v = m'.v

theorem InCall.den {w : Vec ι} {H : Heap ι} {m : HMethod Coef ι} {m' : ASMethod Coef ι} (hi : InCall last w H m m')
    (b : Bool) (o : Option ℝ) : DenAS last ⟨b, o, m⟩ ⟨b, o, m'⟩ :=
  ⟨rfl, rfl, hi.coef, hi.evals, hi.pub, hi.NL1, hi.NLlast, hi.v⟩

theorem ASProg.init_sim (hf : CleanNl f nl) (ht : TieAS P S last nl) {w : Vec ι} {H : Heap ι} {m : HMethod Coef ι}
    {m' : ASMethod Coef ι} (hi : InCall last w H m m') :
    (HMethod.run f P.init m).1 = (S.init w m').1 ∧
    DenAS last ⟨true, none, (HMethod.run f P.init m).2⟩ ⟨true, none, (S.init w m').2⟩ ∧
    InCall last w H (HMethod.run f P.init m).2 (S.init w m').2 := by
  obtain ⟨q0, q1, q2, q3, q4, q5, q6, q7⟩ := hi
  have hrun := HMethod.run_sim hf P.init m q3
  have hS := ht.init m.coef m.val m.evals
  obtain ⟨x1, x2, x3, x4, x5⟩ := m'
  simp only at q1 q2 q5 q6 q7
  rw [q1, q2, q4, q5, q6, q7] at hS
  rw [q2] at hrun
  obtain ⟨a1, a2, a3, a4, a5, a6⟩ := hrun
  rw [← a1, ← a4, ← a5] at hS
  rw [hS.1]
  exact ⟨rfl, ⟨rfl, rfl, a6.trans q1, rfl, a3, rfl, rfl, rfl⟩,
    ⟨q0.trans a2, a6.trans q1, rfl, a3, hS.2, rfl, rfl, rfl⟩⟩

theorem ASProg.stages_sim (hf : CleanNl f nl) (ht : TieAS P S last nl) {w : Vec ι} {H : Heap ι} {m : HMethod Coef ι}
    {m' : ASMethod Coef ι} (hi : InCall last w H m m') (h : ℝ) (a b : Bool) (o : Option ℝ) {s : Wrap (HMethod Coef ι)}
    (hs : s.method.heap = H) :
    OutAS last s ((do
        if a then
          Wrap.onMethod (HMethod.run f P.accepted)
        Wrap.onMethod (P.body f h) : PyM (Wrap (HMethod Coef ι)) _) ⟨b, o, m⟩)
      (Wrap.onMethod (S.updateStages w h a) ⟨b, o, m'⟩) := by
  obtain ⟨q0, q1, q2, q3, q4, q5, q6, q7⟩ := hi
  have hrun := HMethod.run_sim hf ((if a then P.accepted else []) ++ P.stages m.coef h) m q3
  have hS := ht.stages h a m.coef m.val m.evals
  obtain ⟨x1, x2, x3, x4, x5⟩ := m'
  simp only at q1 q2 q5 q6 q7
  rw [q1, q2, q4, q5, q6, q7] at hS
  rw [q1, q2] at hrun
  have e : ((do
        if a then
          Wrap.onMethod (HMethod.run f P.accepted)
        Wrap.onMethod (P.body f h) : PyM (Wrap (HMethod Coef ι)) _) ⟨b, o, m⟩) =
      let r := HMethod.run f ((if a then P.accepted else []) ++ P.stages x1 h) m
      (r.1.map fun _ => (⟨r.2.attr P.out, r.2.val P.out⟩, ⟨r.2.attr err, r.2.val err⟩), ⟨b, o, r.2⟩) := by
    rw [HMethod.run_append]
    cases a with
    | false =>
      simp only [Bool.false_eq_true, if_false, HMethod.run, ASProg.body, Wrap.onMethod]
      change (PyM.zoom _ _ _ _) = _
      simp only [PyM.zoom_apply, PyM.bind_get_apply, q1, PyM.bind_pure_unit]
      rcases hr : HMethod.run f (P.stages x1 h) m with ⟨r, m3⟩
      cases r with
      | error e => rw [PyM.bind_error hr]; rfl
      | ok _ => rw [PyM.bind_ok hr]; rfl
    | true =>
      simp only [if_true, ASProg.body]
      have hco : ∀ i (s : HMethod Coef ι), (HMethod.exec f i s).2.coef = s.coef := by
        intro i s
        cases i with
        | set x e => rfl
        | call x y => simp only [HMethod.exec]; rcases f (s.attr y) s.heap with ⟨_ | _, _⟩ <;> rfl
      have hco' : ∀ is (s : HMethod Coef ι), (HMethod.run f is s).2.coef = s.coef := by
        intro is
        induction is with
        | nil => intro s; rfl
        | cons i is ih =>
          intro s
          have := hco i s
          simp only [HMethod.run, PyM.bind_apply]
          rcases he : HMethod.exec f i s with ⟨_ | _, s1⟩
          · rw [he] at this; exact this
          · rw [he] at this; exact (ih s1).trans this
      have hc := hco' P.accepted m
      rcases hr : HMethod.run f P.accepted m with ⟨r, m3⟩
      rw [hr] at hc
      have e1 : (Wrap.onMethod (HMethod.run f P.accepted) : PyM (Wrap (HMethod Coef ι)) Unit) ⟨b, o, m⟩ =
          (r, ⟨b, o, m3⟩) := by simp [Wrap.onMethod, hr]
      cases r with
      | error e => rw [PyM.bind_error e1, PyM.bind_error hr]; rfl
      | ok _ =>
        rw [PyM.bind_ok e1, PyM.bind_ok hr]
        simp only at hc
        simp only [Wrap.onMethod, PyM.zoom_apply, PyM.bind_get_apply, hc, q1]
        rcases hr : HMethod.run f (P.stages x1 h) m3 with ⟨r, m4⟩
        cases r with
        | error e => rw [PyM.bind_error hr]; rfl
        | ok _ => rw [PyM.bind_ok hr]; rfl
  rw [e]
  obtain ⟨a1, a2, a3, a4, a5, a6⟩ := hrun
  simp only [Wrap.onMethod, PyM.zoom_apply, hS]
  subst hs
  rw [← a1, ← a4, ← a5]
  refine ⟨q0.trans a2, ⟨rfl, rfl, a6.trans q1, rfl, a3, rfl, rfl, rfl⟩, ?_⟩
  cases hr : (HMethod.run f ((if a then P.accepted else []) ++ P.stages x1 h) m).1 with
  | error e => rfl
  | ok _ =>
    refine ⟨⟨⟨⟨a3 _, rfl⟩, rfl⟩, ⟨⟨a3 _, rfl⟩, rfl⟩⟩, q0.1.trans ?_⟩
    refine HMethod.run_fresh hf P.out m.heap.next _ m _ q3 (Prod.ext hr rfl) false (by simp) le_rfl ?_
    cases a
    · exact ht.fresh x1 h
    · exact freshAfter_append _ _ _ (ht.fresh x1 h) _

theorem ASProg.arg_sim {s1 : Wrap (HMethod Coef ι)} {s1' : Wrap (ASMethod Coef ι)} (hd : DenAS last s1 s1') {r : ℕ}
    {w : Vec ι} (hl : last ≠ .u) (hu : s1.method.heap.Den r w) :
    InCall last w s1.method.heap { s1.method with attr := Function.update s1.method.attr .u r } s1'.method := by
  obtain ⟨d1, d2, d3, d4, d5, d6, d7, d8⟩ := hd
  refine ⟨Heap.Keeps.refl _, d3, d4, fun a => ?_, by simpa [HMethod.val] using hu.2, by simpa [HMethod.val] using d6,
    by simpa [HMethod.val, hl] using d7, by simpa [HMethod.val] using d8⟩
  by_cases ha : a = .u
  · subst ha; simpa using hu.1
  · simpa [ha] using d5 a

theorem ASProg.updateStages_sim (hf : CleanNl f nl) (ht : TieAS P S last nl) (hl : last ≠ .u) (u : HArr ι) (h : ℝ)
    (a : Bool) {s : Wrap (HMethod Coef ι)} {s' : Wrap (ASMethod Coef ι)} (hd : DenAS last s s') {w : Vec ι}
    (hu : s.method.heap.Den u.ref w) :
    OutAS last s (P.updateStages f u h a s) (IF34.updateStages S w h a s') := by
  obtain ⟨c1, c2, c3⟩ := ASProg.coeffs_sim ht h hd
  rcases he : P.coeffs h s with ⟨r, s1⟩
  rcases he' : IF34.updateCoeffs S h s' with ⟨r', s1'⟩
  rw [he, he'] at c1 c2
  rw [he] at c3
  simp only at c1 c2 c3
  subst c1
  simp only [ASProg.updateStages, IF34.updateStages]
  cases r with
  | error e =>
    rw [PyM.bind_error he, PyM.bind_error he']
    exact ⟨by rw [c3]; exact Heap.Keeps.refl _, c2, rfl⟩
  | ok _ =>
    rw [PyM.bind_ok he, PyM.bind_ok he']
    have hin := ASProg.arg_sim c2 hl (by rw [c3]; exact hu)
    obtain ⟨b, o, m1⟩ := s1
    obtain ⟨b', o', m1'⟩ := s1'
    have d1 := c2.n1init
    have d2 := c2.hCoeff
    simp only at d1 d2 c3 hin
    subst d1 d2
    have harg : (Wrap.onMethod (HMethod.arg u.ref) : PyM (Wrap (HMethod Coef ι)) Unit) ⟨b, o, m1⟩ =
      (.ok (), ⟨b, o, { m1 with attr := Function.update m1.attr .u u.ref }⟩) := rfl
    rw [PyM.bind_ok harg]
    simp only [PyM.bind_get_apply]
    cases b with
    | true => exact ASProg.stages_sim hf ht hin h a true o c3.symm
    | false =>
      simp only [if_true]
      obtain ⟨b1, b2, b3⟩ := ASProg.init_sim hf ht hin
      rcases hr : HMethod.run f P.init { m1 with attr := Function.update m1.attr .u u.ref } with ⟨r, m3⟩
      rcases hr' : S.init w m1' with ⟨r', m3'⟩
      rw [hr, hr'] at b1 b2 b3
      simp only at b1 b2 b3
      subst b1
      have e1 : (Wrap.onMethod (HMethod.run f P.init) : PyM (Wrap (HMethod Coef ι)) Unit)
          ⟨false, o, { m1 with attr := Function.update m1.attr .u u.ref }⟩ = (r, ⟨false, o, m3⟩) := by
        simp [Wrap.onMethod, hr]
      have e2 : (Wrap.onMethod (S.init w) : PyM (Wrap (ASMethod Coef ι)) Unit) ⟨false, o, m1'⟩ =
          (r, ⟨false, o, m3'⟩) := by simp [Wrap.onMethod, hr']
      cases r with
      | error e =>
        rw [PyM.bind_error e1, PyM.bind_error e2]
        exact ⟨by rw [← c3]; exact b3.keeps, b3.den _ _, rfl⟩
      | ok _ =>
        rw [PyM.bind_ok e1, PyM.bind_ok e2]
        simp only [PyM.bind_modify_apply]
        exact ASProg.stages_sim hf ht b3 h a true o c3.symm

end

section
variable [Fintype ι] [DecidableEq ι] {f : HeapNl ι} {nl : NlFunc ι}

theorem IF45DP.updateStages_sim (hf : CleanNl f nl) (L : Vec ι) (u : HArr ι) (h : ℝ)
    (a : Bool) {s : Wrap (HMethod (If45dpCoef ι) ι)} {s' : Wrap (ASMethod (If45dpCoef ι) ι)} (hd : DenAS NL7 s s')
    {w : Vec ι} (hu : s.method.heap.Den u.ref w) :
    OutAS NL7 s ((IF45DP.prog L).updateStagesDP f u h a s) (IF45DP.updateStages L nl w h a s') := by
  have ht := IF45DP.tie L nl
  obtain ⟨c1, c2, c3⟩ := ASProg.coeffs_sim ht h hd
  rcases he : (IF45DP.prog L).coeffs h s with ⟨r, s1⟩
  rcases he' : IF45DP.updateCoeffs L h s' with ⟨r', s1'⟩
  have he2 : IF34.updateCoeffs (IF45DP.object L nl) h s' = (r', s1') := he'
  rw [he, he2] at c1 c2
  rw [he] at c3
  simp only at c1 c2 c3
  subst c1
  simp only [ASProg.updateStagesDP, IF45DP.updateStages]
  cases r with
  | error e =>
    rw [PyM.bind_error he, PyM.bind_error he']
    exact ⟨by rw [c3]; exact Heap.Keeps.refl _, c2, rfl⟩
  | ok _ =>
    rw [PyM.bind_ok he, PyM.bind_ok he']
    have hin := ASProg.arg_sim c2 (by decide) (by rw [c3]; exact hu)
    obtain ⟨b, o, m1⟩ := s1
    obtain ⟨b', o', m1'⟩ := s1'
    have d1 := c2.n1init
    have d2 := c2.hCoeff
    simp only at d1 d2 c3 hin
    subst d1 d2
    have harg : (Wrap.onMethod (HMethod.arg u.ref) : PyM (Wrap (HMethod (If45dpCoef ι) ι)) Unit) ⟨b, o, m1⟩ =
      (.ok (), ⟨b, o, { m1 with attr := Function.update m1.attr .u u.ref }⟩) := rfl
    rw [PyM.bind_ok harg]
    simp only [PyM.bind_get_apply]
    cases b with
    | true =>
      cases a with
      | true => exact ASProg.stages_sim hf ht hin h true true o c3.symm
      | false => exact ASProg.stages_sim hf ht hin h false true o c3.symm
    | false =>
      simp only [if_true]
      obtain ⟨b1, b2, b3⟩ := ASProg.init_sim hf ht hin
      rcases hr : HMethod.run f (IF45DP.prog L).init { m1 with attr := Function.update m1.attr .u u.ref } with ⟨r, m3⟩
      rcases hr' : (IF45DP.object L nl).init w m1' with ⟨r', m3'⟩
      rw [hr, hr'] at b1 b2 b3
      simp only at b1 b2 b3
      subst b1
      have e1 : (Wrap.onMethod (HMethod.run f (IF45DP.prog L).init) : PyM (Wrap (HMethod (If45dpCoef ι) ι)) Unit)
          ⟨false, o, { m1 with attr := Function.update m1.attr .u u.ref }⟩ = (r, ⟨false, o, m3⟩) := by
        simp [Wrap.onMethod, hr]
      have e2 : (Wrap.onMethod ((IF45DP.object L nl).init w) : PyM (Wrap (ASMethod (If45dpCoef ι) ι)) Unit)
          ⟨false, o, m1'⟩ = (r, ⟨false, o, m3'⟩) := by simp only [Wrap.onMethod, PyM.zoom_apply, hr']
      simp only [IF45DP.object] at e2
      cases r with
      | error e =>
        rw [PyM.bind_error e1, PyM.bind_error e2]
        exact ⟨by rw [← c3]; exact b3.keeps, b3.den _ _, rfl⟩
      | ok _ =>
        rw [PyM.bind_ok e1, PyM.bind_ok e2]
        simp only [PyM.bind_modify_apply]
        exact ASProg.stages_sim hf ht b3 h false true o c3.symm

end

end Verif
