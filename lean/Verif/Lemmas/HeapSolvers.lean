import Verif.Lemmas.HeapLoop

/-!
# The seven solvers over the heap
-/

set_option linter.unusedSectionVars false

namespace Verif

open Matrix Attr

variable {ι : Type}

theorem simCS {Coef : Type} {f : HeapNl ι} {nl : NlFunc ι} {P : CSProg Coef ι} {S : CSStrategy Coef ι}
    (hf : CleanNl f nl) (ht : TieCS P S nl) : SimCS (fun s => s.method.heap) DenCS (P.cls f) (IF4.cls S) where
  reset s s' h := ⟨rfl, rfl, h.coef, h.evals, h.pub, h.NL1⟩
  heap s := rfl
  stages u w h s s' hs hu :=
    have := CSProg.updateStages_sim hf ht u h hs hu
    ⟨this.keeps, this.den, this.res⟩

section
variable [Fintype ι] [DecidableEq ι] {f : HeapNl ι} {nl : NlFunc ι}

theorem CSSolver.sim (hf : CleanNl f nl) (m : CSSolver ι) :
    SimCS (fun s => s.method.heap) DenCS (m.heapCls f) (m.cls nl) := by
  rcases m with (L | L) | ⟨cfg, L | L⟩ | ⟨cfg, L | L⟩
  · exact simCS hf (IF4.tieDiagonal L nl)
  · exact simCS hf (IF4.tieNonDiagonal L nl)
  · exact simCS hf (ETD4.tieDiagonal cfg L nl)
  · exact simCS hf (ETD4.tieNonDiagonal cfg L nl)
  · exact simCS hf (ETD5.tieDiagonal cfg L nl)
  · exact simCS hf (ETD5.tieNonDiagonal cfg L nl)

theorem simAS {Coef : Type} {P : ASProg Coef ι} {S : ASStrategy Coef ι} {last : Attr}
    (hf : CleanNl f nl) (ht : TieAS P S last nl) (hl : last ≠ .u) :
    SimAS (fun s => s.method.heap) (DenAS last) (heapAS 4 (P.updateStages f)) (IF34.cls S) where
  reset s s' h := ⟨rfl, rfl, h.coef, h.evals, h.pub, h.NL1, h.NLlast, h.v⟩
  heap s := rfl
  stages u w h a s s' hs hu :=
    have := ASProg.updateStages_sim hf ht hl u h a hs hu
    ⟨this.keeps, this.den, this.res⟩
  computeS cfg u err := rfl

/-- The attribute copied to `_NL1` after an accepted step. -/
def ASSolver.last : ASSolver ι → Attr
  | if34 _ => NL5
  | etd34 _ _ => NL5
  | etd35 _ _ => NL7
  | if45dp _ => NL7

theorem ASSolver.sim (hf : CleanNl f nl) (m : ASSolver ι) :
    SimAS (fun s => s.method.heap) (DenAS m.last) (m.heapCls f) (m.cls nl) := by
  rcases m with (L | L | ⟨l, S, T, hS⟩) | ⟨cfg, L | L | ⟨l, S, T, hS⟩⟩ | ⟨cfg, L | L | ⟨l, S, T, hS⟩⟩ | L
  · exact simAS hf (IF34.tieDiagonal L nl) (by simp [ASSolver.last])
  · exact simAS hf (IF34.tieNonDiagonal L nl) (by simp [ASSolver.last])
  · exact simAS hf (IF34.tieDiagonalized l S T nl) (by simp [ASSolver.last])
  · exact simAS hf (ETD34.tieDiagonal cfg L nl) (by simp [ASSolver.last])
  · exact simAS hf (ETD34.tieNonDiagonal cfg L nl) (by simp [ASSolver.last])
  · exact simAS hf (ETD34.tieDiagonalized cfg l S T nl) (by simp [ASSolver.last])
  · exact simAS hf (ETD35.tieDiagonal cfg L nl) (by simp [ASSolver.last])
  · exact simAS hf (ETD35.tieNonDiagonal cfg L nl) (by simp [ASSolver.last])
  · exact simAS hf (ETD35.tieDiagonalized cfg l S T nl) (by simp [ASSolver.last])
  · exact { reset := fun s s' h => ⟨rfl, rfl, h.coef, h.evals, h.pub, h.NL1, h.NLlast, h.v⟩
            heap := fun s => rfl
            stages := fun u w h a s s' hs hu =>
              have := IF45DP.updateStages_sim hf L u h a hs hu
              ⟨this.keeps, this.den, this.res⟩
            computeS := fun cfg u err => rfl }

/-! ### Sessions -/

theorem Heap.keeps_write {H : Heap ι} {r a : ℕ} {v w : Vec ι} (h : H.Den a w) (hr : a ≠ r) : (H.write r v).Den a w :=
  ⟨h.1, by simpa [Heap.write, hr] using h.2⟩

theorem CSSolver.init_eq (m : CSSolver ι) : m.init = ⟨false, none, ⟨m.init.method.coef, 0, 0⟩⟩ := by
  rcases m with (L | L) | ⟨cfg, L | L⟩ | ⟨cfg, L | L⟩ <;> rfl

theorem ASSolver.init_eq (m : ASSolver ι) : m.init = ⟨false, none, ⟨m.init.method.coef, 0, 0, 0, 0⟩⟩ := by
  rcases m with (L | L | ⟨l, S, T, hS⟩) | ⟨cfg, L | L | ⟨l, S, T, hS⟩⟩ | ⟨cfg, L | L | ⟨l, S, T, hS⟩⟩ | L <;> rfl

/-- The relation that a session keeps. -/
abbrev CSSolver.HRel {m : CSSolver ι} (s : m.HState) (s' : m.State) : Prop := StCS (fun s => s.method.heap) DenCS s s'

/-- The relation that a session keeps. -/
abbrev ASSolver.HRel {m : ASSolver ι} (s : m.HState) (s' : m.State) : Prop :=
  StAS (fun s => s.method.heap) (DenAS m.last) s s'

theorem CSSolver.Session.rel {m : CSSolver ι} (hf : CleanNl f nl) {s : m.HState} {s' : m.State}
    (h : m.Session f nl s s') : HRel s s' := by
  induction h with
  | new H =>
    refine ⟨rfl, rfl, rfl, .nil, ?_, List.nodup_nil⟩
    change DenCS _ m.init
    rw [m.init_eq]
    exact ⟨rfl, rfl, rfl, rfl, fun a => (H.den_alloc 0).1, (H.den_alloc 0).2⟩
  | step h _ hu ih => exact ((m.sim hf).step ih _ _ h hu).inv
  | evolve rnd pyDiv fuel t0 tf h storeData freq _ hu ih =>
    exact ((m.sim hf).evolve rnd pyDiv fuel _ _ t0 tf h storeData freq ih hu).inv
  | reset _ ih => exact ((m.sim hf).resetM ih).inv
  | @alloc s s' v _ ih =>
    have hk := (heap s).keeps_alloc v
    refine ⟨ih.t, ih.tf, ih.tc, ih.u.imp fun a b hab => hab.mono hk, ?_, ih.nodup⟩
    refine ⟨ih.sub.n1init, ih.sub.hCoeff, ih.sub.coef, ih.sub.evals, fun a => (ih.sub.pub a).mono hk, ?_⟩
    exact (hk.2 _ (ih.sub.pub _)).2.trans ih.sub.NL1
  | @write s s' r v _ hr ih =>
    refine ⟨ih.t, ih.tf, ih.tc, ?_, ?_, ih.nodup⟩
    · have : ∀ a ∈ s.u, a ≠ r := fun a ha hne => hr (Or.inl (hne ▸ ha))
      have hu := ih.u
      revert hu this
      generalize s.u = l
      generalize s'.u = l'
      intro hl hu
      induction hu with
      | nil => exact .nil
      | cons h1 _ ih => exact .cons (Heap.keeps_write h1 (hl _ (by simp))) (ih fun a ha => hl a (by simp [ha]))
    · refine ⟨ih.sub.n1init, ih.sub.hCoeff, ih.sub.coef, ih.sub.evals, fun a => ih.sub.pub a, ?_⟩
      exact (Heap.keeps_write ⟨ih.sub.pub _, ih.sub.NL1⟩ fun h => hr (Or.inr h.symm)).2

theorem ASSolver.Session.rel {m : ASSolver ι} (hf : CleanNl f nl) {s : m.HState} {s' : m.State}
    (h : m.Session f nl s s') : HRel s s' := by
  induction h with
  | new H =>
    refine ⟨rfl, rfl, rfl, rfl, rfl, .nil, ?_, List.nodup_nil⟩
    change DenAS _ _ m.init
    rw [m.init_eq]
    exact ⟨rfl, rfl, rfl, rfl, fun a => (H.den_alloc 0).1, (H.den_alloc 0).2, (H.den_alloc 0).2, (H.den_alloc 0).2⟩
  | step rnd cfg h _ hu ih => exact ((m.sim hf).step rnd cfg (argArr _) _ h ih hu).inv
  | evolve rnd pyDiv cfg fuel t0 tf h storeData freq _ hu ih =>
    exact ((m.sim hf).evolve rnd pyDiv cfg fuel (argArr _) _ t0 tf h storeData freq ih hu).inv
  | reset _ ih => exact ((m.sim hf).resetM ih).inv
  | @alloc s s' v _ ih =>
    have hk := (heap s).keeps_alloc v
    refine ⟨ih.t, ih.tf, ih.tc, ih.accept, ih.trials, ih.u.imp fun a b hab => hab.mono hk, ?_, ih.nodup⟩
    refine ⟨ih.sub.n1init, ih.sub.hCoeff, ih.sub.coef, ih.sub.evals, fun a => (ih.sub.pub a).mono hk, ?_, ?_, ?_⟩
    · exact (hk.2 _ (ih.sub.pub _)).2.trans ih.sub.NL1
    · exact (hk.2 _ (ih.sub.pub _)).2.trans ih.sub.NLlast
    · exact (hk.2 _ (ih.sub.pub _)).2.trans ih.sub.v
  | @write s s' r v _ hr ih =>
    refine ⟨ih.t, ih.tf, ih.tc, ih.accept, ih.trials, ?_, ?_, ih.nodup⟩
    · have : ∀ a ∈ s.u.map HArr.ref, a ≠ r := fun a ha hne => hr (Or.inl (hne ▸ ha))
      have hu := ih.u
      revert hu this
      change _ → _ → List.Forall₂ _ (s.u.map HArr.ref) _
      generalize s.u.map HArr.ref = l
      generalize s'.u = l'
      intro hl hu
      induction hu with
      | nil => exact .nil
      | cons h1 _ ih => exact .cons (Heap.keeps_write h1 (hl _ (by simp))) (ih fun a ha => hl a (by simp [ha]))
    · refine ⟨ih.sub.n1init, ih.sub.hCoeff, ih.sub.coef, ih.sub.evals, fun a => ih.sub.pub a, ?_, ?_, ?_⟩
      · exact (Heap.keeps_write ⟨ih.sub.pub _, ih.sub.NL1⟩ fun h => hr (Or.inr (Or.inl h.symm))).2
      · refine (Heap.keeps_write ⟨ih.sub.pub _, ih.sub.NLlast⟩ fun h => hr ?_).2
        subst h
        rcases m with _ | _ | _ | _
        · exact Or.inr (Or.inr (Or.inl rfl))
        · exact Or.inr (Or.inr (Or.inl rfl))
        · exact Or.inr (Or.inr (Or.inr (Or.inl rfl)))
        · exact Or.inr (Or.inr (Or.inr (Or.inl rfl)))
      · exact (Heap.keeps_write ⟨ih.sub.pub _, ih.sub.v⟩ fun h => hr (Or.inr (Or.inr (Or.inr (Or.inr h.symm))))).2

end

/-! ### Distinct arrays -/

section
variable {Coef : Type} {f : HeapNl ι}

/-- Every attribute refers to an existing array. -/
def HMethod.Bdd (s : HMethod Coef ι) : Prop := ∀ a, s.attr a < s.heap.next

/-- `is` assigns `x`. -/
def assigns (x : Attr) : List (Instr ι) → Bool
  | [] => false
  | .set y _ :: is => y == x || assigns x is
  | .call y _ :: is => y == x || assigns x is

theorem HMethod.exec_bdd (hf : FreshNl f) (i : Instr ι) {s : HMethod Coef ι} (hs : s.Bdd) :
    (HMethod.exec f i s).2.Bdd ∧ s.heap.next ≤ (HMethod.exec f i s).2.heap.next ∧
    ((HMethod.exec f i s).1 = .ok () → ∀ x y, assigns x [i] = true → y ≠ x →
      (HMethod.exec f i s).2.attr x ≠ (HMethod.exec f i s).2.attr y) ∧
    ∀ x y, s.attr x ≠ s.attr y → (HMethod.exec f i s).2.attr x ≠ (HMethod.exec f i s).2.attr y := by
  have upd : ∀ (z : Attr) (r : ℕ), s.heap.next ≤ r →
      (∀ x y, (z == x || false) = true → y ≠ x → Function.update s.attr z r x ≠ Function.update s.attr z r y) ∧
      ∀ x y, s.attr x ≠ s.attr y → Function.update s.attr z r x ≠ Function.update s.attr z r y := by
    intro z r hr
    constructor
    · intro x y hx hy
      simp only [Bool.or_false, beq_iff_eq] at hx
      subst hx
      have := hs y
      simp only [Function.update_self, ne_eq, hy, not_false_eq_true, Function.update_of_ne]
      omega
    · intro x y hxy
      have h1 := hs x
      have h2 := hs y
      by_cases hx : x = z
      · by_cases hy : y = z
        · subst hx hy; exact absurd rfl hxy
        · subst hx
          simp only [Function.update_self, ne_eq, hy, not_false_eq_true, Function.update_of_ne]
          omega
      · by_cases hy : y = z
        · subst hy
          simp only [Function.update_self, ne_eq, hx, not_false_eq_true, Function.update_of_ne]
          omega
        · simpa [hx, hy] using hxy
  cases i with
  | set z e =>
    obtain ⟨u1, u2⟩ := upd z s.heap.next le_rfl
    refine ⟨fun a => ?_, Nat.le_succ _, fun _ => u1, u2⟩
    by_cases ha : a = z
    · subst ha; simp [HMethod.exec, Heap.alloc]
    · have := hs a
      simp only [HMethod.exec, ne_eq, ha, not_false_eq_true, Function.update_of_ne, Heap.alloc]
      omega
  | call z y =>
    obtain ⟨h1, h2⟩ := hf (s.attr y) s.heap
    simp only [HMethod.exec]
    rcases hr : f (s.attr y) s.heap with ⟨_ | r, H⟩
    · rw [hr] at h1
      exact ⟨fun a => lt_of_lt_of_le (hs a) h1, h1, fun h => (by cases h), fun _ _ h => h⟩
    · rw [hr] at h1 h2
      obtain ⟨h3, h4⟩ := h2 r rfl
      obtain ⟨u1, u2⟩ := upd z r h3
      refine ⟨fun a => ?_, h1, fun _ => u1, u2⟩
      by_cases ha : a = z
      · subst ha; simpa using h4
      · simpa [ha] using lt_of_lt_of_le (hs a) h1

theorem HMethod.run_bdd (hf : FreshNl f) (is : List (Instr ι)) {s : HMethod Coef ι} (hs : s.Bdd) :
    (HMethod.run f is s).2.Bdd ∧ s.heap.next ≤ (HMethod.run f is s).2.heap.next ∧
    ((HMethod.run f is s).1 = .ok () → ∀ x y, assigns x is = true → y ≠ x →
      (HMethod.run f is s).2.attr x ≠ (HMethod.run f is s).2.attr y) ∧
    ∀ x y, s.attr x ≠ s.attr y → (HMethod.run f is s).2.attr x ≠ (HMethod.run f is s).2.attr y := by
  induction is generalizing s with
  | nil => exact ⟨hs, le_rfl, fun _ x y h => (by cases h), fun _ _ h => h⟩
  | cons i is ih =>
    obtain ⟨a1, a2, a3, a4⟩ := HMethod.exec_bdd hf i hs
    simp only [HMethod.run, PyM.bind_apply]
    rcases he : HMethod.exec f i s with ⟨r, s1⟩
    rw [he] at a1 a2 a3 a4
    cases r with
    | error e => exact ⟨a1, a2, fun h => (by cases h), a4⟩
    | ok _ =>
      obtain ⟨b1, b2, b3, b4⟩ := ih a1
      refine ⟨b1, a2.trans b2, fun h x y hx hy => ?_, fun x y hxy => b4 x y (a4 x y hxy)⟩
      by_cases hx' : assigns x is = true
      · exact b3 h x y hx' hy
      · refine b4 x y (a3 rfl x y ?_ hy)
        rw [Bool.not_eq_true] at hx'
        cases i <;> simpa [assigns, hx'] using hx

/-- With a nonlinear function that returns its argument, the array returned is the one `NL1` refers to. -/
theorem CSProg.updateStages_same {P : CSProg Coef ι} (l : Coef → ℝ → List (Instr ι))
    (hk : ∀ c h, P.stages c h = l c h ++ [.call .NL1 .k]) {u : ℕ} {h : ℝ} {s s' : Wrap (HMethod Coef ι)} {r : ℕ}
    (he : P.updateStages sameNl u h s = (.ok r, s')) : r = s'.method.attr .NL1 := by
  have fin : ∀ x : Wrap (HMethod Coef ι), (Wrap.onMethod (do
        let s ← PyM.get
        HMethod.run sameNl (P.stages s.coef h)
        let s ← PyM.get
        pure (s.attr .k)) x) = (.ok r, s') → r = s'.method.attr .NL1 := by
    rintro ⟨b, o, m⟩ hr
    simp only [Wrap.onMethod, PyM.zoom_apply, PyM.bind_get_apply] at hr
    rw [hk] at hr
    have happ := HMethod.run_append (f := sameNl) (l m.coef h) [.call .NL1 .k] m
    rcases hq : HMethod.run sameNl (l m.coef h) m with ⟨r1, m1⟩
    cases r1 with
    | error e => rw [PyM.bind_error (happ.trans (PyM.bind_error hq))] at hr; cases hr
    | ok _ =>
      rw [PyM.bind_ok hq] at happ
      have h2 : HMethod.run sameNl [.call .NL1 .k] m1 =
        (.ok (), { m1 with attr := Function.update m1.attr .NL1 (m1.attr .k), evals := m1.evals + 1 }) := rfl
      rw [PyM.bind_ok (happ.trans h2)] at hr
      cases hr
      simp
  simp only [CSProg.updateStages] at he
  rcases hc : P.coeffs h s with ⟨rc, s1⟩
  cases rc with
  | error e => rw [PyM.bind_error hc] at he; cases he
  | ok _ =>
    rw [PyM.bind_ok hc] at he
    rcases ha : Wrap.onMethod (HMethod.arg u) s1 with ⟨ra, s2⟩
    cases ra with
    | error e => rw [PyM.bind_error ha] at he; cases he
    | ok _ =>
      rw [PyM.bind_ok ha, PyM.bind_get_apply] at he
      split_ifs at he
      · rcases hi : Wrap.onMethod (HMethod.run sameNl P.init) s2 with ⟨ri, s3⟩
        cases ri with
        | error e => rw [PyM.bind_error hi] at he; cases he
        | ok _ =>
          rw [PyM.bind_ok hi, PyM.bind_modify_apply] at he
          exact fin _ he
      · exact fin _ he

/-- A call that got through: the array returned is no longer referred to by any attribute but `_k`. -/
theorem CSProg.updateStages_distinct {P : CSProg Coef ι} (hf : FreshNl f) (hk : ∀ c h, assigns k (P.stages c h) = true)
    {u : ℕ} {h : ℝ} {s s' : Wrap (HMethod Coef ι)} {r : ℕ} (hs : s.method.Bdd) (hu : u < s.method.heap.next)
    (he : P.updateStages f u h s = (.ok r, s')) (y : Attr) (hy : y ≠ k) : r ≠ s'.method.attr y := by
  have fin : ∀ (m : HMethod Coef ι) (b : Bool) (o : Option ℝ), m.Bdd → (Wrap.onMethod (do
        let s ← PyM.get
        HMethod.run f (P.stages s.coef h)
        let s ← PyM.get
        pure (s.attr .k)) ⟨b, o, m⟩) = (.ok r, s') → r ≠ s'.method.attr y := by
    intro m b o hm hr
    obtain ⟨-, -, h3, -⟩ := HMethod.run_bdd hf (P.stages m.coef h) hm
    simp only [Wrap.onMethod, PyM.zoom_apply, PyM.bind_get_apply] at hr
    rcases hq : HMethod.run f (P.stages m.coef h) m with ⟨r1, m1⟩
    rw [hq] at h3
    cases r1 with
    | error e => rw [PyM.bind_error hq] at hr; cases hr
    | ok _ =>
      rw [PyM.bind_ok hq] at hr
      cases hr
      exact h3 rfl k y (hk _ _) hy
  simp only [CSProg.updateStages] at he
  rcases hc : P.coeffs h s with ⟨rc, s1⟩
  cases rc with
  | error e => rw [PyM.bind_error hc] at he; cases he
  | ok _ =>
    rw [PyM.bind_ok hc] at he
    have hsame : s1.method.heap = s.method.heap ∧ s1.method.attr = s.method.attr := by
      simp only [CSProg.coeffs, PyM.bind_get_apply] at hc
      split_ifs at hc
      · cases hc; exact ⟨rfl, rfl⟩
      · simp only [PyM.bind_modify_apply, Wrap.onMethod, PyM.zoom_apply] at hc
        obtain rfl : _ = s1 := congrArg Prod.snd hc
        exact ⟨rfl, rfl⟩
    obtain ⟨b, o, m1⟩ := s1
    set m2 : HMethod Coef ι := { m1 with attr := Function.update m1.attr .u u } with hm2
    have hb2 : m2.Bdd := by
      intro a
      simp only at hsame
      simp only [hm2, hsame.1, hsame.2]
      by_cases ha : a = .u
      · subst ha; simpa using hu
      · simpa [ha] using hs a
    have harg : (Wrap.onMethod (HMethod.arg u) : PyM (Wrap (HMethod Coef ι)) Unit) ⟨b, o, m1⟩ = (.ok (), ⟨b, o, m2⟩) := rfl
    rw [PyM.bind_ok harg] at he
    simp only [PyM.bind_get_apply] at he
    cases b with
    | true => exact fin m2 true o hb2 he
    | false =>
      simp only [if_true] at he
      rcases hr : HMethod.run f P.init m2 with ⟨r0, m3⟩
      have hb3 := (HMethod.run_bdd hf P.init hb2).1
      rw [hr] at hb3
      have e1 : (Wrap.onMethod (HMethod.run f P.init) : PyM (Wrap (HMethod Coef ι)) Unit) ⟨false, o, m2⟩ =
          (r0, ⟨false, o, m3⟩) := by simp [Wrap.onMethod, hr]
      cases r0 with
      | error e => rw [PyM.bind_error e1] at he; cases he
      | ok _ =>
        rw [PyM.bind_ok e1] at he
        simp only [PyM.bind_modify_apply] at he
        exact fin m3 true o hb3 he

theorem ASProg.body_distinct {P : ASProg Coef ι} (hf : FreshNl f) (hk : ∀ c h, assigns P.out (P.stages c h) = true)
    {h : ℝ} {p : HArr ι × HArr ι} {s' : Wrap (HMethod Coef ι)} (m : HMethod Coef ι) (b : Bool) (o : Option ℝ)
    (hm : m.Bdd) (hr : (Wrap.onMethod (P.body f h) : PyM (Wrap (HMethod Coef ι)) _) ⟨b, o, m⟩ = (.ok p, s')) (y : Attr)
    (hy : y ≠ P.out) : p.1.ref ≠ s'.method.attr y := by
  obtain ⟨-, -, h3, -⟩ := HMethod.run_bdd hf (P.stages m.coef h) hm
  simp only [Wrap.onMethod, PyM.zoom_apply, ASProg.body, PyM.bind_get_apply] at hr
  rcases hq : HMethod.run f (P.stages m.coef h) m with ⟨r1, m1⟩
  rw [hq] at h3
  cases r1 with
  | error e => rw [PyM.bind_error hq] at hr; cases hr
  | ok _ =>
    rw [PyM.bind_ok hq] at hr
    cases hr
    exact h3 rfl _ y (hk _ _) hy

theorem ASProg.coeffs_bdd {P : ASProg Coef ι} {h : ℝ} {s s1 : Wrap (HMethod Coef ι)} {r : Except PyErr Unit}
    (hc : P.coeffs h s = (r, s1)) : s1.method.heap = s.method.heap ∧ s1.method.attr = s.method.attr := by
  simp only [ASProg.coeffs, PyM.bind_get_apply] at hc
  split_ifs at hc
  · cases hc; exact ⟨rfl, rfl⟩
  · simp only [PyM.bind_modify_apply, Wrap.onMethod, PyM.zoom_apply] at hc
    cases hc; exact ⟨rfl, rfl⟩

theorem ASProg.updateStages_distinct {P : ASProg Coef ι} (hf : FreshNl f)
    (hk : ∀ c h, assigns P.out (P.stages c h) = true) {u : HArr ι} {h : ℝ} {a : Bool} {s s' : Wrap (HMethod Coef ι)}
    {p : HArr ι × HArr ι} (hs : s.method.Bdd) (hu : u.ref < s.method.heap.next)
    (he : P.updateStages f u h a s = (.ok p, s') ∨ P.updateStagesDP f u h a s = (.ok p, s')) (y : Attr)
    (hy : y ≠ P.out) : p.1.ref ≠ s'.method.attr y := by
  have fin := fun m b o hm hr => ASProg.body_distinct (P := P) (h := h) (p := p) (s' := s') hf hk m b o hm hr y hy
  have finA : ∀ (m : HMethod Coef ι) (b : Bool) (o : Option ℝ), m.Bdd → ((do
        Wrap.onMethod (HMethod.run f P.accepted)
        Wrap.onMethod (P.body f h) : PyM (Wrap (HMethod Coef ι)) _) ⟨b, o, m⟩) = (.ok p, s') → p.1.ref ≠ s'.method.attr y := by
    intro m b o hm hr
    rcases hr0 : HMethod.run f P.accepted m with ⟨r0, m3⟩
    have hb3 := (HMethod.run_bdd hf P.accepted hm).1
    rw [hr0] at hb3
    have e1 : (Wrap.onMethod (HMethod.run f P.accepted) : PyM (Wrap (HMethod Coef ι)) Unit) ⟨b, o, m⟩ =
        (r0, ⟨b, o, m3⟩) := by simp [Wrap.onMethod, hr0]
    cases r0 with
    | error e => rw [PyM.bind_error e1] at hr; cases hr
    | ok _ =>
      rw [PyM.bind_ok e1] at hr
      exact fin m3 b o hb3 hr
  have arg : ∀ (b : Bool) (o : Option ℝ) (m1 : HMethod Coef ι), m1.heap = s.method.heap → m1.attr = s.method.attr →
      HMethod.Bdd { m1 with attr := Function.update m1.attr .u u.ref } := by
    intro b o m1 h1 h2 x
    simp only [h1, h2]
    by_cases ha : x = .u
    · subst ha; simpa using hu
    · simpa [ha] using hs x
  rcases hc : P.coeffs h s with ⟨rc, ⟨b, o, m1⟩⟩
  obtain ⟨c1, c2⟩ := ASProg.coeffs_bdd hc
  have hb2 := arg b o m1 c1 c2
  set m2 : HMethod Coef ι := { m1 with attr := Function.update m1.attr .u u.ref } with hm2
  have harg : (Wrap.onMethod (HMethod.arg u.ref) : PyM (Wrap (HMethod Coef ι)) Unit) ⟨b, o, m1⟩ = (.ok (), ⟨b, o, m2⟩) := rfl
  have hinit : ∀ (q : PyM (Wrap (HMethod Coef ι)) (HArr ι × HArr ι)), (b = false →
      (∀ m3 : HMethod Coef ι, m3.Bdd → q ⟨true, o, m3⟩ = (.ok p, s') → p.1.ref ≠ s'.method.attr y) →
      (do
        Wrap.onMethod (HMethod.run f P.init)
        PyM.modify fun s => { s with n1init := true }
        q : PyM (Wrap (HMethod Coef ι)) _) ⟨b, o, m2⟩ = (.ok p, s') → p.1.ref ≠ s'.method.attr y) := by
    intro q _ hq he
    rcases hr : HMethod.run f P.init m2 with ⟨r0, m3⟩
    have hb3 := (HMethod.run_bdd hf P.init hb2).1
    rw [hr] at hb3
    have e1 : (Wrap.onMethod (HMethod.run f P.init) : PyM (Wrap (HMethod Coef ι)) Unit) ⟨b, o, m2⟩ =
        (r0, ⟨b, o, m3⟩) := by simp [Wrap.onMethod, hr]
    cases r0 with
    | error e => rw [PyM.bind_error e1] at he; cases he
    | ok _ =>
      rw [PyM.bind_ok e1] at he
      simp only [PyM.bind_modify_apply] at he
      exact hq m3 hb3 he
  rcases he with he | he
  · simp only [ASProg.updateStages] at he
    cases rc with
    | error e => rw [PyM.bind_error hc] at he; cases he
    | ok _ =>
      rw [PyM.bind_ok hc, PyM.bind_ok harg] at he
      simp only [PyM.bind_get_apply] at he
      cases b with
      | true =>
        cases a with
        | true => exact finA m2 true o hb2 he
        | false => exact fin m2 true o hb2 he
      | false =>
        cases a with
        | true => exact hinit _ rfl (fun m3 => finA m3 true o) he
        | false => exact hinit _ rfl (fun m3 => fin m3 true o) he
  · simp only [ASProg.updateStagesDP] at he
    cases rc with
    | error e => rw [PyM.bind_error hc] at he; cases he
    | ok _ =>
      rw [PyM.bind_ok hc, PyM.bind_ok harg] at he
      simp only [PyM.bind_get_apply] at he
      cases b with
      | true =>
        cases a with
        | true => exact finA m2 true o hb2 he
        | false => exact fin m2 true o hb2 he
      | false => exact hinit _ rfl (fun m3 => fin m3 true o) he

end

/-- What a successful adaptive step returns is what its last trial returned. -/
theorem ASClass.stepLoop_final {V Sub : Type} (C : ASClass ℝ V Sub) (rnd : ℝ → ℝ) (cfg : SolverConfig ℝ) (u : V)
    (I : Sub → Prop) (hI : ∀ h a s, I s → I (C.updateStages u h a s).2) (n : ℕ) (h : ℝ) (s s' : ASState ℝ V Sub)
    (r : V × ℝ × ℝ) (hs : I s.sub) (he : C.stepLoop rnd cfg u n h s = (.ok r, s')) :
    ∃ h' a s1 err, I s1 ∧ C.updateStages u h' a s1 = (.ok (r.1, err), s'.sub) := by
  induction hm : MAX_LOOPS + 1 - n using Nat.strong_induction_on generalizing n h s with
  | _ m ih =>
  rw [ASClass.stepLoop] at he
  rcases ht : C.trial u h s with ⟨q, s1⟩
  have ht1 : C.updateStages u h s.accept s.sub = (q, s1.sub) := by
    simp only [ASClass.trial, PyM.bind_get_apply, PyM.bind_modify_apply, PyM.zoom_apply] at ht
    cases ht
    rfl
  have hI1 : I s1.sub := by
    have := hI h s.accept s.sub hs
    rw [ht1] at this
    exact this
  have rej : ∀ x : Ext ℝ, ((do
          let h' ← ASClass.rejectStepSize cfg x h
          if n + 1 > MAX_LOOPS then PyM.throw .maxLoopsExceeded
          else if rnd h' < cfg.minh then PyM.throw .minimumStepReached
          else C.stepLoop rnd cfg u (n + 1) (rnd h') : PyM _ _) s1) = (.ok r, s') →
      ∃ h' a s1 err, I s1 ∧ C.updateStages u h' a s1 = (.ok (r.1, err), s'.sub) := by
    intro x hx
    have hr : ∃ h', ASClass.rejectStepSize cfg x h s1 = (.ok h', { s1 with accept := false }) := by
      cases x <;> exact ⟨_, rfl⟩
    obtain ⟨h', hr⟩ := hr
    rw [PyM.bind_ok hr] at hx
    split_ifs at hx
    · cases hx
    · cases hx
    · exact ih _ (by omega) (n + 1) (rnd h') { s1 with accept := false } hI1 hx rfl
  cases q with
  | error e => rw [PyM.bind_error ht] at he; cases he
  | ok p =>
    rw [PyM.bind_ok ht] at he
    cases hc : C.computeS cfg p.1 p.2 with
    | fin x =>
      rw [hc] at he
      simp only at he
      by_cases hx : x < 1
      · simp only [hx, if_true] at he
        exact rej _ he
      · simp only [hx, if_false] at he
        rw [PyM.bind_ok (ASClass.acceptStepSize_run cfg x h s1)] at he
        cases he
        exact ⟨h, s.accept, s.sub, p.2, hs, ht1⟩
    | ninf => rw [hc] at he; exact rej _ he
    | pinf => rw [hc] at he; exact rej _ he
    | nan => rw [hc] at he; exact rej _ he

end Verif
