import Verif.Lemmas.HeapSolvers
import Verif.Lemmas.Factor
import Verif.Spec.RungeKutta

/-!
# A nonlinear function that reuses its output buffer
-/

set_option linter.unusedSectionVars false

namespace Verif

open Matrix Attr

variable {ι : Type}

section
variable {Coef : Type} {f : HeapNl ι} {b : ℕ}

/-- `x` is assigned by calls of `nl_func` only. -/
def noSet (x : Attr) : List (Instr ι) → Bool
  | [] => true
  | .set y _ :: is => !(y == x) && noSet x is
  | .call _ _ :: is => noSet x is

theorem HMethod.exec_noSet (hf : BufferNl b f) (x : Attr) (i : Instr ι) (s : HMethod Coef ι) (hx : noSet x [i] = true) :
    (s.attr x = b → (HMethod.exec f i s).2.attr x = b) ∧
    ((HMethod.exec f i s).1 = .ok () → assigns x [i] = true → (HMethod.exec f i s).2.attr x = b) := by
  cases i with
  | set y e =>
    simp only [noSet, Bool.and_true, Bool.not_eq_true', beq_eq_false_iff_ne, ne_eq] at hx
    have hx' : x ≠ y := fun h => hx h.symm
    exact ⟨fun h => by simpa [HMethod.exec, hx'] using h, fun _ h => by simp [assigns, hx] at h⟩
  | call y z =>
    simp only [HMethod.exec]
    have := hf (s.attr z) s.heap
    rcases hr : f (s.attr z) s.heap with ⟨_ | r, H⟩
    · exact ⟨fun h => h, fun h => (by cases h)⟩
    · rw [hr] at this
      obtain rfl := this r rfl
      by_cases hxy : x = y
      · subst hxy; simp
      · exact ⟨fun h => by simpa [hxy] using h, fun _ h => by simp [assigns] at h; exact absurd h.symm hxy⟩

theorem HMethod.run_noSet (hf : BufferNl b f) (x : Attr) (is : List (Instr ι)) (s : HMethod Coef ι)
    (hx : noSet x is = true) :
    (s.attr x = b → (HMethod.run f is s).2.attr x = b) ∧
    ((HMethod.run f is s).1 = .ok () → assigns x is = true → (HMethod.run f is s).2.attr x = b) := by
  induction is generalizing s with
  | nil => exact ⟨fun h => h, fun _ h => by cases h⟩
  | cons i is ih =>
    have hx1 : noSet x [i] = true := by cases i <;> simp_all [noSet]
    have hx2 : noSet x is = true := by cases i <;> simp_all [noSet]
    obtain ⟨a1, a2⟩ := HMethod.exec_noSet hf x i s hx1
    simp only [HMethod.run, PyM.bind_apply]
    rcases he : HMethod.exec f i s with ⟨r, s1⟩
    rw [he] at a1 a2
    cases r with
    | error e => exact ⟨a1, fun h => by cases h⟩
    | ok _ =>
      obtain ⟨b1, b2⟩ := ih s1 hx2
      refine ⟨fun h => b1 (a1 h), fun h hy => ?_⟩
      by_cases hy' : assigns x is = true
      · exact b2 h hy'
      · refine b1 (a2 rfl ?_)
        rw [Bool.not_eq_true] at hy'
        cases i <;> simpa [assigns, hy'] using hy

/-- What is needed of a strategy: `_err` is the last assignment, and 0 when the values of `nl_func` it uses (`X`) are
equal; these are assigned by calls only, in the stages or (`X0`) before. -/
structure ErrDiff (P : ASProg Coef ι) (X0 : List Attr) (X : List Attr) : Prop where
  split : ∀ c h, ∃ pre e, P.stages c h = pre ++ [.set err e] ∧
    (∀ x ∈ X, noSet x pre = true ∧ (x ∈ X0 ∨ assigns x pre = true)) ∧
    (∀ v : Attr → Vec ι, (∀ x ∈ X, ∀ y ∈ X, v x = v y) → e v = 0)
  init : ∀ x ∈ X0, noSet x P.init = true ∧ assigns x P.init = true
  accepted : ∀ x ∈ X0, noSet x P.accepted = true
  stages : ∀ c h, ∀ x ∈ X0, noSet x (P.stages c h) = true

/-- Invariant: once `n1_init` has run, the attributes in `X0` refer to the buffer. -/
def BufInv (b : ℕ) (X0 : List Attr) (s : Wrap (HMethod Coef ι)) : Prop :=
  s.n1init = true → ∀ x ∈ X0, s.method.attr x = b

theorem ASProg.body_buffer {P : ASProg Coef ι} {X0 X : List Attr} (hf : BufferNl b f) (hP : ErrDiff P X0 X) (h : ℝ)
    (s : Wrap (HMethod Coef ι)) (hs : ∀ x ∈ X0, s.method.attr x = b) :
    (∀ x ∈ X0, ((Wrap.onMethod (P.body f h) : PyM (Wrap (HMethod Coef ι)) _) s).2.method.attr x = b) ∧
    ∀ p, ((Wrap.onMethod (P.body f h) : PyM (Wrap (HMethod Coef ι)) _) s).1 = .ok p → p.2.seen = 0 := by
  obtain ⟨n, o, m⟩ := s
  simp only [Wrap.onMethod, PyM.zoom_apply, ASProg.body, PyM.bind_get_apply]
  constructor
  · intro x hx
    have := (HMethod.run_noSet hf x (P.stages m.coef h) m (hP.stages _ _ x hx)).1 (hs x hx)
    rcases hq : HMethod.run f (P.stages m.coef h) m with ⟨r1, m1⟩
    rw [hq] at this
    cases r1 with
    | error e => rw [PyM.bind_error hq]; exact this
    | ok _ => rw [PyM.bind_ok hq]; exact this
  · intro p hp
    rcases hq : HMethod.run f (P.stages m.coef h) m with ⟨r1, m1⟩
    cases r1 with
    | error e => rw [PyM.bind_error hq] at hp; cases hp
    | ok _ =>
      rw [PyM.bind_ok hq] at hp
      cases hp
      obtain ⟨pre, e, h1, h2, h3⟩ := hP.split m.coef h
      rw [h1, HMethod.run_append] at hq
      rcases hr : HMethod.run f pre m with ⟨r0, m0⟩
      cases r0 with
      | error e => rw [PyM.bind_error hr] at hq; cases hq
      | ok _ =>
        rw [PyM.bind_ok hr] at hq
        cases hq
        change Function.update m0.heap.cell m0.heap.next (e m0.val) (Function.update m0.attr err m0.heap.next err) = 0
        rw [Function.update_self, Function.update_self]
        have : ∀ x ∈ X, m0.attr x = b := by
          intro x hx
          obtain ⟨k1, k2⟩ := h2 x hx
          have := HMethod.run_noSet hf x pre m k1
          rw [hr] at this
          rcases k2 with k2 | k2
          · exact this.1 (hs x k2)
          · exact this.2 rfl k2
        exact h3 _ fun x hx y hy => by simp only [HMethod.val, this x hx, this y hy]

theorem ASProg.updateStages_buffer {P : ASProg Coef ι} {X0 X : List Attr} (hf : BufferNl b f) (hP : ErrDiff P X0 X)
    (h0 : ∀ x ∈ X0, x ≠ .u) (u : HArr ι) (h : ℝ) (a : Bool) (s : Wrap (HMethod Coef ι)) (hs : BufInv b X0 s) :
    BufInv b X0 (P.updateStages f u h a s).2 ∧ ∀ p, (P.updateStages f u h a s).1 = .ok p → p.2.seen = 0 := by
  have fin : ∀ s : Wrap (HMethod Coef ι), (∀ x ∈ X0, s.method.attr x = b) →
      BufInv b X0 ((do
        if a then
          Wrap.onMethod (HMethod.run f P.accepted)
        Wrap.onMethod (P.body f h) : PyM (Wrap (HMethod Coef ι)) _) s).2 ∧
      ∀ p, ((do
        if a then
          Wrap.onMethod (HMethod.run f P.accepted)
        Wrap.onMethod (P.body f h) : PyM (Wrap (HMethod Coef ι)) _) s).1 = .ok p → p.2.seen = 0 := by
    intro s hs
    cases a with
    | false =>
      obtain ⟨k1, k2⟩ := ASProg.body_buffer hf hP h s hs
      exact ⟨fun _ => k1, k2⟩
    | true =>
      have hacc : ∀ x ∈ X0, (HMethod.run f P.accepted s.method).2.attr x = b := fun x hx =>
        (HMethod.run_noSet hf x P.accepted s.method (hP.accepted x hx)).1 (hs x hx)
      obtain ⟨n, o, m⟩ := s
      rcases hr0 : HMethod.run f P.accepted m with ⟨r0, m3⟩
      simp only [hr0] at hacc
      have e1 : (Wrap.onMethod (HMethod.run f P.accepted) : PyM (Wrap (HMethod Coef ι)) Unit) ⟨n, o, m⟩ =
          (r0, ⟨n, o, m3⟩) := by simp [Wrap.onMethod, hr0]
      simp only [if_true]
      cases r0 with
      | error e => rw [PyM.bind_error e1]; exact ⟨fun _ => hacc, fun p hp => by cases hp⟩
      | ok _ =>
        rw [PyM.bind_ok e1]
        obtain ⟨k1, k2⟩ := ASProg.body_buffer hf hP h ⟨n, o, m3⟩ hacc
        exact ⟨fun _ => k1, k2⟩
  simp only [ASProg.updateStages]
  rcases hc : P.coeffs h s with ⟨rc, s1⟩
  have hn : s1.n1init = s.n1init := by
    simp only [ASProg.coeffs, PyM.bind_get_apply] at hc
    split_ifs at hc
    · cases hc; rfl
    · simp only [PyM.bind_modify_apply, Wrap.onMethod, PyM.zoom_apply] at hc
      cases hc; rfl
  obtain ⟨-, c2⟩ := ASProg.coeffs_bdd hc
  have hs1 : BufInv b X0 s1 := by
    intro hh x hx
    rw [c2]
    exact hs (hn.symm.trans hh) x hx
  cases rc with
  | error e => rw [PyM.bind_error hc]; exact ⟨hs1, fun p hp => by cases hp⟩
  | ok _ =>
    obtain ⟨n, o, m1⟩ := s1
    set m2 : HMethod Coef ι := { m1 with attr := Function.update m1.attr .u u.ref } with hm2
    have harg : (Wrap.onMethod (HMethod.arg u.ref) : PyM (Wrap (HMethod Coef ι)) Unit) ⟨n, o, m1⟩ =
      (.ok (), ⟨n, o, m2⟩) := rfl
    rw [PyM.bind_ok hc, PyM.bind_ok harg]
    simp only [PyM.bind_get_apply]
    cases n with
    | true =>
      refine fin ⟨true, o, m2⟩ fun x hx => ?_
      have := hs1 rfl x hx
      simpa [hm2, h0 x hx] using this
    | false =>
      simp only [if_true]
      rcases hr : HMethod.run f P.init m2 with ⟨r0, m3⟩
      have e1 : (Wrap.onMethod (HMethod.run f P.init) : PyM (Wrap (HMethod Coef ι)) Unit) ⟨false, o, m2⟩ =
          (r0, ⟨false, o, m3⟩) := by simp [Wrap.onMethod, hr]
      cases r0 with
      | error e => rw [PyM.bind_error e1]; exact ⟨fun hh => (by cases hh), fun p hp => (by cases hp)⟩
      | ok _ =>
        rw [PyM.bind_ok e1]
        simp only [PyM.bind_modify_apply]
        refine fin ⟨true, o, m3⟩ fun x hx => ?_
        obtain ⟨k1, k2⟩ := hP.init x hx
        have := (HMethod.run_noSet hf x P.init m2 k1).2 (by rw [hr]) k2
        rwa [hr] at this

end

/-! ### The programs -/

section
variable [Fintype ι] [DecidableEq ι]

theorem IF34.errDiag (L : Vec ι) : ErrDiff (IF34.progDiagonal L) [] [NL4, NL5] where
  split c h := by
    refine ⟨((IF34.progDiagonal L).stages c h).dropLast, _, rfl, ?_, fun v hv => ?_⟩
    · intro x hx
      fin_cases hx <;> exact ⟨rfl, Or.inr rfl⟩
    · rw [hv NL4 (by simp) NL5 (by simp)]
      funext i
      simp
  init x hx := by cases hx
  accepted x hx := by cases hx
  stages c h x hx := by cases hx

theorem IF34.errNonDiag (L : Mat ι) : ErrDiff (IF34.progNonDiagonal L) [] [NL4, NL5] where
  split c h := by
    refine ⟨((IF34.progNonDiagonal L).stages c h).dropLast, _, rfl, ?_, fun v hv => ?_⟩
    · intro x hx
      fin_cases hx <;> exact ⟨rfl, Or.inr rfl⟩
    · rw [hv NL4 (by simp) NL5 (by simp)]
      funext i
      simp
  init x hx := by cases hx
  accepted x hx := by cases hx
  stages c h x hx := by cases hx

theorem ETD34.errDiag (cfg : ETDConfig ℝ) (L : Vec ι) : ErrDiff (ETD34.progDiagonal cfg L) [] [NL4, NL5] where
  split c h := by
    refine ⟨((ETD34.progDiagonal cfg L).stages c h).dropLast, _, rfl, ?_, fun v hv => ?_⟩
    · intro x hx
      fin_cases hx <;> exact ⟨rfl, Or.inr rfl⟩
    · rw [hv NL4 (by simp) NL5 (by simp)]
      funext i
      simp
  init x hx := by cases hx
  accepted x hx := by cases hx
  stages c h x hx := by cases hx

theorem ETD34.errNonDiag (cfg : ETDConfig ℝ) (L : Mat ι) : ErrDiff (ETD34.progNonDiagonal cfg L) [] [NL4, NL5] where
  split c h := by
    refine ⟨((ETD34.progNonDiagonal cfg L).stages c h).dropLast, _, rfl, ?_, fun v hv => ?_⟩
    · intro x hx
      fin_cases hx <;> exact ⟨rfl, Or.inr rfl⟩
    · rw [hv NL4 (by simp) NL5 (by simp)]
      funext i
      simp
  init x hx := by cases hx
  accepted x hx := by cases hx
  stages c h x hx := by cases hx

theorem ETD35.errDiag (cfg : ETDConfig ℝ) (L : Vec ι) :
    ErrDiff (ETD35.progDiagonal cfg L) [NL1] [NL1, NL3, NL4, NL5, NL6] where
  split c h := by
    refine ⟨((ETD35.progDiagonal cfg L).stages c h).dropLast, _, rfl, ?_, fun v hv => ?_⟩
    · intro x hx
      fin_cases hx
      · exact ⟨rfl, Or.inl (by simp)⟩
      all_goals exact ⟨rfl, Or.inr rfl⟩
    · rw [hv NL3 (by simp) NL1 (by simp), hv NL4 (by simp) NL1 (by simp), hv NL5 (by simp) NL1 (by simp),
        hv NL6 (by simp) NL1 (by simp)]
      have : -v NL1 + 4 * v NL1 - 6 * v NL1 + 4 * v NL1 - v NL1 = 0 := by ring
      rw [this]
      simp
  init x hx := by fin_cases hx; exact ⟨rfl, rfl⟩
  accepted x hx := by fin_cases hx; rfl
  stages c h x hx := by fin_cases hx; rfl

theorem ETD35.errNonDiag (cfg : ETDConfig ℝ) (L : Mat ι) :
    ErrDiff (ETD35.progNonDiagonal cfg L) [NL1] [NL1, NL3, NL4, NL5, NL6] where
  split c h := by
    refine ⟨((ETD35.progNonDiagonal cfg L).stages c h).dropLast, _, rfl, ?_, fun v hv => ?_⟩
    · intro x hx
      fin_cases hx
      · exact ⟨rfl, Or.inl (by simp)⟩
      all_goals exact ⟨rfl, Or.inr rfl⟩
    · rw [hv NL3 (by simp) NL1 (by simp), hv NL4 (by simp) NL1 (by simp), hv NL5 (by simp) NL1 (by simp),
        hv NL6 (by simp) NL1 (by simp)]
      have : -v NL1 + 4 * v NL1 - 6 * v NL1 + 4 * v NL1 - v NL1 = 0 := by ring
      rw [this]
      simp
  init x hx := by fin_cases hx; exact ⟨rfl, rfl⟩
  accepted x hx := by fin_cases hx; rfl
  stages c h x hx := by fin_cases hx; rfl

/-- An error estimate of 0 is never acceptable: the factor is not finite. -/
theorem computeS_zero (q : ℕ) (cfg : SolverConfig ℝ) (u : Vec ι) (x : ℝ) : computeS q cfg u 0 ≠ .fin x := by
  have : ∀ (idx : ι → Prop) [DecidablePred idx], maskedNorm idx (0 : Vec ι) = 0 := by
    intro idx _
    simp [maskedNorm]
  simp only [computeS, this, npDiv, if_true]
  split_ifs <;> simp only [npPower, npScale] <;> (try split_ifs) <;> simp

/-- The invariant of a solver that uses a reused buffer, and what a trial does. -/
theorem ASSolver.buffer {m : ASSolver ι} (hm : m.Direct) {f : HeapNl ι} {b : ℕ} (hf : BufferNl b f) :
    ∃ I : Wrap (HMethod m.Coef ι) → Prop,
      (∀ s, s.n1init = false → I s) ∧
      (∀ s H, I s → I { s with method := { s.method with heap := H } }) ∧
      (∀ s, ((m.heapCls f).reset s).n1init = false) ∧
      ∀ u h a s, I s → I ((m.heapCls f).updateStages u h a s).2 ∧
        ∀ p, ((m.heapCls f).updateStages u h a s).1 = .ok p → ∀ cfg x, (m.heapCls f).computeS cfg p.1 p.2 ≠ .fin x := by
  have key : ∀ {Coef : Type} (P : ASProg Coef ι) (X0 X : List Attr), ErrDiff P X0 X → (∀ x ∈ X0, x ≠ .u) →
      ∃ I : Wrap (HMethod Coef ι) → Prop,
      (∀ s, s.n1init = false → I s) ∧
      (∀ s H, I s → I { s with method := { s.method with heap := H } }) ∧
      (∀ s, ((heapAS 4 (P.updateStages f)).reset s).n1init = false) ∧
      ∀ u h a s, I s → I ((heapAS 4 (P.updateStages f)).updateStages u h a s).2 ∧
        ∀ p, ((heapAS 4 (P.updateStages f)).updateStages u h a s).1 = .ok p → ∀ cfg x,
          (heapAS 4 (P.updateStages f)).computeS cfg p.1 p.2 ≠ .fin x := by
    intro Coef P X0 X hP h0
    refine ⟨BufInv b X0, fun s hs h => (by rw [hs] at h; cases h), fun s H h => h, fun s => rfl, fun u h a s hs => ?_⟩
    obtain ⟨k1, k2⟩ := ASProg.updateStages_buffer hf hP h0 u h a s hs
    refine ⟨k1, fun p hp cfg x => ?_⟩
    change computeS 4 cfg p.1.seen p.2.seen ≠ _
    rw [k2 p hp]
    exact computeS_zero 4 cfg _ x
  rcases m with (L | L | ⟨l, S, T, hS⟩) | ⟨cfg, L | L | ⟨l, S, T, hS⟩⟩ | ⟨cfg, L | L | ⟨l, S, T, hS⟩⟩ | L
  · exact key _ _ _ (IF34.errDiag L) (by simp)
  · exact key _ _ _ (IF34.errNonDiag L) (by simp)
  · exact hm.elim
  · exact key _ _ _ (ETD34.errDiag cfg L) (by simp)
  · exact key _ _ _ (ETD34.errNonDiag cfg L) (by simp)
  · exact hm.elim
  · exact key _ _ _ (ETD35.errDiag cfg L) (by simp)
  · exact key _ _ _ (ETD35.errNonDiag cfg L) (by simp)
  · exact hm.elim
  · exact hm.elim

end

/-! ### Steps that never succeed -/

section
variable {V Sub : Type} (C : ASClass ℝ V Sub) {I : Sub → Prop}

theorem ASClass.stepLoop_never (rnd : ℝ → ℝ) (cfg : SolverConfig ℝ) (u : V)
    (hI : ∀ h a s, I s → I (C.updateStages u h a s).2 ∧
      ∀ p, (C.updateStages u h a s).1 = .ok p → ∀ cfg x, C.computeS cfg p.1 p.2 ≠ .fin x)
    (n : ℕ) (h : ℝ) (s : ASState ℝ V Sub) (hs : I s.sub) :
    I (C.stepLoop rnd cfg u n h s).2.sub ∧ ∃ e, (C.stepLoop rnd cfg u n h s).1 = .error e := by
  induction hm : MAX_LOOPS + 1 - n using Nat.strong_induction_on generalizing n h s with
  | _ m ih =>
  rw [ASClass.stepLoop]
  rcases ht : C.trial u h s with ⟨q, s1⟩
  have ht1 : C.updateStages u h s.accept s.sub = (q, s1.sub) := by
    simp only [ASClass.trial, PyM.bind_get_apply, PyM.bind_modify_apply, PyM.zoom_apply] at ht
    cases ht
    rfl
  obtain ⟨hI1, hI2⟩ := hI h s.accept s.sub hs
  rw [ht1] at hI1 hI2
  have rej : ∀ x : Ext ℝ, ∃ r s2, ((do
          let h' ← ASClass.rejectStepSize cfg x h
          if n + 1 > MAX_LOOPS then PyM.throw .maxLoopsExceeded
          else if rnd h' < cfg.minh then PyM.throw .minimumStepReached
          else C.stepLoop rnd cfg u (n + 1) (rnd h') : PyM _ _) s1) = (.error r, s2) ∧ I s2.sub := by
    intro x
    have hr : ∃ h', ASClass.rejectStepSize cfg x h s1 = (.ok h', { s1 with accept := false }) := by
      cases x <;> exact ⟨_, rfl⟩
    obtain ⟨h', hr⟩ := hr
    rw [PyM.bind_ok hr]
    split_ifs
    · exact ⟨_, _, rfl, hI1⟩
    · exact ⟨_, _, rfl, hI1⟩
    · obtain ⟨k1, e, k2⟩ := ih _ (by omega) (n + 1) (rnd h') { s1 with accept := false } hI1 rfl
      exact ⟨e, _, Prod.ext k2 rfl, k1⟩
  cases q with
  | error e => rw [PyM.bind_error ht]; exact ⟨hI1, e, rfl⟩
  | ok p =>
    rw [PyM.bind_ok ht]
    have := hI2 p rfl cfg
    cases hc : C.computeS cfg p.1 p.2 with
    | fin x => exact absurd hc (this x)
    | ninf => obtain ⟨e, s2, k1, k2⟩ := rej .ninf; simp only [k1]; exact ⟨k2, e, rfl⟩
    | pinf => obtain ⟨e, s2, k1, k2⟩ := rej .pinf; simp only [k1]; exact ⟨k2, e, rfl⟩
    | nan => obtain ⟨e, s2, k1, k2⟩ := rej .nan; simp only [k1]; exact ⟨k2, e, rfl⟩

theorem ASClass.step_never (rnd : ℝ → ℝ) (cfg : SolverConfig ℝ) (u : V)
    (hI : ∀ h a s, I s → I (C.updateStages u h a s).2 ∧
      ∀ p, (C.updateStages u h a s).1 = .ok p → ∀ cfg x, C.computeS cfg p.1 p.2 ≠ .fin x)
    (h : ℝ) (s : ASState ℝ V Sub) (hs : I s.sub) :
    I (C.step rnd cfg u h s).2.sub ∧ ∃ e, (C.step rnd cfg u h s).1 = .error e := by
  by_cases hh : 0 ≤ h
  · have := C.stepLoop_never rnd cfg u hI 0 h s hs
    simpa only [ASClass.step, hh, not_true_eq_false, if_false] using this
  · have e : C.step rnd cfg u h s = (.error .assertionError, s) := by
      simp only [ASClass.step, hh, not_false_eq_true, if_true]
      rfl
    rw [e]
    exact ⟨hs, _, rfl⟩

theorem ASClass.evolve_never (rnd : ℝ → ℝ) (pyDiv : Bool) (cfg : SolverConfig ℝ) (fuel : ℕ) (u : V) (t0 tf : ℝ)
    (hInit : Option ℝ) (storeData : Bool) (storeFreq : ℤ)
    (hI : ∀ h a s, I s → I (C.updateStages u h a s).2 ∧
      ∀ p, (C.updateStages u h a s).1 = .ok p → ∀ cfg x, C.computeS cfg p.1 p.2 ≠ .fin x)
    (s : ASState ℝ V Sub) (hs : I (C.reset s.sub)) :
    I (C.evolve rnd pyDiv cfg fuel u t0 tf hInit storeData storeFreq s).2.sub ∧
    (t0 < tf → 0 < fuel → ∃ e, (C.evolve rnd pyDiv cfg fuel u t0 tf hInit storeData storeFreq s).1 = .error e) := by
  have main : ∀ (x : ASState ℝ V Sub) (h : ℝ), I x.sub → x.tc = t0 → x.tf = tf →
      I (C.loop rnd pyDiv cfg storeData storeFreq fuel u h 0 x).2.sub ∧
      (t0 < tf → 0 < fuel → ∃ e, (C.loop rnd pyDiv cfg storeData storeFreq fuel u h 0 x).1 = .error e) := by
    intro x h hx h1 h2
    cases fuel with
    | zero => exact ⟨hx, fun _ h => absurd h (lt_irrefl _)⟩
    | succ fuel =>
      simp only [ASClass.loop, PyM.bind_get_apply, h1, h2]
      by_cases ht : t0 < tf
      · simp only [ht, if_true]
        obtain ⟨k1, e, k2⟩ := C.step_never rnd cfg u hI h x hx
        rw [PyM.bind_error (e := e) (s' := (C.step rnd cfg u h x).2) (Prod.ext k2 rfl)]
        exact ⟨k1, fun _ _ => ⟨e, rfl⟩⟩
      · simp only [ht, if_false]
        exact ⟨hx, fun h => h.elim⟩
  cases storeData with
  | true => exact main ⟨[t0], [u], tf, t0, false, C.reset s.sub, s.trials⟩ _ hs rfl rfl
  | false => exact main ⟨[], [], tf, t0, false, C.reset s.sub, s.trials⟩ _ hs rfl rfl

end

/-! ### A step of IF4 with a reused buffer -/

section
variable [Fintype ι] [DecidableEq ι]

/-- What is known while a strategy runs with a nonlinear function that always returns the array `b`: the attributes in
`S` refer to `b`, which holds `v`; `k` refers to another array, which holds `x`; the argument holds `w`. -/
structure BufView {Coef : Type} (u b : ℕ) (w : Vec ι) (S : Set Attr) (v x : Vec ι) (s : HMethod Coef ι) : Prop where
  ub : u ≠ b
  au : s.attr .u = u
  ak : s.attr .k ≠ b
  aS : ∀ a ∈ S, s.attr a = b
  hu : u < s.heap.next
  hb : b < s.heap.next
  cu : s.heap.cell u = w
  cb : s.heap.cell b = v
  ck : s.val .k = x

namespace BufView

variable {Coef : Type} {u b : ℕ} {w v x : Vec ι} {S : Set Attr} {s : HMethod Coef ι} {g : Vec ι → Vec ι}

theorem set (h : BufView u b w S v x s) (hS : .k ∉ S) {f : HeapNl ι} {e : (Attr → Vec ι) → Vec ι} {l : List (Instr ι)}
    {P : HMethod Coef ι → Prop}
    (ih : ∀ s', BufView u b w S v (e s.val) s' → ∃ s'', HMethod.run f l s' = (.ok (), s'') ∧ P s'') :
    ∃ s'', HMethod.run f (.set .k e :: l) s = (.ok (), s'') ∧ P s'' := by
  have := h.hu
  have := h.hb
  refine ih { s with attr := Function.update s.attr .k s.heap.next, heap := s.heap.alloc (e s.val) } ?_
  refine ⟨h.ub, by simpa using h.au, by simp; omega, fun a ha => ?_, by simp [Heap.alloc]; omega, by simp [Heap.alloc]; omega, ?_, ?_, ?_⟩
  · simp only; rw [Function.update_of_ne (by rintro rfl; exact hS ha)]; exact h.aS a ha
  · simp only [Heap.alloc]; rw [Function.update_of_ne (by omega)]; exact h.cu
  · simp only [Heap.alloc]; rw [Function.update_of_ne (by omega)]; exact h.cb
  · simp [HMethod.val, Heap.alloc]

theorem call (h : BufView u b w S v x s) {a : Attr} (ha : a ≠ .k) (hu : a ≠ .u) {l : List (Instr ι)}
    {P : HMethod Coef ι → Prop}
    (ih : ∀ s', BufView u b w (insert a S) (g x) x s' → ∃ s'', HMethod.run (bufferNl b (total g)) l s' = (.ok (), s'') ∧ P s'') :
    ∃ s'', HMethod.run (bufferNl b (total g)) (.call a .k :: l) s = (.ok (), s'') ∧ P s'' := by
  refine ih { s with attr := Function.update s.attr a b, heap := s.heap.write b (g (s.val .k)), evals := s.evals + 1 } ?_
  refine ⟨h.ub, ?_, ?_, ?_, h.hu, h.hb, ?_, ?_, ?_⟩
  · simp only; rw [Function.update_of_ne hu.symm]; exact h.au
  · simp only; rw [Function.update_of_ne ha.symm]; exact h.ak
  · rintro c (rfl | hc)
    · simp
    · simp only [Function.update_apply, h.aS c hc, ite_self]
  · simp only [Heap.write]; rw [Function.update_of_ne h.ub]; exact h.cu
  · simp only [Heap.write]; rw [Function.update_self, h.ck]
  · simp only [HMethod.val, Heap.write, Function.update_of_ne ha.symm, Function.update_of_ne h.ak]; exact h.ck

theorem val_u (h : BufView u b w S v x s) : s.val .u = w := by rw [HMethod.val, h.au, h.cu]

theorem val_S (h : BufView u b w S v x s) {a : Attr} (ha : a ∈ S) : s.val a = v := by rw [HMethod.val, h.aS a ha, h.cb]

end BufView

theorem IF4.run_buffer {L : Vec ι} {g : Vec ι → Vec ι} {c : IFCoef (Vec ι)} {h : ℝ} {s : HMethod (IFCoef (Vec ι)) ι} {u b : ℕ}
    {w x : Vec ι} (hs : BufView u b w {.NL1} (g w) x s) :
    let k2 := c.EL2 * w + bc h * c.EL2 * g w / 2
    let k3 := c.EL2 * w + bc h * g k2 / 2
    let k4 := c.EL * w + bc h * c.EL2 * g k3
    ∃ s', HMethod.run (bufferNl b (total g)) ((IF4.progDiagonal L).stages c h) s = (.ok (), s') ∧
      s'.val .k = c.EL * w + bc h * (c.EL / 6 + 2 * c.EL2 / 3 + 1 / 6) * g k4 := by
  intro k2 k3 k4
  refine hs.set (by simp) fun s1 h1 => h1.call (by simp) (by simp) fun s2 h2 => h2.set (by simp) fun s3 h3 =>
    h3.call (by simp) (by simp) fun s4 h4 => h4.set (by simp) fun s5 h5 => h5.call (by simp) (by simp) fun s6 h6 =>
    h6.set (by simp) fun s7 h7 => h7.call (by simp) (by simp) fun s8 h8 => ⟨s8, rfl, ?_⟩
  rw [h8.ck]
  rw [hs.val_u, hs.val_S (by simp)] at h2
  rw [h2.val_u, h2.val_S (by simp)] at h4
  rw [h4.val_u, h4.val_S (by simp)] at h6
  rw [h6.val_u, h6.val_S (by simp), h6.val_S (by simp), h6.val_S (by simp), h6.val_S (by simp)]
  funext i
  simp only [Pi.add_apply, Pi.mul_apply, Pi.div_apply, Pi.one_apply, Pi.ofNat_apply, bc]
  ring

theorem IF4.updateStages_buffer (L : Vec ι) (g : Vec ι → Vec ι) (H : Heap ι) {u b : ℕ} (hu : u < H.next) (hb : b < H.next)
    (hub : u ≠ b) (h : ℝ) (c0 : IFCoef (Vec ι)) :
    let w := H.cell u
    let E : Vec ι := fun i => Complex.exp (h * L i)
    let E2 : Vec ι := fun i => Complex.exp (h * L i / 2)
    let k2 := E2 * w + bc h * E2 * g w / 2
    let k3 := E2 * w + bc h * g k2 / 2
    let k4 := E * w + bc h * E2 * g k3
    ∃ r s, (IF4.progDiagonal L).updateStages (bufferNl b (total g)) u h ⟨false, none, ⟨c0, fun _ => H.next, H.alloc 0, 0⟩⟩ =
        (.ok r, s) ∧
      s.method.heap.cell r = E * w + bc h * (E / 6 + 2 * E2 / 3 + 1 / 6) * g k4 := by
  intro w E E2 k2 k3 k4
  let EL := npExp (bc (h : ℂ) * L)
  let EL2 := npExp (bc (h : ℂ) * L / 2)
  have hEL : EL = E := by
    funext i; simp [EL, E, npExp, bc]
  have hEL2 : EL2 = E2 := by
    funext i; simp [EL2, E2, npExp, bc]
  let s0 : HMethod (IFCoef (Vec ι)) ι := ⟨⟨EL, EL2⟩, Function.update (fun _ => H.next) .u u, H.alloc 0, 0⟩
  let s1 : HMethod (IFCoef (Vec ι)) ι :=
    { s0 with attr := Function.update s0.attr .NL1 b, heap := s0.heap.write b (g (s0.val .u)), evals := 1 }
  have hv : BufView u b w {.NL1} (g w) (s1.val .k) s1 := by
    have h1 : u ≠ H.next := by omega
    have h2 : H.next ≠ b := by omega
    refine ⟨hub, by simp [s1, s0], by simp [s1, s0, h2], by simp [s1], ?_, ?_, ?_, ?_, rfl⟩
    · simp [s1, s0, Heap.write, Heap.alloc]; omega
    · simp [s1, s0, Heap.write, Heap.alloc]; omega
    · simp [s1, s0, Heap.write, Heap.alloc, hub, h1, w]
    · simp [s1, s0, Heap.write, Heap.alloc, h1, w, HMethod.val]
  obtain ⟨s2, r2, v2⟩ := IF4.run_buffer (L := L) (c := ⟨EL, EL2⟩) (h := h) hv
  refine ⟨s2.attr .k, ⟨true, some h, s2⟩, ?_, by simp only [hEL, hEL2] at v2; exact v2⟩
  have hc : (IF4.progDiagonal L).coeffs h ⟨false, none, ⟨c0, fun _ => H.next, H.alloc 0, 0⟩⟩ =
      (.ok (), ⟨false, some h, { s0 with attr := fun _ => H.next }⟩) := by
    rw [CSProg.coeffs, PyM.bind_get_apply, if_neg (by rintro ⟨⟩)]
    rfl
  have ha : Wrap.onMethod (HMethod.arg u) ⟨false, some h, { s0 with attr := fun _ => H.next }⟩ =
      (.ok (), ⟨false, some h, s0⟩) := rfl
  have hi : Wrap.onMethod (HMethod.run (bufferNl b (total g)) (IF4.progDiagonal L).init) ⟨false, some h, s0⟩ =
      (.ok (), ⟨false, some h, s1⟩) := rfl
  rw [CSProg.updateStages, PyM.bind_ok hc, PyM.bind_ok ha, PyM.bind_get_apply]
  dsimp only
  rw [if_pos rfl, PyM.bind_ok hi, PyM.bind_modify_apply]
  simp only [Wrap.onMethod, PyM.zoom_apply, PyM.bind_get_apply]
  rw [PyM.bind_ok r2]
  rfl

end

end Verif
