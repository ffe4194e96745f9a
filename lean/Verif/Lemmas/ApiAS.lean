import Verif.Lemmas.Lawful
import Verif.Lemmas.ASEvolve

/-!
# Adaptive solvers: lemmas at the level of the public methods
-/

set_option linter.unusedSectionVars false

namespace Verif

section generic
variable {K V Sub : Type} [Field K] [LinearOrder K]

namespace ASClass
variable {C : ASClass K V Sub}

open CSClass (ProgressRaises progress_apply progress_raises)

/-- Two coherent objects take the same step. -/
theorem step_congr {Φ : K → V → Except PyErr (V × V)} (L : LawfulAS C Φ) (rnd : K → K) (cfg : SolverConfig K)
    (u : V) (h : K) (s s' : ASState K V Sub) (hi : L.Ready s.sub s.accept u) (hi' : L.Ready s'.sub s'.accept u) :
    (C.step rnd cfg u h s).1 = (C.step rnd cfg u h s').1 := by
  by_cases hh : 0 ≤ h
  · exact (step_spec L rnd cfg u h hh s hi).1.det (step_spec L rnd cfg u h hh s' hi').1
  · rw [step_neg _ _ _ _ hh, step_neg _ _ _ _ hh]

/-- Two coherent objects run the loop alike. -/
theorem loop_congr {Φ : K → V → Except PyErr (V × V)} (L : LawfulAS C Φ) (rnd : K → K) (pyDiv : Bool)
    (cfg : SolverConfig K) (storeData : Bool) (freq : ℤ) :
    ∀ (fuel : ℕ) (u : V) (h : K) (c : ℕ) (s s' : ASState K V Sub), L.Ready s.sub s.accept u →
      L.Ready s'.sub s'.accept u → s.t = s'.t → s.u = s'.u → s.tf = s'.tf → s.tc = s'.tc →
      (C.loop rnd pyDiv cfg storeData freq fuel u h c s).1 = (C.loop rnd pyDiv cfg storeData freq fuel u h c s').1 ∧
      (C.loop rnd pyDiv cfg storeData freq fuel u h c s).2.t = (C.loop rnd pyDiv cfg storeData freq fuel u h c s').2.t ∧
      (C.loop rnd pyDiv cfg storeData freq fuel u h c s).2.u =
        (C.loop rnd pyDiv cfg storeData freq fuel u h c s').2.u := by
  intro fuel
  induction fuel with
  | zero => intro u h c s s' _ _ ht hu _ _; exact ⟨rfl, ht, hu⟩
  | succ fuel ih =>
    intro u h c s s' hi hi' ht hu htf htc
    rw [loop]
    simp only [PyM.bind_get_apply]
    rw [← htc, ← htf]
    by_cases hlt : s.tc < s.tf
    swap
    · simp only [hlt, if_false]; exact ⟨rfl, ht, hu⟩
    simp only [hlt, if_true]
    have hc := step_congr L rnd cfg u h s s' hi hi'
    rcases hst : C.step rnd cfg u h s with ⟨r, s1⟩
    rcases hst' : C.step rnd cfg u h s' with ⟨r', s1'⟩
    rw [hst, hst'] at hc
    simp only at hc
    subst hc
    have hpub : SamePublic s s1 ∧ (∀ v hu hs, r = .ok (v, hu, hs) → s1.accept = true ∧ L.Ready s1.sub true v) := by
      by_cases hh : 0 ≤ h
      · have := step_spec L rnd cfg u h hh s hi
        rw [hst] at this
        exact ⟨this.2.1, this.2.2.1⟩
      · rw [step_neg _ _ _ _ hh] at hst
        cases hst
        exact ⟨⟨rfl, rfl, rfl, rfl⟩, by simp⟩
    have hpub' : SamePublic s' s1' ∧ (∀ v hu hs, r = .ok (v, hu, hs) → s1'.accept = true ∧ L.Ready s1'.sub true v) := by
      by_cases hh : 0 ≤ h
      · have := step_spec L rnd cfg u h hh s' hi'
        rw [hst'] at this
        exact ⟨this.2.1, this.2.2.1⟩
      · rw [step_neg _ _ _ _ hh] at hst'
        cases hst'
        exact ⟨⟨rfl, rfl, rfl, rfl⟩, by simp⟩
    obtain ⟨⟨p1, p2, p3, p4⟩, p5⟩ := hpub
    obtain ⟨⟨p1', p2', p3', p4'⟩, p5'⟩ := hpub'
    cases r with
    | error e =>
      rw [PyM.bind_error hst, PyM.bind_error hst']
      exact ⟨rfl, by rw [p1, p1', ht], by rw [p2, p2', hu]⟩
    | ok r =>
      obtain ⟨v, hu1, hs⟩ := r
      obtain ⟨a1, a2⟩ := p5 v hu1 hs rfl
      obtain ⟨a1', a2'⟩ := p5' v hu1 hs rfl
      rw [PyM.bind_ok hst, PyM.bind_ok hst']
      simp only [PyM.bind_modify_apply]
      by_cases hpr : ProgressRaises pyDiv s.tf (c + 1)
      · rw [PyM.bind_error (progress_raises pyDiv (c + 1) s.tf _ hpr),
          PyM.bind_error (progress_raises pyDiv (c + 1) s.tf _ hpr)]
        exact ⟨rfl, by simp [p1, p1', ht], by simp [p2, p2', hu]⟩
      rw [PyM.bind_ok (progress_apply pyDiv (c + 1) s.tf _ hpr), PyM.bind_ok (progress_apply pyDiv (c + 1) s.tf _ hpr)]
      simp only [PyM.bind_get_apply]
      by_cases hf : storeData = true ∧ freq = 0
      · obtain ⟨rfl, rfl⟩ := hf
        rw [PyM.bind_error (store_raises _ _ _), PyM.bind_error (store_raises _ _ _)]
        exact ⟨rfl, by simp [p1, p1', ht], by simp [p2, p2', hu]⟩
      have hf' : storeData = true → freq ≠ 0 := fun h1 h2 => hf ⟨h1, h2⟩
      rw [PyM.bind_ok (store_apply storeData freq (c + 1) v _ hf'), PyM.bind_ok (store_apply storeData freq (c + 1) v _ hf')]
      have e : rnd (s1'.tc + hu1) = rnd (s1.tc + hu1) := by rw [p4, p4', htc]
      have e2 : s1'.tf = s1.tf := by rw [p3, p3', htf]
      simp only [e, e2]
      split
      · exact ih v _ (c + 1) _ _ (by simpa [a1] using a2) (by simpa [a1'] using a2') (by simp [p1, p1', ht])
          (by simp [p2, p2', hu]) (by simp) rfl
      · exact ih v _ (c + 1) _ _ (by simpa [a1] using a2) (by simpa [a1'] using a2') (by simp [p1, p1', ht])
          (by simp [p2, p2', hu]) (by simp) rfl

/-- `evolve` does not depend on the state it starts from. -/
theorem evolve_congr {Φ : K → V → Except PyErr (V × V)} (L : LawfulAS C Φ) (rnd : K → K) (pyDiv : Bool)
    (cfg : SolverConfig K) (fuel : ℕ) (u : V) (t0 tf : K) (hInit : Option K) (storeData : Bool) (freq : ℤ)
    (s s' : ASState K V Sub) :
    (C.evolve rnd pyDiv cfg fuel u t0 tf hInit storeData freq s).1 =
      (C.evolve rnd pyDiv cfg fuel u t0 tf hInit storeData freq s').1 ∧
    (C.evolve rnd pyDiv cfg fuel u t0 tf hInit storeData freq s).2.t =
      (C.evolve rnd pyDiv cfg fuel u t0 tf hInit storeData freq s').2.t ∧
    (C.evolve rnd pyDiv cfg fuel u t0 tf hInit storeData freq s).2.u =
      (C.evolve rnd pyDiv cfg fuel u t0 tf hInit storeData freq s').2.u := by
  rw [evolve_apply, evolve_apply]
  exact loop_congr L rnd pyDiv cfg storeData freq fuel u _ 0 _ _ (L.reset_ready _ _) (L.reset_ready _ _) rfl rfl rfl rfl

/-- What a returned step went through, from an arbitrary state: the trial sizes `sz` and error factors `f`. -/
theorem stepLoop_sizes (rnd : K → K) (cfg : SolverConfig K) (u : V) :
    ∀ (d n : ℕ) (h : K) (s : ASState K V Sub) (v : V) (hu hs : K), MAX_LOOPS - n = d → n ≤ MAX_LOOPS →
      (C.stepLoop rnd cfg u n h s).1 = .ok (v, hu, hs) →
      ∃ (j : ℕ) (sz : ℕ → K) (f : ℕ → Ext K) (x : K) (err : V), n + j ≤ MAX_LOOPS ∧ sz 0 = h ∧
        (∀ i, i < j → ¬ Acceptable (f i) ∧ sz (i + 1) = rnd (shrink cfg.decr_f (f i) * sz i) ∧ cfg.minh ≤ sz (i + 1)) ∧
        hu = sz j ∧ f j = .fin x ∧ 1 ≤ x ∧ C.computeS cfg v err = .fin x ∧ hs = rnd (grow cfg.incr_f x hu) ∧
        (C.stepLoop rnd cfg u n h s).2.trials = s.trials + j + 1 := by
  intro d
  induction d with
  | zero =>
    intro n h s v hu hs hd hn he
    cases hr : (C.updateStages u h s.accept s.sub).1 with
    | error e => rw [stepLoop_error rnd cfg u n h s e hr] at he; simp at he
    | ok r =>
      by_cases hacc : Acceptable (C.factor cfg r)
      · obtain ⟨x, hx, h1⟩ := hacc
        rw [stepLoop_accept rnd cfg u n h s r hr x hx h1] at he ⊢
        simp only [Except.ok.injEq, Prod.mk.injEq] at he
        obtain ⟨rfl, rfl, rfl⟩ := he
        exact ⟨0, fun _ => h, fun _ => .fin x, x, r.2, by omega, rfl, by simp, rfl, rfl, h1, hx, rfl, by simp [afterTrial]⟩
      · rw [stepLoop_reject rnd cfg u n h s r hr hacc, if_pos (by omega)] at he; simp at he
  | succ d ih =>
    intro n h s v hu hs hd hn he
    cases hr : (C.updateStages u h s.accept s.sub).1 with
    | error e => rw [stepLoop_error rnd cfg u n h s e hr] at he; simp at he
    | ok r =>
      by_cases hacc : Acceptable (C.factor cfg r)
      · obtain ⟨x, hx, h1⟩ := hacc
        rw [stepLoop_accept rnd cfg u n h s r hr x hx h1] at he ⊢
        simp only [Except.ok.injEq, Prod.mk.injEq] at he
        obtain ⟨rfl, rfl, rfl⟩ := he
        exact ⟨0, fun _ => h, fun _ => .fin x, x, r.2, by omega, rfl, by simp, rfl, rfl, h1, hx, rfl, by simp [afterTrial]⟩
      · rw [stepLoop_reject rnd cfg u n h s r hr hacc, if_neg (by omega)] at he ⊢
        split_ifs at he ⊢ with hmin
        obtain ⟨j, sz, f, x, err, i1, i2, i3, i4, i5, i6, i7, i8, i9⟩ := ih (n + 1) _ _ v hu hs (by omega) (by omega) he
        refine ⟨j + 1, consSeq h sz, consSeq (C.factor cfg r) f, x, err, by omega, rfl, ?_, i4, i5, i6, i7, i8, ?_⟩
        · intro i hi
          cases i with
          | zero => exact ⟨hacc, i2, by rw [show consSeq h sz (0 + 1) = sz 0 from rfl, i2]; exact not_lt.mp hmin⟩
          | succ i => exact i3 i (by omega)
        · rw [i9]; simp only [afterTrial]; omega

end ASClass

end generic

variable {ι : Type} [Fintype ι] [DecidableEq ι]

namespace ASSolver

theorem trial_new (m : ASSolver ι) (nl : NlFunc ι) (u : Vec ι) (h : ℝ) :
    (m.trial nl u h m.new).1 = m.oneTrial nl h u := by
  unfold trial
  rw [ASClass.trial_apply]
  exact (m.lawful nl).result _ _ _ _ (m.init_ready nl u)

theorem freshTrial_eq (m : ASSolver ι) (nl : NlFunc ι) :
    (fun h u => (m.trial nl u h m.new).1) = m.oneTrial nl := by
  funext h u; exact m.trial_new nl u h

theorem step_new_spec (m : ASSolver ι) (nl : NlFunc ι) (rnd : ℝ → ℝ) (cfg : SolverConfig ℝ) (u : Vec ι) (h : ℝ)
    (hh : 0 ≤ h) :
    StepSpec (m.oneTrial nl) (m.factor nl cfg) cfg rnd u h (m.step nl rnd cfg u h m.new).1 :=
  (ASClass.step_spec (m.lawful nl) rnd cfg u h hh m.new (m.init_ready nl u)).1

theorem stepSpec_iff (m : ASSolver ι) (nl : NlFunc ι) (rnd : ℝ → ℝ) (cfg : SolverConfig ℝ) (u : Vec ι) (h : ℝ)
    (hh : 0 ≤ h) (r : Except PyErr (Vec ι × ℝ × ℝ)) :
    StepSpec (m.oneTrial nl) (m.factor nl cfg) cfg rnd u h r ↔ (m.step nl rnd cfg u h m.new).1 = r :=
  ⟨fun hs => (m.step_new_spec nl rnd cfg u h hh).det hs, fun he => he ▸ m.step_new_spec nl rnd cfg u h hh⟩

/-- What a trial can raise. -/
theorem oneTrial_error (m : ASSolver ι) (nl : NlFunc ι) (h : ℝ) (u : Vec ι) (e : PyErr)
    (he : m.oneTrial nl h u = .error e) : e = .linAlgError ∨ ∃ x, nl x = .error e := by
  unfold oneTrial at he
  split at he
  · cases hs : (m.method h).step (fun w => (nl (m.op.emb w)).map m.op.prj) (m.op.prj u) with
    | ok r => rw [hs] at he; simp [Except.map] at he
    | error e' =>
      rw [hs] at he; simp only [Except.map, Except.error.injEq] at he; subst he
      obtain ⟨x, hx⟩ := ERK.step_error _ _ _ hs
      right
      refine ⟨m.op.emb x, ?_⟩
      cases hn : nl (m.op.emb x) with
      | ok n => rw [hn] at hx; simp [Except.map] at hx
      | error e'' => rw [hn] at hx; simpa [Except.map] using hx
  · simp only [Except.error.injEq] at he; exact .inl he.symm

end ASSolver

end Verif
