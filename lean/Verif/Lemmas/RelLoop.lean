import Verif.Spec.Relate
import Verif.Lemmas.ApiAS
import Verif.Lemmas.CSEvolve

/-!
# Solvers with related one-step maps behave alike
-/

set_option linter.unusedSectionVars false

namespace Verif

variable {K V V' Sub Sub' : Type} [Field K] [LinearOrder K]

theorem RelE.error {α β : Type} {R : α → β → Prop} {x : Except PyErr α} {y : Except PyErr β} {e : PyErr}
    (h : RelE R x y) (hx : x = .error e) : y = .error e := by
  subst hx
  cases y with
  | error e' => exact congrArg _ (show e = e' from h).symm
  | ok b => exact h.elim

theorem RelE.ok {α β : Type} {R : α → β → Prop} {x : Except PyErr α} {y : Except PyErr β} {a : α}
    (h : RelE R x y) (hx : x = .ok a) : ∃ b, y = .ok b ∧ R a b := by
  subst hx
  cases y with
  | error e' => exact h.elim
  | ok b => exact ⟨b, rfl, h⟩

theorem RelE.map {α β α' β' : Type} {R : α → β → Prop} {R' : α' → β' → Prop} {x : Except PyErr α} {y : Except PyErr β}
    (h : RelE R x y) {f : α → α'} {g : β → β'} (hfg : ∀ a b, R a b → R' (f a) (g b)) : RelE R' (x.map f) (y.map g) := by
  cases x <;> cases y
  · exact h
  · exact h.elim
  · exact h.elim
  · exact hfg _ _ h

theorem RelE.mono {α β : Type} {R R' : α → β → Prop} {x : Except PyErr α} {y : Except PyErr β}
    (h : RelE R x y) (hfg : ∀ a b, R a b → R' a b) : RelE R' x y := by
  cases x <;> cases y
  · exact h
  · exact h.elim
  · exact h.elim
  · exact hfg _ _ h

namespace CSClass

theorem step_rel {C : CSClass K V Sub} {C' : CSClass K V' Sub'} {Φ : K → V → Except PyErr V}
    {Φ' : K → V' → Except PyErr V'} (L : LawfulCS C Φ) (L' : LawfulCS C' Φ') (R : V → V' → Prop)
    (hΦ : ∀ h u u', R u u' → RelE R (Φ h u) (Φ' h u')) (h : K) (u : V) (u' : V') (s : CSState K V Sub)
    (s' : CSState K V' Sub') (hu : R u u') (hi : L.Inv s.sub u) (hi' : L'.Inv s'.sub u') :
    RelE R (C.step u h s).1 (C'.step u' h s').1 := by
  by_cases hh : 0 ≤ h
  · rw [step_apply _ _ hh, step_apply _ _ hh]
    simp only
    rw [L.result _ _ _ hi, L'.result _ _ _ hi']
    exact hΦ h u u' hu
  · rw [step_neg _ _ hh, step_neg _ _ hh]; rfl

theorem loop_rel {C : CSClass K V Sub} {C' : CSClass K V' Sub'} {Φ : K → V → Except PyErr V}
    {Φ' : K → V' → Except PyErr V'} (L : LawfulCS C Φ) (L' : LawfulCS C' Φ') (R : V → V' → Prop)
    (rnd : K → K) (pyDiv : Bool) (h : K) (hΦ : ∀ u u', R u u' → RelE R (Φ h u) (Φ' h u'))
    (storeData : Bool) (freq : ℤ) : ∀ (fuel : ℕ) (u : V) (u' : V') (c : ℕ) (s : CSState K V Sub)
      (s' : CSState K V' Sub'), R u u' → L.Inv s.sub u → L'.Inv s'.sub u' → s.t = s'.t → List.Forall₂ R s.u s'.u →
      s.tf = s'.tf → s.tc = s'.tc →
      RelE (RelO R) (C.loop rnd pyDiv h storeData freq fuel u c s).1 (C'.loop rnd pyDiv h storeData freq fuel u' c s').1 ∧
      (C.loop rnd pyDiv h storeData freq fuel u c s).2.t = (C'.loop rnd pyDiv h storeData freq fuel u' c s').2.t ∧
      List.Forall₂ R (C.loop rnd pyDiv h storeData freq fuel u c s).2.u
        (C'.loop rnd pyDiv h storeData freq fuel u' c s').2.u := by
  intro fuel
  induction fuel with
  | zero => intro u u' c s s' _ _ _ ht hu _ _; exact ⟨trivial, ht, hu⟩
  | succ fuel ih =>
    intro u u' c s s' hR hi hi' ht hu htf htc
    by_cases hlt : s.tc < s.tf
    swap
    · rw [loop_done _ _ _ _ _ _ _ _ _ hlt, loop_done _ _ _ _ _ _ _ _ _ (by rw [← htc, ← htf]; exact hlt)]
      exact ⟨hR, ht, hu⟩
    have hlt' : s'.tc < s'.tf := by rw [← htc, ← htf]; exact hlt
    by_cases hh : 0 ≤ h
    swap
    · rw [loop_step_error (hlt := hlt) (hr := step_neg _ _ hh _), loop_step_error (hlt := hlt') (hr := step_neg _ _ hh _)]
      exact ⟨rfl, ht, hu⟩
    have r := L.result s.sub u h hi
    have r' := L'.result s'.sub u' h hi'
    have hrel := hΦ u u' hR
    cases hΦu : Φ h u with
    | error e =>
      have hΦu' := hrel.error hΦu
      rw [hΦu] at r
      rw [hΦu'] at r'
      rw [loop_step_error (hlt := hlt) (e := e) (s' := { s with sub := (C.updateStages u h s.sub).2 })
          (hr := by rw [step_apply _ _ hh, r]),
        loop_step_error (hlt := hlt') (e := e) (s' := { s' with sub := (C'.updateStages u' h s'.sub).2 })
          (hr := by rw [step_apply _ _ hh, r'])]
      exact ⟨rfl, ht, hu⟩
    | ok v =>
      obtain ⟨v', hΦu', hv⟩ := hrel.ok hΦu
      rw [hΦu] at r
      rw [hΦu'] at r'
      rw [loop, loop]
      simp only [PyM.bind_get_apply, hlt, hlt', if_true]
      rw [PyM.bind_ok (a := v) (s' := { s with sub := (C.updateStages u h s.sub).2 })
        (by rw [step_apply _ _ hh, r]), PyM.bind_ok (a := v') (s' := { s' with sub := (C'.updateStages u' h s'.sub).2 })
        (by rw [step_apply _ _ hh, r'])]
      simp only [PyM.bind_modify_apply]
      by_cases hp : ProgressRaises pyDiv s.tf (c + 1)
      · rw [PyM.bind_error (progress_raises pyDiv (c + 1) s.tf _ hp),
          PyM.bind_error (progress_raises pyDiv (c + 1) s'.tf _ (by rw [← htf]; exact hp))]
        exact ⟨rfl, ht, hu⟩
      rw [PyM.bind_ok (progress_apply pyDiv (c + 1) s.tf _ hp),
        PyM.bind_ok (progress_apply pyDiv (c + 1) s'.tf _ (by rw [← htf]; exact hp))]
      by_cases hf : storeData = true → freq ≠ 0
      · rw [PyM.bind_ok (store_apply storeData freq (c + 1) v _ hf), PyM.bind_ok (store_apply storeData freq (c + 1) v' _ hf)]
        have i := L.inv_ok s.sub u h v hi hΦu
        have i' := L'.inv_ok s'.sub u' h v' hi' hΦu'
        split
        · exact ih v v' (c + 1) _ _ hv i i' (by simp [ht, htc])
            (List.rel_append hu (List.Forall₂.cons hv .nil)) htf (by simp [htc])
        · exact ih v v' (c + 1) _ _ hv i i' ht hu htf (by simp [htc])
      · obtain ⟨rfl, rfl⟩ : storeData = true ∧ freq = 0 := by
          constructor
          · by_contra hc; exact hf fun h => absurd h hc
          · by_contra hc; exact hf fun _ => hc
        rw [PyM.bind_error (e := .zeroDivisionError) (by rfl), PyM.bind_error (e := .zeroDivisionError) (by rfl)]
        exact ⟨rfl, ht, hu⟩

theorem evolve_rel {C : CSClass K V Sub} {C' : CSClass K V' Sub'} {Φ : K → V → Except PyErr V}
    {Φ' : K → V' → Except PyErr V'} (L : LawfulCS C Φ) (L' : LawfulCS C' Φ') (R : V → V' → Prop)
    (rnd : K → K) (pyDiv : Bool) (fuel : ℕ) (u : V) (u' : V') (t0 tf h : K)
    (hΦ : ∀ u u', R u u' → RelE R (Φ h u) (Φ' h u')) (storeData : Bool) (freq : ℤ) (s : CSState K V Sub) (s' : CSState K V' Sub')
    (hu : R u u') :
    RelE (RelO R) (C.evolve rnd pyDiv fuel u t0 tf h storeData freq s).1
      (C'.evolve rnd pyDiv fuel u' t0 tf h storeData freq s').1 ∧
    (C.evolve rnd pyDiv fuel u t0 tf h storeData freq s).2.t =
      (C'.evolve rnd pyDiv fuel u' t0 tf h storeData freq s').2.t ∧
    List.Forall₂ R (C.evolve rnd pyDiv fuel u t0 tf h storeData freq s).2.u
      (C'.evolve rnd pyDiv fuel u' t0 tf h storeData freq s').2.u := by
  rw [evolve_apply, evolve_apply]
  have h0 : List.Forall₂ R (C.start u t0 tf storeData s).u (C'.start u' t0 tf storeData s').u := by
    cases storeData
    · exact .nil
    · exact .cons hu .nil
  split
  · exact ⟨rfl, rfl, h0⟩
  · exact loop_rel L L' R rnd pyDiv h hΦ storeData freq fuel u u' 0 _ _ hu (L.reset_inv _ _) (L'.reset_inv _ _) rfl h0
      rfl rfl

end CSClass

section
variable {Φ : K → V → Except PyErr (V × V)} {Φ' : K → V' → Except PyErr (V' × V')} {S : V × V → Ext K}
  {S' : V' × V' → Ext K} {cfg : SolverConfig K} {rnd : K → K} {u : V} {u' : V'} {T : V × V → V' × V' → Prop}

theorem RejectsTo.rel (hΦ : ∀ h, RelE T (Φ h u) (Φ' h u')) (hS : ∀ r r', T r r' → S r = S' r') {j : ℕ} {h a : K}
    (hr : RejectsTo Φ S cfg rnd u j h a) : RejectsTo Φ' S' cfg rnd u' j h a := by
  induction hr with
  | zero => exact .zero _
  | @succ j h h' r _ hok hacc hmin ih =>
    obtain ⟨r', h1, h2⟩ := (hΦ h').ok hok
    rw [hS r r' h2] at hacc hmin ⊢
    exact .succ ih h1 hacc hmin

theorem StepSpec.rel {R : V → V' → Prop} (hΦ : ∀ h, RelE T (Φ h u) (Φ' h u')) (hS : ∀ r r', T r r' → S r = S' r')
    (hT : ∀ r r', T r r' → R r.1 r'.1) {h : K} {r : Except PyErr (V × K × K)} (hs : StepSpec Φ S cfg rnd u h r) :
    ∃ r', StepSpec Φ' S' cfg rnd u' h r' ∧ RelE (RelStep R) r r' := by
  cases hs with
  | @accept j h' x r hj hrej hok hf h1 =>
    obtain ⟨r', a1, a2⟩ := (hΦ h').ok hok
    exact ⟨_, .accept hj (hrej.rel hΦ hS) a1 (by rw [← hS r r' a2, hf]) h1, hT _ _ a2, rfl⟩
  | @minStep j h' r hj hrej hok hf h1 =>
    obtain ⟨r', a1, a2⟩ := (hΦ h').ok hok
    rw [hS r r' a2] at hf h1
    exact ⟨_, .minStep hj (hrej.rel hΦ hS) a1 hf h1, rfl⟩
  | @maxLoops h' r hrej hok hf =>
    obtain ⟨r', a1, a2⟩ := (hΦ h').ok hok
    rw [hS r r' a2] at hf
    exact ⟨_, .maxLoops (hrej.rel hΦ hS) a1 hf, rfl⟩
  | @raised j h' e hj hrej hok =>
    exact ⟨_, .raised hj (hrej.rel hΦ hS) ((hΦ h').error hok), rfl⟩

end

namespace ASClass

open CSClass (ProgressRaises progress_apply progress_raises)

theorem step_rel {C : ASClass K V Sub} {C' : ASClass K V' Sub'} {Φ : K → V → Except PyErr (V × V)}
    {Φ' : K → V' → Except PyErr (V' × V')} (L : LawfulAS C Φ) (L' : LawfulAS C' Φ') (R : V → V' → Prop)
    (T : V × V → V' × V' → Prop) (hT : ∀ r r', T r r' → R r.1 r'.1)
    (hΦ : ∀ h u u', R u u' → RelE T (Φ h u) (Φ' h u')) (rnd : K → K) (cfg : SolverConfig K)
    (hS : ∀ r r', T r r' → C.factor cfg r = C'.factor cfg r')
    (u : V) (u' : V') (h : K) (s : ASState K V Sub) (s' : ASState K V' Sub') (hu : R u u')
    (hi : L.Ready s.sub s.accept u) (hi' : L'.Ready s'.sub s'.accept u') :
    RelE (RelStep R) (C.step rnd cfg u h s).1 (C'.step rnd cfg u' h s').1 := by
  by_cases hh : 0 ≤ h
  · obtain ⟨r', h1, h2⟩ := (step_spec L rnd cfg u h hh s hi).1.rel (R := R) (fun h => hΦ h u u' hu) hS hT
    rw [(step_spec L' rnd cfg u' h hh s' hi').1.det h1]
    exact h2
  · rw [step_neg _ _ _ _ hh, step_neg _ _ _ _ hh]; rfl

theorem loop_rel {C : ASClass K V Sub} {C' : ASClass K V' Sub'} {Φ : K → V → Except PyErr (V × V)}
    {Φ' : K → V' → Except PyErr (V' × V')} (L : LawfulAS C Φ) (L' : LawfulAS C' Φ') (R : V → V' → Prop)
    (T : V × V → V' × V' → Prop) (hT : ∀ r r', T r r' → R r.1 r'.1)
    (hΦ : ∀ h u u', R u u' → RelE T (Φ h u) (Φ' h u')) (rnd : K → K) (pyDiv : Bool) (cfg : SolverConfig K)
    (hS : ∀ r r', T r r' → C.factor cfg r = C'.factor cfg r') (storeData : Bool) (freq : ℤ) :
    ∀ (fuel : ℕ) (u : V) (u' : V') (h : K) (c : ℕ) (s : ASState K V Sub) (s' : ASState K V' Sub'), R u u' →
      L.Ready s.sub s.accept u → L'.Ready s'.sub s'.accept u' → s.t = s'.t → List.Forall₂ R s.u s'.u → s.tf = s'.tf →
      s.tc = s'.tc →
      RelE (RelO R) (C.loop rnd pyDiv cfg storeData freq fuel u h c s).1
        (C'.loop rnd pyDiv cfg storeData freq fuel u' h c s').1 ∧
      (C.loop rnd pyDiv cfg storeData freq fuel u h c s).2.t =
        (C'.loop rnd pyDiv cfg storeData freq fuel u' h c s').2.t ∧
      List.Forall₂ R (C.loop rnd pyDiv cfg storeData freq fuel u h c s).2.u
        (C'.loop rnd pyDiv cfg storeData freq fuel u' h c s').2.u := by
  intro fuel
  induction fuel with
  | zero => intro u u' h c s s' _ _ _ ht hu _ _; exact ⟨trivial, ht, hu⟩
  | succ fuel ih =>
    intro u u' h c s s' hR hi hi' ht hu htf htc
    rw [loop, loop]
    simp only [PyM.bind_get_apply]
    rw [← htc, ← htf]
    by_cases hlt : s.tc < s.tf
    swap
    · simp only [hlt, if_false]; exact ⟨hR, ht, hu⟩
    simp only [hlt, if_true]
    have hc := step_rel L L' R T hT hΦ rnd cfg hS u u' h s s' hR hi hi'
    rcases hst : C.step rnd cfg u h s with ⟨r, s1⟩
    rcases hst' : C'.step rnd cfg u' h s' with ⟨r', s1'⟩
    rw [hst, hst'] at hc
    simp only at hc
    have hpub : SamePublic s s1 ∧ (∀ v hu hs, r = .ok (v, hu, hs) → s1.accept = true ∧ L.Ready s1.sub true v) := by
      by_cases hh : 0 ≤ h
      · have := step_spec L rnd cfg u h hh s hi
        rw [hst] at this
        exact ⟨this.2.1, this.2.2.1⟩
      · rw [step_neg _ _ _ _ hh] at hst
        cases hst
        exact ⟨⟨rfl, rfl, rfl, rfl⟩, by simp⟩
    have hpub' : SamePublic s' s1' ∧ (∀ v hu hs, r' = .ok (v, hu, hs) → s1'.accept = true ∧ L'.Ready s1'.sub true v) := by
      by_cases hh : 0 ≤ h
      · have := step_spec L' rnd cfg u' h hh s' hi'
        rw [hst'] at this
        exact ⟨this.2.1, this.2.2.1⟩
      · rw [step_neg _ _ _ _ hh] at hst'
        cases hst'
        exact ⟨⟨rfl, rfl, rfl, rfl⟩, by simp⟩
    obtain ⟨⟨p1, p2, p3, p4⟩, p5⟩ := hpub
    obtain ⟨⟨p1', p2', p3', p4'⟩, p5'⟩ := hpub'
    have hu1' : List.Forall₂ R s1.u s1'.u := by rw [p2, p2']; exact hu
    cases r with
    | error e =>
      have hr' : r' = .error e := hc.error rfl
      subst hr'
      rw [PyM.bind_error hst, PyM.bind_error hst']
      exact ⟨rfl, by rw [p1, p1', ht], hu1'⟩
    | ok r =>
      obtain ⟨v, hu1, hs⟩ := r
      obtain ⟨⟨v', hu2, hs2⟩, hr', hv, he⟩ := hc.ok rfl
      simp only [Prod.mk.injEq] at he
      obtain ⟨rfl, rfl⟩ := he
      subst hr'
      obtain ⟨a1, a2⟩ := p5 v hu1 hs rfl
      obtain ⟨a1', a2'⟩ := p5' v' hu1 hs rfl
      rw [PyM.bind_ok hst, PyM.bind_ok hst']
      simp only [PyM.bind_modify_apply]
      by_cases hpr : ProgressRaises pyDiv s.tf (c + 1)
      · rw [PyM.bind_error (progress_raises pyDiv (c + 1) s.tf _ hpr),
          PyM.bind_error (progress_raises pyDiv (c + 1) s.tf _ hpr)]
        exact ⟨rfl, by simp [p1, p1', ht], hu1'⟩
      rw [PyM.bind_ok (progress_apply pyDiv (c + 1) s.tf _ hpr), PyM.bind_ok (progress_apply pyDiv (c + 1) s.tf _ hpr)]
      simp only [PyM.bind_get_apply]
      by_cases hf : storeData = true ∧ freq = 0
      · obtain ⟨rfl, rfl⟩ := hf
        rw [PyM.bind_error (store_raises _ _ _), PyM.bind_error (store_raises _ _ _)]
        exact ⟨rfl, by simp [p1, p1', ht], hu1'⟩
      have hf' : storeData = true → freq ≠ 0 := fun h1 h2 => hf ⟨h1, h2⟩
      rw [PyM.bind_ok (store_apply storeData freq (c + 1) v _ hf'), PyM.bind_ok (store_apply storeData freq (c + 1) v' _ hf')]
      have e : rnd (s1'.tc + hu1) = rnd (s1.tc + hu1) := by rw [p4, p4', htc]
      have e2 : s1'.tf = s1.tf := by rw [p3, p3', htf]
      simp only [e, e2]
      split
      · exact ih v v' _ (c + 1) _ _ hv (by simpa [a1] using a2) (by simpa [a1'] using a2') (by simp [p1, p1', ht])
          (List.rel_append hu1' (List.Forall₂.cons hv .nil)) (by simp) rfl
      · exact ih v v' _ (c + 1) _ _ hv (by simpa [a1] using a2) (by simpa [a1'] using a2') (by simp [p1, p1', ht])
          hu1' (by simp) rfl

theorem evolve_rel {C : ASClass K V Sub} {C' : ASClass K V' Sub'} {Φ : K → V → Except PyErr (V × V)}
    {Φ' : K → V' → Except PyErr (V' × V')} (L : LawfulAS C Φ) (L' : LawfulAS C' Φ') (R : V → V' → Prop)
    (T : V × V → V' × V' → Prop) (hT : ∀ r r', T r r' → R r.1 r'.1)
    (hΦ : ∀ h u u', R u u' → RelE T (Φ h u) (Φ' h u')) (rnd : K → K) (pyDiv : Bool) (cfg : SolverConfig K)
    (hS : ∀ r r', T r r' → C.factor cfg r = C'.factor cfg r') (fuel : ℕ) (u : V) (u' : V') (t0 tf : K)
    (hInit : Option K) (storeData : Bool) (freq : ℤ) (s : ASState K V Sub) (s' : ASState K V' Sub') (hu : R u u') :
    RelE (RelO R) (C.evolve rnd pyDiv cfg fuel u t0 tf hInit storeData freq s).1
      (C'.evolve rnd pyDiv cfg fuel u' t0 tf hInit storeData freq s').1 ∧
    (C.evolve rnd pyDiv cfg fuel u t0 tf hInit storeData freq s).2.t =
      (C'.evolve rnd pyDiv cfg fuel u' t0 tf hInit storeData freq s').2.t ∧
    List.Forall₂ R (C.evolve rnd pyDiv cfg fuel u t0 tf hInit storeData freq s).2.u
      (C'.evolve rnd pyDiv cfg fuel u' t0 tf hInit storeData freq s').2.u := by
  rw [evolve_apply, evolve_apply]
  have h0 : List.Forall₂ R (C.start u t0 tf storeData s).u (C'.start u' t0 tf storeData s').u := by
    cases storeData
    · exact .nil
    · exact .cons hu .nil
  exact loop_rel L L' R T hT hΦ rnd pyDiv cfg hS storeData freq fuel u u' _ 0 _ _ hu (L.reset_ready _ _)
    (L'.reset_ready _ _) rfl h0 rfl rfl

end ASClass

end Verif
