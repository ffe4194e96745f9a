import Verif.Lemmas.Heap
import Verif.Lemmas.RelLoop

/-!
# Whole calls over the heap

A class whose `_update_stages` over the heap stands for that of a class with arrays as values: then so do `step`,
`evolve` and `reset`.
-/

set_option linter.unusedSectionVars false

namespace Verif

variable {ι : Type}

/-! ### Pairs of computations -/

section
variable {σ τ α β α' β' : Type}

/-- Outcomes that correspond: the heap after the call keeps what `H` had, the states are related by `I`, the results by
`Q`. -/
structure Tri (hp : σ → Heap ι) (I : σ → τ → Prop) (H : Heap ι) (Q : Heap ι → α → β → Prop)
    (x : Except PyErr α × σ) (y : Except PyErr β × τ) : Prop where
  keeps : H.Keeps (hp x.2)
  inv : I x.2 y.2
  res : RelE (Q (hp x.2)) x.1 y.1

variable {hp : σ → Heap ι} {I : σ → τ → Prop} {H : Heap ι}

theorem Tri.bind {Q : Heap ι → α → β → Prop} {Q' : Heap ι → α' → β' → Prop} {x : PyM σ α} {y : PyM τ β} {s : σ} {t : τ}
    {f : α → PyM σ α'} {g : β → PyM τ β'} (h : Tri hp I H Q (x s) (y t))
    (hfg : ∀ a b s1 t1, H.Keeps (hp s1) → I s1 t1 → Q (hp s1) a b → Tri hp I H Q' (f a s1) (g b t1)) :
    Tri hp I H Q' ((x >>= f) s) ((y >>= g) t) := by
  obtain ⟨h1, h2, h3⟩ := h
  rcases hx : x s with ⟨r, s1⟩
  rcases hy : y t with ⟨r', t1⟩
  rw [hx] at h1 h2 h3
  rw [hy] at h2 h3
  cases r with
  | error e =>
    have := h3.error rfl
    simp only at this
    subst this
    rw [PyM.bind_error hx, PyM.bind_error hy]
    exact ⟨h1, h2, rfl⟩
  | ok a =>
    obtain ⟨b, hb, hab⟩ := h3.ok rfl
    simp only at hb
    subst hb
    rw [PyM.bind_ok hx, PyM.bind_ok hy]
    exact hfg a b s1 t1 h1 h2 hab

theorem Tri.pure {Q : Heap ι → α → β → Prop} {s : σ} {t : τ} {a : α} {b : β} (hk : H.Keeps (hp s)) (hi : I s t)
    (hq : Q (hp s) a b) : Tri hp I H Q ((Pure.pure a : PyM σ α) s) ((Pure.pure b : PyM τ β) t) := ⟨hk, hi, hq⟩

theorem Tri.throw {Q : Heap ι → α → β → Prop} {s : σ} {t : τ} {e : PyErr} (hk : H.Keeps (hp s)) (hi : I s t) :
    Tri hp I H Q ((PyM.throw e : PyM σ α) s) ((PyM.throw e : PyM τ β) t) := ⟨hk, hi, rfl⟩

theorem Tri.weaken {H' : Heap ι} {Q Q' : Heap ι → α → β → Prop} {x : Except PyErr α × σ} {y : Except PyErr β × τ}
    (h : Tri hp I H' Q x y) (hk : H.Keeps H') (hq : ∀ a b, Q (hp x.2) a b → Q' (hp x.2) a b) : Tri hp I H Q' x y :=
  ⟨hk.trans h.keeps, h.inv, h.res.mono hq⟩

end

/-! ### Constant steps -/

section
variable {Sub Sub' : Type}

/-- The class `C` over the heap stands for the class `C'` with arrays as values; `hp` is the heap, `R` the relation of
the states. -/
structure SimCS (hp : Sub → Heap ι) (R : Sub → Sub' → Prop) (C : CSClass ℝ ℕ Sub) (C' : CSClass ℝ (Vec ι) Sub') :
    Prop where
  reset : ∀ s s', R s s' → R (C.reset s) (C'.reset s')
  heap : ∀ s, hp (C.reset s) = hp s
  stages : ∀ u w h s s', R s s' → (hp s).Den u w →
    Tri hp R (hp s) (fun H r v => H.Den r v ∧ (hp s).next ≤ r) (C.updateStages u h s) (C'.updateStages w h s')

/-- The solver object over the heap stands for the solver object with arrays as values. -/
structure StCS (hp : Sub → Heap ι) (R : Sub → Sub' → Prop) (s : CSState ℝ ℕ Sub) (s' : CSState ℝ (Vec ι) Sub') :
    Prop where
  t : s.t = s'.t
  tf : s.tf = s'.tf
  tc : s.tc = s'.tc
  u : List.Forall₂ (hp s.sub).Den s.u s'.u
  sub : R s.sub s'.sub
  nodup : s.u.Nodup

variable {hp : Sub → Heap ι} {R : Sub → Sub' → Prop} {C : CSClass ℝ ℕ Sub} {C' : CSClass ℝ (Vec ι) Sub'}
  {s : CSState ℝ ℕ Sub} {s' : CSState ℝ (Vec ι) Sub'} {H : Heap ι}

/-- The heap of a solver object. -/
abbrev hpCS (hp : Sub → Heap ι) (s : CSState ℝ ℕ Sub) : Heap ι := hp s.sub

theorem SimCS.resetM (hC : SimCS hp R C C') (hs : StCS hp R s s') :
    Tri (hpCS hp) (StCS hp R) (hp s.sub) (fun _ _ _ => True) (C.resetM s) (C'.resetM s') :=
  ⟨by change Heap.Keeps _ (hp (C.reset s.sub)); rw [hC.heap]; exact Heap.Keeps.refl _,
    ⟨rfl, rfl, rfl, .nil, hC.reset _ _ hs.sub, List.nodup_nil⟩, trivial⟩

theorem SimCS.step (hC : SimCS hp R C C') (hs : StCS hp R s s') (u : ℕ) (w : Vec ι) (h : ℝ)
    (hu : (hp s.sub).Den u w) :
    Tri (hpCS hp) (StCS hp R) (hp s.sub) (fun H r v => H.Den r v ∧ (hp s.sub).next ≤ r) (C.step u h s) (C'.step w h s') := by
  by_cases hh : 0 ≤ h
  · rw [CSClass.step_apply _ _ hh, CSClass.step_apply _ _ hh]
    have := hC.stages u w h s.sub s'.sub hs.sub hu
    exact ⟨this.keeps, ⟨hs.t, hs.tf, hs.tc, hs.u.imp fun a b hab => hab.mono this.keeps, this.inv, hs.nodup⟩, this.res⟩
  · rw [CSClass.step_neg _ _ hh, CSClass.step_neg _ _ hh]
    exact ⟨Heap.Keeps.refl _, hs, rfl⟩

theorem List.Forall₂.pub {l : List ℕ} {l' : List (Vec ι)} (h : List.Forall₂ H.Den l l') {r : ℕ} (hr : r ∈ l) :
    r < H.next := by
  induction h with
  | nil => cases hr
  | cons h1 _ ih =>
    rcases List.mem_cons.1 hr with rfl | h
    · exact h1.1.1
    · exact ih h

theorem nodup_snoc {l : List ℕ} {l' : List (Vec ι)} (h : List.Forall₂ H.Den l l') (hn : l.Nodup) {r : ℕ}
    (hr : H.next ≤ r) : (l ++ [r]).Nodup := by
  rw [List.nodup_append]
  refine ⟨hn, List.nodup_singleton _, fun a ha b hb => ?_⟩
  have := List.Forall₂.pub h ha
  simp only [List.mem_singleton] at hb
  omega

theorem progress_tri {σ τ : Type} {hp : σ → Heap ι} {I : σ → τ → Prop} {s : σ} {t : τ} (pyDiv : Bool) (count : ℕ) (tf : ℝ)
    (hk : H.Keeps (hp s)) (hi : I s t) :
    Tri hp I H (fun _ _ _ => True) (progress pyDiv count tf s) (progress pyDiv count tf t) := by
  simp only [progress]
  split_ifs
  · exact Tri.throw hk hi
  · exact Tri.pure hk hi trivial
  · exact Tri.pure hk hi trivial

/-- The state after a step of the loop: the new array `u` is not among the stored ones. -/
theorem CSClass.store_tri (hk : H.Keeps (hp s.sub)) (hs : StCS hp R s s') (storeData : Bool) (storeFreq : ℤ) (count : ℕ)
    {u : ℕ} {w : Vec ι} (hu : (hp s.sub).Den u w) (hn : u ∉ s.u) :
    Tri (hpCS hp) (StCS hp R) H (fun _ _ _ => True) (CSClass.store storeData storeFreq count u s)
      (CSClass.store storeData storeFreq count w s') := by
  simp only [CSClass.store]
  split_ifs
  · exact Tri.throw hk hs
  · refine ⟨hk, ⟨by simp only [PyM.modify, hs.t, hs.tc], hs.tf, hs.tc, List.rel_append hs.u (.cons hu .nil), hs.sub, ?_⟩, trivial⟩
    exact List.nodup_append.2 ⟨hs.nodup, List.nodup_singleton _, fun a ha b hb => by
      simp only [List.mem_singleton] at hb; subst hb; exact fun h => hn (h ▸ ha)⟩
  · exact Tri.pure hk hs trivial
  · exact Tri.pure hk hs trivial

/-- What `evolve` returns: the caller's own array if no step was made, a new array otherwise, or nothing (out of fuel). -/
def OutO (H0 : Heap ι) (u : ℕ) (H : Heap ι) : Option ℕ → Option (Vec ι) → Prop
  | some r, some v => H.Den r v ∧ (r = u ∨ H0.next ≤ r)
  | none, none => True
  | _, _ => False

theorem SimCS.loop (hC : SimCS hp R C C') (rnd : ℝ → ℝ) (pyDiv : Bool) (h : ℝ) (storeData : Bool) (storeFreq : ℤ) (u0 : ℕ)
    (fuel : ℕ) (u : ℕ) (w : Vec ι) (count : ℕ) (hk : H.Keeps (hp s.sub)) (hs : StCS hp R s s')
    (hu : (hp s.sub).Den u w) (h0 : u = u0 ∨ H.next ≤ u) :
    Tri (hpCS hp) (StCS hp R) H (OutO H u0) (C.loop rnd pyDiv h storeData storeFreq fuel u count s)
      (C'.loop rnd pyDiv h storeData storeFreq fuel w count s') := by
  induction fuel generalizing s s' u w count with
  | zero => exact ⟨hk, hs, trivial⟩
  | succ fuel ih =>
    simp only [CSClass.loop, PyM.bind_get_apply, hs.tc, hs.tf]
    split_ifs with ht
    · have hstep := hC.step hs u w h hu
      have hmem : ∀ a ∈ s.u, a < (hp s.sub).next := fun a ha => List.Forall₂.pub hs.u ha
      have hfr : ∀ (x : CSState ℝ ℕ Sub), (C.step u h s).2 = x → x.u = s.u := by
        intro x hx
        subst hx
        by_cases hh : 0 ≤ h
        · rw [CSClass.step_apply _ _ hh]
        · rw [CSClass.step_neg _ _ hh]
      rcases hx : C.step u h s with ⟨r, s1⟩
      rcases hy : C'.step w h s' with ⟨r', s1'⟩
      rw [hx, hy] at hstep
      obtain ⟨k1, i1, q1⟩ := hstep
      have hu1 : s1.u = s.u := hfr s1 (by rw [hx])
      cases r with
      | error e =>
        have := q1.error rfl
        simp only at this
        subst this
        rw [PyM.bind_error hx, PyM.bind_error hy]
        exact ⟨hk.trans k1, i1, rfl⟩
      | ok a =>
        obtain ⟨b, hb, hab, hge⟩ := q1.ok rfl
        simp only at hb
        subst hb
        rw [PyM.bind_ok hx, PyM.bind_ok hy]
        simp only [PyM.bind_modify_apply]
        simp only at k1 i1 hab hge
        have i2 : StCS hp R { s1 with tc := rnd (s1.tc + h) } { s1' with tc := rnd (s1'.tc + h) } :=
          ⟨i1.t, i1.tf, by simp only [i1.tc], i1.u, i1.sub, i1.nodup⟩
        have k2 : H.Keeps (hp s1.sub) := hk.trans k1
        have hna : a ∉ s1.u := by
          rw [hu1]
          intro ha
          exact absurd (hmem a ha) (by omega)
        have hpg := progress_tri (hp := hpCS hp) pyDiv (count + 1) s'.tf (s := { s1 with tc := rnd (s1.tc + h) }) k2 i2
        rcases hp1 : progress pyDiv (count + 1) s'.tf { s1 with tc := rnd (s1.tc + h) } with ⟨r2, s2⟩
        rcases hp2 : progress pyDiv (count + 1) s'.tf { s1' with tc := rnd (s1'.tc + h) } with ⟨r2', s2'⟩
        have e1 : s2 = { s1 with tc := rnd (s1.tc + h) } := by
          simp only [progress] at hp1; split_ifs at hp1 <;> cases hp1 <;> rfl
        have e2 : s2' = { s1' with tc := rnd (s1'.tc + h) } := by
          simp only [progress] at hp2; split_ifs at hp2 <;> cases hp2 <;> rfl
        subst e1 e2
        rw [hp1, hp2] at hpg
        cases r2 with
        | error e =>
          have := hpg.res.error rfl
          simp only at this
          subst this
          rw [PyM.bind_error hp1, PyM.bind_error hp2]
          exact ⟨hpg.keeps, hpg.inv, rfl⟩
        | ok _ =>
          obtain ⟨b', hb', -⟩ := hpg.res.ok rfl
          simp only at hb'
          subst hb'
          rw [PyM.bind_ok hp1, PyM.bind_ok hp2]
          have hst := CSClass.store_tri (s := { s1 with tc := rnd (s1.tc + h) }) k2 i2 storeData storeFreq (count + 1) hab hna
          have hsub : ∀ x, (CSClass.store storeData storeFreq (count + 1) a { s1 with tc := rnd (s1.tc + h) } :
              Except PyErr Unit × CSState ℝ ℕ Sub).2 = x → x.sub = s1.sub := by
            intro x hx
            subst hx
            simp only [CSClass.store]
            split_ifs <;> rfl
          rcases hq1 : CSClass.store storeData storeFreq (count + 1) a { s1 with tc := rnd (s1.tc + h) } with ⟨r3, s3⟩
          rcases hq2 : CSClass.store storeData storeFreq (count + 1) b { s1' with tc := rnd (s1'.tc + h) } with ⟨r3', s3'⟩
          rw [hq1, hq2] at hst
          have hs3 := hsub s3 (by rw [hq1])
          cases r3 with
          | error e =>
            have := hst.res.error rfl
            simp only at this
            subst this
            rw [PyM.bind_error hq1, PyM.bind_error hq2]
            exact ⟨hst.keeps, hst.inv, rfl⟩
          | ok _ =>
            obtain ⟨b', hb', -⟩ := hst.res.ok rfl
            simp only at hb'
            subst hb'
            rw [PyM.bind_ok hq1, PyM.bind_ok hq2]
            refine ih a b (count + 1) hst.keeps hst.inv ?_ (Or.inr (hk.1.trans hge))
            rw [hs3]
            exact hab
    · exact ⟨hk, hs, hu, h0⟩

theorem SimCS.evolve (hC : SimCS hp R C C') (rnd : ℝ → ℝ) (pyDiv : Bool) (fuel : ℕ) (u : ℕ) (w : Vec ι) (t0 tf h : ℝ)
    (storeData : Bool) (storeFreq : ℤ) (hs : StCS hp R s s') (hu : (hp s.sub).Den u w) :
    Tri (hpCS hp) (StCS hp R) (hp s.sub) (OutO (hp s.sub) u) (C.evolve rnd pyDiv fuel u t0 tf h storeData storeFreq s)
      (C'.evolve rnd pyDiv fuel w t0 tf h storeData storeFreq s') := by
  have hk : (hp s.sub).Keeps (hp (C.reset s.sub)) := by rw [hC.heap]; exact Heap.Keeps.refl _
  have hu' : (hp (C.reset s.sub)).Den u w := by rw [hC.heap]; exact hu
  have hr := hC.reset _ _ hs.sub
  have main : ∀ (x : CSState ℝ ℕ Sub) (x' : CSState ℝ (Vec ι) Sub'), StCS hp R x x' → x.sub = C.reset s.sub →
      Tri (hpCS hp) (StCS hp R) (hp s.sub) (OutO (hp s.sub) u)
        ((do
          let s ← PyM.get
          if s.tf < rnd (s.tc + h) then PyM.throw .valueError
          C.loop rnd pyDiv h storeData storeFreq fuel u 0 : PyM _ _) x)
        ((do
          let s ← PyM.get
          if s.tf < rnd (s.tc + h) then PyM.throw .valueError
          C'.loop rnd pyDiv h storeData storeFreq fuel w 0 : PyM _ _) x') := by
    intro x x' hx hsub
    simp only [PyM.bind_get_apply, hx.tc, hx.tf]
    split_ifs
    · exact ⟨by rw [← hsub] at hk; exact hk, hx, rfl⟩
    · exact hC.loop rnd pyDiv h storeData storeFreq u fuel u w 0 (by rw [hsub]; exact hk) hx (by rw [hsub]; exact hu')
        (Or.inl rfl)
  cases storeData with
  | true => exact main _ _ ⟨rfl, rfl, rfl, .cons hu' .nil, hr, List.nodup_singleton _⟩ rfl
  | false => exact main _ _ ⟨rfl, rfl, rfl, .nil, hr, List.nodup_nil⟩ rfl

end

/-! ### Adaptive steps -/

section
variable {Sub Sub' : Type}

/-- The class `C` over the heap stands for the class `C'` with arrays as values. -/
structure SimAS (hp : Sub → Heap ι) (R : Sub → Sub' → Prop) (C : ASClass ℝ (HArr ι) Sub)
    (C' : ASClass ℝ (Vec ι) Sub') : Prop where
  reset : ∀ s s', R s s' → R (C.reset s) (C'.reset s')
  heap : ∀ s, hp (C.reset s) = hp s
  stages : ∀ (u : HArr ι) w h a s s', R s s' → (hp s).Den u.ref w →
    Tri hp R (hp s) (fun H r v => (H.Arr r.1 v.1 ∧ H.Arr r.2 v.2) ∧ (hp s).next ≤ r.1.ref) (C.updateStages u h a s)
      (C'.updateStages w h a s')
  computeS : ∀ cfg (u err : HArr ι), C.computeS cfg u err = C'.computeS cfg u.seen err.seen

/-- The solver object over the heap stands for the solver object with arrays as values. -/
structure StAS (hp : Sub → Heap ι) (R : Sub → Sub' → Prop) (s : ASState ℝ (HArr ι) Sub) (s' : ASState ℝ (Vec ι) Sub') :
    Prop where
  t : s.t = s'.t
  tf : s.tf = s'.tf
  tc : s.tc = s'.tc
  accept : s.accept = s'.accept
  trials : s.trials = s'.trials
  u : List.Forall₂ (hp s.sub).Den (s.u.map HArr.ref) s'.u
  sub : R s.sub s'.sub
  nodup : (s.u.map HArr.ref).Nodup

variable {hp : Sub → Heap ι} {R : Sub → Sub' → Prop} {C : ASClass ℝ (HArr ι) Sub} {C' : ASClass ℝ (Vec ι) Sub'}
  {s : ASState ℝ (HArr ι) Sub} {s' : ASState ℝ (Vec ι) Sub'} {H : Heap ι}

/-- The heap of a solver object. -/
abbrev hpAS (hp : Sub → Heap ι) (s : ASState ℝ (HArr ι) Sub) : Heap ι := hp s.sub

theorem SimAS.resetM (hC : SimAS hp R C C') (hs : StAS hp R s s') :
    Tri (hpAS hp) (StAS hp R) (hp s.sub) (fun _ _ _ => True) (C.resetM s) (C'.resetM s') :=
  ⟨by change Heap.Keeps _ (hp (C.reset s.sub)); rw [hC.heap]; exact Heap.Keeps.refl _,
    ⟨rfl, rfl, rfl, rfl, hs.trials, .nil, hC.reset _ _ hs.sub, List.nodup_nil⟩, trivial⟩

/-- As `StAS`, and the stored snapshots are `l`. -/
structure StASu (hp : Sub → Heap ι) (R : Sub → Sub' → Prop) (l : List (HArr ι)) (s : ASState ℝ (HArr ι) Sub)
    (s' : ASState ℝ (Vec ι) Sub') : Prop where
  st : StAS hp R s s'
  l : s.u = l

theorem SimAS.trial (hC : SimAS hp R C C') {l : List (HArr ι)} (hs : StASu hp R l s s') (u : HArr ι) (w : Vec ι) (h : ℝ)
    (hu : (hp s.sub).Den u.ref w) :
    Tri (hpAS hp) (StASu hp R l) (hp s.sub)
      (fun H r v => (H.Arr r.1 v.1 ∧ H.Arr r.2 v.2) ∧ (hp s.sub).next ≤ r.1.ref) (C.trial u h s) (C'.trial w h s') := by
  obtain ⟨hs, hl⟩ := hs
  simp only [ASClass.trial, PyM.bind_get_apply, PyM.bind_modify_apply, PyM.zoom_apply, hs.accept]
  have := hC.stages u w h s'.accept s.sub s'.sub hs.sub hu
  refine ⟨this.keeps, ⟨⟨hs.t, hs.tf, hs.tc, rfl, ?_, hs.u.imp fun a b hab => hab.mono this.keeps, this.inv,
    hs.nodup⟩, hl⟩, this.res⟩
  simp only [hs.trials]

theorem StASu.accept {l : List (HArr ι)} (hs : StASu hp R l s s') (b : Bool) :
    StASu hp R l { s with accept := b } { s' with accept := b } :=
  ⟨⟨hs.st.t, hs.st.tf, hs.st.tc, rfl, hs.st.trials, hs.st.u, hs.st.sub, hs.st.nodup⟩, hs.l⟩

theorem ASClass.rejectStepSize_tri (cfg : SolverConfig ℝ) (x : Ext ℝ) (h : ℝ) {l : List (HArr ι)}
    (hk : H.Keeps (hp s.sub)) (hs : StASu hp R l s s') :
    Tri (hpAS hp) (StASu hp R l) H (fun _ a b => a = b) (ASClass.rejectStepSize cfg x h s)
      (ASClass.rejectStepSize cfg x h s') := by
  cases x <;> exact ⟨hk, hs.accept false, rfl⟩

theorem ASClass.acceptStepSize_run {V S : Type} (cfg : SolverConfig ℝ) (x h : ℝ) (s : ASState ℝ V S) :
    ASClass.acceptStepSize cfg x h s =
      (.ok (if cfg.incr_f < min x ASClass.MAX_S then min x ASClass.MAX_S * h else h), { s with accept := true }) := by
  simp only [ASClass.acceptStepSize, PyM.bind_modify_apply]
  split_ifs <;> rfl

/-- What `step` of an adaptive solver returns: a new array, and the same step sizes. -/
def OutStep (H0 H : Heap ι) (r : HArr ι × ℝ × ℝ) (v : Vec ι × ℝ × ℝ) : Prop :=
  H.Arr r.1 v.1 ∧ H0.next ≤ r.1.ref ∧ r.2 = v.2

theorem Heap.Arr.mono {H' : Heap ι} {a : HArr ι} {v : Vec ι} (h : H.Arr a v) (hk : H.Keeps H') : H'.Arr a v :=
  ⟨h.1.mono hk, h.2⟩

theorem OutStep.base {H0 H1 : Heap ι} {r : HArr ι × ℝ × ℝ} {v : Vec ι × ℝ × ℝ} (h : OutStep H1 H r v)
    (hk : H0.Keeps H1) : OutStep H0 H r v := ⟨h.1, hk.1.trans h.2.1, h.2.2⟩

theorem SimAS.stepLoop (hC : SimAS hp R C C') (rnd : ℝ → ℝ) (cfg : SolverConfig ℝ) (u : HArr ι) (w : Vec ι) (n : ℕ)
    (h : ℝ) {l : List (HArr ι)} (hs : StASu hp R l s s') (hu : (hp s.sub).Den u.ref w) :
    Tri (hpAS hp) (StASu hp R l) (hp s.sub) (OutStep (hp s.sub)) (C.stepLoop rnd cfg u n h s)
      (C'.stepLoop rnd cfg w n h s') := by
  induction hm : MAX_LOOPS + 1 - n using Nat.strong_induction_on generalizing n h s s' with
  | _ m ih =>
  rw [ASClass.stepLoop, ASClass.stepLoop]
  have rej : ∀ (x : Ext ℝ) s1 s1', (hp s.sub).Keeps (hp s1.sub) → StASu hp R l s1 s1' →
      Tri (hpAS hp) (StASu hp R l) (hp s.sub) (OutStep (hp s.sub))
        ((do
          let h' ← ASClass.rejectStepSize cfg x h
          if n + 1 > MAX_LOOPS then PyM.throw .maxLoopsExceeded
          else if rnd h' < cfg.minh then PyM.throw .minimumStepReached
          else C.stepLoop rnd cfg u (n + 1) (rnd h') : PyM _ _) s1)
        ((do
          let h' ← ASClass.rejectStepSize cfg x h
          if n + 1 > MAX_LOOPS then PyM.throw .maxLoopsExceeded
          else if rnd h' < cfg.minh then PyM.throw .minimumStepReached
          else C'.stepLoop rnd cfg w (n + 1) (rnd h') : PyM _ _) s1') := by
    intro x s1 s1' k1 i1
    refine Tri.bind (ASClass.rejectStepSize_tri cfg x h k1 i1) fun a b s2 s2' k2 i2 hab => ?_
    subst hab
    split_ifs with c1 c2
    · exact Tri.throw k2 i2
    · exact Tri.throw k2 i2
    · exact (ih (MAX_LOOPS + 1 - (n + 1)) (by omega) (n + 1) (rnd a) i2 (hu.mono k2) rfl).weaken k2
        fun _ _ h => h.base k2
  refine Tri.bind (hC.trial hs u w h hu) fun a b s1 s1' k1 i1 hab => ?_
  have hS : C.computeS cfg a.1 a.2 = C'.computeS cfg b.1 b.2 := by
    rw [hC.computeS, hab.1.1.2, hab.1.2.2]
  rw [hS]
  cases C'.computeS cfg b.1 b.2 with
  | fin x =>
    simp only
    by_cases hx : x < 1
    · simp only [hx, if_true]
      exact rej (.fin x) _ _ k1 i1
    · simp only [hx, if_false]
      rw [PyM.bind_ok (ASClass.acceptStepSize_run cfg x h s1), PyM.bind_ok (ASClass.acceptStepSize_run cfg x h s1')]
      exact ⟨k1, i1.accept true, hab.1.1, hab.2, rfl⟩
  | ninf => exact rej .ninf _ _ k1 i1
  | pinf => exact rej .pinf _ _ k1 i1
  | nan => exact rej .nan _ _ k1 i1

theorem SimAS.step' (hC : SimAS hp R C C') (rnd : ℝ → ℝ) (cfg : SolverConfig ℝ) (u : HArr ι) (w : Vec ι)
    (h : ℝ) {l : List (HArr ι)} (hs : StASu hp R l s s') (hu : (hp s.sub).Den u.ref w) :
    Tri (hpAS hp) (StASu hp R l) (hp s.sub) (OutStep (hp s.sub)) (C.step rnd cfg u h s) (C'.step rnd cfg w h s') := by
  simp only [ASClass.step]
  split_ifs
  · exact hC.stepLoop rnd cfg u w 0 h hs hu
  · exact ⟨Heap.Keeps.refl _, hs, rfl⟩

theorem SimAS.step (hC : SimAS hp R C C') (rnd : ℝ → ℝ) (cfg : SolverConfig ℝ) (u : HArr ι) (w : Vec ι)
    (h : ℝ) (hs : StAS hp R s s') (hu : (hp s.sub).Den u.ref w) :
    Tri (hpAS hp) (StAS hp R) (hp s.sub) (OutStep (hp s.sub)) (C.step rnd cfg u h s) (C'.step rnd cfg w h s') := by
  have := hC.step' rnd cfg u w h ⟨hs, rfl⟩ hu
  exact ⟨this.keeps, this.inv.st, this.res⟩

theorem ASClass.store_tri (hk : H.Keeps (hp s.sub)) (hs : StAS hp R s s') (storeData : Bool) (storeFreq : ℤ) (count : ℕ)
    {u : HArr ι} {w : Vec ι} (hu : (hp s.sub).Den u.ref w) (hn : u.ref ∉ s.u.map HArr.ref) :
    Tri (hpAS hp) (StAS hp R) H (fun H' _ _ => H'.Den u.ref w) (ASClass.store storeData storeFreq count u s)
      (ASClass.store storeData storeFreq count w s') := by
  simp only [ASClass.store]
  split_ifs
  · exact Tri.throw hk hs
  · refine ⟨hk, ⟨by simp only [PyM.modify, hs.t, hs.tc], hs.tf, hs.tc, hs.accept, hs.trials, ?_, hs.sub, ?_⟩, hu⟩
    · simp only [PyM.modify, List.map_append, List.map_cons, List.map_nil]
      exact List.rel_append hs.u (.cons hu .nil)
    · simp only [PyM.modify, List.map_append, List.map_cons, List.map_nil]
      exact List.nodup_append.2 ⟨hs.nodup, List.nodup_singleton _, fun a ha b hb => by
        simp only [List.mem_singleton] at hb; subst hb; exact fun h => hn (h ▸ ha)⟩
  · exact Tri.pure hk hs hu
  · exact Tri.pure hk hs hu

theorem SimAS.loop (hC : SimAS hp R C C') (rnd : ℝ → ℝ) (pyDiv : Bool) (cfg : SolverConfig ℝ) (storeData : Bool)
    (storeFreq : ℤ) (u0 fuel : ℕ) (u : HArr ι) (w : Vec ι) (h : ℝ) (count : ℕ) (hk : H.Keeps (hp s.sub))
    (hs : StAS hp R s s') (hu : (hp s.sub).Den u.ref w) (h0 : u.ref = u0 ∨ H.next ≤ u.ref) :
    Tri (hpAS hp) (StAS hp R) H (fun H' r => OutO H u0 H' (r.map HArr.ref))
      (C.loop rnd pyDiv cfg storeData storeFreq fuel u h count s)
      (C'.loop rnd pyDiv cfg storeData storeFreq fuel w h count s') := by
  induction fuel generalizing s s' u w h count with
  | zero => exact ⟨hk, hs, trivial⟩
  | succ fuel ih =>
    simp only [ASClass.loop, PyM.bind_get_apply, hs.tc, hs.tf]
    split_ifs with ht
    · have hstep := hC.step' rnd cfg u w h ⟨hs, rfl⟩ hu
      have hmem : ∀ a ∈ s.u.map HArr.ref, a < (hp s.sub).next := fun a ha => List.Forall₂.pub hs.u ha
      rcases hx : C.step rnd cfg u h s with ⟨r, s1⟩
      rcases hy : C'.step rnd cfg w h s' with ⟨r', s1'⟩
      rw [hx, hy] at hstep
      obtain ⟨k1, ⟨i1, hl⟩, q1⟩ := hstep
      cases r with
      | error e =>
        have := q1.error rfl
        simp only at this
        subst this
        rw [PyM.bind_error hx, PyM.bind_error hy]
        exact ⟨hk.trans k1, i1, rfl⟩
      | ok a =>
        obtain ⟨b, hb, hab, hge, hhh⟩ := q1.ok rfl
        simp only at hb
        subst hb
        rw [PyM.bind_ok hx, PyM.bind_ok hy]
        simp only [PyM.bind_modify_apply]
        simp only at k1 i1 hab hge hl
        rw [hhh]
        have i2 : StAS hp R { s1 with tc := rnd (s1.tc + b.2.1) } { s1' with tc := rnd (s1'.tc + b.2.1) } :=
          ⟨i1.t, i1.tf, by simp only [i1.tc], i1.accept, i1.trials, i1.u, i1.sub, i1.nodup⟩
        have k2 : H.Keeps (hp s1.sub) := hk.trans k1
        have hna : a.1.ref ∉ s1.u.map HArr.ref := by
          rw [hl]
          intro ha
          exact absurd (hmem _ ha) (by omega)
        have hpg := progress_tri (hp := hpAS hp) pyDiv (count + 1) s'.tf (s := { s1 with tc := rnd (s1.tc + b.2.1) }) k2 i2
        rcases hp1 : progress pyDiv (count + 1) s'.tf { s1 with tc := rnd (s1.tc + b.2.1) } with ⟨r2, s2⟩
        rcases hp2 : progress pyDiv (count + 1) s'.tf { s1' with tc := rnd (s1'.tc + b.2.1) } with ⟨r2', s2'⟩
        have e1 : s2 = { s1 with tc := rnd (s1.tc + b.2.1) } := by
          simp only [progress] at hp1; split_ifs at hp1 <;> cases hp1 <;> rfl
        have e2 : s2' = { s1' with tc := rnd (s1'.tc + b.2.1) } := by
          simp only [progress] at hp2; split_ifs at hp2 <;> cases hp2 <;> rfl
        subst e1 e2
        rw [hp1, hp2] at hpg
        cases r2 with
        | error e =>
          have := hpg.res.error rfl
          simp only at this
          subst this
          rw [PyM.bind_error hp1, PyM.bind_error hp2]
          exact ⟨hpg.keeps, hpg.inv, rfl⟩
        | ok _ =>
          obtain ⟨b', hb', -⟩ := hpg.res.ok rfl
          simp only at hb'
          subst hb'
          rw [PyM.bind_ok hp1, PyM.bind_ok hp2]
          simp only [PyM.bind_get_apply, i1.tc, i1.tf]
          refine Tri.bind (ASClass.store_tri (s := { s1 with tf := s1'.tf, tc := rnd (s1'.tc + b.2.1) })
            (s' := { s1' with tc := rnd (s1'.tc + b.2.1) }) k2 (by rw [i1.tc, i1.tf] at i2; exact i2) storeData storeFreq
            (count + 1) hab.1 hna) fun _ _ s3 s3' k3 i3 hd => ?_
          exact ih a.1 b.1 _ (count + 1) k3 i3 hd (Or.inr (hk.1.trans hge))
    · exact ⟨hk, hs, hu, h0⟩

theorem SimAS.evolve (hC : SimAS hp R C C') (rnd : ℝ → ℝ) (pyDiv : Bool) (cfg : SolverConfig ℝ) (fuel : ℕ) (u : HArr ι)
    (w : Vec ι) (t0 tf : ℝ) (hInit : Option ℝ) (storeData : Bool) (storeFreq : ℤ) (hs : StAS hp R s s')
    (hu : (hp s.sub).Den u.ref w) :
    Tri (hpAS hp) (StAS hp R) (hp s.sub) (fun H' r => OutO (hp s.sub) u.ref H' (r.map HArr.ref))
      (C.evolve rnd pyDiv cfg fuel u t0 tf hInit storeData storeFreq s)
      (C'.evolve rnd pyDiv cfg fuel w t0 tf hInit storeData storeFreq s') := by
  have hk : (hp s.sub).Keeps (hp (C.reset s.sub)) := by rw [hC.heap]; exact Heap.Keeps.refl _
  have hu' : (hp (C.reset s.sub)).Den u.ref w := by rw [hC.heap]; exact hu
  have hr := hC.reset _ _ hs.sub
  cases storeData with
  | true =>
    exact hC.loop rnd pyDiv cfg true storeFreq u.ref fuel u w _ 0
      (s := ⟨[t0], [u], tf, t0, false, C.reset s.sub, s.trials⟩)
      (s' := ⟨[t0], [w], tf, t0, false, C'.reset s'.sub, s'.trials⟩) hk
      ⟨rfl, rfl, rfl, rfl, hs.trials, .cons hu' .nil, hr, List.nodup_singleton _⟩ hu' (Or.inl rfl)
  | false =>
    exact hC.loop rnd pyDiv cfg false storeFreq u.ref fuel u w _ 0
      (s := ⟨[], [], tf, t0, false, C.reset s.sub, s.trials⟩)
      (s' := ⟨[], [], tf, t0, false, C'.reset s'.sub, s'.trials⟩) hk
      ⟨rfl, rfl, rfl, rfl, hs.trials, .nil, hr, List.nodup_nil⟩ hu' (Or.inl rfl)

end

/-! ### The first snapshot -/

section
variable {V Sub : Type}

/-- The computation only appends to the snapshots. -/
def GrowsCS {α : Type} (x : PyM (CSState ℝ V Sub) α) : Prop := ∀ s, s.u <+: (x s).2.u

/-- The computation only appends to the snapshots. -/
def GrowsAS {α : Type} (x : PyM (ASState ℝ V Sub) α) : Prop := ∀ s, s.u <+: (x s).2.u

theorem GrowsCS.bind {α β : Type} {x : PyM (CSState ℝ V Sub) α} {g : α → PyM (CSState ℝ V Sub) β} (hx : GrowsCS x)
    (hg : ∀ a, GrowsCS (g a)) : GrowsCS (x >>= g) := by
  intro s
  have := hx s
  rcases h : x s with ⟨r, s1⟩
  rw [h] at this
  cases r with
  | error e => rw [PyM.bind_error h]; exact this
  | ok a => rw [PyM.bind_ok h]; exact this.trans (hg a s1)

theorem GrowsAS.bind {α β : Type} {x : PyM (ASState ℝ V Sub) α} {g : α → PyM (ASState ℝ V Sub) β} (hx : GrowsAS x)
    (hg : ∀ a, GrowsAS (g a)) : GrowsAS (x >>= g) := by
  intro s
  have := hx s
  rcases h : x s with ⟨r, s1⟩
  rw [h] at this
  cases r with
  | error e => rw [PyM.bind_error h]; exact this
  | ok a => rw [PyM.bind_ok h]; exact this.trans (hg a s1)

theorem CSClass.loop_grows (C : CSClass ℝ V Sub) (rnd : ℝ → ℝ) (pyDiv : Bool) (h : ℝ) (storeData : Bool)
    (storeFreq : ℤ) (fuel : ℕ) (u : V) (count : ℕ) : GrowsCS (C.loop rnd pyDiv h storeData storeFreq fuel u count) := by
  have rfl' : ∀ (s s1 : CSState ℝ V Sub), s1.u = s.u → s.u <+: s1.u := fun s s1 h => by rw [h]
  induction fuel generalizing u count with
  | zero => exact fun s => rfl' _ _ rfl
  | succ fuel ih =>
    refine GrowsCS.bind (fun s => rfl' _ _ rfl) fun s => ?_
    split_ifs
    · refine GrowsCS.bind (fun s => ?_) fun u => GrowsCS.bind (fun s => rfl' _ _ rfl) fun _ =>
        GrowsCS.bind (fun s => ?_) fun _ => GrowsCS.bind (fun s => ?_) fun _ => ih _ _
      · by_cases hh : 0 ≤ h
        · rw [CSClass.step_apply _ _ hh]
        · rw [CSClass.step_neg _ _ hh]
      · simp only [progress]
        split_ifs <;> exact rfl' _ _ rfl
      · simp only [CSClass.store]
        split_ifs
        · exact rfl' _ _ rfl
        · exact List.prefix_append _ _
        · exact rfl' _ _ rfl
        · exact rfl' _ _ rfl
    · exact fun s => rfl' _ _ rfl

theorem CSClass.evolve_head (C : CSClass ℝ V Sub) (rnd : ℝ → ℝ) (pyDiv : Bool) (fuel : ℕ) (u : V) (t0 tf h : ℝ)
    (storeFreq : ℤ) (s : CSState ℝ V Sub) :
    (C.evolve rnd pyDiv fuel u t0 tf h true storeFreq s).2.u.head? = some u := by
  have key : ∀ x : CSState ℝ V Sub, x.u = [u] →
      ((do
          let s ← PyM.get
          if s.tf < rnd (s.tc + h) then PyM.throw .valueError
          C.loop rnd pyDiv h true storeFreq fuel u 0 : PyM _ _) x).2.u.head? = some u := by
    intro x hx
    simp only [PyM.bind_get_apply]
    split_ifs
    · change x.u.head? = some u
      rw [hx]; rfl
    · have := C.loop_grows rnd pyDiv h true storeFreq fuel u 0 x
      rw [hx] at this
      obtain ⟨l, hl⟩ := this
      rw [← hl]; rfl
  exact key ⟨[t0], [u], tf, t0, C.reset s.sub⟩ rfl

theorem ASClass.stepLoop_grows (C : ASClass ℝ V Sub) (rnd : ℝ → ℝ) (cfg : SolverConfig ℝ) (u : V) (n : ℕ) (h : ℝ) :
    GrowsAS (C.stepLoop rnd cfg u n h) := by
  have rfl' : ∀ (s s1 : ASState ℝ V Sub), s1.u = s.u → s.u <+: s1.u := fun s s1 h => by rw [h]
  induction hm : MAX_LOOPS + 1 - n using Nat.strong_induction_on generalizing n h with
  | _ m ih =>
  have rej : ∀ x : Ext ℝ, GrowsAS (do
          let h' ← ASClass.rejectStepSize cfg x h
          if n + 1 > MAX_LOOPS then PyM.throw .maxLoopsExceeded
          else if rnd h' < cfg.minh then PyM.throw .minimumStepReached
          else C.stepLoop rnd cfg u (n + 1) (rnd h')) := by
    intro x
    refine GrowsAS.bind (fun s => ?_) fun h' => ?_
    · cases x <;> exact rfl' _ _ rfl
    · split_ifs
      · exact fun s => rfl' _ _ rfl
      · exact fun s => rfl' _ _ rfl
      · exact ih _ (by omega) _ _ rfl
  rw [ASClass.stepLoop]
  refine GrowsAS.bind (fun s => ?_) fun r => ?_
  · simp only [ASClass.trial, PyM.bind_get_apply, PyM.bind_modify_apply, PyM.zoom_apply]
    exact rfl' _ _ rfl
  · cases C.computeS cfg r.1 r.2 with
    | fin x =>
      simp only
      by_cases hx : x < 1
      · simp only [hx, if_true]
        exact rej _
      · simp only [hx, if_false]
        exact GrowsAS.bind (fun s => by rw [ASClass.acceptStepSize_run]) fun _ s => rfl' _ _ rfl
    | ninf => exact rej .ninf
    | pinf => exact rej .pinf
    | nan => exact rej .nan

theorem ASClass.loop_grows (C : ASClass ℝ V Sub) (rnd : ℝ → ℝ) (pyDiv : Bool) (cfg : SolverConfig ℝ) (storeData : Bool)
    (storeFreq : ℤ) (fuel : ℕ) (u : V) (h : ℝ) (count : ℕ) :
    GrowsAS (C.loop rnd pyDiv cfg storeData storeFreq fuel u h count) := by
  have rfl' : ∀ (s s1 : ASState ℝ V Sub), s1.u = s.u → s.u <+: s1.u := fun s s1 h => by rw [h]
  induction fuel generalizing u h count with
  | zero => exact fun s => rfl' _ _ rfl
  | succ fuel ih =>
    refine GrowsAS.bind (fun s => rfl' _ _ rfl) fun s => ?_
    split_ifs
    · refine GrowsAS.bind (fun s => ?_) fun u => GrowsAS.bind (fun s => rfl' _ _ rfl) fun _ =>
        GrowsAS.bind (fun s => ?_) fun _ => GrowsAS.bind (fun s => rfl' _ _ rfl) fun _ =>
        GrowsAS.bind (fun s => ?_) fun _ => ih _ _ _
      · by_cases hh : 0 ≤ h
        · simp only [ASClass.step, hh, not_true_eq_false, if_false]
          exact C.stepLoop_grows rnd cfg _ 0 h s
        · rw [ASClass.step_neg _ _ _ _ hh]
      · simp only [progress]
        split_ifs <;> exact rfl' _ _ rfl
      · simp only [ASClass.store]
        split_ifs
        · exact rfl' _ _ rfl
        · exact List.prefix_append _ _
        · exact rfl' _ _ rfl
        · exact rfl' _ _ rfl
    · exact fun s => rfl' _ _ rfl

theorem ASClass.evolve_head (C : ASClass ℝ V Sub) (rnd : ℝ → ℝ) (pyDiv : Bool) (cfg : SolverConfig ℝ) (fuel : ℕ) (u : V)
    (t0 tf : ℝ) (hInit : Option ℝ) (storeFreq : ℤ) (s : ASState ℝ V Sub) :
    (C.evolve rnd pyDiv cfg fuel u t0 tf hInit true storeFreq s).2.u.head? = some u := by
  have key : ∀ (x : ASState ℝ V Sub) (h : ℝ), x.u = [u] →
      (C.loop rnd pyDiv cfg true storeFreq fuel u h 0 x).2.u.head? = some u := by
    intro x h hx
    have := C.loop_grows rnd pyDiv cfg true storeFreq fuel u h 0 x
    rw [hx] at this
    obtain ⟨l, hl⟩ := this
    rw [← hl]; rfl
  exact key ⟨[t0], [u], tf, t0, false, C.reset s.sub, s.trials⟩ _ rfl

end

end Verif
