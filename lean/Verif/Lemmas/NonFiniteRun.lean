import Verif.Lemmas.NonFinite
import Verif.Lemmas.RelLoop
import Verif.Lemmas.BroadcastStep

/-!
# Runs with non-finite numbers
-/

set_option linter.unusedSectionVars false

namespace Verif

namespace CSClass

variable {K V Sub : Type} [Field K] [LinearOrder K] {C : CSClass K V Sub}

/-- A transitive relation between the argument and the result of each step orders what a run records. -/
theorem loop_chain {Φ : K → V → Except PyErr V} (L : LawfulCS C Φ) (Q : V → V → Prop) (hrefl : ∀ a, Q a a)
    (htrans : ∀ a b c, Q a b → Q b c → Q a c) (rnd : K → K) (pyDiv : Bool) (h : K) (hΦ : ∀ u v, Φ h u = .ok v → Q u v)
    (storeData : Bool) (freq : ℤ) : ∀ (fuel : ℕ) (u : V) (c : ℕ) (s : CSState K V Sub), L.Inv s.sub u →
      s.u.Pairwise Q → (∀ a ∈ s.u, Q a u) →
      (C.loop rnd pyDiv h storeData freq fuel u c s).2.u.Pairwise Q ∧
      ∀ v, (C.loop rnd pyDiv h storeData freq fuel u c s).1 = .ok (some v) →
        Q u v ∧ ∀ a ∈ (C.loop rnd pyDiv h storeData freq fuel u c s).2.u, Q a v := by
  intro fuel
  induction fuel with
  | zero => intro u c s _ h1 _; exact ⟨h1, by simp [loop]⟩
  | succ fuel ih =>
    intro u c s hi h1 h2
    by_cases hlt : s.tc < s.tf
    swap
    · rw [loop_done _ _ _ _ _ _ _ _ _ hlt]
      refine ⟨h1, fun v hv => ?_⟩
      obtain rfl : u = v := by simpa using hv
      exact ⟨hrefl u, h2⟩
    by_cases hh : 0 ≤ h
    swap
    · rw [loop_step_error (hlt := hlt) (hr := step_neg _ _ hh _)]
      exact ⟨h1, by simp⟩
    have r := L.result s.sub u h hi
    cases hΦu : Φ h u with
    | error e =>
      rw [hΦu] at r
      rw [loop_step_error (hlt := hlt) (e := e) (s' := { s with sub := (C.updateStages u h s.sub).2 })
          (hr := by rw [step_apply _ _ hh, r])]
      exact ⟨h1, by simp⟩
    | ok v =>
      have hQ := hΦ u v hΦu
      rw [hΦu] at r
      rw [loop]
      simp only [PyM.bind_get_apply, hlt, if_true]
      rw [PyM.bind_ok (a := v) (s' := { s with sub := (C.updateStages u h s.sub).2 }) (by rw [step_apply _ _ hh, r])]
      simp only [PyM.bind_modify_apply]
      by_cases hp : ProgressRaises pyDiv s.tf (c + 1)
      · rw [PyM.bind_error (progress_raises pyDiv (c + 1) s.tf _ hp)]
        exact ⟨h1, by simp⟩
      rw [PyM.bind_ok (progress_apply pyDiv (c + 1) s.tf _ hp)]
      by_cases hf : storeData = true → freq ≠ 0
      · rw [PyM.bind_ok (store_apply storeData freq (c + 1) v _ hf)]
        have i := L.inv_ok s.sub u h v hi hΦu
        split
        · obtain ⟨j1, j2⟩ := ih v (c + 1)
            { s with tc := rnd (s.tc + h), sub := (C.updateStages u h s.sub).2, t := s.t ++ [rnd (s.tc + h)], u := s.u ++ [v] } i
            (List.pairwise_append.mpr ⟨h1, by simp, by simpa using fun a ha => htrans _ _ _ (h2 a ha) hQ⟩) (by
              intro a ha
              rcases List.mem_append.mp ha with ha | ha
              · exact htrans _ _ _ (h2 a ha) hQ
              · obtain rfl : a = v := by simpa using ha
                exact hrefl a)
          exact ⟨j1, fun w hw => ⟨htrans _ _ _ hQ (j2 w hw).1, (j2 w hw).2⟩⟩
        · obtain ⟨j1, j2⟩ := ih v (c + 1) { s with tc := rnd (s.tc + h), sub := (C.updateStages u h s.sub).2 } i h1
            fun a ha => htrans _ _ _ (h2 a ha) hQ
          exact ⟨j1, fun w hw => ⟨htrans _ _ _ hQ (j2 w hw).1, (j2 w hw).2⟩⟩
      · obtain ⟨rfl, rfl⟩ : storeData = true ∧ freq = 0 := by
          constructor
          · by_contra hc; exact hf fun h => absurd h hc
          · by_contra hc; exact hf fun _ => hc
        rw [PyM.bind_error (e := .zeroDivisionError) (by rfl)]
        exact ⟨h1, by simp⟩

theorem evolve_chain {Φ : K → V → Except PyErr V} (L : LawfulCS C Φ) (Q : V → V → Prop) (hrefl : ∀ a, Q a a)
    (htrans : ∀ a b c, Q a b → Q b c → Q a c) (rnd : K → K) (pyDiv : Bool) (fuel : ℕ) (u : V) (t0 tf h : K)
    (hΦ : ∀ u v, Φ h u = .ok v → Q u v) (storeData : Bool) (freq : ℤ) (s : CSState K V Sub) :
    (C.evolve rnd pyDiv fuel u t0 tf h storeData freq s).2.u.Pairwise Q ∧
    (∀ v, (C.evolve rnd pyDiv fuel u t0 tf h storeData freq s).1 = .ok (some v) →
      Q u v ∧ ∀ a ∈ (C.evolve rnd pyDiv fuel u t0 tf h storeData freq s).2.u, Q a v) := by
  rw [evolve_apply]
  split_ifs with hlt
  · refine ⟨?_, by simp⟩
    cases storeData <;> simp [start]
  · refine loop_chain L Q hrefl htrans rnd pyDiv h hΦ storeData freq fuel u 0 _ (L.reset_inv _ _) ?_ ?_
    · cases storeData <;> simp [start]
    · cases storeData <;> simp [start, hrefl]

end CSClass

/-! ### One step -/

variable {ι : Type} [Fintype ι] [DecidableEq ι] {rnd : ℝ → Ext ℝ} {load : ℂ → CFl}

/-- How far a non-finite entry of the argument spreads in the result: to all entries if `lin_op` is a matrix. -/
def CSSolver.reach : CSSolver ι → ℕ
  | if4 (.diag _) | etd4 _ (.diag _) | etd5 _ (.diag _) => 1
  | _ => 2

/-- How far a non-finite entry of the argument spreads in the result: to all entries if `lin_op` is a matrix. -/
def ASSolver.reach : ASSolver ι → ℕ
  | if34 (.diag _) | etd34 _ (.diag _) | etd35 _ (.diag _) => 1
  | if45dp _ => 1
  | _ => 2

theorem CSSolver.spread_stages (m : CSSolver ι) : spreads (Function.update (fun _ => 1) Attr.NL1 0) m.rprog.stages Attr.k = m.reach := by
  rcases m with (L | L) | ⟨cfg, L | L⟩ | ⟨cfg, L | L⟩ <;> rfl

theorem CSSolver.aStep_spread (m : CSSolver ι) {coefs : ℝ → Except PyErr m.Coef} {nl : (ι → CFl) → Except PyErr (ι → CFl)} {h : ℝ}
    {u v : ι → CFl} (hv : m.rprog.aStep ⟨ArrOps.floats rnd load, coefs⟩ nl h u = .ok v) {i : ι} (hi : ¬ (u i).IsFinite) :
    Spread i m.reach v := by
  unfold RCSProg.aStep at hv
  cases hc : coefs h with
  | error e => simp [hc, Except.bind] at hv
  | ok c =>
    cases hn : nl u with
    | error e => simp [hc, hn, Except.bind] at hv
    | ok n =>
      simp only [hc, hn, Except.bind] at hv
      cases hy : avals (ArrOps.floats rnd load) c h nl m.rprog.stages (Function.update (fun _ => u) Attr.NL1 n) with
      | error e => simp [hy, Except.map] at hv
      | ok y =>
        simp only [hy, Except.map, Except.ok.injEq] at hv
        subst hv
        rw [← m.spread_stages]
        refine spreads_ok _ (fun a => ?_) hy _
        by_cases ha : a = Attr.NL1
        · subst ha; simp [Spread]
        · simpa [Function.update_of_ne ha, Spread] using hi

/-- What holds after a computation that returns. -/
def PyM.Post {σ α : Type} (P : σ → Prop) (x : PyM σ α) (Q : α → σ → Prop) : Prop := ∀ s, P s → ∀ a s', x s = (.ok a, s') → Q a s'

theorem PyM.Post.bind {σ α β : Type} {P : σ → Prop} {x : PyM σ α} {Q : α → σ → Prop} {f : α → PyM σ β} {R : β → σ → Prop}
    (hx : PyM.Post P x Q) (hf : ∀ a, PyM.Post (Q a) (f a) R) : PyM.Post P (x >>= f) R := by
  intro s hs b s' hb
  rw [PyM.bind_apply] at hb
  cases hr : x s with
  | mk r s1 =>
    rw [hr] at hb
    cases r with
    | error e => simp at hb
    | ok a => exact hf a s1 (hx s hs a s1 hr) b s' hb

theorem PyM.Post.onMethod {M α : Type} {P : M → Prop} {x : PyM M α} {Q : α → M → Prop} (hx : PyM.Post P x Q) :
    PyM.Post (fun s : Wrap M => P s.method) (Wrap.onMethod x) fun a s => Q a s.method := by
  intro s hs a s' ha
  simp only [Wrap.onMethod, PyM.zoom_apply, Prod.mk.injEq] at ha
  obtain ⟨h1, rfl⟩ := ha
  exact hx _ hs a _ (Prod.ext h1 rfl)

/-- Entry `i` of the arrays in the object is non-finite as far as `lev` says. -/
def AMethod.Lev {Coef : Type} (i : ι) (lev : Attr → ℕ) (s : AMethod Coef (ι → CFl)) : Prop := ∀ a, Spread i (lev a) (s.vars a)

theorem AMethod.run_post {Coef C : Type} {nl : (ι → CFl) → Except PyErr (ι → CFl)} {c : C} {h : ℝ} {i : ι} (is : List (RInstr C ι))
    (lev : Attr → ℕ) : PyM.Post (AMethod.Lev (Coef := Coef) i lev) (AMethod.run (ArrOps.floats rnd load) nl c h is)
      fun _ s => AMethod.Lev i (spreads lev is) s := by
  intro s hs a s' ha
  rw [AMethod.run_vals] at ha
  cases hy : avals (ArrOps.floats rnd load) c h nl is s.vars with
  | error e => simp [hy] at ha
  | ok y =>
    rw [hy] at ha
    obtain ⟨-, rfl⟩ := Prod.mk.inj ha
    exact spreads_ok is hs hy

/-- The argument is not finite at `i`; nothing is known about the other arrays. -/
def argLev : Attr → ℕ := Function.update (fun _ => 0) Attr.u 1

theorem CSSolver.spread_init (m : CSSolver ι) : spreads argLev m.rprog.init = argLev := by
  rw [m.rprog_ok.init]
  funext a
  cases a <;> rfl

theorem CSSolver.spread_arg (m : CSSolver ι) : spreads argLev m.rprog.stages Attr.k = m.reach := by
  rcases m with (L | L) | ⟨cfg, L | L⟩ | ⟨cfg, L | L⟩ <;> rfl

theorem CSSolver.updateStages_spread (m : CSSolver ι) {coefs : ℝ → Except PyErr m.Coef} {nl : (ι → CFl) → Except PyErr (ι → CFl)}
    {h : ℝ} {u : ι → CFl} {i : ι} (hi : ¬ (u i).IsFinite) :
    PyM.Post (fun _ => True) (m.rprog.aUpdateStages ⟨ArrOps.floats rnd load, coefs⟩ nl u h) fun v _ => Spread i m.reach v := by
  unfold RCSProg.aUpdateStages
  refine PyM.Post.bind (Q := fun _ _ => True) (fun _ _ _ _ _ => trivial) fun _ => ?_
  refine PyM.Post.bind (Q := fun _ s => AMethod.Lev i argLev s.method) ?_ fun _ => ?_
  · refine fun s _ => PyM.Post.onMethod (P := fun _ => True) (Q := fun _ s => AMethod.Lev i argLev s) ?_ s trivial
    intro s _ a s' ha
    rw [AMethod.arg_apply] at ha
    obtain ⟨-, rfl⟩ := Prod.mk.inj ha
    intro a
    by_cases h1 : a = Attr.u
    · subst h1; simpa [argLev, Spread] using hi
    · simp [argLev, Function.update_of_ne h1, Spread]
  refine PyM.Post.bind (Q := fun _ s => AMethod.Lev i argLev s.method) ?_ fun s0 => ?_
  · intro s hs a s' ha
    obtain ⟨-, rfl⟩ := Prod.mk.inj ha
    exact hs
  have hbody : PyM.Post (fun s : Wrap (AMethod m.Coef (ι → CFl)) => AMethod.Lev i argLev s.method)
      (Wrap.onMethod (m.rprog.abody ⟨ArrOps.floats rnd load, coefs⟩ nl h)) fun v _ => Spread i m.reach v := by
    refine PyM.Post.onMethod (Q := fun v _ => Spread i m.reach v) ?_
    unfold RCSProg.abody
    refine PyM.Post.bind (Q := fun _ s => AMethod.Lev i argLev s) ?_ fun s1 => ?_
    · intro s hs a s' ha
      obtain ⟨-, rfl⟩ := Prod.mk.inj ha
      exact hs
    refine PyM.Post.bind (AMethod.run_post _ _) fun _ => ?_
    intro s hs a s' ha
    simp only [PyM.bind_get_apply, PyM.pure_apply, Prod.mk.injEq, Except.ok.injEq] at ha
    rw [← ha.1, ← m.spread_arg]
    exact hs _
  split_ifs with hn
  · refine PyM.Post.bind (Q := fun _ (s : Wrap (AMethod m.Coef (ι → CFl))) => AMethod.Lev i argLev s.method) ?_ fun _ => ?_
    · have := PyM.Post.onMethod (AMethod.run_post (rnd := rnd) (load := load) (Coef := m.Coef) (nl := nl) (c := ()) (h := 0) (i := i)
        m.rprog.init argLev)
      rwa [m.spread_init] at this
    · refine PyM.Post.bind (Q := fun _ (s : Wrap (AMethod m.Coef (ι → CFl))) => AMethod.Lev i argLev s.method) ?_ fun _ => hbody
      intro s hs a s' ha
      obtain ⟨-, rfl⟩ := Prod.mk.inj ha
      exact hs
  · exact hbody

theorem ASSolver.spread_stages (m : ASSolver ι) :
    spreads (spreads (fun _ => 1) m.rprog.init) m.rprog.stages m.rprog.out = m.reach := by
  rcases m with (L | L | ⟨l, S, T, hS⟩) | ⟨cfg, L | L | ⟨l, S, T, hS⟩⟩ | ⟨cfg, L | L | ⟨l, S, T, hS⟩⟩ | L <;> rfl

theorem ASSolver.aTrial_spread (m : ASSolver ι) {coefs : ℝ → Except PyErr m.Coef} {check : (ι → CFl) → (ι → CFl) → Except PyErr Unit}
    {nl : (ι → CFl) → Except PyErr (ι → CFl)} {h : ℝ} {u : ι → CFl} {r : (ι → CFl) × (ι → CFl)}
    (hr : m.rprog.aTrial ⟨ArrOps.floats rnd load, coefs⟩ check nl h u = .ok r) {i : ι} (hi : ¬ (u i).IsFinite) :
    Spread i m.reach r.1 := by
  unfold RASProg.aTrial RASProg.aload at hr
  cases hc : coefs h with
  | error e => simp [hc, Except.bind] at hr
  | ok c =>
    cases hx : avals (ArrOps.floats rnd load) () 0 nl m.rprog.init (fun _ => u) with
    | error e => simp [hc, hx, Except.bind] at hr
    | ok x =>
      cases hy : avals (ArrOps.floats rnd load) c h nl m.rprog.stages x with
      | error e => simp [hc, hx, hy, Except.bind] at hr
      | ok y =>
        cases hk : check (y m.rprog.out) (y Attr.err) with
        | error e => simp [hc, hx, hy, hk, Except.bind, Except.map] at hr
        | ok _ =>
          simp only [hc, hx, hy, hk, Except.bind, Except.map, Except.ok.injEq] at hr
          subst hr
          rw [← m.spread_stages]
          exact spreads_ok _ (spreads_ok (lev := fun _ => 1) _ (fun _ => hi) hx) hy _

end Verif
