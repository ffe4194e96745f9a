import Verif.Lemmas.ArraysRun
import Verif.Lemmas.RoundedOk

/-!
# The one-step maps of solvers on arrays of any kind

As in `Verif.Lemmas.RoundedLaw`.
-/

set_option linter.unusedSectionVars false

namespace Verif

open Attr

variable {ι A Coef : Type}

/-! ### Constant steps -/

namespace RCSProg

/-- One step. -/
noncomputable def aStep (P : RCSProg Coef ι) (F : AEnv Coef ι A) (nl : A → Except PyErr A) (h : ℝ) (u : A) : Except PyErr A :=
  (F.coefs h).bind fun c => (nl u).bind fun n =>
    (avals F.ops c h nl P.stages (Function.update (fun _ => u) NL1 n)).map fun y => y k

theorem alast_stage {P : RCSProg Coef ι} (hP : P.Ok) (O : ArrOps ι A) (c : Coef) (h : ℝ) (nl : A → Except PyErr A) {x y : Attr → A}
    (hy : avals O c h nl P.stages x = .ok y) : nl (y k) = .ok (y NL1) := by
  obtain ⟨pre, hpre⟩ := hP.last
  rw [hpre, avals_append] at hy
  cases hz : avals O c h nl pre x with
  | error e => simp [hz, Except.bind] at hy
  | ok z =>
    simp only [hz, Except.bind, avals] at hy
    cases hn : nl (z k) with
    | error e => simp [hn] at hy
    | ok n =>
      simp only [hn, Except.ok.injEq] at hy
      rw [← hy, Function.update_self, Function.update_of_ne (by decide)]
      exact hn

/-- The state belongs to `u`. -/
def AInv (F : AEnv Coef ι A) (nl : A → Except PyErr A) (s : Wrap (AMethod Coef A)) (u : A) : Prop :=
  AMethod.Cached F.coefs s ∧ (s.n1init = true → nl u = .ok (s.method.vars NL1))

theorem aUpdateStages_spec {P : RCSProg Coef ι} (hP : P.Ok) (F : AEnv Coef ι A) (nl : A → Except PyErr A) (s : Wrap (AMethod Coef A))
    (u : A) (h : ℝ) (hi : AInv F nl s u) : (P.aUpdateStages F nl u h s).1 = P.aStep F nl h u ∧
      ∀ v, P.aStep F nl h u = .ok v → AInv F nl (P.aUpdateStages F nl u h s).2 v := by
  obtain ⟨h1, h2⟩ := hi
  unfold aUpdateStages aStep
  cases hc : F.coefs h with
  | error e =>
    obtain ⟨s', hs'⟩ := AMethod.coeffs_error F.coefs s h1 hc
    rw [PyM.bind_error hs']
    exact ⟨rfl, by simp [Except.bind]⟩
  | ok c =>
    rw [PyM.bind_ok (AMethod.coeffs_ok F.coefs s h1 hc)]
    simp only [Except.bind]
    set x0 := Function.update s.method.vars .u u with hx0
    have hu0 : x0 .u = u := Function.update_self ..
    -- the stages, from values that agree with those of a new object
    have body : ∀ (n : A) (x : Attr → A), nl u = .ok n → x .u = u → x NL1 = n →
        (Wrap.onMethod (P.abody F nl h) ⟨true, some h, ⟨c, x⟩⟩).1 =
          (avals F.ops c h nl P.stages (Function.update (fun _ => u) NL1 n)).map (fun y => y k) ∧
        ∀ v, (avals F.ops c h nl P.stages (Function.update (fun _ => u) NL1 n)).map (fun y => y k) = .ok v →
          AInv F nl (Wrap.onMethod (P.abody F nl h) ⟨true, some h, ⟨c, x⟩⟩).2 v := by
      intro n x hn hx1 hx2
      have hcg := avals_congr F.ops c h nl P.stages [.u, NL1] hP.reads (x := x) (y := Function.update (fun _ => u) NL1 n) (by
        intro a ha
        fin_cases ha
        · rw [hx1, Function.update_of_ne (by decide)]
        · rw [hx2, Function.update_self])
      unfold Wrap.onMethod abody
      simp only [PyM.zoom_apply, PyM.bind_get_apply]
      cases hy : avals F.ops c h nl P.stages x with
      | error e =>
        cases hy' : avals F.ops c h nl P.stages (Function.update (fun _ => u) NL1 n) with
        | ok y' => rw [hy, hy'] at hcg; exact absurd hcg (by simp [AOutEq])
        | error e' =>
          rw [hy, hy'] at hcg
          obtain rfl : e = e' := hcg
          obtain ⟨s', hs'⟩ := AMethod.run_error F.ops h nl c P.stages (⟨c, x⟩ : AMethod Coef A) hy
          rw [PyM.bind_error hs']
          exact ⟨rfl, by simp [Except.map]⟩
      | ok y =>
        cases hy' : avals F.ops c h nl P.stages (Function.update (fun _ => u) NL1 n) with
        | error e' => rw [hy, hy'] at hcg; exact absurd hcg (by simp [AOutEq])
        | ok y' =>
          rw [hy, hy'] at hcg
          have hk : y k = y' k := hcg k (List.mem_append.mpr (.inl hP.out))
          have hs' := AMethod.run_ok F.ops h nl c P.stages (⟨c, x⟩ : AMethod Coef A) hy
          rw [PyM.bind_ok hs']
          refine ⟨congrArg Except.ok hk, fun v hv => ⟨?_, fun _ => ?_⟩⟩
          · rintro h' ⟨⟩; exact hc
          · obtain rfl : y' k = v := by simpa [Except.map] using hv
            have := alast_stage hP F.ops c h nl hy
            rw [hk] at this
            exact this
    cases hn1 : s.n1init with
    | true =>
      have hn := h2 hn1
      have := body (s.method.vars NL1) x0 hn hu0 (Function.update_of_ne (by decide) _ _)
      rw [hn]
      simpa only [Wrap.onMethod, PyM.zoom_apply, PyM.bind_apply, AMethod.arg_apply, PyM.get_apply, hn1, Bool.true_eq_false,
        if_false, PyM.pure_apply] using this
    | false =>
      cases hn : nl u with
      | error e =>
        obtain ⟨s', hs'⟩ := AMethod.run_error F.ops 0 nl () P.init (⟨c, x0⟩ : AMethod Coef A) (e := e) (by
            rw [hP.init]; simp only [avals, hu0, hn])
        simp only [Wrap.onMethod, PyM.zoom_apply, PyM.bind_apply, AMethod.arg_apply, PyM.get_apply, if_true]
        rw [← hx0, hs']
        exact ⟨rfl, by simp⟩
      | ok n =>
        have hs' := AMethod.run_ok F.ops 0 nl () P.init (⟨c, x0⟩ : AMethod Coef A) (y := Function.update x0 NL1 n) (by
            rw [hP.init]; simp only [avals, hu0, hn])
        have := body n (Function.update x0 NL1 n) hn (by rw [Function.update_of_ne (by decide)]; exact hu0)
          (Function.update_self ..)
        simp only [Wrap.onMethod, PyM.zoom_apply, PyM.bind_apply, AMethod.arg_apply, PyM.get_apply, if_true]
        rw [← hx0, hs']
        simpa only [Wrap.onMethod, PyM.zoom_apply, PyM.modify_apply] using this

/-- The class computes its one-step map. -/
noncomputable def alawful {P : RCSProg Coef ι} (hP : P.Ok) (F : AEnv Coef ι A) (nl : A → Except PyErr A) :
    LawfulCS (P.acls F nl) (P.aStep F nl) where
  Inv := AInv F nl
  CoefOk _ := False
  reset_inv s u := ⟨fun h hh => by simp [acls] at hh, fun hh => by simp [acls] at hh⟩
  result s u h hi := (aUpdateStages_spec hP F nl s u h hi).1
  inv_ok s u h v hi hv := (aUpdateStages_spec hP F nl s u h hi).2 v hv
  inv_err s u h e _ hc := hc.elim

end RCSProg

/-! ### Adaptive steps -/

namespace RASProg

/-- The values that `n1_init` leaves. -/
noncomputable def aload (P : RASProg Coef ι) (O : ArrOps ι A) (nl : A → Except PyErr A) (u : A) : Except PyErr (Attr → A) :=
  avals O () 0 nl P.init (fun _ => u)

/-- After an accepted step `accepted` computes what `n1_init` would. -/
def ANext (A : Type) (P : RASProg Coef ι) : Prop :=
  ∀ (O : ArrOps ι A) (c : Coef) (h : ℝ) (nl : A → Except PyErr A) (x y : Attr → A), avals O c h nl P.stages x = .ok y →
    AOutEq (u :: P.live) (avals O () 0 nl P.accepted (Function.update y u (y P.out))) (P.aload O nl (y P.out))

/-- One trial. -/
noncomputable def aTrial (P : RASProg Coef ι) (F : AEnv Coef ι A) (check : A → A → Except PyErr Unit) (nl : A → Except PyErr A)
    (h : ℝ) (u : A) : Except PyErr (A × A) :=
  (F.coefs h).bind fun c => (P.aload F.ops nl u).bind fun x =>
    (avals F.ops c h nl P.stages x).bind fun y => (check (y P.out) (y Attr.err)).map fun _ => (y P.out, y Attr.err)

/-- The state and the flag `_accept` belong to `u`. -/
def AReady (P : RASProg Coef ι) (F : AEnv Coef ι A) (nl : A → Except PyErr A) (s : Wrap (AMethod Coef A)) (a : Bool) (u : A) : Prop :=
  AMethod.Cached F.coefs s ∧ (s.n1init = false → a = false) ∧
  (s.n1init = true → a = false → AOutEq (.u :: P.live) (.ok (Function.update s.method.vars .u u)) (P.aload F.ops nl u)) ∧
  (a = true → AOutEq (.u :: P.live) (avals F.ops () 0 nl P.accepted (Function.update s.method.vars .u u)) (P.aload F.ops nl u))

theorem aUpdateStages_spec {P : RASProg Coef ι} (hP : P.Ok) (hN : P.ANext A) (dp : Bool) (F : AEnv Coef ι A)
    (check : A → A → Except PyErr Unit) (nl : A → Except PyErr A)
    (s : Wrap (AMethod Coef A)) (a : Bool) (u : A) (h : ℝ) (hi : P.AReady F nl s a u) :
    (P.aUpdateStages dp F check nl u h a s).1 = P.aTrial F check nl h u ∧
      ∀ r, P.aTrial F check nl h u = .ok r → P.AReady F nl (P.aUpdateStages dp F check nl u h a s).2 false u ∧
        P.AReady F nl (P.aUpdateStages dp F check nl u h a s).2 true r.1 := by
  obtain ⟨h1, h2, h3, h4⟩ := hi
  unfold aUpdateStages aTrial
  cases hc : F.coefs h with
  | error e =>
    obtain ⟨s', hs'⟩ := AMethod.coeffs_error F.coefs s h1 hc
    rw [PyM.bind_error hs']
    exact ⟨rfl, by simp [Except.bind]⟩
  | ok c =>
    rw [PyM.bind_ok (AMethod.coeffs_ok F.coefs s h1 hc)]
    simp only [Except.bind]
    set x0 := Function.update s.method.vars .u u with hx0
    have hu0 : x0 .u = u := Function.update_self ..
    -- the stages, from values that agree with those after `n1_init`
    have body : ∀ (x z : Attr → A), P.aload F.ops nl u = .ok z → (∀ b ∈ .u :: P.live, x b = z b) →
        (Wrap.onMethod (P.abody F check nl h) ⟨true, some h, ⟨c, x⟩⟩).1 =
          (avals F.ops c h nl P.stages z).bind
            (fun y => (check (y P.out) (y Attr.err)).map fun _ => (y P.out, y Attr.err)) ∧
        ∀ r, (avals F.ops c h nl P.stages z).bind
            (fun y => (check (y P.out) (y Attr.err)).map fun _ => (y P.out, y Attr.err)) = .ok r →
          P.AReady F nl (Wrap.onMethod (P.abody F check nl h) ⟨true, some h, ⟨c, x⟩⟩).2 false u ∧
          P.AReady F nl (Wrap.onMethod (P.abody F check nl h) ⟨true, some h, ⟨c, x⟩⟩).2 true r.1 := by
      intro x z hz hxz
      have hcg := avals_congr F.ops c h nl P.stages (.u :: P.live) hP.reads (x := x) (y := z) hxz
      unfold Wrap.onMethod abody
      simp only [PyM.zoom_apply, PyM.bind_get_apply]
      cases hy : avals F.ops c h nl P.stages x with
      | error e =>
        cases hy' : avals F.ops c h nl P.stages z with
        | ok y' => rw [hy, hy'] at hcg; exact absurd hcg (by simp [AOutEq])
        | error e' =>
          rw [hy, hy'] at hcg
          obtain rfl : e = e' := hcg
          obtain ⟨s', hs'⟩ := AMethod.run_error F.ops h nl c P.stages (⟨c, x⟩ : AMethod Coef A) hy
          rw [PyM.bind_error hs']
          exact ⟨rfl, by simp [Except.bind]⟩
      | ok y =>
        cases hy' : avals F.ops c h nl P.stages z with
        | error e' => rw [hy, hy'] at hcg; exact absurd hcg (by simp [AOutEq])
        | ok y' =>
          rw [hy, hy'] at hcg
          have hk : y P.out = y' P.out := hcg _ (List.mem_append.mpr (.inl hP.out))
          have he : y Attr.err = y' Attr.err := hcg _ (List.mem_append.mpr (.inl hP.err))
          have hs' := AMethod.run_ok F.ops h nl c P.stages (⟨c, x⟩ : AMethod Coef A) hy
          rw [PyM.bind_ok hs', PyM.bind_get_apply]
          simp only [Except.bind, ← hk, ← he]
          cases hch : check (y P.out) (y Attr.err) with
          | error e => exact ⟨rfl, by simp [Except.map]⟩
          | ok w =>
          have hfr : ∀ b ∈ .u :: P.live, y b = z b := fun b hb =>
            (avals_frame F.ops c h nl P.stages (hP.live b hb) hy).trans (hxz b hb)
          have hcc : AMethod.Cached F.coefs (⟨true, some h, ⟨c, y⟩⟩ : Wrap (AMethod Coef A)) := by
            rintro h' ⟨⟩; exact hc
          refine ⟨rfl, fun r hr => ⟨⟨hcc, by simp, fun _ _ => ?_, by simp⟩, hcc, by simp, by simp, fun _ => ?_⟩⟩
          · rw [hz]
            intro b hb
            by_cases hbu : b = .u
            · subst hbu
              rw [Function.update_self]
              have := avals_frame F.ops () 0 nl P.init hP.init_u hz
              rw [this]
            · exact (Function.update_of_ne hbu _ _).trans (hfr b hb)
          · obtain rfl : (y P.out, y Attr.err) = r := by simpa [Except.map] using hr
            exact hN F.ops c h nl x y hy
    have outcome : ∀ (r : Except PyErr (Attr → A)), AOutEq (.u :: P.live) r (P.aload F.ops nl u) →
        (∃ e, r = .error e ∧ P.aload F.ops nl u = .error e) ∨
        ∃ x z, r = .ok x ∧ P.aload F.ops nl u = .ok z ∧ ∀ b ∈ .u :: P.live, x b = z b := by
      intro r hr
      cases hl : P.aload F.ops nl u with
      | error e =>
        rw [hl] at hr
        cases r with
        | error e' => exact .inl ⟨e, congrArg _ hr, rfl⟩
        | ok x => exact absurd hr (by simp [AOutEq])
      | ok z =>
        rw [hl] at hr
        cases r with
        | error e' => exact absurd hr (by simp [AOutEq])
        | ok x => exact .inr ⟨x, z, rfl, rfl, hr⟩
    cases hn1 : s.n1init with
    | false =>
      obtain rfl := h2 hn1
      have hcg := avals_congr F.ops () 0 nl P.init [.u] hP.init (x := x0) (y := fun _ => u) (by
        intro b hb
        obtain rfl : b = .u := by simpa using hb
        rw [hu0])
      rcases outcome _ (hcg.mono fun b hb => by
        rcases List.mem_cons.mp hb with rfl | hb
        · simp
        · exact List.mem_append.mpr (.inl (hP.init_live b hb))) with ⟨e, e1, e2⟩ | ⟨x, z, e1, e2, e3⟩
      · obtain ⟨s', hs'⟩ := AMethod.run_error F.ops 0 nl () P.init (⟨c, x0⟩ : AMethod Coef A) e1
        rw [e2]
        simp only [Wrap.onMethod, PyM.zoom_apply, PyM.bind_apply, AMethod.arg_apply, PyM.get_apply, if_true]
        rw [← hx0, hs']
        exact ⟨rfl, by simp⟩
      · have hs' := AMethod.run_ok F.ops 0 nl () P.init (⟨c, x0⟩ : AMethod Coef A) e1
        have := body x z e2 e3
        rw [e2]
        simp only [Wrap.onMethod, PyM.zoom_apply, PyM.bind_apply, AMethod.arg_apply, PyM.get_apply, if_true]
        rw [← hx0, hs']
        simpa only [Except.bind, Wrap.onMethod, PyM.zoom_apply, PyM.modify_apply, Bool.false_eq_true, false_and, if_false,
          PyM.pure_apply] using this
    | true =>
      cases a with
      | false =>
        rcases outcome _ (h3 hn1 rfl) with ⟨e, e1, -⟩ | ⟨x, z, e1, e2, e3⟩
        · simp at e1
        · obtain rfl : x0 = x := by simpa using e1
          have := body x0 z e2 e3
          rw [e2]
          simpa only [Except.bind, Wrap.onMethod, PyM.zoom_apply, PyM.bind_apply, AMethod.arg_apply, PyM.get_apply, hn1, Bool.true_eq_false,
            if_false, Bool.false_eq_true, false_and, PyM.pure_apply] using this
      | true =>
        rcases outcome _ (h4 rfl) with ⟨e, e1, e2⟩ | ⟨x, z, e1, e2, e3⟩
        · obtain ⟨s', hs'⟩ := AMethod.run_error F.ops 0 nl () P.accepted (⟨c, x0⟩ : AMethod Coef A) e1
          rw [e2]
          simp only [Wrap.onMethod, PyM.zoom_apply, PyM.bind_apply, AMethod.arg_apply, PyM.get_apply, Bool.true_eq_false,
            if_false, if_true, and_false, not_false_eq_true, and_true, PyM.pure_apply]
          rw [← hx0, hs']
          exact ⟨rfl, by simp⟩
        · have hs' := AMethod.run_ok F.ops 0 nl () P.accepted (⟨c, x0⟩ : AMethod Coef A) e1
          have := body x z e2 e3
          rw [e2]
          simp only [Wrap.onMethod, PyM.zoom_apply, PyM.bind_apply, AMethod.arg_apply, PyM.get_apply, Bool.true_eq_false,
            if_false, if_true, and_false, not_false_eq_true, and_true, PyM.pure_apply]
          rw [← hx0, hs']
          simpa only [Except.bind, Wrap.onMethod, PyM.zoom_apply, PyM.modify_apply] using this

/-- The class computes its trial map. -/
noncomputable def alawful {P : RASProg Coef ι} (hP : P.Ok) (hN : P.ANext A) (dp : Bool) (F : AEnv Coef ι A)
    (check : A → A → Except PyErr Unit) (fac : SolverConfig ℝ → A → A → Ext ℝ) (nl : A → Except PyErr A) :
    LawfulAS (P.acls dp F check fac nl) (P.aTrial F check nl) where
  Ready := P.AReady F nl
  CoefOk _ := False
  reset_ready s u := ⟨fun h hh => by simp [acls] at hh, fun _ => rfl, fun hh => by simp [acls] at hh, by simp⟩
  result s a u h hi := (aUpdateStages_spec hP hN dp F check nl s a u h hi).1
  ready_ok s a u h r hi hr := (aUpdateStages_spec hP hN dp F check nl s a u h hi).2 r hr
  ready_err s a u h e _ hc := hc.elim

end RASProg

end Verif
