import Verif.Lemmas.RoundedRun

/-!
# The one-step maps of solvers with inexact arithmetic
-/

set_option linter.unusedSectionVars false

namespace Verif

open Attr

variable {ι Coef : Type}

/-- The attribute values with only the argument set. -/
def argOnly (u : Vec ι) : Attr → Vec ι := Function.update 0 .u u

/-! ### Constant steps -/

namespace RCSProg

/-- The form of a constant-step program: `n1_init` is `_NL1 = nl_func(u)`, the stages read `u` and `_NL1`, and end with
`_NL1 = nl_func(_k)`. -/
structure Ok (P : RCSProg Coef ι) : Prop where
  init : P.init = [.call NL1 u]
  reads : ReadsOnly [u, NL1] P.stages
  out : k ∈ P.stages.map RInstr.target
  last : ∃ pre, P.stages = pre ++ [.call NL1 k]

/-- One step. -/
noncomputable def oneStep (P : RCSProg Coef ι) (F : FPEnv Coef ι) (nl : NlFunc ι) (h : ℝ) (u : Vec ι) : Except PyErr (Vec ι) :=
  (F.coefs h).bind fun c => (nl u).bind fun n =>
    (vals nl (P.stages.map (RInstr.inst F.ar c h)) (Function.update (argOnly u) NL1 n)).map fun y => y k

theorem last_stage {P : RCSProg Coef ι} (hP : P.Ok) (ar : Arith ι) (c : Coef) (h : ℝ) (nl : NlFunc ι) {x y : Attr → Vec ι}
    (hy : vals nl (P.stages.map (RInstr.inst ar c h)) x = .ok y) : nl (y k) = .ok (y NL1) := by
  obtain ⟨pre, hpre⟩ := hP.last
  rw [hpre, List.map_append, vals_append] at hy
  cases hz : vals nl (pre.map (RInstr.inst ar c h)) x with
  | error e => simp [hz, Except.bind] at hy
  | ok z =>
    simp only [hz, Except.bind, List.map_cons, List.map_nil, RInstr.inst, vals] at hy
    cases hn : nl (z k) with
    | error e => simp [hn] at hy
    | ok n =>
      simp only [hn, Except.ok.injEq] at hy
      rw [← hy, Function.update_self, Function.update_of_ne (by decide)]
      exact hn

/-- The state belongs to `u`. -/
def Inv (F : FPEnv Coef ι) (nl : NlFunc ι) (s : Wrap (RMethod Coef ι)) (u : Vec ι) : Prop :=
  RMethod.Cached F s ∧ (s.n1init = true → nl u = .ok (s.method.vars.val NL1))

theorem updateStages_spec {P : RCSProg Coef ι} (hP : P.Ok) (F : FPEnv Coef ι) (nl : NlFunc ι) (s : Wrap (RMethod Coef ι)) (u : Vec ι)
    (h : ℝ) (hi : Inv F nl s u) : (P.updateStages F nl u h s).1 = P.oneStep F nl h u ∧
      ∀ v, P.oneStep F nl h u = .ok v → Inv F nl (P.updateStages F nl u h s).2 v := by
  obtain ⟨h1, h2⟩ := hi
  unfold updateStages oneStep
  cases hc : F.coefs h with
  | error e =>
    obtain ⟨s', hs'⟩ := RMethod.coeffs_error F s h1 hc
    rw [PyM.bind_error hs']
    exact ⟨rfl, by simp [Except.bind]⟩
  | ok c =>
    rw [PyM.bind_ok (RMethod.coeffs_ok F s h1 hc)]
    simp only [Except.bind]
    set x0 := Function.update s.method.vars.val .u u with hx0
    have hu0 : x0 .u = u := Function.update_self ..
    -- the stages, from values that agree with those of a new object
    have body : ∀ (n : Vec ι) (x : Attr → Vec ι) (ev : ℕ), nl u = .ok n → x .u = u → x NL1 = n →
        (Wrap.onMethod (P.body F nl h) ⟨true, some h, ⟨c, ⟨x, ev⟩⟩⟩).1 =
          (vals nl (P.stages.map (RInstr.inst F.ar c h)) (Function.update (argOnly u) NL1 n)).map (fun y => y k) ∧
        ∀ v, (vals nl (P.stages.map (RInstr.inst F.ar c h)) (Function.update (argOnly u) NL1 n)).map (fun y => y k) = .ok v →
          Inv F nl (Wrap.onMethod (P.body F nl h) ⟨true, some h, ⟨c, ⟨x, ev⟩⟩⟩).2 v := by
      intro n x ev hn hx1 hx2
      have hcg := vals_congr F.ar c h nl P.stages [.u, NL1] hP.reads (x := x) (y := Function.update (argOnly u) NL1 n) (by
        intro a ha
        fin_cases ha
        · rw [hx1, Function.update_of_ne (by decide)]; simp [argOnly]
        · rw [hx2, Function.update_self])
      unfold Wrap.onMethod body
      simp only [PyM.zoom_apply, PyM.bind_get_apply]
      cases hy : vals nl (P.stages.map (RInstr.inst F.ar c h)) x with
      | error e =>
        cases hy' : vals nl (P.stages.map (RInstr.inst F.ar c h)) (Function.update (argOnly u) NL1 n) with
        | ok y' => rw [hy, hy'] at hcg; exact absurd hcg (by simp [OutEq])
        | error e' =>
          rw [hy, hy'] at hcg
          obtain rfl : e = e' := hcg
          obtain ⟨s', hs'⟩ := RMethod.run_error nl (P.stages.map (RInstr.inst F.ar c h)) (⟨c, ⟨x, ev⟩⟩ : RMethod Coef ι) hy
          rw [PyM.bind_error hs']
          exact ⟨rfl, by simp [Except.map]⟩
      | ok y =>
        cases hy' : vals nl (P.stages.map (RInstr.inst F.ar c h)) (Function.update (argOnly u) NL1 n) with
        | error e' => rw [hy, hy'] at hcg; exact absurd hcg (by simp [OutEq])
        | ok y' =>
          rw [hy, hy'] at hcg
          have hk : y k = y' k := hcg k (List.mem_append.mpr (.inl hP.out))
          obtain ⟨ev', hs'⟩ := RMethod.run_ok nl (P.stages.map (RInstr.inst F.ar c h)) (⟨c, ⟨x, ev⟩⟩ : RMethod Coef ι) hy
          rw [PyM.bind_ok hs']
          refine ⟨congrArg Except.ok hk, fun v hv => ⟨?_, fun _ => ?_⟩⟩
          · rintro h' ⟨⟩; exact hc
          · obtain rfl : y' k = v := by simpa [Except.map] using hv
            have := last_stage hP F.ar c h nl hy
            rw [hk] at this
            exact this
    cases hn1 : s.n1init with
    | true =>
      have hn := h2 hn1
      have := body (s.method.vars.val NL1) x0 s.method.vars.evals hn hu0 (Function.update_of_ne (by decide) _ _)
      rw [hn]
      simpa only [Wrap.onMethod, PyM.zoom_apply, PyM.bind_apply, RMethod.arg_apply, PyM.get_apply, hn1, Bool.true_eq_false,
        if_false, PyM.pure_apply] using this
    | false =>
      cases hn : nl u with
      | error e =>
        obtain ⟨s', hs'⟩ := RMethod.run_error nl (P.init.map (RInstr.inst F.ar () 0))
          (⟨c, ⟨x0, s.method.vars.evals⟩⟩ : RMethod Coef ι) (e := e) (by
            rw [hP.init]; simp only [List.map_cons, List.map_nil, RInstr.inst, vals, hu0, hn])
        simp only [Wrap.onMethod, PyM.zoom_apply, PyM.bind_apply, RMethod.arg_apply, PyM.get_apply, if_true]
        rw [← hx0, hs']
        exact ⟨rfl, by simp⟩
      | ok n =>
        obtain ⟨ev, hs'⟩ := RMethod.run_ok nl (P.init.map (RInstr.inst F.ar () 0))
          (⟨c, ⟨x0, s.method.vars.evals⟩⟩ : RMethod Coef ι) (y := Function.update x0 NL1 n) (by
            rw [hP.init]; simp only [List.map_cons, List.map_nil, RInstr.inst, vals, hu0, hn])
        have := body n (Function.update x0 NL1 n) ev hn (by rw [Function.update_of_ne (by decide)]; exact hu0)
          (Function.update_self ..)
        simp only [Wrap.onMethod, PyM.zoom_apply, PyM.bind_apply, RMethod.arg_apply, PyM.get_apply, if_true]
        rw [← hx0, hs']
        simpa only [Wrap.onMethod, PyM.zoom_apply, PyM.modify_apply] using this

/-- The class computes its one-step map. -/
noncomputable def lawful {P : RCSProg Coef ι} (hP : P.Ok) (F : FPEnv Coef ι) (nl : NlFunc ι) :
    LawfulCS (P.cls F nl) (P.oneStep F nl) where
  Inv := Inv F nl
  CoefOk _ := False
  reset_inv s u := ⟨fun h hh => by simp [cls] at hh, fun hh => by simp [cls] at hh⟩
  result s u h hi := (updateStages_spec hP F nl s u h hi).1
  inv_ok s u h v hi hv := (updateStages_spec hP F nl s u h hi).2 v hv
  inv_err s u h e _ hc := hc.elim

end RCSProg

/-! ### Adaptive steps -/

namespace RASProg

/-- The values that `n1_init` leaves. -/
noncomputable def load (P : RASProg Coef ι) (ar : Arith ι) (nl : NlFunc ι) (u : Vec ι) : Except PyErr (Attr → Vec ι) :=
  vals nl (P.init.map (RInstr.inst ar () 0)) (argOnly u)

/-- The form of an adaptive program: `n1_init` assigns `live`, which is all that the stages read apart from `u`; they leave
it unchanged, and after an accepted step `accepted` computes it as `n1_init` would. -/
structure Ok (P : RASProg Coef ι) : Prop where
  init : ReadsOnly [u] P.init
  init_live : ∀ a ∈ P.live, a ∈ P.init.map RInstr.target
  init_u : u ∉ P.init.map RInstr.target
  reads : ReadsOnly (u :: P.live) P.stages
  live : ∀ a ∈ u :: P.live, a ∉ P.stages.map RInstr.target
  out : P.out ∈ P.stages.map RInstr.target
  err : err ∈ P.stages.map RInstr.target
  next : ∀ (ar : Arith ι) (c : Coef) (h : ℝ) (nl : NlFunc ι) (x y : Attr → Vec ι),
    vals nl (P.stages.map (RInstr.inst ar c h)) x = .ok y →
    OutEq (u :: P.live) (vals nl (P.accepted.map (RInstr.inst ar () 0)) (Function.update y u (y P.out))) (P.load ar nl (y P.out))

/-- One trial. -/
noncomputable def oneTrial (P : RASProg Coef ι) (F : FPEnv Coef ι) (nl : NlFunc ι) (h : ℝ) (u : Vec ι) :
    Except PyErr (Vec ι × Vec ι) :=
  (F.coefs h).bind fun c => (P.load F.ar nl u).bind fun x =>
    (vals nl (P.stages.map (RInstr.inst F.ar c h)) x).map fun y => (y P.out, y Attr.err)

/-- The state and the flag `_accept` belong to `u`. -/
def Ready (P : RASProg Coef ι) (F : FPEnv Coef ι) (nl : NlFunc ι) (s : Wrap (RMethod Coef ι)) (a : Bool) (u : Vec ι) : Prop :=
  RMethod.Cached F s ∧ (s.n1init = false → a = false) ∧
  (s.n1init = true → a = false → OutEq (.u :: P.live) (.ok (Function.update s.method.vars.val .u u)) (P.load F.ar nl u)) ∧
  (a = true → OutEq (.u :: P.live)
    (vals nl (P.accepted.map (RInstr.inst F.ar () 0)) (Function.update s.method.vars.val .u u)) (P.load F.ar nl u))

theorem updateStages_spec {P : RASProg Coef ι} (hP : P.Ok) (dp : Bool) (F : FPEnv Coef ι) (nl : NlFunc ι)
    (s : Wrap (RMethod Coef ι)) (a : Bool) (u : Vec ι) (h : ℝ) (hi : P.Ready F nl s a u) :
    (P.updateStages dp F nl u h a s).1 = P.oneTrial F nl h u ∧
      ∀ r, P.oneTrial F nl h u = .ok r → P.Ready F nl (P.updateStages dp F nl u h a s).2 false u ∧
        P.Ready F nl (P.updateStages dp F nl u h a s).2 true r.1 := by
  obtain ⟨h1, h2, h3, h4⟩ := hi
  unfold updateStages oneTrial
  cases hc : F.coefs h with
  | error e =>
    obtain ⟨s', hs'⟩ := RMethod.coeffs_error F s h1 hc
    rw [PyM.bind_error hs']
    exact ⟨rfl, by simp [Except.bind]⟩
  | ok c =>
    rw [PyM.bind_ok (RMethod.coeffs_ok F s h1 hc)]
    simp only [Except.bind]
    set x0 := Function.update s.method.vars.val .u u with hx0
    have hu0 : x0 .u = u := Function.update_self ..
    -- the stages, from values that agree with those after `n1_init`
    have body : ∀ (x z : Attr → Vec ι) (ev : ℕ), P.load F.ar nl u = .ok z → (∀ b ∈ .u :: P.live, x b = z b) →
        (Wrap.onMethod (P.body F nl h) ⟨true, some h, ⟨c, ⟨x, ev⟩⟩⟩).1 =
          (vals nl (P.stages.map (RInstr.inst F.ar c h)) z).map (fun y => (y P.out, y Attr.err)) ∧
        ∀ r, (vals nl (P.stages.map (RInstr.inst F.ar c h)) z).map (fun y => (y P.out, y Attr.err)) = .ok r →
          P.Ready F nl (Wrap.onMethod (P.body F nl h) ⟨true, some h, ⟨c, ⟨x, ev⟩⟩⟩).2 false u ∧
          P.Ready F nl (Wrap.onMethod (P.body F nl h) ⟨true, some h, ⟨c, ⟨x, ev⟩⟩⟩).2 true r.1 := by
      intro x z ev hz hxz
      have hcg := vals_congr F.ar c h nl P.stages (.u :: P.live) hP.reads (x := x) (y := z) hxz
      unfold Wrap.onMethod body
      simp only [PyM.zoom_apply, PyM.bind_get_apply]
      cases hy : vals nl (P.stages.map (RInstr.inst F.ar c h)) x with
      | error e =>
        cases hy' : vals nl (P.stages.map (RInstr.inst F.ar c h)) z with
        | ok y' => rw [hy, hy'] at hcg; exact absurd hcg (by simp [OutEq])
        | error e' =>
          rw [hy, hy'] at hcg
          obtain rfl : e = e' := hcg
          obtain ⟨s', hs'⟩ := RMethod.run_error nl (P.stages.map (RInstr.inst F.ar c h)) (⟨c, ⟨x, ev⟩⟩ : RMethod Coef ι) hy
          rw [PyM.bind_error hs']
          exact ⟨rfl, by simp [Except.map]⟩
      | ok y =>
        cases hy' : vals nl (P.stages.map (RInstr.inst F.ar c h)) z with
        | error e' => rw [hy, hy'] at hcg; exact absurd hcg (by simp [OutEq])
        | ok y' =>
          rw [hy, hy'] at hcg
          have hk : y P.out = y' P.out := hcg _ (List.mem_append.mpr (.inl hP.out))
          have he : y Attr.err = y' Attr.err := hcg _ (List.mem_append.mpr (.inl hP.err))
          obtain ⟨ev', hs'⟩ := RMethod.run_ok nl (P.stages.map (RInstr.inst F.ar c h)) (⟨c, ⟨x, ev⟩⟩ : RMethod Coef ι) hy
          rw [PyM.bind_ok hs']
          have hfr : ∀ b ∈ .u :: P.live, y b = z b := fun b hb =>
            (vals_frame F.ar c h nl P.stages (hP.live b hb) hy).trans (hxz b hb)
          have hcc : RMethod.Cached F (⟨true, some h, ⟨c, ⟨y, ev'⟩⟩⟩ : Wrap (RMethod Coef ι)) := by
            rintro h' ⟨⟩; exact hc
          refine ⟨by simp [Except.map, hk, he], fun r hr => ⟨⟨hcc, by simp, fun _ _ => ?_, by simp⟩,
            hcc, by simp, by simp, fun _ => ?_⟩⟩
          · rw [hz]
            intro b hb
            by_cases hbu : b = .u
            · subst hbu
              rw [Function.update_self]
              have := vals_frame F.ar () 0 nl P.init hP.init_u hz
              rw [this]; simp [argOnly]
            · exact (Function.update_of_ne hbu _ _).trans (hfr b hb)
          · obtain rfl : (y' P.out, y' Attr.err) = r := by simpa [Except.map] using hr
            have := hP.next F.ar c h nl x y hy
            rw [hk] at this
            exact this
    have outcome : ∀ (r : Except PyErr (Attr → Vec ι)), OutEq (.u :: P.live) r (P.load F.ar nl u) →
        (∃ e, r = .error e ∧ P.load F.ar nl u = .error e) ∨
        ∃ x z, r = .ok x ∧ P.load F.ar nl u = .ok z ∧ ∀ b ∈ .u :: P.live, x b = z b := by
      intro r hr
      cases hl : P.load F.ar nl u with
      | error e =>
        rw [hl] at hr
        cases r with
        | error e' => exact .inl ⟨e, congrArg _ hr, rfl⟩
        | ok x => exact absurd hr (by simp [OutEq])
      | ok z =>
        rw [hl] at hr
        cases r with
        | error e' => exact absurd hr (by simp [OutEq])
        | ok x => exact .inr ⟨x, z, rfl, rfl, hr⟩
    cases hn1 : s.n1init with
    | false =>
      obtain rfl := h2 hn1
      have hcg := vals_congr F.ar () 0 nl P.init [.u] hP.init (x := x0) (y := argOnly u) (by
        intro b hb
        obtain rfl : b = .u := by simpa using hb
        rw [hu0]; simp [argOnly])
      rcases outcome _ (hcg.mono fun b hb => by
        rcases List.mem_cons.mp hb with rfl | hb
        · simp
        · exact List.mem_append.mpr (.inl (hP.init_live b hb))) with ⟨e, e1, e2⟩ | ⟨x, z, e1, e2, e3⟩
      · obtain ⟨s', hs'⟩ := RMethod.run_error nl (P.init.map (RInstr.inst F.ar () 0))
          (⟨c, ⟨x0, s.method.vars.evals⟩⟩ : RMethod Coef ι) e1
        rw [e2]
        simp only [Wrap.onMethod, PyM.zoom_apply, PyM.bind_apply, RMethod.arg_apply, PyM.get_apply, if_true]
        rw [← hx0, hs']
        exact ⟨rfl, by simp⟩
      · obtain ⟨ev, hs'⟩ := RMethod.run_ok nl (P.init.map (RInstr.inst F.ar () 0))
          (⟨c, ⟨x0, s.method.vars.evals⟩⟩ : RMethod Coef ι) e1
        have := body x z ev e2 e3
        rw [e2]
        simp only [Wrap.onMethod, PyM.zoom_apply, PyM.bind_apply, RMethod.arg_apply, PyM.get_apply, if_true]
        rw [← hx0, hs']
        simpa only [Wrap.onMethod, PyM.zoom_apply, PyM.modify_apply, Bool.false_eq_true, false_and, if_false,
          PyM.pure_apply] using this
    | true =>
      cases a with
      | false =>
        rcases outcome _ (h3 hn1 rfl) with ⟨e, e1, -⟩ | ⟨x, z, e1, e2, e3⟩
        · simp at e1
        · obtain rfl : x0 = x := by simpa using e1
          have := body x0 z s.method.vars.evals e2 e3
          rw [e2]
          simpa only [Wrap.onMethod, PyM.zoom_apply, PyM.bind_apply, RMethod.arg_apply, PyM.get_apply, hn1, Bool.true_eq_false,
            if_false, Bool.false_eq_true, false_and, PyM.pure_apply] using this
      | true =>
        rcases outcome _ (h4 rfl) with ⟨e, e1, e2⟩ | ⟨x, z, e1, e2, e3⟩
        · obtain ⟨s', hs'⟩ := RMethod.run_error nl (P.accepted.map (RInstr.inst F.ar () 0))
            (⟨c, ⟨x0, s.method.vars.evals⟩⟩ : RMethod Coef ι) e1
          rw [e2]
          simp only [Wrap.onMethod, PyM.zoom_apply, PyM.bind_apply, RMethod.arg_apply, PyM.get_apply, Bool.true_eq_false,
            if_false, if_true, and_false, not_false_eq_true, and_true, PyM.pure_apply]
          rw [← hx0, hs']
          exact ⟨rfl, by simp⟩
        · obtain ⟨ev, hs'⟩ := RMethod.run_ok nl (P.accepted.map (RInstr.inst F.ar () 0))
            (⟨c, ⟨x0, s.method.vars.evals⟩⟩ : RMethod Coef ι) e1
          have := body x z ev e2 e3
          rw [e2]
          simp only [Wrap.onMethod, PyM.zoom_apply, PyM.bind_apply, RMethod.arg_apply, PyM.get_apply, Bool.true_eq_false,
            if_false, if_true, and_false, not_false_eq_true, and_true, PyM.pure_apply]
          rw [← hx0, hs']
          simpa only [Wrap.onMethod, PyM.zoom_apply, PyM.modify_apply] using this

/-- The class computes its trial map. -/
noncomputable def lawful {P : RASProg Coef ι} (hP : P.Ok) (dp : Bool) (F : FPEnv Coef ι)
    (fac : SolverConfig ℝ → Vec ι → Vec ι → Ext ℝ) (nl : NlFunc ι) : LawfulAS (P.cls dp F fac nl) (P.oneTrial F nl) where
  Ready := P.Ready F nl
  CoefOk _ := False
  reset_ready s u := ⟨fun h hh => by simp [cls] at hh, fun _ => rfl, fun hh => by simp [cls] at hh, by simp⟩
  result s a u h hi := (updateStages_spec hP dp F nl s a u h hi).1
  ready_ok s a u h r hi hr := (updateStages_spec hP dp F nl s a u h hi).2 r hr
  ready_err s a u h e _ hc := hc.elim

end RASProg

end Verif
