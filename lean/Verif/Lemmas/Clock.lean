import Verif.Spec.Clock
import Verif.Lemmas.RelLoop
import Verif.Lemmas.OneStep

/-!
# Steps and loops under a change of the clock
-/

set_option linter.unusedSectionVars false

namespace Verif

open Matrix

variable {ι : Type} [Fintype ι] [DecidableEq ι]

/-- `M'` is `M` with the weights of the nonlinear values multiplied by `a`. -/
structure ERK.Stretched (a : ℂ) (M M' : ERK ι) : Prop where
  s : M'.s = M.s
  E : ∀ i, M'.E i = M.E i
  A : ∀ i j, M'.A i j = a • M.A i j
  Eout : M'.Eout = M.Eout
  B : ∀ j, M'.B j = a • M.B j
  R : ∀ j, M'.R j = a • M.R j

namespace ERK.Stretched

variable {a : ℂ} {c : ℝ} {M M' : ERK ι}

theorem stages (h : Stretched a M M') (ha : a * c = 1) {nl nl' : NlFunc ι}
    (hnl : ∀ w, nl' w = (nl w).map fun n => (c : ℂ) • n) (u : Vec ι) (k : ℕ) :
    M'.stages nl' u k = (M.stages nl u k).map fun N j => (c : ℂ) • N j := by
  induction k with
  | zero =>
    simp only [ERK.stages, Except.map]
    congr 1
    funext j; simp
  | succ k ih =>
    simp only [ERK.stages, ih]
    cases hN : M.stages nl u k with
    | error e => rfl
    | ok N =>
      have harg : M'.arg u (fun j => (c : ℂ) • N j) k = M.arg u N k := by
        unfold ERK.arg
        rw [h.E]
        congr 1
        refine Finset.sum_congr rfl fun j _ => ?_
        rw [h.A, smul_mulVec, mulVec_smul, smul_smul, ha, one_smul]
      simp only [Except.map, harg, hnl]
      cases hn : nl (M.arg u N k) with
      | error e => rfl
      | ok n =>
        simp only [Except.map]
        congr 1
        funext j
        by_cases hj : j = k
        · subst hj; simp
        · simp [hj]

theorem step (h : Stretched a M M') (ha : a * c = 1) {nl nl' : NlFunc ι}
    (hnl : ∀ w, nl' w = (nl w).map fun n => (c : ℂ) • n) (u : Vec ι) : M'.step nl' u = M.step nl u := by
  unfold ERK.step
  rw [h.s, h.stages ha hnl u]
  cases hN : M.stages nl u M.s with
  | error e => rfl
  | ok N =>
    simp only [Except.map]
    congr 2
    · unfold ERK.out
      rw [h.Eout, h.s]
      congr 1
      refine Finset.sum_congr rfl fun j _ => ?_
      rw [h.B, smul_mulVec, mulVec_smul, smul_smul, ha, one_smul]
    · unfold ERK.err
      rw [h.s]
      refine Finset.sum_congr rfl fun j _ => ?_
      rw [h.R, smul_mulVec, mulVec_smul, smul_smul, ha, one_smul]

end ERK.Stretched

section

variable {a c : ℝ} (ha : a * c = 1)
include ha

theorem expm_scale (L : Mat ι) (θ θ' : ℝ) (hθ : θ' = a * θ) : expm ((c : ℂ) • L) θ' = expm L θ := by
  unfold expm
  rw [smul_smul, hθ]
  congr 2
  have : ((a : ℂ) * c) = 1 := by exact_mod_cast ha
  push_cast
  linear_combination (θ : ℂ) * this

theorem LinOp.mat_scale (L : LinOp ι) : (L.scale c).mat = (c : ℂ) • L.mat := by
  cases L with
  | diag L => simp [LinOp.scale, LinOp.mat]
  | full L => rfl

theorem LinOp.phi_scale (cfg : ETDConfig ℝ) (L : LinOp ι) (h : ℝ) : (L.scale c).phi cfg (a * h) = L.phi cfg h := by
  have hc : ((a : ℂ) * c) = 1 := by exact_mod_cast ha
  funext k x
  cases L with
  | diag L =>
    simp only [LinOp.scale, LinOp.phi, phiDiag]
    congr 1
    funext i
    congr 1
    simp only [Pi.smul_apply, smul_eq_mul]
    push_cast
    linear_combination (h : ℂ) * L i * hc
  | full L =>
    simp only [LinOp.scale, LinOp.phi, phiFull]
    refine Finset.sum_congr rfl fun m _ => ?_
    rw [smul_smul]
    congr 4
    push_cast
    linear_combination (x : ℂ) * h * hc

theorem LinOp.coefOk_scale (cfg : ETDConfig ℝ) (cs : List ℝ) (L : LinOp ι) (h : ℝ) :
    (L.scale c).CoefOk cfg cs (a * h) ↔ L.CoefOk cfg cs h := by
  have hc : ((a : ℂ) * c) = 1 := by exact_mod_cast ha
  cases L with
  | diag L => exact Iff.rfl
  | full L =>
    simp only [LinOp.scale, LinOp.CoefOk, ContourOk]
    have : ∀ x : ℝ, ((x * (a * h) : ℝ) : ℂ) • (c : ℂ) • L = ((x * h : ℝ) : ℂ) • L := by
      intro x
      rw [smul_smul]
      congr 1
      push_cast
      linear_combination (x : ℂ) * h * hc
    simp only [this]

theorem lawson_stretched (T : Tableau) (L : Mat ι) (h : ℝ) :
    ERK.Stretched (a : ℂ) (lawson T L h) (lawson T ((c : ℂ) • L) (a * h)) where
  s := rfl
  E i := expm_scale ha L _ _ (by ring)
  A i j := by
    show _ • expm ((c : ℂ) • L) _ = (a : ℂ) • _ • expm L _
    rw [expm_scale ha L ((T.c i - T.c j) * h) _ (by ring), smul_smul]
    congr 1
    push_cast; ring
  Eout := expm_scale ha L _ _ rfl
  B j := by
    show _ • expm ((c : ℂ) • L) _ = (a : ℂ) • _ • expm L _
    rw [expm_scale ha L ((1 - T.c j) * h) _ (by ring), smul_smul]
    congr 1
    push_cast; ring
  R j := by
    show _ • expm ((c : ℂ) • L) _ = (a : ℂ) • _ • expm L _
    rw [expm_scale ha L ((1 - T.c j) * h) _ (by ring), smul_smul]
    congr 1
    push_cast; ring

theorem krogstad_stretched (φ : ℕ → ℝ → Mat ι) (L : Mat ι) (h : ℝ) :
    ERK.Stretched (a : ℂ) (krogstad φ L h) (krogstad φ ((c : ℂ) • L) (a * h)) where
  s := rfl
  E i := by
    rcases i with _ | _ | _ | _ | _ | i <;> first | rfl | exact expm_scale ha L _ _ (by ring)
  A i j := by
    show ((a * h : ℝ) : ℂ) • _ = (a : ℂ) • (h : ℂ) • _
    rw [Complex.ofReal_mul, mul_smul]
  Eout := expm_scale ha L _ _ rfl
  B j := by
    show ((a * h : ℝ) : ℂ) • _ = (a : ℂ) • (h : ℂ) • _
    rw [Complex.ofReal_mul, mul_smul]
  R j := by
    show ((a * h : ℝ) : ℂ) • _ = (a : ℂ) • (h : ℂ) • _
    rw [Complex.ofReal_mul, mul_smul]

theorem etd5_stretched (fsal : Bool) (φ : ℕ → ℝ → Mat ι) (L : Mat ι) (h : ℝ) :
    ERK.Stretched (a : ℂ) (etd5Method fsal φ L h) (etd5Method fsal φ ((c : ℂ) • L) (a * h)) where
  s := rfl
  E i := by
    rcases i with _ | _ | _ | _ | _ | _ | _ | i <;> first | rfl | exact expm_scale ha L _ _ (by ring)
  A i j := by
    show ((a * h : ℝ) : ℂ) • _ = (a : ℂ) • (h : ℂ) • _
    rw [Complex.ofReal_mul, mul_smul]
  Eout := expm_scale ha L _ _ rfl
  B j := by
    show ((a * h : ℝ) : ℂ) • _ = (a : ℂ) • (h : ℂ) • _
    rw [Complex.ofReal_mul, mul_smul]
  R j := by
    show ((a * h : ℝ) : ℂ) • _ = (a : ℂ) • (h : ℂ) • _
    rw [Complex.ofReal_mul, mul_smul]

theorem CSSolver.method_scale (m : CSSolver ι) (h : ℝ) : ERK.Stretched (a : ℂ) (m.method h) ((m.scale c).method (a * h)) := by
  rcases m with L | ⟨cfg, L⟩ | ⟨cfg, L⟩
  · show ERK.Stretched (a : ℂ) (lawson rk4 L.mat h) (lawson rk4 (L.scale c).mat (a * h))
    rw [LinOp.mat_scale ha]
    exact lawson_stretched ha _ _ _
  · show ERK.Stretched (a : ℂ) (krogstad (L.phi cfg h) L.mat h) (krogstad ((L.scale c).phi cfg (a * h)) (L.scale c).mat (a * h))
    rw [LinOp.mat_scale ha, LinOp.phi_scale ha]
    exact krogstad_stretched ha _ _ _
  · show ERK.Stretched (a : ℂ) (etd5Method true (L.phi cfg h) L.mat h)
      (etd5Method true ((L.scale c).phi cfg (a * h)) (L.scale c).mat (a * h))
    rw [LinOp.mat_scale ha, LinOp.phi_scale ha]
    exact etd5_stretched ha _ _ _ _

theorem CSSolver.coefOk_scale (m : CSSolver ι) (h : ℝ) : (m.scale c).CoefOk (a * h) ↔ m.CoefOk h := by
  rcases m with L | ⟨cfg, L⟩ | ⟨cfg, L⟩
  · exact Iff.rfl
  · exact LinOp.coefOk_scale ha _ _ _ _
  · exact LinOp.coefOk_scale ha _ _ _ _

theorem CSSolver.oneStep_scale (m : CSSolver ι) (nl : NlFunc ι) (h : ℝ) (u : Vec ι) :
    (m.scale c).oneStep (scaleNl c nl) (a * h) u = m.oneStep nl h u := by
  unfold CSSolver.oneStep
  rw [(m.method_scale ha h).step (c := c) (nl := nl) (nl' := scaleNl c nl) (by exact_mod_cast ha) (fun w => rfl) u]
  classical exact if_congr (m.coefOk_scale ha h) rfl rfl

theorem ASOp.inner_scale (L : ASOp ι) : (L.scale c).inner = L.inner.scale c := by cases L <;> rfl

theorem ASSolver.method_scale (m : ASSolver ι) (h : ℝ) : ERK.Stretched (a : ℂ) (m.method h) ((m.scale c).method (a * h)) := by
  rcases m with L | ⟨cfg, L⟩ | ⟨cfg, L⟩ | L
  · show ERK.Stretched (a : ℂ) (lawson rk4 L.inner.mat h) (lawson rk4 (L.scale c).inner.mat (a * h))
    rw [ASOp.inner_scale ha, LinOp.mat_scale ha]
    exact lawson_stretched ha _ _ _
  · show ERK.Stretched (a : ℂ) (krogstad (L.inner.phi cfg h) L.inner.mat h)
      (krogstad ((L.scale c).inner.phi cfg (a * h)) (L.scale c).inner.mat (a * h))
    rw [ASOp.inner_scale ha, LinOp.mat_scale ha, LinOp.phi_scale ha]
    exact krogstad_stretched ha _ _ _
  · show ERK.Stretched (a : ℂ) (etd5Method false (L.inner.phi cfg h) L.inner.mat h)
      (etd5Method false ((L.scale c).inner.phi cfg (a * h)) (L.scale c).inner.mat (a * h))
    rw [ASOp.inner_scale ha, LinOp.mat_scale ha, LinOp.phi_scale ha]
    exact etd5_stretched ha _ _ _ _
  · show ERK.Stretched (a : ℂ) (lawson (dpWith (17 / 1920)) (Matrix.diagonal L) h)
      (lawson (dpWith (17 / 1920)) (Matrix.diagonal ((c : ℂ) • L)) (a * h))
    rw [Matrix.diagonal_smul]
    exact lawson_stretched ha _ _ _

theorem ASSolver.coefOk_scale (m : ASSolver ι) (h : ℝ) : (m.scale c).CoefOk (a * h) ↔ m.CoefOk h := by
  rcases m with L | ⟨cfg, L⟩ | ⟨cfg, L⟩ | L
  · exact Iff.rfl
  · show (L.scale c).inner.CoefOk _ _ _ ↔ _
    rw [ASOp.inner_scale ha]; exact LinOp.coefOk_scale ha _ _ _ _
  · show (L.scale c).inner.CoefOk _ _ _ ↔ _
    rw [ASOp.inner_scale ha]; exact LinOp.coefOk_scale ha _ _ _ _
  · exact Iff.rfl

theorem ASSolver.oneTrial_scale (m : ASSolver ι) (nl : NlFunc ι) (h : ℝ) (u : Vec ι) :
    (m.scale c).oneTrial (scaleNl c nl) (a * h) u = m.oneTrial nl h u := by
  have h1 : (m.scale c).op.emb = m.op.emb ∧ (m.scale c).op.prj = m.op.prj := by
    rcases m with (_ | _ | _) | ⟨_, _ | _ | _⟩ | ⟨_, _ | _ | _⟩ | _ <;> exact ⟨rfl, rfl⟩
  unfold ASSolver.oneTrial
  rw [h1.1, h1.2, (m.method_scale ha h).step (c := c) (by exact_mod_cast ha) (nl := fun w => (nl (m.op.emb w)).map m.op.prj)]
  · classical exact if_congr (m.coefOk_scale ha h) rfl rfl
  · intro w
    have hp : ∀ x : Vec ι, m.op.prj ((c : ℂ) • x) = (c : ℂ) • m.op.prj x := by
      intro x; cases m.op <;> simp [ASOp.prj, mulVec_smul]
    simp only [scaleNl]
    cases nl (m.op.emb w) with
    | error e => rfl
    | ok n => exact congrArg Except.ok (hp n)

end

/-! ### Loops -/

section Loops

variable {V Sub Sub' : Type} {a b : ℝ} {rnd rnd' : ℝ → ℝ}

namespace ClockMap

theorem lt_iff (hc : ClockMap a b rnd rnd') (x y : ℝ) : a * x + b < a * y + b ↔ x < y := by
  rw [add_lt_add_iff_right, mul_lt_mul_iff_right₀ hc.pos]

theorem nonneg_iff (hc : ClockMap a b rnd rnd') (h : ℝ) : 0 ≤ a * h ↔ 0 ≤ h := by
  rw [mul_nonneg_iff_of_pos_left hc.pos]

theorem advance (hc : ClockMap a b rnd rnd') (t h : ℝ) : rnd' (a * t + b + a * h) = a * rnd (t + h) + b := by
  rw [← hc.time]; congr 1; ring

theorem rest (hc : ClockMap a b rnd rnd') (t tf : ℝ) : rnd' (a * tf + b - (a * t + b)) = a * rnd (tf - t) := by
  rw [← hc.size]; congr 1; ring

theorem limitTo (hc : ClockMap a b rnd rnd') (t tf h : ℝ) :
    Verif.limitTo rnd' (a * t + b) (a * tf + b) (a * h) = a * Verif.limitTo rnd t tf h := by
  unfold Verif.limitTo
  rw [hc.advance, hc.rest]
  simp only [hc.lt_iff]
  split_ifs <;> rfl

end ClockMap

/-- The progress message raises in both runs or in none. -/
theorem progress_clock {tf tf' : ℝ} {pyDiv : Bool} (hz : pyDiv = true → (tf' = 0 ↔ tf = 0)) (n : ℕ) :
    CSClass.ProgressRaises pyDiv tf' n ↔ CSClass.ProgressRaises pyDiv tf n := by
  unfold CSClass.ProgressRaises
  constructor
  · rintro ⟨h1, h2, h3⟩; exact ⟨h1, h2, (hz h2).mp h3⟩
  · rintro ⟨h1, h2, h3⟩; exact ⟨h1, h2, (hz h2).mpr h3⟩

namespace CSClass

theorem loop_clock {C : CSClass ℝ V Sub} {C' : CSClass ℝ V Sub'} {Φ Φ' : ℝ → V → Except PyErr V} (L : LawfulCS C Φ)
    (L' : LawfulCS C' Φ') (hc : ClockMap a b rnd rnd') (pyDiv : Bool) (h : ℝ) (hΦ : ∀ u, Φ' (a * h) u = Φ h u)
    (storeData : Bool) (freq : ℤ) : ∀ (fuel : ℕ) (u : V) (c : ℕ) (s : CSState ℝ V Sub)
      (s' : CSState ℝ V Sub'), L.Inv s.sub u → L'.Inv s'.sub u → s'.t = s.t.map (fun x => a * x + b) → s'.u = s.u →
      s'.tf = a * s.tf + b → s'.tc = a * s.tc + b → (pyDiv = true → (s'.tf = 0 ↔ s.tf = 0)) →
      (C'.loop rnd' pyDiv (a * h) storeData freq fuel u c s').1 = (C.loop rnd pyDiv h storeData freq fuel u c s).1 ∧
      (C'.loop rnd' pyDiv (a * h) storeData freq fuel u c s').2.t =
        (C.loop rnd pyDiv h storeData freq fuel u c s).2.t.map (fun x => a * x + b) ∧
      (C'.loop rnd' pyDiv (a * h) storeData freq fuel u c s').2.u = (C.loop rnd pyDiv h storeData freq fuel u c s).2.u := by
  intro fuel
  induction fuel with
  | zero => intro u c s s' _ _ ht hu _ _ _; exact ⟨rfl, ht, hu⟩
  | succ fuel ih =>
    intro u c s s' hi hi' ht hu htf htc hz
    have hlt'' : s'.tc < s'.tf ↔ s.tc < s.tf := by rw [htf, htc, hc.lt_iff]
    by_cases hlt : s.tc < s.tf
    swap
    · rw [loop_done _ _ _ _ _ _ _ _ _ hlt, loop_done _ _ _ _ _ _ _ _ _ (by rw [hlt'']; exact hlt)]
      exact ⟨rfl, ht, hu⟩
    have hlt' : s'.tc < s'.tf := hlt''.mpr hlt
    by_cases hh : 0 ≤ h
    swap
    · rw [loop_step_error (hlt := hlt) (hr := step_neg _ _ hh _),
        loop_step_error (hlt := hlt') (hr := step_neg _ _ (by rw [hc.nonneg_iff]; exact hh) _)]
      exact ⟨rfl, ht, hu⟩
    have hh' : 0 ≤ a * h := (hc.nonneg_iff h).mpr hh
    have r := L.result s.sub u h hi
    have r' := L'.result s'.sub u (a * h) hi'
    rw [hΦ] at r'
    cases hΦu : Φ h u with
    | error e =>
      rw [hΦu] at r r'
      rw [loop_step_error (hlt := hlt) (e := e) (s' := { s with sub := (C.updateStages u h s.sub).2 })
          (hr := by rw [step_apply _ _ hh, r]),
        loop_step_error (hlt := hlt') (e := e) (s' := { s' with sub := (C'.updateStages u (a * h) s'.sub).2 })
          (hr := by rw [step_apply _ _ hh', r'])]
      exact ⟨rfl, ht, hu⟩
    | ok v =>
      rw [hΦu] at r r'
      rw [loop, loop]
      simp only [PyM.bind_get_apply, hlt, hlt', if_true]
      rw [PyM.bind_ok (a := v) (s' := { s' with sub := (C'.updateStages u (a * h) s'.sub).2 })
        (by rw [step_apply _ _ hh', r']), PyM.bind_ok (a := v) (s' := { s with sub := (C.updateStages u h s.sub).2 })
        (by rw [step_apply _ _ hh, r])]
      simp only [PyM.bind_modify_apply]
      have hpp := progress_clock hz (c + 1)
      by_cases hp : ProgressRaises pyDiv s.tf (c + 1)
      · rw [PyM.bind_error (progress_raises pyDiv (c + 1) s.tf _ hp),
          PyM.bind_error (progress_raises pyDiv (c + 1) s'.tf _ (hpp.mpr hp))]
        exact ⟨rfl, ht, hu⟩
      rw [PyM.bind_ok (progress_apply pyDiv (c + 1) s.tf _ hp),
        PyM.bind_ok (progress_apply pyDiv (c + 1) s'.tf _ (by rw [hpp]; exact hp))]
      have htc' : rnd' (s'.tc + a * h) = a * rnd (s.tc + h) + b := by rw [htc, hc.advance]
      by_cases hf : storeData = true → freq ≠ 0
      · rw [PyM.bind_ok (store_apply storeData freq (c + 1) v _ hf), PyM.bind_ok (store_apply storeData freq (c + 1) v _ hf)]
        have i := L.inv_ok s.sub u h v hi hΦu
        have i' := L'.inv_ok s'.sub u (a * h) v hi' (by rw [hΦ, hΦu])
        split
        · exact ih v (c + 1) _ _ i i' (by simp [ht, htc']) (by simp [hu]) htf htc' hz
        · exact ih v (c + 1) _ _ i i' ht hu htf htc' hz
      · obtain ⟨rfl, rfl⟩ : storeData = true ∧ freq = 0 := by
          constructor
          · by_contra hc; exact hf fun h => absurd h hc
          · by_contra hc; exact hf fun _ => hc
        rw [PyM.bind_error (e := .zeroDivisionError) (by rfl), PyM.bind_error (e := .zeroDivisionError) (by rfl)]
        exact ⟨rfl, ht, hu⟩

theorem evolve_clock {C : CSClass ℝ V Sub} {C' : CSClass ℝ V Sub'} {Φ Φ' : ℝ → V → Except PyErr V} (L : LawfulCS C Φ)
    (L' : LawfulCS C' Φ') (hc : ClockMap a b rnd rnd') (pyDiv : Bool) (fuel : ℕ) (u : V) (t0 tf h : ℝ)
    (hΦ : ∀ u, Φ' (a * h) u = Φ h u) (hz : pyDiv = true → (a * tf + b = 0 ↔ tf = 0)) (storeData : Bool) (freq : ℤ)
    (s : CSState ℝ V Sub) (s' : CSState ℝ V Sub') :
    (C'.evolve rnd' pyDiv fuel u (a * t0 + b) (a * tf + b) (a * h) storeData freq s').1 =
      (C.evolve rnd pyDiv fuel u t0 tf h storeData freq s).1 ∧
    (C'.evolve rnd' pyDiv fuel u (a * t0 + b) (a * tf + b) (a * h) storeData freq s').2.t =
      (C.evolve rnd pyDiv fuel u t0 tf h storeData freq s).2.t.map (fun x => a * x + b) ∧
    (C'.evolve rnd' pyDiv fuel u (a * t0 + b) (a * tf + b) (a * h) storeData freq s').2.u =
      (C.evolve rnd pyDiv fuel u t0 tf h storeData freq s).2.u := by
  rw [evolve_apply, evolve_apply, hc.advance]
  simp only [hc.lt_iff]
  have ht : (C'.start u (a * t0 + b) (a * tf + b) storeData s').t =
      (C.start u t0 tf storeData s).t.map (fun x => a * x + b) := by cases storeData <;> rfl
  have hu : (C'.start u (a * t0 + b) (a * tf + b) storeData s').u = (C.start u t0 tf storeData s).u := by
    cases storeData <;> rfl
  split
  · exact ⟨rfl, ht, hu⟩
  · exact loop_clock L L' hc pyDiv h hΦ storeData freq fuel u 0 _ _ (L.reset_inv _ _) (L'.reset_inv _ _) ht hu rfl rfl hz

end CSClass

section Step

variable {Φ Φ' : ℝ → V → Except PyErr (V × V)} {S : V × V → Ext ℝ} {cfg : SolverConfig ℝ} {u : V}

theorem RejectsTo.clock (hc : ClockMap a b rnd rnd') (hΦ : ∀ h, Φ' (a * h) u = Φ h u) {j : ℕ} {h k : ℝ}
    (hr : RejectsTo Φ S cfg rnd u j h k) : RejectsTo Φ' S (cfg.inUnit a) rnd' u j (a * h) (a * k) := by
  induction hr with
  | zero => exact .zero _
  | @succ j h h' r _ hok hacc hmin ih =>
    have e : rnd' (shrink (cfg.inUnit a).decr_f (S r) * (a * h')) = a * rnd (shrink cfg.decr_f (S r) * h') := by
      rw [← hc.size]; congr 1; show _ = a * (shrink cfg.decr_f (S r) * h'); rw [show (cfg.inUnit a).decr_f = cfg.decr_f from rfl]
      ring
    rw [← e]
    refine .succ ih (by rw [hΦ]; exact hok) hacc ?_
    rw [e]
    exact mul_le_mul_of_nonneg_left hmin hc.pos.le

/-- The outcome in the new unit. -/
def inUnit (a : ℝ) : Except PyErr (V × ℝ × ℝ) → Except PyErr (V × ℝ × ℝ) := Except.map fun r => (r.1, a * r.2.1, a * r.2.2)

theorem StepSpec.clock (hc : ClockMap a b rnd rnd') (hΦ : ∀ h, Φ' (a * h) u = Φ h u) {h : ℝ}
    {r : Except PyErr (V × ℝ × ℝ)} (hs : StepSpec Φ S cfg rnd u h r) :
    StepSpec Φ' S (cfg.inUnit a) rnd' u (a * h) (inUnit a r) := by
  have hshr : ∀ (r : V × V) h', rnd' (shrink (cfg.inUnit a).decr_f (S r) * (a * h')) = a * rnd (shrink cfg.decr_f (S r) * h') := by
    intro r h'
    rw [← hc.size]; congr 1; rw [show (cfg.inUnit a).decr_f = cfg.decr_f from rfl]; ring
  cases hs with
  | @accept j h' x r hj hrej hok hf h1 =>
    have e : a * rnd (grow cfg.incr_f x h') = rnd' (grow (cfg.inUnit a).incr_f x (a * h')) := by
      rw [← hc.size]
      congr 1
      rw [show (cfg.inUnit a).incr_f = cfg.incr_f from rfl]
      unfold grow
      split_ifs <;> ring
    show StepSpec _ _ _ _ _ _ (.ok (r.1, a * h', a * rnd (grow cfg.incr_f x h')))
    rw [e]
    exact .accept hj (hrej.clock hc hΦ) (by rw [hΦ]; exact hok) hf h1
  | @minStep j h' r hj hrej hok hf h1 =>
    refine .minStep hj (hrej.clock hc hΦ) (by rw [hΦ]; exact hok) hf ?_
    rw [hshr]
    exact mul_lt_mul_of_pos_left h1 hc.pos
  | @maxLoops h' r hrej hok hf => exact .maxLoops (hrej.clock hc hΦ) (by rw [hΦ]; exact hok) hf
  | @raised j h' e hj hrej hok => exact .raised hj (hrej.clock hc hΦ) (by rw [hΦ]; exact hok)

end Step

namespace ASClass

open CSClass (ProgressRaises progress_apply progress_raises)

theorem step_clock {C : ASClass ℝ V Sub} {C' : ASClass ℝ V Sub'} {Φ Φ' : ℝ → V → Except PyErr (V × V)} (L : LawfulAS C Φ)
    (L' : LawfulAS C' Φ') (hc : ClockMap a b rnd rnd') (hΦ : ∀ h u, Φ' (a * h) u = Φ h u) (cfg : SolverConfig ℝ)
    (hS : C'.factor (cfg.inUnit a) = C.factor cfg) (u : V) (h : ℝ) (s : ASState ℝ V Sub) (s' : ASState ℝ V Sub')
    (hi : L.Ready s.sub s.accept u) (hi' : L'.Ready s'.sub s'.accept u) :
    (C'.step rnd' (cfg.inUnit a) u (a * h) s').1 = inUnit a (C.step rnd cfg u h s).1 := by
  by_cases hh : 0 ≤ h
  · have h1 := (step_spec L rnd cfg u h hh s hi).1.clock hc (Φ' := Φ') fun h => hΦ h u
    have h2 := (step_spec L' rnd' (cfg.inUnit a) u (a * h) ((hc.nonneg_iff h).mpr hh) s' hi').1
    rw [hS] at h2
    exact h2.det h1
  · rw [step_neg _ _ _ _ hh, step_neg _ _ _ _ (by rw [hc.nonneg_iff]; exact hh)]; rfl

theorem loop_clock {C : ASClass ℝ V Sub} {C' : ASClass ℝ V Sub'} {Φ Φ' : ℝ → V → Except PyErr (V × V)} (L : LawfulAS C Φ)
    (L' : LawfulAS C' Φ') (hc : ClockMap a b rnd rnd') (hΦ : ∀ h u, Φ' (a * h) u = Φ h u) (pyDiv : Bool) (cfg : SolverConfig ℝ)
    (hS : C'.factor (cfg.inUnit a) = C.factor cfg) (storeData : Bool) (freq : ℤ) :
    ∀ (fuel : ℕ) (u : V) (h : ℝ) (c : ℕ) (s : ASState ℝ V Sub) (s' : ASState ℝ V Sub'),
      L.Ready s.sub s.accept u → L'.Ready s'.sub s'.accept u → s'.t = s.t.map (fun x => a * x + b) → s'.u = s.u →
      s'.tf = a * s.tf + b → s'.tc = a * s.tc + b → (pyDiv = true → (s'.tf = 0 ↔ s.tf = 0)) →
      (C'.loop rnd' pyDiv (cfg.inUnit a) storeData freq fuel u (a * h) c s').1 =
        (C.loop rnd pyDiv cfg storeData freq fuel u h c s).1 ∧
      (C'.loop rnd' pyDiv (cfg.inUnit a) storeData freq fuel u (a * h) c s').2.t =
        (C.loop rnd pyDiv cfg storeData freq fuel u h c s).2.t.map (fun x => a * x + b) ∧
      (C'.loop rnd' pyDiv (cfg.inUnit a) storeData freq fuel u (a * h) c s').2.u =
        (C.loop rnd pyDiv cfg storeData freq fuel u h c s).2.u := by
  intro fuel
  induction fuel with
  | zero => intro u h c s s' _ _ ht hu _ _ _; exact ⟨rfl, ht, hu⟩
  | succ fuel ih =>
    intro u h c s s' hi hi' ht hu htf htc hz
    rw [loop, loop]
    simp only [PyM.bind_get_apply]
    have hlt'' : s'.tc < s'.tf ↔ s.tc < s.tf := by rw [htf, htc, hc.lt_iff]
    by_cases hlt : s.tc < s.tf
    swap
    · simp only [hlt'', hlt, if_false]; exact ⟨rfl, ht, hu⟩
    simp only [hlt'', hlt, if_true]
    have hst2 := step_clock L L' hc hΦ cfg hS u h s s' hi hi'
    rcases hst : C.step rnd cfg u h s with ⟨r, s1⟩
    rcases hst' : C'.step rnd' (cfg.inUnit a) u (a * h) s' with ⟨r', s1'⟩
    rw [hst, hst'] at hst2
    simp only at hst2
    have hpub : SamePublic s s1 ∧ (∀ v hu hs, r = .ok (v, hu, hs) → s1.accept = true ∧ L.Ready s1.sub true v) := by
      by_cases hh : 0 ≤ h
      · have := step_spec L rnd cfg u h hh s hi
        rw [hst] at this
        exact ⟨this.2.1, this.2.2.1⟩
      · rw [step_neg _ _ _ _ hh] at hst
        cases hst
        exact ⟨⟨rfl, rfl, rfl, rfl⟩, by simp⟩
    have hpub' : SamePublic s' s1' ∧ (∀ v hu hs, r' = .ok (v, hu, hs) → s1'.accept = true ∧ L'.Ready s1'.sub true v) := by
      by_cases hh : 0 ≤ a * h
      · have := step_spec L' rnd' (cfg.inUnit a) u (a * h) hh s' hi'
        rw [hst'] at this
        exact ⟨this.2.1, this.2.2.1⟩
      · rw [step_neg _ _ _ _ hh] at hst'
        cases hst'
        exact ⟨⟨rfl, rfl, rfl, rfl⟩, by simp⟩
    obtain ⟨⟨p1, p2, p3, p4⟩, p5⟩ := hpub
    obtain ⟨⟨p1', p2', p3', p4'⟩, p5'⟩ := hpub'
    subst hst2
    cases r with
    | error e =>
      rw [PyM.bind_error hst, PyM.bind_error (e := e) hst']
      exact ⟨rfl, by rw [p1, p1', ht], by rw [p2, p2', hu]⟩
    | ok r =>
      obtain ⟨v, hu1, hs⟩ := r
      obtain ⟨a1, a2⟩ := p5 v hu1 hs rfl
      obtain ⟨a1', a2'⟩ := p5' v (a * hu1) (a * hs) rfl
      rw [PyM.bind_ok hst, PyM.bind_ok (a := (v, a * hu1, a * hs)) hst']
      simp only [PyM.bind_modify_apply]
      have hpp := progress_clock hz (c + 1)
      by_cases hpr : ProgressRaises pyDiv s.tf (c + 1)
      · rw [PyM.bind_error (progress_raises pyDiv (c + 1) s.tf _ hpr),
          PyM.bind_error (progress_raises pyDiv (c + 1) s'.tf _ (hpp.mpr hpr))]
        exact ⟨rfl, by simp [p1, p1', ht], by simp [p2, p2', hu]⟩
      rw [PyM.bind_ok (progress_apply pyDiv (c + 1) s.tf _ hpr),
        PyM.bind_ok (progress_apply pyDiv (c + 1) s'.tf _ (by rw [hpp]; exact hpr))]
      simp only [PyM.bind_get_apply]
      by_cases hf : storeData = true ∧ freq = 0
      · obtain ⟨rfl, rfl⟩ := hf
        rw [PyM.bind_error (store_raises _ _ _), PyM.bind_error (store_raises _ _ _)]
        exact ⟨rfl, by simp [p1, p1', ht], by simp [p2, p2', hu]⟩
      have hf' : storeData = true → freq ≠ 0 := fun h1 h2 => hf ⟨h1, h2⟩
      rw [PyM.bind_ok (store_apply storeData freq (c + 1) v _ hf'), PyM.bind_ok (store_apply storeData freq (c + 1) v _ hf')]
      have e : rnd' (s1'.tc + a * hu1) = a * rnd (s1.tc + hu1) + b := by rw [p4, p4', htc, hc.advance]
      have e2 : s1'.tf = a * s1.tf + b := by rw [p3, p3', htf]
      have e3 : ∀ x, clip rnd' (a * x + b) s1'.tf (a * hs) = a * clip rnd x s1.tf hs := by
        intro x
        rw [e2]; exact hc.limitTo x s1.tf hs
      have hz' : pyDiv = true → (s1'.tf = 0 ↔ s1.tf = 0) := by rw [p3, p3']; exact hz
      simp only [e, e3]
      split
      · exact ih v _ (c + 1) _ _ (by simpa [a1] using a2) (by simpa [a1'] using a2') (by simp [p1, p1', ht])
          (by simp [p2, p2', hu]) e2 rfl hz'
      · exact ih v _ (c + 1) _ _ (by simpa [a1] using a2) (by simpa [a1'] using a2') (by simp [p1, p1', ht])
          (by simp [p2, p2', hu]) e2 rfl hz'

theorem evolve_clock {C : ASClass ℝ V Sub} {C' : ASClass ℝ V Sub'} {Φ Φ' : ℝ → V → Except PyErr (V × V)} (L : LawfulAS C Φ)
    (L' : LawfulAS C' Φ') (hc : ClockMap a b rnd rnd') (hΦ : ∀ h u, Φ' (a * h) u = Φ h u) (pyDiv : Bool) (cfg : SolverConfig ℝ)
    (hS : C'.factor (cfg.inUnit a) = C.factor cfg) (fuel : ℕ) (u : V) (t0 tf : ℝ) (hInit : Option ℝ)
    (hz : pyDiv = true → (a * tf + b = 0 ↔ tf = 0)) (storeData : Bool) (freq : ℤ) (s : ASState ℝ V Sub)
    (s' : ASState ℝ V Sub') :
    (C'.evolve rnd' pyDiv (cfg.inUnit a) fuel u (a * t0 + b) (a * tf + b) (hInit.map (a * ·)) storeData freq s').1 =
      (C.evolve rnd pyDiv cfg fuel u t0 tf hInit storeData freq s).1 ∧
    (C'.evolve rnd' pyDiv (cfg.inUnit a) fuel u (a * t0 + b) (a * tf + b) (hInit.map (a * ·)) storeData freq s').2.t =
      (C.evolve rnd pyDiv cfg fuel u t0 tf hInit storeData freq s).2.t.map (fun x => a * x + b) ∧
    (C'.evolve rnd' pyDiv (cfg.inUnit a) fuel u (a * t0 + b) (a * tf + b) (hInit.map (a * ·)) storeData freq s').2.u =
      (C.evolve rnd pyDiv cfg fuel u t0 tf hInit storeData freq s).2.u := by
  rw [evolve_apply, evolve_apply]
  have h1 : firstSize rnd' (a * t0 + b) (a * tf + b) (hInit.map (a * ·)) = a * firstSize rnd t0 tf hInit := by
    unfold firstSize
    rw [← hc.limitTo]
    congr 1
    cases hInit with
    | some h => rfl
    | none =>
      show rnd' (rnd' (a * tf + b - (a * t0 + b)) / 100) = a * rnd (rnd (tf - t0) / 100)
      rw [hc.rest, mul_div_assoc, hc.size]
  rw [h1]
  exact loop_clock L L' hc hΦ pyDiv cfg hS storeData freq fuel u _ 0 _ _ (L.reset_ready _ _) (L'.reset_ready _ _)
    (by cases storeData <;> rfl) (by cases storeData <;> rfl) rfl rfl hz

end ASClass

end Loops

end Verif
