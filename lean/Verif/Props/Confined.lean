import Verif.Spec.Confined
import Verif.Props.Idle
import Verif.Props.ConstantForcing

/-!
# C96: problems confined to an affine set
-/

set_option linter.unusedSectionVars false

namespace Verif

open Matrix

variable {ι : Type} [Fintype ι] [DecidableEq ι] {W : Submodule ℂ (Vec ι)} {c : Vec ι}

section
attribute [local instance] Matrix.linftyOpNormedRing Matrix.linftyOpNormedAlgebra Matrix.linftyOpNormedAddCommGroup

theorem expm_sub_self_mem {L : Mat ι} (hL : Keeps W L) (hc : L *ᵥ c ∈ W) (θ : ℝ) : expm L θ *ᵥ c - c ∈ W := by
  have hθ := hL.smul (θ : ℂ)
  have s1 := NormedSpace.exp_series_hasSum_exp' (𝕂 := ℂ) ((θ : ℂ) • L)
  have t1 : HasSum (fun n : ℕ => ((n.factorial : ℂ)⁻¹ • ((θ : ℂ) • L) ^ n) *ᵥ c) (NormedSpace.exp ((θ : ℂ) • L) *ᵥ c) :=
    s1.map (AddMonoidHom.mk' (fun X : Mat ι => X *ᵥ c) fun X Y => Matrix.add_mulVec X Y c)
      (continuous_id.matrix_mulVec continuous_const)
  have t2 := (hasSum_nat_add_iff' 1).mpr t1
  have hcl : IsClosed (W : Set (Vec ι)) := W.closed_of_finiteDimensional
  have h3 := hcl.mem_of_tendsto t2 (Filter.Eventually.of_forall fun s => W.sum_mem fun n _ => by
    rw [smul_mulVec, pow_succ, ← mulVec_mulVec, smul_mulVec]
    exact W.smul_mem _ (hθ.pow n _ (W.smul_mem _ hc)))
  simpa [Verif.expm] using h3

end

theorem Confined.flow {L : Mat ι} {nl : NlFunc ι} (hc : Confined W c L nl) {u : Vec ι} (hu : u - c ∈ W) (θ : ℝ) :
    expm L θ *ᵥ u - c ∈ W := by
  have h1 := Keeps.expm (W := W) hc.keeps θ _ hu
  have h2 := expm_sub_self_mem hc.keeps hc.centre θ
  have : expm L θ *ᵥ u - c = expm L θ *ᵥ (u - c) + (expm L θ *ᵥ c - c) := by rw [mulVec_sub]; abel
  rw [this]
  exact W.add_mem h1 h2

theorem add_sum_sub_mem {v : Vec ι} (hv : v - c ∈ W) (s : Finset ℕ) {x : ℕ → Vec ι} (hx : ∀ j ∈ s, x j ∈ W) :
    v + ∑ j ∈ s, x j - c ∈ W := by
  rw [add_sub_right_comm]
  exact W.add_mem hv (W.sum_mem hx)

/-- Arrays of the affine set that agree. -/
def affRel (W : Submodule ℂ (Vec ι)) (c : Vec ι) (v v' : Vec ι) : Prop := v' = v ∧ v - c ∈ W

theorem ERK.stages_confined {M : ERK ι} (hM : M.Rel (subRel W) M) {L : Mat ι} (hE : ∀ i, ∃ x : ℝ, M.E i = expm L x)
    {nl nl' : NlFunc ι} (hc : Confined W c L nl) (hn : ∀ w, w - c ∈ W → nl' w = nl w) {u : Vec ι} (hu : u - c ∈ W) :
    ∀ i, M.stages nl' u i = M.stages nl u i ∧ ∀ N, M.stages nl u i = .ok N → ∀ j, N j ∈ W := by
  intro i
  induction i with
  | zero =>
    refine ⟨rfl, fun N hN j => ?_⟩
    simp only [ERK.stages, Except.ok.injEq] at hN
    rw [← hN]; exact W.zero_mem
  | succ i ih =>
    unfold ERK.stages
    rw [ih.1]
    cases hs : M.stages nl u i with
    | error e => exact ⟨rfl, fun N hN => by simp at hN⟩
    | ok N =>
      have hN := ih.2 N hs
      have ha : M.arg u N i - c ∈ W := by
        obtain ⟨x, hx⟩ := hE i
        unfold ERK.arg
        rw [hx]
        exact add_sum_sub_mem (hc.flow hu x) _ fun j _ => ((hM.A i j).app _ _ ⟨rfl, hN j⟩).2
      simp only [hn _ ha]
      refine ⟨trivial, fun N' hN' j => ?_⟩
      cases hv : nl (M.arg u N i) with
      | error e => simp [hv] at hN'
      | ok n =>
        simp only [hv, Except.ok.injEq] at hN'
        rw [← hN']
        by_cases hj : j = i
        · subst hj; rw [Function.update_self]; exact hc.values _ _ ha hv
        · rw [Function.update_of_ne hj]; exact hN j

theorem ERK.step_confined {M : ERK ι} (hM : M.Rel (subRel W) M) {L : Mat ι} (hE : ∀ i, ∃ x : ℝ, M.E i = expm L x)
    (hO : ∃ x : ℝ, M.Eout = expm L x) {nl nl' : NlFunc ι} (hc : Confined W c L nl) (hn : ∀ w, w - c ∈ W → nl' w = nl w) {u : Vec ι}
    (hu : u - c ∈ W) : M.step nl' u = M.step nl u ∧ ∀ r, M.step nl u = .ok r → r.1 - c ∈ W := by
  obtain ⟨h1, h2⟩ := ERK.stages_confined hM hE hc hn hu M.s
  unfold ERK.step
  rw [h1]
  refine ⟨rfl, fun r hr => ?_⟩
  cases hs : M.stages nl u M.s with
  | error e => simp [hs] at hr
  | ok N =>
    simp only [hs, Except.ok.injEq] at hr
    rw [← hr]
    obtain ⟨x, hx⟩ := hO
    show M.out u N - c ∈ W
    unfold ERK.out
    rw [hx]
    exact add_sum_sub_mem (hc.flow hu x) _ fun j _ => ((hM.B j).app _ _ ⟨rfl, h2 N hs j⟩).2

theorem CSSolver.oneStep_confined (m : CSSolver ι) {nl nl' : NlFunc ι} (hc : Confined W c m.op.mat nl)
    (hn : ∀ w, w - c ∈ W → nl' w = nl w) (h : ℝ) (u u' : Vec ι) (hu : affRel W c u u') :
    RelE (affRel W c) (m.oneStep nl h u) (m.oneStep nl' h u') := by
  obtain ⟨rfl, hu⟩ := hu
  obtain ⟨h1, h2⟩ := ERK.step_confined (CSSolver.method_keeps hc.keeps h) (m.method_E h)
    ⟨h, by cases m <;> rfl⟩ hc hn hu
  unfold oneStep
  split
  · rw [h1]
    cases hs : (m.method h).step nl u' with
    | error e => exact rfl
    | ok r => exact ⟨rfl, h2 r hs⟩
  · exact rfl

theorem ASSolver.oneTrial_confined (m : ASSolver ι) {nl nl' : NlFunc ι} (hc : Confined W c m.op.mat nl)
    (hn : ∀ w, w - c ∈ W → nl' w = nl w) (h : ℝ) (u u' : Vec ι) (hu : affRel W c u u') :
    RelE (fun r r' => r' = r ∧ r.1 - c ∈ W) (m.oneTrial nl h u) (m.oneTrial nl' h u') := by
  obtain ⟨rfl, hu⟩ := hu
  by_cases hk : m.CoefOk h
  · obtain ⟨h1, h2⟩ := ERK.step_confined (M := m.op.user (m.method h)) (ASSolver.method_keeps hc.keeps h) (m.user_E h)
      ⟨h, m.userMethod_Eout h⟩ hc hn hu
    rw [m.oneTrial_user nl h u' hk, m.oneTrial_user nl' h u' hk, h1]
    cases hs : (m.op.user (m.method h)).step nl u' with
    | error e => exact rfl
    | ok r => exact ⟨rfl, h2 r hs⟩
  · unfold oneTrial
    rw [if_neg hk, if_neg hk]
    exact rfl

theorem relE_affRel {a b : Except PyErr (Vec ι)} (h : RelE (affRel W c) a b) : b = a ∧ ∀ v, a = .ok v → v - c ∈ W := by
  rcases a with e | a <;> rcases b with e' | b
  · exact ⟨by rw [show e = e' from h], fun v hv => by simp at hv⟩
  · exact absurd h id
  · exact absurd h id
  · exact ⟨by rw [h.1], fun v hv => by rw [← Except.ok.inj hv]; exact h.2⟩

theorem relE_relO_affRel {a b : Except PyErr (Option (Vec ι))} (h : RelE (RelO (affRel W c)) a b) :
    b = a ∧ ∀ v, a = .ok (some v) → v - c ∈ W := by
  rcases a with e | _ | a <;> rcases b with e' | _ | b
  · exact ⟨by rw [show e = e' from h], fun v hv => by simp at hv⟩
  · exact absurd h id
  · exact absurd h id
  · exact absurd h id
  · exact ⟨rfl, fun v hv => by simp at hv⟩
  · exact absurd h id
  · exact absurd h id
  · exact absurd h id
  · have h : affRel W c a b := h
    exact ⟨by rw [h.1], fun v hv => by rw [← Option.some.inj (Except.ok.inj hv)]; exact h.2⟩

theorem forall2_affRel {a b : List (Vec ι)} (h : List.Forall₂ (affRel W c) a b) : b = a ∧ ∀ v ∈ a, v - c ∈ W := by
  induction h with
  | nil => exact ⟨rfl, by simp⟩
  | cons h1 _ ih => exact ⟨by rw [h1.1, ih.1], List.forall_mem_cons.mpr ⟨h1.2, ih.2⟩⟩

/-- **C96.** A constant step from the affine set stays in it, and depends on the values of `nl_func` in it only. -/
theorem C96_step (m : CSSolver ι) {nl nl' : NlFunc ι} (hc : Confined W c m.op.mat nl) (hn : ∀ w, w - c ∈ W → nl' w = nl w)
    (u : Vec ι) (hu : u - c ∈ W) (h : ℝ) (hh : 0 ≤ h) :
    (m.step nl' u h m.new).1 = (m.step nl u h m.new).1 ∧ ∀ v, (m.step nl u h m.new).1 = .ok v → v - c ∈ W := by
  rw [CSSolver.step_new _ _ _ _ hh, CSSolver.step_new _ _ _ _ hh]
  exact relE_affRel (m.oneStep_confined hc hn h u u ⟨rfl, hu⟩)

/-- **C96.** A constant-step run from the affine set stays in it, with all that it stores, and depends on the values of `nl_func` in it
only. -/
theorem C96_evolve (m : CSSolver ι) {nl nl' : NlFunc ι} (hc : Confined W c m.op.mat nl) (hn : ∀ w, w - c ∈ W → nl' w = nl w)
    (rnd : ℝ → ℝ) (pyDiv : Bool) (fuel : ℕ) (u : Vec ι) (hu : u - c ∈ W) (t0 tf h : ℝ) (storeData : Bool) (freq : ℤ) (s : m.State) :
    let r := m.evolve nl rnd pyDiv fuel u t0 tf h storeData freq s
    let r' := m.evolve nl' rnd pyDiv fuel u t0 tf h storeData freq s
    r'.1 = r.1 ∧ r'.2.t = r.2.t ∧ r'.2.u = r.2.u ∧ (∀ v, r.1 = .ok (some v) → v - c ∈ W) ∧ ∀ v ∈ r.2.u, v - c ∈ W := by
  obtain ⟨h1, h2, h3⟩ := CSClass.evolve_rel (m.lawful nl) (m.lawful nl') (affRel W c) rnd pyDiv fuel u u t0 tf h
    (fun u u' hu => m.oneStep_confined hc hn h u u' hu) storeData freq s s ⟨rfl, hu⟩
  exact ⟨(relE_relO_affRel h1).1, h2.symm, (forall2_affRel h3).1, (relE_relO_affRel h1).2, (forall2_affRel h3).2⟩

/-- **C96.** An adaptive step from the affine set stays in it, and depends on the values of `nl_func` in it only: state and step sizes. -/
theorem C96_adaptive_step (m : ASSolver ι) {nl nl' : NlFunc ι} (hc : Confined W c m.op.mat nl) (hn : ∀ w, w - c ∈ W → nl' w = nl w)
    (rnd : ℝ → ℝ) (cfg : SolverConfig ℝ) (u : Vec ι) (hu : u - c ∈ W) (h : ℝ) (hh : 0 ≤ h) :
    (m.step nl' rnd cfg u h m.new).1 = (m.step nl rnd cfg u h m.new).1 ∧
    ∀ v h1 h2, (m.step nl rnd cfg u h m.new).1 = .ok (v, h1, h2) → v - c ∈ W := by
  obtain ⟨r', h1, h2⟩ := (m.step_new_spec nl rnd cfg u h hh).rel (R := affRel W c) (S' := m.factor nl' cfg)
    (fun h => m.oneTrial_confined hc hn h u u ⟨rfl, hu⟩)
    (fun r r' h => by rw [ASSolver.factor_eq, ASSolver.factor_eq, h.1]) (fun r r' h => ⟨by rw [h.1], h.2⟩)
  rw [(m.stepSpec_iff nl' rnd cfg u h hh r').mp h1]
  revert h2
  generalize (m.step nl rnd cfg u h m.new).1 = a
  intro h2
  rcases a with e | ⟨a, a1⟩ <;> rcases r' with e' | ⟨b, b1⟩
  · exact ⟨by rw [show e = e' from h2], fun v _ _ hv => by simp at hv⟩
  · exact absurd h2 id
  · exact absurd h2 id
  · have h3 : affRel W c a b := h2.1
    have h4 : a1 = b1 := h2.2
    refine ⟨by rw [h3.1, h4], fun v x y hv => ?_⟩
    have := (Prod.mk.inj (Except.ok.inj hv)).1
    rw [← this]; exact h3.2

/-- **C96.** An adaptive run from the affine set stays in it, with all that it stores, and depends on the values of `nl_func` in it
only. -/
theorem C96_adaptive_evolve (m : ASSolver ι) {nl nl' : NlFunc ι} (hc : Confined W c m.op.mat nl) (hn : ∀ w, w - c ∈ W → nl' w = nl w)
    (rnd : ℝ → ℝ) (pyDiv : Bool) (cfg : SolverConfig ℝ) (fuel : ℕ) (u : Vec ι) (hu : u - c ∈ W) (t0 tf : ℝ) (hInit : Option ℝ)
    (storeData : Bool) (freq : ℤ) (s : m.State) :
    let r := m.evolve nl rnd pyDiv cfg fuel u t0 tf hInit storeData freq s
    let r' := m.evolve nl' rnd pyDiv cfg fuel u t0 tf hInit storeData freq s
    r'.1 = r.1 ∧ r'.2.t = r.2.t ∧ r'.2.u = r.2.u ∧ (∀ v, r.1 = .ok (some v) → v - c ∈ W) ∧ ∀ v ∈ r.2.u, v - c ∈ W := by
  obtain ⟨h1, h2, h3⟩ := ASClass.evolve_rel (m.lawful nl) (m.lawful nl') (affRel W c) (fun r r' => r' = r ∧ r.1 - c ∈ W)
    (fun r r' h => ⟨by rw [h.1], h.2⟩) (fun h u u' hu => m.oneTrial_confined hc hn h u u' hu) rnd pyDiv cfg
    (fun r r' h => by
      show m.factor nl cfg r = m.factor nl' cfg r'
      rw [ASSolver.factor_eq, ASSolver.factor_eq, h.1]) fuel u u t0 tf hInit storeData freq s s ⟨rfl, hu⟩
  exact ⟨(relE_relO_affRel h1).1, h2.symm, (forall2_affRel h3).1, (relE_relO_affRel h1).2, (forall2_affRel h3).2⟩

/-- **C96.** IF34, ETD34 and ETD35 cannot solve a problem whose `nl_func` is constant on an invariant affine set, from any of its points:
a forcing that depends on components without dynamics only. -/
theorem C96_frozen (m : ASSolver ι) (hm : ∀ L, m ≠ .if45dp L) {nl : NlFunc ι} (hc : Confined W c m.op.mat nl) (g : Vec ι)
    (hg : ∀ w, w - c ∈ W → nl w = .ok g) (pyDiv : Bool) (cfg : SolverConfig ℝ) (fuel : ℕ) (hfuel : 0 < fuel) (u : Vec ι) (hu : u - c ∈ W)
    (t0 tf : ℝ) (ht : t0 < tf) (hInit : Option ℝ) (storeData : Bool) (freq : ℤ) (s : m.State) :
    let r := m.evolve nl id pyDiv cfg fuel u t0 tf hInit storeData freq s
    (∀ v, r.1 ≠ .ok v) ∧
    (r.1 = .error .minimumStepReached ∨ r.1 = .error .maxLoopsExceeded ∨ (r.1 = .error .assertionError ∧ ∃ h, hInit = some h ∧ h < 0) ∨
      (r.1 = .error .linAlgError ∧ ∃ h, ¬ m.CoefOk h)) ∧
    r.2.t = (if storeData then [t0] else []) := by
  intro r
  obtain ⟨h1, h2, -⟩ := C96_adaptive_evolve m hc (nl' := fun _ => .ok g) (fun w hw => (hg w hw).symm) id pyDiv cfg fuel u hu t0 tf hInit
    storeData freq s
  have h3 := C93_adaptive_evolve m hm g pyDiv cfg fuel hfuel u t0 tf ht hInit storeData freq s
  simp only at h1 h2 h3
  rw [h1, h2] at h3
  exact h3

/-- `p' = 0`, `x' = -x + p²`: the first component is a parameter of the problem. -/
theorem demoParam_confined (p : ℂ) :
    Confined (LinearMap.ker (LinearMap.proj (R := ℂ) (φ := fun _ : Fin 2 => ℂ) 0)) ![p, 0] (Matrix.diagonal ![0, -1])
      (total fun w => ![0, w 0 ^ 2]) where
  keeps := fun w hw => by
    rw [LinearMap.mem_ker] at hw ⊢
    simp [mulVec_diagonal]
  centre := by
    rw [LinearMap.mem_ker]
    simp [mulVec_diagonal]
  values := fun w n _ hn => by
    rw [LinearMap.mem_ker]
    rw [← Except.ok.inj hn]
    simp

/-- ETD35 with its defaults cannot solve `p' = 0`, `x' = -x + p²` from `p = 2`, `x = 1`. -/
example (cfg : SolverConfig ℝ) (s : (ASSolver.etd35 ⟨1, 32, 1⟩ (.diag ![0, -1])).State) :
    ∀ v, ((ASSolver.etd35 ⟨1, 32, 1⟩ (.diag ![0, -1])).evolve (total fun w => ![0, w 0 ^ 2]) id false cfg 5 ![2, 1] 0 1 none true 1 s).1 ≠
      .ok v := by
  refine (C96_frozen (.etd35 ⟨1, 32, 1⟩ (.diag ![0, -1])) (by simp) (demoParam_confined 2) ![0, 4] (fun w hw => ?_) false cfg 5 (by norm_num)
    ![2, 1] (by rw [LinearMap.mem_ker]; simp) 0 1 one_pos none true 1 s).1
  have h0 : w 0 = 2 := sub_eq_zero.mp (show w 0 - 2 = 0 from hw)
  show Except.ok ![0, w 0 ^ 2] = _
  rw [h0]; norm_num

/-- The parameter keeps its value in every step of IF4 and IF45DP, whatever the step size, and in all that runs store. -/
example (s : (CSSolver.if4 (.diag ![0, -1])).State) (h : ℝ) (cfg : SolverConfig ℝ) (s' : (ASSolver.if45dp ![0, -1]).State) :
    (∀ v ∈ ((CSSolver.if4 (.diag ![0, -1])).evolve (total fun w => ![0, w 0 ^ 2]) id false 5 ![2, 1] 0 1 h true 1 s).2.u, v 0 = 2) ∧
    ∀ v ∈ ((ASSolver.if45dp ![0, -1]).evolve (total fun w => ![0, w 0 ^ 2]) id false cfg 5 ![2, 1] 0 1 none true 1 s').2.u, v 0 = 2 := by
  constructor
  · intro v hv
    have := (C96_evolve (.if4 (.diag ![0, -1])) (demoParam_confined 2) (fun _ _ => rfl) id false 5 ![2, 1]
      (by rw [LinearMap.mem_ker]; simp) 0 1 h true 1 s).2.2.2.2 v hv
    exact sub_eq_zero.mp (show v 0 - 2 = 0 from this)
  · intro v hv
    have := (C96_adaptive_evolve (.if45dp ![0, -1]) (demoParam_confined 2) (fun _ _ => rfl) id false cfg 5 ![2, 1]
      (by rw [LinearMap.mem_ker]; simp) 0 1 none true 1 s').2.2.2.2 v hv
    exact sub_eq_zero.mp (show v 0 - 2 = 0 from this)

/-- A step with `nl_func(p, x) = (0, p²)` is the step with the constant `(0, 4)`, at `p = 2`. -/
example (cfg : SolverConfig ℝ) :
    ((CSSolver.if4 (.diag ![0, -1])).step (fun _ => .ok ![0, 4]) ![2, 1] 1 (CSSolver.if4 (.diag ![0, -1])).new).1 =
      ((CSSolver.if4 (.diag ![0, -1])).step (total fun w => ![0, w 0 ^ 2]) ![2, 1] 1 (CSSolver.if4 (.diag ![0, -1])).new).1 ∧
    ((ASSolver.if45dp ![0, -1]).step (fun _ => .ok ![0, 4]) id cfg ![2, 1] 1 (ASSolver.if45dp ![0, -1]).new).1 =
      ((ASSolver.if45dp ![0, -1]).step (total fun w => ![0, w 0 ^ 2]) id cfg ![2, 1] 1 (ASSolver.if45dp ![0, -1]).new).1 := by
  have hn : ∀ w : Vec (Fin 2), w - ![2, 0] ∈ LinearMap.ker (LinearMap.proj (R := ℂ) (φ := fun _ : Fin 2 => ℂ) 0) →
      (fun _ => .ok ![0, 4] : NlFunc (Fin 2)) w = total (fun w => ![0, w 0 ^ 2]) w := fun w hw => by
    have h0 : w 0 = 2 := sub_eq_zero.mp (show w 0 - 2 = 0 from hw)
    show Except.ok ![0, 4] = Except.ok ![0, w 0 ^ 2]
    rw [h0]; norm_num
  exact ⟨(C96_step (.if4 (.diag ![0, -1])) (demoParam_confined 2) hn ![2, 1] (by rw [LinearMap.mem_ker]; simp) 1 zero_le_one).1,
    (C96_adaptive_step (.if45dp ![0, -1]) (demoParam_confined 2) hn id cfg ![2, 1] (by rw [LinearMap.mem_ker]; simp) 1 zero_le_one).1⟩

end Verif
