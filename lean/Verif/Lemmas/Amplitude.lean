import Verif.Lemmas.Relate
import Verif.Lemmas.Conj

/-!
# Multiplying the modes of an array by numbers
-/

set_option linter.unusedSectionVars false

namespace Verif

open Matrix

variable {ι : Type} [Fintype ι] [DecidableEq ι]

/-- `v'` is `v` with entry `i` multiplied by `p i`. -/
def timesRel (p : Vec ι) (v v' : Vec ι) : Prop := v' = p * v

theorem timesRel_linear (p : Vec ι) : RealLinear (timesRel p) where
  zero := by simp [timesRel]
  add := by rintro v w _ _ rfl rfl; simp [timesRel, mul_add]
  smul := by rintro r v _ rfl; simp [timesRel]

theorem timesRel_diagonal (p d : Vec ι) : MatRel (timesRel p) (diagonal d) (diagonal d) := ⟨by
  rintro v _ rfl
  funext i
  simp only [mulVec_diagonal, Pi.mul_apply]
  ring⟩

theorem timesRel_const (c : ℂ) (X : Mat ι) : MatRel (timesRel fun _ => c) X X := ⟨by
  rintro v _ rfl
  have : ∀ w : Vec ι, (fun _ => c) * w = c • w := fun w => rfl
  rw [timesRel, this, this, mulVec_smul]⟩

theorem LinOp.times_rel (p L : Vec ι) : (LinOp.diag L).Rel (timesRel p) (.diag L) where
  exp θ := by
    have : expm (LinOp.diag L).mat θ = diagonal fun i => Complex.exp (θ * L i) := expm_diagonal L θ
    rw [this]; exact timesRel_diagonal p _
  phi cfg h k c := timesRel_diagonal p _
  ok _ _ _ := Iff.rfl

theorem LinOp.const_rel (c : ℂ) (L : LinOp ι) : L.Rel (timesRel fun _ => c) L where
  exp _ := timesRel_const c _
  phi _ _ _ _ := timesRel_const c _
  ok _ _ _ := Iff.rfl

theorem CSSolver.times_rel (p : Vec ι) (m : CSSolver ι) {L : Vec ι} (hm : m.op = .diag L) : m.Rel (timesRel p) m := by
  rcases m with (L | L) | ⟨cfg, L | L⟩ | ⟨cfg, L | L⟩ <;> simp only [CSSolver.op, reduceCtorEq] at hm
  · exact .if4 (LinOp.times_rel p _)
  · exact .etd4 _ (LinOp.times_rel p _)
  · exact .etd5 _ (LinOp.times_rel p _)

theorem CSSolver.const_rel (c : ℂ) (m : CSSolver ι) : m.Rel (timesRel fun _ => c) m := by
  rcases m with L | ⟨cfg, L⟩ | ⟨cfg, L⟩
  · exact .if4 (LinOp.const_rel c _)
  · exact .etd4 _ (LinOp.const_rel c _)
  · exact .etd5 _ (LinOp.const_rel c _)

theorem ASSolver.times_rel (p : Vec ι) (m : ASSolver ι) {L : Vec ι} (hm : m.op = .diag L) : m.Rel (timesRel p) m := by
  have hL : ∀ L : Vec ι, (ASOp.diag L).Rel (timesRel p) (.diag L) := fun L => ⟨LinOp.times_rel p L, fun _ _ h => h, fun _ _ h => h⟩
  rcases m with (L | L | ⟨l, S, T, hS⟩) | ⟨cfg, L | L | ⟨l, S, T, hS⟩⟩ | ⟨cfg, L | L | ⟨l, S, T, hS⟩⟩ | L <;>
    simp only [ASSolver.op, reduceCtorEq] at hm
  · exact .if34 (hL _)
  · exact .etd34 _ (hL _)
  · exact .etd35 _ (hL _)
  · exact .if45dp (hL _)

theorem ASOp.const_rel (c : ℂ) (L : ASOp ι) : L.Rel (timesRel fun _ => c) L := by
  refine ⟨LinOp.const_rel c _, fun w w' h => ?_, fun w w' h => ?_⟩
  · cases L with
    | eig l S T hS => exact (timesRel_const c S).app w w' h
    | _ => exact h
  · cases L with
    | eig l S T hS => exact (timesRel_const c T).app w w' h
    | _ => exact h

theorem ASSolver.const_rel (c : ℂ) (m : ASSolver ι) : m.Rel (timesRel fun _ => c) m := by
  rcases m with L | ⟨cfg, L⟩ | ⟨cfg, L⟩ | L
  · exact .if34 (ASOp.const_rel c _)
  · exact .etd34 _ (ASOp.const_rel c _)
  · exact .etd35 _ (ASOp.const_rel c _)
  · exact .if45dp (ASOp.const_rel c _)

/-- The error factor compares the error with the solution: both multiplied alike, it stays. -/
theorem computeS_times {ρ : ℝ} (hρ : 0 < ρ) (q : ℕ) (cfg : SolverConfig ℝ) (u err u' err' : Vec ι)
    (hu : ∀ k, ‖u' k‖ = ρ * ‖u k‖) (he : ∀ k, ‖err' k‖ = ρ * ‖err k‖) :
    computeS q cfg u' err' = computeS q cfg u err := by
  have hmx : (⨆ k, ‖u' k‖) = ρ * ⨆ i, ‖u i‖ := by
    simp only [hu]
    rw [Real.mul_iSup_of_nonneg hρ.le]
  have hn : ∀ (idx idx' : ι → Prop) [DecidablePred idx] [DecidablePred idx'] (w w' : Vec ι), (∀ i, idx' i ↔ idx i) →
      (∀ k, ‖w' k‖ = ρ * ‖w k‖) → maskedNorm idx' w' = ρ * maskedNorm idx w := by
    intro idx idx' _ _ w w' hi hw
    unfold maskedNorm
    rw [← Real.sqrt_sq hρ.le, ← Real.sqrt_mul (sq_nonneg ρ), Finset.mul_sum]
    congr 1
    refine Finset.sum_congr rfl fun k _ => ?_
    by_cases hk : idx k
    · rw [if_pos hk, if_pos ((hi k).mpr hk), hw, mul_pow]
    · rw [if_neg hk, if_neg (fun h => hk ((hi k).mp h)), mul_zero]
  have hidx : ∀ i, ((⨆ k, ‖u' k‖) ≠ 0 ∧ cfg.adapt_cutoff < ‖u' i‖ / ⨆ k, ‖u' k‖) ↔
      ((⨆ k, ‖u k‖) ≠ 0 ∧ cfg.adapt_cutoff < ‖u i‖ / ⨆ k, ‖u k‖) := by
    intro i
    rw [hmx, hu, mul_div_mul_left _ _ hρ.ne', mul_ne_zero_iff]
    simp [hρ.ne']
  unfold computeS
  simp only
  rw [hn _ _ u u' hidx hu, hn _ _ err err' hidx he]
  congr 2
  set a := maskedNorm (open Classical in fun i => (⨆ k, ‖u k‖) ≠ 0 ∧ cfg.adapt_cutoff < ‖u i‖ / ⨆ k, ‖u k‖) u
  set b := maskedNorm (open Classical in fun i => (⨆ k, ‖u k‖) ≠ 0 ∧ cfg.adapt_cutoff < ‖u i‖ / ⨆ k, ‖u k‖) err
  unfold npDiv
  rw [show cfg.epsilon * (ρ * a) = ρ * (cfg.epsilon * a) by ring]
  simp only [mul_eq_zero, hρ.ne', false_or, mul_pos_iff_of_pos_left hρ, mul_div_mul_left _ _ hρ.ne']

/-- Entry `k` of `v'` has `ρ` times the size of entry `k` of `v`. -/
theorem timesRel_norm {p : Vec ι} {ρ : ℝ} (hp : ∀ i, ‖p i‖ = ρ) (v v' : Vec ι) (h : timesRel p v v') (k : ι) :
    ‖v' k‖ = ρ * ‖v k‖ := by
  rw [h, Pi.mul_apply, norm_mul, hp]

variable {p : Vec ι} {ρ : ℝ}

theorem ASSolver.factor_times (hρ : 0 < ρ) (hp : ∀ i, ‖p i‖ = ρ) (m : ASSolver ι) (nl nl' : NlFunc ι) (cfg : SolverConfig ℝ)
    (r r' : Vec ι × Vec ι) (hr : timesRel p r.1 r'.1 ∧ timesRel p r.2 r'.2) : m.factor nl cfg r = m.factor nl' cfg r' := by
  rw [factor_computeS, factor_computeS]
  exact (computeS_times hρ _ cfg _ _ _ _ (timesRel_norm hp _ _ hr.1) (timesRel_norm hp _ _ hr.2)).symm

theorem timesRel_nl {nl nl' : NlFunc ι} (hnl : ∀ w, nl' (p * w) = (nl w).map (p * ·)) (w w' : Vec ι) (hw : timesRel p w w') :
    RelE (timesRel p) (nl w) (nl' w') := by
  cases hw
  rw [hnl]
  cases nl w <;> exact rfl

theorem CSSolver.step_times {m : CSSolver ι} (hm : m.Rel (timesRel p) m) {nl nl' : NlFunc ι}
    (hnl : ∀ w, nl' (p * w) = (nl w).map (p * ·)) (h : ℝ) (u : Vec ι) {s s' : m.State}
    (hi : (m.lawful nl).Inv s.sub u) (hi' : (m.lawful nl').Inv s'.sub (p * u)) :
    (m.step nl' (p * u) h s').1 = (m.step nl u h s).1.map (p * ·) :=
  (CSSolver.step_rel (timesRel_linear p) hm (timesRel_nl hnl) h u (p * u) rfl hi hi').eq_map

theorem CSSolver.evolve_times {m : CSSolver ι} (hm : m.Rel (timesRel p) m) {nl nl' : NlFunc ι}
    (hnl : ∀ w, nl' (p * w) = (nl w).map (p * ·)) (rnd : ℝ → ℝ) (pyDiv : Bool) (fuel : ℕ) (u : Vec ι) (t0 tf h : ℝ)
    (storeData : Bool) (freq : ℤ) (s s' : m.State) :
    (m.evolve nl' rnd pyDiv fuel (p * u) t0 tf h storeData freq s').1 =
      (m.evolve nl rnd pyDiv fuel u t0 tf h storeData freq s).1.map (Option.map (p * ·)) ∧
    (m.evolve nl' rnd pyDiv fuel (p * u) t0 tf h storeData freq s').2.t =
      (m.evolve nl rnd pyDiv fuel u t0 tf h storeData freq s).2.t ∧
    (m.evolve nl' rnd pyDiv fuel (p * u) t0 tf h storeData freq s').2.u =
      (m.evolve nl rnd pyDiv fuel u t0 tf h storeData freq s).2.u.map (p * ·) := by
  have := CSSolver.evolve_rel (timesRel_linear p) hm (timesRel_nl hnl) rnd pyDiv fuel u (p * u) t0 tf h storeData freq s s' rfl
  exact ⟨(this.1.mono fun a b h => RelO.eq_map h).eq_map, this.2.1.symm, forall2_eq_map this.2.2⟩

theorem ASSolver.step_times (hρ : 0 < ρ) (hp : ∀ i, ‖p i‖ = ρ) {m : ASSolver ι} (hm : m.Rel (timesRel p) m) {nl nl' : NlFunc ι}
    (hnl : ∀ w, nl' (p * w) = (nl w).map (p * ·)) (rnd : ℝ → ℝ) (cfg : SolverConfig ℝ) (h : ℝ) (u : Vec ι) {s s' : m.State}
    (hi : (m.lawful nl).Ready s.sub s.accept u) (hi' : (m.lawful nl').Ready s'.sub s'.accept (p * u)) :
    (m.step nl' rnd cfg (p * u) h s').1 = (m.step nl rnd cfg u h s).1.map fun r => (p * r.1, r.2) := by
  have := ASClass.step_rel (m.lawful nl) (m.lawful nl') (timesRel p) (fun r r' => timesRel p r.1 r'.1 ∧ timesRel p r.2 r'.2)
    (fun _ _ h => h.1) (fun h u u' hu => oneTrial_rel (timesRel_linear p) hm (timesRel_nl hnl) h u u' hu) rnd cfg
    (m.factor_times hρ hp nl nl' cfg) u (p * u) h s s' rfl hi hi'
  exact (this.mono fun a b h => (Prod.ext h.1 h.2.symm : b = (fun r => (p * r.1, r.2)) a)).eq_map

theorem ASSolver.evolve_times (hρ : 0 < ρ) (hp : ∀ i, ‖p i‖ = ρ) {m : ASSolver ι} (hm : m.Rel (timesRel p) m) {nl nl' : NlFunc ι}
    (hnl : ∀ w, nl' (p * w) = (nl w).map (p * ·)) (rnd : ℝ → ℝ) (pyDiv : Bool) (cfg : SolverConfig ℝ) (fuel : ℕ) (u : Vec ι)
    (t0 tf : ℝ) (hInit : Option ℝ) (storeData : Bool) (freq : ℤ) (s s' : m.State) :
    (m.evolve nl' rnd pyDiv cfg fuel (p * u) t0 tf hInit storeData freq s').1 =
      (m.evolve nl rnd pyDiv cfg fuel u t0 tf hInit storeData freq s).1.map (Option.map (p * ·)) ∧
    (m.evolve nl' rnd pyDiv cfg fuel (p * u) t0 tf hInit storeData freq s').2.t =
      (m.evolve nl rnd pyDiv cfg fuel u t0 tf hInit storeData freq s).2.t ∧
    (m.evolve nl' rnd pyDiv cfg fuel (p * u) t0 tf hInit storeData freq s').2.u =
      (m.evolve nl rnd pyDiv cfg fuel u t0 tf hInit storeData freq s).2.u.map (p * ·) := by
  have := ASClass.evolve_rel (m.lawful nl) (m.lawful nl') (timesRel p) (fun r r' => timesRel p r.1 r'.1 ∧ timesRel p r.2 r'.2)
    (fun _ _ h => h.1) (fun h u u' hu => oneTrial_rel (timesRel_linear p) hm (timesRel_nl hnl) h u u' hu) rnd pyDiv cfg
    (m.factor_times hρ hp nl nl' cfg) fuel u (p * u) t0 tf hInit storeData freq s s' rfl
  exact ⟨(this.1.mono fun a b h => RelO.eq_map h).eq_map, this.2.1.symm, forall2_eq_map this.2.2⟩

end Verif
