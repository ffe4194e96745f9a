import Verif.Lemmas.FloatPsi

/-!
# Both branches of the coefficient computation are near the exact `φ` functions
-/

set_option linter.unusedSectionVars false

namespace Verif

open Asymptotics Filter

variable {T : Type} {l : Filter T} {A : T → CArith} {ρ g : T → ℝ} {N : T → ℕ}

theorem FlNear.sup {l' : Filter T} {x' : ∀ t, Fl (A t)} {x : T → ℂ} (h1 : FlNear l A g x' x) (h2 : FlNear l' A g x' x) :
    FlNear (l ⊔ l') A g x' x := ⟨h1.bdd.sup h2.bdd, h1.err.sup h2.err⟩

theorem FlNear.congr_left {x' y' : ∀ t, Fl (A t)} {x : T → ℂ} (h1 : FlNear l A g x' x) (h : ∀ᶠ t in l, x' t = y' t) : FlNear l A g y' x :=
  ⟨h1.bdd, h1.err.congr' (h.mono fun t ht => by simp only [ht]) EventuallyEq.rfl⟩

namespace NearPsis

variable {p' q' : ∀ t, Psis (Fl (A t))} {p : T → Psis ℂ}

theorem sup {l' : Filter T} (h1 : NearPsis l A g p' p) (h2 : NearPsis l' A g p' p) : NearPsis (l ⊔ l') A g p' p :=
  ⟨h1.psi1_14.sup h2.psi1_14, h1.psi2_14.sup h2.psi2_14, h1.psi1_12.sup h2.psi1_12, h1.psi2_12.sup h2.psi2_12,
    h1.psi1_34.sup h2.psi1_34, h1.psi2_34.sup h2.psi2_34, h1.psi1_1.sup h2.psi1_1, h1.psi2_1.sup h2.psi2_1, h1.psi3_1.sup h2.psi3_1⟩

theorem congr_left (h1 : NearPsis l A g p' p) (h : ∀ᶠ t in l, p' t = q' t) : NearPsis l A g q' p :=
  ⟨h1.psi1_14.congr_left (h.mono fun t ht => by rw [ht]), h1.psi2_14.congr_left (h.mono fun t ht => by rw [ht]),
    h1.psi1_12.congr_left (h.mono fun t ht => by rw [ht]), h1.psi2_12.congr_left (h.mono fun t ht => by rw [ht]),
    h1.psi1_34.congr_left (h.mono fun t ht => by rw [ht]), h1.psi2_34.congr_left (h.mono fun t ht => by rw [ht]),
    h1.psi1_1.congr_left (h.mono fun t ht => by rw [ht]), h1.psi2_1.congr_left (h.mono fun t ht => by rw [ht]),
    h1.psi3_1.congr_left (h.mono fun t ht => by rw [ht])⟩

theorem mono {g' : T → ℝ} (h1 : NearPsis l A g p' p) (h : g =O[l] g') : NearPsis l A g' p' p :=
  ⟨h1.psi1_14.mono h, h1.psi2_14.mono h, h1.psi1_12.mono h, h1.psi2_12.mono h, h1.psi1_34.mono h, h1.psi2_34.mono h,
    h1.psi1_1.mono h, h1.psi2_1.mono h, h1.psi3_1.mono h⟩

/-- Replacing the `φ` functions by others that are close. -/
theorem change (hf : Fine l A ρ g) {h : T → ℝ} (hh : (fun t => (h t : ℂ)) =O[l] (1 : T → ℝ)) {φ φ' : T → ℕ → ℝ → ℂ}
    (h1 : NearPsis l A g p' (fun t => Psis.ofPhi (φ t) (h t)))
    (hφ : ∀ k c, 0 < c → c ≤ 1 → (fun t => φ t k c - φ' t k c) =O[l] g) : NearPsis l A g p' (fun t => Psis.ofPhi (φ' t) (h t)) := by
  have key : ∀ (a : ℂ) (k : ℕ) (c : ℝ), 0 < c → c ≤ 1 → (fun t => h t * (a * φ t k c) - h t * (a * φ' t k c)) =O[l] g := by
    intro a k c c0 c1
    have := hh.mul ((hφ k c c0 c1).const_mul_left a)
    exact (this.congr_right fun t => one_mul _).congr_left fun t => by ring
  have key1 : ∀ (k : ℕ) (c : ℝ), 0 < c → c ≤ 1 → (fun t => h t * φ t k c - h t * φ' t k c) =O[l] g := by
    intro k c c0 c1
    exact (key 1 k c c0 c1).congr_left fun t => by rw [one_mul, one_mul]
  exact ⟨h1.psi1_14.congr_right hf (key1 _ _ (by norm_num) (by norm_num)), h1.psi2_14.congr_right hf (key _ _ _ (by norm_num) (by norm_num)),
    h1.psi1_12.congr_right hf (key1 _ _ (by norm_num) (by norm_num)), h1.psi2_12.congr_right hf (key _ _ _ (by norm_num) (by norm_num)),
    h1.psi1_34.congr_right hf (key1 _ _ (by norm_num) (by norm_num)), h1.psi2_34.congr_right hf (key _ _ _ (by norm_num) (by norm_num)),
    h1.psi1_1.congr_right hf (key1 _ _ (by norm_num) (by norm_num)), h1.psi2_1.congr_right hf (key _ _ _ (by norm_num) (by norm_num)),
    h1.psi3_1.congr_right hf (key _ _ _ (by norm_num) (by norm_num))⟩

end NearPsis

theorem Fine.mono_filter {l' : Filter T} (hf : Fine l A ρ g) (h : l' ≤ l) : Fine l' A ρ g :=
  ⟨fun R => (hf.within R).filter_mono h, hf.nonneg.filter_mono h, hf.le.mono h, hf.one.mono h⟩

theorem Long.mono_filter {l' : Filter T} (hf : Long l A ρ N g) (h : l' ≤ l) : Long l' A ρ N g :=
  ⟨hf.fine.mono_filter h, hf.pos.filter_mono h, fun R => (hf.within R).filter_mono h, hf.mul_le.mono h, hf.le_one.filter_mono h⟩

/-- The bound for the errors: rounding, and the difference between the two branches. -/
noncomputable def gap (N : T → ℕ) (ρ : T → ℝ) (t : T) : ℝ := N t * ρ t + (1 / 2) ^ N t

theorem phiMode_gap (hf : Fine l A ρ g) (hN : ∀ᶠ t in l, 0 < N t) {cut R : ℝ} (hcut : 0 < cut) (hR : cut ≤ R) (z : T → ℂ) (k : ℕ) (c : ℝ)
    (hc : 0 < c) (hc1 : c ≤ 1) : (fun t => phiMode cut R (N t) k c (z t) - phi k (c * z t)) =O[l] gap N ρ := by
  refine IsBigO.of_bound (Real.exp (cut + R / (1 / 2)) / (1 - 1 / 2)) ?_
  filter_upwards [hN, hf.nonneg] with t h1 h2
  have h3 := C29_geometric h1 hcut hR k c hc hc1 (z t) (q := 1 / 2) (by norm_num) (by norm_num)
  have h4 : (0 : ℝ) ≤ N t * ρ t := by positivity
  have h5 : (1 / 2 : ℝ) ^ N t ≤ ‖gap N ρ t‖ := by
    rw [gap, Real.norm_of_nonneg (by positivity)]; linarith
  refine h3.trans ?_
  rw [div_mul_eq_mul_div, mul_div_assoc]
  exact mul_le_mul_of_nonneg_left (div_le_div_of_nonneg_right h5 (by norm_num)) (Real.exp_pos _).le

/-- The computed `ψ` values of one mode are near those of the model, whichever branch the computed mode falls into. -/
theorem psis_near {g : T → ℝ} (hf : Long l A ρ N g) (hg : Tendsto g l (nhds 0)) (hgG : g =O[l] gap N ρ) (cfg : ETDConfig ℝ) {h : T → ℝ}
    {z' : ∀ t, Fl (A t)} {z : T → ℂ} (hh : (fun t => (h t : ℂ)) =O[l] (1 : T → ℝ)) (hz : FlNear l A g z' z)
    (hcut : 0 < cfg.modecutoff) (hR : cfg.modecutoff < cfg.contour_radius) :
    NearPsis l A (gap N ρ) (fun t => Fl.psis (cfg.withPoints (N t)) (Fl.averages (cfg.withPoints (N t))) (Fl.lit (h t : ℂ)) (z' t))
      (fun t => Psis.ofPhi (fun k c => (cfg.withPoints (N t)).phiM k c (z t)) (h t)) ∧
    NearPsis l A (gap N ρ) (fun t => Fl.psis (cfg.withPoints (N t)) (Fl.averages35 (cfg.withPoints (N t))) (Fl.lit (h t : ℂ)) (z' t))
      (fun t => Psis.ofPhi (fun k c => (cfg.withPoints (N t)).phiM k c (z t)) (h t)) := by
  have hR0 : 0 < cfg.contour_radius := hcut.trans hR
  set cut' := (cfg.modecutoff + cfg.contour_radius) / 2 with hcut'
  have hG : Fine l A ρ (gap N ρ) := by
    refine ⟨hf.fine.within, hf.fine.nonneg, hf.fine.le.trans hgG, ?_⟩
    refine IsBigO.of_bound 2 ?_
    filter_upwards [hf.le_one, hf.fine.nonneg] with t h1 h2
    rw [gap, Real.norm_of_nonneg (by positivity), Pi.one_apply, norm_one]
    have : (1 / 2 : ℝ) ^ N t ≤ 1 := pow_le_one₀ (by norm_num) (by norm_num)
    linarith
  -- the computed absolute value is near the exact one
  have habs : Tendsto (fun t => (A t).abs (z' t).val - ‖z t‖) l (nhds 0) := by
    have h1 : (fun t => (A t).abs (z' t).val - ‖z t‖) =O[l] g := by
      obtain ⟨B, hB, hb⟩ := FlNear.exists_le (hz.bdd' hf.fine)
      have e1 : (fun t => (A t).abs (z' t).val - ‖(z' t).val‖) =O[l] ρ := by
        refine IsBigO.of_bound (1 + B) ?_
        filter_upwards [hb, hf.fine.within B, hf.fine.nonneg] with t h1 h2 h3
        rw [Real.norm_eq_abs, Real.norm_of_nonneg h3, mul_comm]
        exact (h2.abs _ h1).trans (mul_le_mul_of_nonneg_left (by linarith) h3)
      have e2 : (fun t => ‖(z' t).val‖ - ‖z t‖) =O[l] g := by
        refine IsBigO.trans (IsBigO.of_bound 1 (Eventually.of_forall fun t => ?_)) hz.err
        rw [Real.norm_eq_abs, one_mul]
        exact abs_norm_sub_norm_le _ _
      exact ((e1.trans hf.fine.le).add e2).congr_left fun t => by ring
    exact h1.trans_tendsto hg
  have hclose : ∀ δ : ℝ, 0 < δ → ∀ᶠ t in l, |(A t).abs (z' t).val - ‖z t‖| < δ := by
    intro δ hδ
    have := habs.abs
    rw [abs_zero] at this
    exact this.eventually (gt_mem_nhds hδ)
  set S : Set T := {t | (A t).abs (z' t).val < cfg.modecutoff} with hS
  have hsplit : l = (l ⊓ 𝓟 S) ⊔ (l ⊓ 𝓟 Sᶜ) := by
    rw [← inf_sup_left, sup_principal, Set.union_compl_self, principal_univ, inf_top_eq]
  have hl1 : l ⊓ 𝓟 S ≤ l := inf_le_left
  have hl2 : l ⊓ 𝓟 Sᶜ ≤ l := inf_le_left
  -- modes taken for big ones
  have hbig : ∀ᶠ t in l ⊓ 𝓟 Sᶜ, cfg.modecutoff / 2 ≤ ‖z t‖ := by
    rw [eventually_inf_principal]
    filter_upwards [hclose (cfg.modecutoff / 2) (by positivity)] with t h1 h2
    have h3 : cfg.modecutoff ≤ (A t).abs (z' t).val := not_lt.1 h2
    have := (abs_lt.1 h1).2
    linarith
  have hsmall : ∀ᶠ t in l ⊓ 𝓟 S, ‖z t‖ < cut' := by
    rw [eventually_inf_principal]
    filter_upwards [hclose ((cfg.contour_radius - cfg.modecutoff) / 2) (by linarith)] with t h1 h2
    have h3 : (A t).abs (z' t).val < cfg.modecutoff := h2
    have := (abs_lt.1 h1).1
    linarith
  have hd := (((direct_near (hf.fine.mono_filter hl2) (hg.mono_left hl2) (hh.mono hl2) (hz.mono_filter hl2) (half_pos hcut) hbig).mono
    (hgG.mono hl2)).change (hG.mono_filter hl2) (hh.mono hl2) (φ' := fun t k c => (cfg.withPoints (N t)).phiM k c (z t)) fun k c c0 c1 =>
      ((phiMode_gap (hf.fine.mono_filter hl2) (hf.pos.filter_mono hl2) (cut := cfg.modecutoff) (R := cfg.contour_radius) hcut hR.le z k c c0
        c1).neg_left).congr_left fun t => by
          rw [neg_sub]
          simp [ETDConfig.phiM, ETDConfig.withPoints, ETDConfig.npts])
  have hswap : ∀ k c, 0 < c → c ≤ 1 → (fun t => phiMode cut' cfg.contour_radius (N t) k c (z t) - (cfg.withPoints (N t)).phiM k c (z t))
      =O[l ⊓ 𝓟 S] gap N ρ := by
    intro k c c0 c1
    have h1 := phiMode_gap (hf.fine.mono_filter hl1) (hf.pos.filter_mono hl1) (cut := cut') (R := cfg.contour_radius)
      (by linarith) (by linarith) z k c c0 c1
    have h2 := phiMode_gap (hf.fine.mono_filter hl1) (hf.pos.filter_mono hl1) (cut := cfg.modecutoff) (R := cfg.contour_radius)
      hcut hR.le z k c c0 c1
    exact (h1.sub h2).congr_left fun t => by
      simp [ETDConfig.phiM, ETDConfig.withPoints, ETDConfig.npts]
  have ha := averages_near (hf.mono_filter hl1) (hg.mono_left hl1) cfg (hh.mono hl1) (hz.mono_filter hl1) (cut := cut')
    (by linarith) hR0 hsmall
  have ha1 := (ha.1.mono (hgG.mono hl1)).change (hG.mono_filter hl1) (hh.mono hl1) hswap
  have ha2 := (ha.2.mono (hgG.mono hl1)).change (hG.mono_filter hl1) (hh.mono hl1) hswap
  have ein : ∀ (small : ∀ t, Fl (A t) → Fl (A t) → Psis (Fl (A t))), ∀ᶠ t in l ⊓ 𝓟 S, small t (Fl.lit (h t : ℂ)) (z' t) =
      Fl.psis (cfg.withPoints (N t)) (small t) (Fl.lit (h t : ℂ)) (z' t) := fun small => by
    rw [eventually_inf_principal]
    exact Eventually.of_forall fun t ht => (if_pos ht).symm
  have eout : ∀ (small : ∀ t, Fl (A t) → Fl (A t) → Psis (Fl (A t))), ∀ᶠ t in l ⊓ 𝓟 Sᶜ, Fl.direct (Fl.lit (h t : ℂ)) (z' t) =
      Fl.psis (cfg.withPoints (N t)) (small t) (Fl.lit (h t : ℂ)) (z' t) := fun small => by
    rw [eventually_inf_principal]
    exact Eventually.of_forall fun t ht => (if_neg ht).symm
  rw [hsplit]
  exact ⟨(ha1.congr_left (ein fun t => Fl.averages (cfg.withPoints (N t)))).sup (hd.congr_left (eout _)),
    (ha2.congr_left (ein fun t => Fl.averages35 (cfg.withPoints (N t)))).sup (hd.congr_left (eout _))⟩

end Verif
