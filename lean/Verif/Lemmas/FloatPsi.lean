import Verif.Lemmas.FloatMean
import Verif.Props.ContourBounds
import Verif.Lemmas.LawETD4
import Verif.Spec.Limit

/-!
# Rounding errors of the `ψ` functions and of their means over the contour
-/

set_option linter.unusedSectionVars false

namespace Verif

open Asymptotics Filter

variable {T : Type} {l : Filter T} {A : T → CArith} {ρ g : T → ℝ} {N : T → ℕ}

namespace FlNear

variable {x' : ∀ t, Fl (A t)} {x y : T → ℂ}

theorem congr_right (hf : Fine l A ρ g) (hx : FlNear l A g x' x) (h : (fun t => x t - y t) =O[l] g) : FlNear l A g x' y :=
  ⟨by simpa using hx.bdd.sub (h.trans hf.one), (hx.err.add h).congr_left fun t => by ring⟩

theorem congr_eq (hx : FlNear l A g x' x) (h : ∀ᶠ t in l, x t = y t) : FlNear l A g x' y :=
  ⟨hx.bdd.congr' h EventuallyEq.rfl, hx.err.congr' (h.mono fun t ht => by simp only [ht]) EventuallyEq.rfl⟩

theorem psi1 (hf : Fine l A ρ g) (hg : Tendsto g l (nhds 0)) (hx : FlNear l A g x' x) {δ : ℝ} (hδ : 0 < δ) (h0 : ∀ᶠ t in l, δ ≤ ‖x t‖) :
    FlNear l A g (fun t => Fl.psi1 (x' t)) (fun t => Verif.psi1 (x t)) :=
  ((hx.exp hf).sub hf (num_one hf)).div_away hf hg hx hδ h0

theorem psi2 (hf : Fine l A ρ g) (hg : Tendsto g l (nhds 0)) (hx : FlNear l A g x' x) {δ : ℝ} (hδ : 0 < δ) (h0 : ∀ᶠ t in l, δ ≤ ‖x t‖) :
    FlNear l A g (fun t => Fl.psi2 (x' t)) (fun t => Verif.psi2 (x t)) :=
  ((num hf 2).mul hf (((hx.exp hf).sub hf (num_one hf)).sub hf hx)).div_away hf hg (hx.pow hf (n := 2) (by norm_num)) (pow_pos hδ 2)
    (h0.mono fun t ht => by rw [norm_pow]; exact pow_le_pow_left₀ hδ.le ht 2)

theorem psi3 (hf : Fine l A ρ g) (hg : Tendsto g l (nhds 0)) (hx : FlNear l A g x' x) {δ : ℝ} (hδ : 0 < δ) (h0 : ∀ᶠ t in l, δ ≤ ‖x t‖) :
    FlNear l A g (fun t => Fl.psi3 (x' t)) (fun t => Verif.psi3 (x t)) :=
  ((num hf 6).mul hf ((((hx.exp hf).sub hf (num_one hf)).sub hf hx).sub hf ((hx.pow hf (n := 2) (by norm_num)).div_num hf 2))).div_away
    hf hg (hx.pow hf (n := 3) le_rfl) (pow_pos hδ 3) (h0.mono fun t ht => by rw [norm_pow]; exact pow_le_pow_left₀ hδ.le ht 3)

end FlNear

/-- The nine values are computed up to `O(g)`. -/
structure NearPsis (l : Filter T) (A : T → CArith) (g : T → ℝ) (p' : ∀ t, Psis (Fl (A t))) (p : T → Psis ℂ) : Prop where
  psi1_14 : FlNear l A g (fun t => (p' t).psi1_14) (fun t => (p t).psi1_14)
  psi2_14 : FlNear l A g (fun t => (p' t).psi2_14) (fun t => (p t).psi2_14)
  psi1_12 : FlNear l A g (fun t => (p' t).psi1_12) (fun t => (p t).psi1_12)
  psi2_12 : FlNear l A g (fun t => (p' t).psi2_12) (fun t => (p t).psi2_12)
  psi1_34 : FlNear l A g (fun t => (p' t).psi1_34) (fun t => (p t).psi1_34)
  psi2_34 : FlNear l A g (fun t => (p' t).psi2_34) (fun t => (p t).psi2_34)
  psi1_1 : FlNear l A g (fun t => (p' t).psi1_1) (fun t => (p t).psi1_1)
  psi2_1 : FlNear l A g (fun t => (p' t).psi2_1) (fun t => (p t).psi2_1)
  psi3_1 : FlNear l A g (fun t => (p' t).psi3_1) (fun t => (p t).psi3_1)

/-- Nine values that belong to `φ₁`, `2 φ₂` and `6 φ₃`. -/
noncomputable def Psis.ofPhi (φ : ℕ → ℝ → ℂ) (h : ℝ) : Psis ℂ where
  psi1_14 := h * φ 1 (1 / 4)
  psi2_14 := h * (2 * φ 2 (1 / 4))
  psi1_12 := h * φ 1 (1 / 2)
  psi2_12 := h * (2 * φ 2 (1 / 2))
  psi1_34 := h * φ 1 (3 / 4)
  psi2_34 := h * (2 * φ 2 (3 / 4))
  psi1_1 := h * φ 1 1
  psi2_1 := h * (2 * φ 2 1)
  psi3_1 := h * (6 * φ 3 1)

theorem direct_near (hf : Fine l A ρ g) (hg : Tendsto g l (nhds 0)) {h : T → ℝ} {z' : ∀ t, Fl (A t)} {z : T → ℂ}
    (hh : (fun t => (h t : ℂ)) =O[l] (1 : T → ℝ)) (hz : FlNear l A g z' z) {δ : ℝ} (hδ : 0 < δ) (h0 : ∀ᶠ t in l, δ ≤ ‖z t‖) :
    NearPsis l A g (fun t => Fl.direct (Fl.lit (h t : ℂ)) (z' t)) (fun t => Psis.ofPhi (fun k c => phi k (c * z t)) (h t)) := by
  have hl := FlNear.lit (A := A) hf hh
  have hne : ∀ᶠ t in l, z t ≠ 0 := h0.mono fun t ht h => by rw [h, norm_zero] at ht; linarith
  have key : ∀ (c : ℝ) (hc : 0 < c) (y' : ∀ t, Fl (A t)) (y : T → ℂ), FlNear l A g y' y → (∀ t, y t = c * z t) →
      FlNear l A g (fun t => Fl.lit (h t : ℂ) * Fl.psi1 (y' t)) (fun t => h t * phi 1 (c * z t)) ∧
      FlNear l A g (fun t => Fl.lit (h t : ℂ) * Fl.psi2 (y' t)) (fun t => h t * (2 * phi 2 (c * z t))) ∧
      FlNear l A g (fun t => Fl.lit (h t : ℂ) * Fl.psi3 (y' t)) (fun t => h t * (6 * phi 3 (c * z t))) := by
    intro c hc y' y hy he
    have h1 : ∀ᶠ t in l, c * δ ≤ ‖y t‖ := h0.mono fun t ht => by
      rw [he, norm_mul, Complex.norm_real, Real.norm_of_nonneg hc.le]; exact mul_le_mul_of_nonneg_left ht hc.le
    have h2 : ∀ t, z t ≠ 0 → (c : ℂ) * z t ≠ 0 := fun t ht => mul_ne_zero (by exact_mod_cast hc.ne') ht
    refine ⟨?_, ?_, ?_⟩
    · exact (hl.mul hf (hy.psi1 hf hg (mul_pos hc hδ) h1)).congr_eq (hne.mono fun t ht => by
        rw [he, psi1_eq, phi_eq_phiDiv _ (h2 t ht)])
    · exact (hl.mul hf (hy.psi2 hf hg (mul_pos hc hδ) h1)).congr_eq (hne.mono fun t ht => by
        rw [he, psi2_eq, phi_eq_phiDiv _ (h2 t ht)])
    · exact (hl.mul hf (hy.psi3 hf hg (mul_pos hc hδ) h1)).congr_eq (hne.mono fun t ht => by
        rw [he, psi3_eq, phi_eq_phiDiv _ (h2 t ht)])
  have k4 := key (1 / 4) (by norm_num) _ _ (hz.div_num hf 4) fun t => quarter_mul _
  have k2 := key (1 / 2) (by norm_num) _ _ (hz.div_num hf 2) fun t => half_mul _
  have k3 := key (3 / 4) (by norm_num) _ _ (((FlNear.num hf 3).mul hf hz).div_num hf 4) fun t => three_quarter_mul _
  have k1 := key 1 one_pos _ _ hz fun t => one_mul' _
  exact ⟨k4.1, k4.2.1, k2.1, k2.2.1, k3.1, k3.2.1, k1.1, k1.2.1, k1.2.2⟩

theorem Long.below (hf : Long l A ρ N g) :
    Long (Verif.below l N) (fun p => A p.1) (fun p => ρ p.1) (fun p => N p.1) (fun p => g p.1) where
  fine := hf.fine.below
  pos := tendsto_below.eventually hf.pos
  within R := tendsto_below.eventually (hf.within R)
  mul_le := hf.mul_le.comp_tendsto tendsto_below
  le_one := tendsto_below.eventually hf.le_one

theorem point_near (hf : Long l A ρ N g) (cfg : ETDConfig ℝ) :
    FlNear (below l N) (fun p => A p.1) (fun p => g p.1) (fun p => Fl.point (cfg.withPoints (N p.1)) p.2)
      (fun p => node cfg.contour_radius (N p.1) p.2) := by
  have hb := hf.below
  have htau : FlNear (below l N) (fun p => A p.1) (fun p => g p.1) (fun p => Fl.lit (A p.1).tau)
      (fun _ => 2 * Real.pi * Complex.I) := by
    refine ⟨isBigO_const_const _ (one_ne_zero (α := ℝ)) _, ?_⟩
    have : (fun p : T × ℕ => (A p.1).tau - 2 * Real.pi * Complex.I) =O[below l N] fun p => ρ p.1 :=
      FlNear.round hb.fine (1 + 2 * Real.pi) ((hb.fine.within 0).mono fun p hp => hp.tau)
    exact this.trans hb.fine.le
  have hk : (fun p : T × ℕ => ((p.2 : ℂ) + 1 / 2)) =O[below l N] fun p => (N p.1 : ℝ) := by
    refine IsBigO.of_bound 2 (eventually_below.2 (hf.pos.mono fun t ht k hk => ?_))
    have h1 : ‖((k : ℂ) + 1 / 2)‖ ≤ k + 1 / 2 := by
      refine (norm_add_le _ _).trans ?_
      rw [Complex.norm_natCast]; norm_num
    have h2 : (k : ℝ) + 1 ≤ N t := by exact_mod_cast hk
    rw [Real.norm_natCast]
    have h3 : (1 : ℝ) ≤ N t := by exact_mod_cast ht
    exact h1.trans (by linarith)
  have h1 := (htau.mul_div hb (S' := fun p => Fl.lit ((p.2 : ℂ) + 1 / 2)) hk (by
    simpa [Fl.lit, Fl.val] using isBigO_zero _ _)).exp hb.fine
  have h2 := (FlNear.lit (A := fun p : T × ℕ => A p.1) hb.fine
    (isBigO_const_const (cfg.contour_radius : ℂ) (one_ne_zero (α := ℝ)) _)).mul hb.fine h1
  have e1 : (fun p : T × ℕ => (Fl.point (cfg.withPoints (N p.1)) p.2 : Fl (A p.1))) = fun p =>
      Fl.lit (cfg.contour_radius : ℂ) * Fl.exp (Fl.lit (A p.1).tau * Fl.lit ((p.2 : ℂ) + 1 / 2) / Fl.lit (N p.1 : ℂ)) := by
    funext p
    simp [Fl.point, ETDConfig.withPoints]
  rw [e1]
  refine h2.congr_eq (Eventually.of_forall fun p => ?_)
  simp only [node]

/-- The computed means over the contour. -/
theorem averages_near (hf : Long l A ρ N g) (hg : Tendsto g l (nhds 0)) (cfg : ETDConfig ℝ) {h : T → ℝ} {z' : ∀ t, Fl (A t)} {z : T → ℂ}
    (hh : (fun t => (h t : ℂ)) =O[l] (1 : T → ℝ)) (hz : FlNear l A g z' z) {cut : ℝ} (hR : cut < cfg.contour_radius) (hR0 : 0 < cfg.contour_radius)
    (h0 : ∀ᶠ t in l, ‖z t‖ < cut) :
    NearPsis l A g (fun t => Fl.averages (cfg.withPoints (N t)) (Fl.lit (h t : ℂ)) (z' t))
      (fun t => Psis.ofPhi (fun k c => phiMode cut cfg.contour_radius (N t) k c (z t)) (h t)) ∧
    NearPsis l A g (fun t => Fl.averages35 (cfg.withPoints (N t)) (Fl.lit (h t : ℂ)) (z' t))
      (fun t => Psis.ofPhi (fun k c => phiMode cut cfg.contour_radius (N t) k c (z t)) (h t)) := by
  have hb := hf.below
  have hg' : Tendsto (fun p : T × ℕ => g p.1) (below l N) (nhds 0) := hg.comp tendsto_below
  have hl := FlNear.lit (A := A) hf.fine hh
  have hp := hz.below.add hb.fine (point_near hf cfg)
  have ha : ∀ᶠ p in below l N, cfg.contour_radius - cut ≤ ‖z p.1 + node cfg.contour_radius (N p.1) p.2‖ := by
    refine eventually_below.2 (h0.mono fun t ht k _ => ?_)
    have h1 := norm_node cfg.contour_radius (N t) k hR0.le
    have h2 := norm_sub_le (z t + node cfg.contour_radius (N t) k) (z t)
    rw [add_sub_cancel_left, h1] at h2
    simp only
    linarith
  have hδ : 0 < cfg.contour_radius - cut := by linarith
  have hav : ∀ (f' : ∀ t, Fl (A t) → Fl (A t)) (f : ℂ → ℂ),
      FlNear (below l N) (fun p => A p.1) (fun p => g p.1) (fun p => f' p.1 (z' p.1 + Fl.point (cfg.withPoints (N p.1)) p.2))
        (fun p => f (z p.1 + node cfg.contour_radius (N p.1) p.2)) →
      FlNear l A g (fun t => Fl.average (cfg.withPoints (N t)) (Fl.lit (h t : ℂ)) (z' t) (f' t))
        (fun t => h t * contourMean cfg.contour_radius (N t) f (z t)) := by
    intro f' f hx
    have h1 := hl.mean hf (f' := fun t k => f' t (z' t + Fl.point (cfg.withPoints (N t)) k))
      (f := fun t k => f (z t + node cfg.contour_radius (N t) k)) hx
    have e1 : (fun t => (Fl.average (cfg.withPoints (N t)) (Fl.lit (h t : ℂ)) (z' t) (f' t))) = fun t =>
        Fl.lit (h t : ℂ) * Fl.sum ((List.range (N t)).map fun k => f' t (z' t + Fl.point (cfg.withPoints (N t)) k)) /
          Fl.lit (N t : ℂ) := by
      funext t
      simp [Fl.average, ETDConfig.withPoints, ETDConfig.npts]
    rw [e1]
    refine h1.congr_eq (Eventually.of_forall fun t => ?_)
    simp only [contourMean]
    ring
  have key : ∀ (c : ℝ) (hc : 0 < c) (m' : ∀ t, Fl (A t) → Fl (A t)) (m : ℂ → ℂ), (∀ w, m w = c * w) →
      (∀ {x' : ∀ p : T × ℕ, Fl (A p.1)} {x : T × ℕ → ℂ}, FlNear (below l N) (fun p => A p.1) (fun p => g p.1) x' x →
        FlNear (below l N) (fun p => A p.1) (fun p => g p.1) (fun p => m' p.1 (x' p)) (fun p => m (x p))) →
      FlNear l A g (fun t => Fl.average (cfg.withPoints (N t)) (Fl.lit (h t : ℂ)) (z' t) fun w => Fl.psi1 (m' t w))
        (fun t => h t * phiMode cut cfg.contour_radius (N t) 1 c (z t)) ∧
      FlNear l A g (fun t => Fl.average (cfg.withPoints (N t)) (Fl.lit (h t : ℂ)) (z' t) fun w => Fl.psi2 (m' t w))
        (fun t => h t * (2 * phiMode cut cfg.contour_radius (N t) 2 c (z t))) ∧
      FlNear l A g (fun t => Fl.average (cfg.withPoints (N t)) (Fl.lit (h t : ℂ)) (z' t) fun w => Fl.psi3 (m' t w))
        (fun t => h t * (6 * phiMode cut cfg.contour_radius (N t) 3 c (z t))) := by
    intro c hc m' m hm hm'
    have h1 : ∀ᶠ p in below l N, c * (cfg.contour_radius - cut) ≤ ‖m (z p.1 + node cfg.contour_radius (N p.1) p.2)‖ :=
      ha.mono fun t ht => by
        rw [hm, norm_mul, Complex.norm_real, Real.norm_of_nonneg hc.le]; exact mul_le_mul_of_nonneg_left ht hc.le
    have hc0 : 0 < c * (cfg.contour_radius - cut) := mul_pos hc hδ
    refine ⟨?_, ?_, ?_⟩
    · refine (hav (fun t w => Fl.psi1 (m' t w)) (fun w => psi1 (m w)) ((hm' hp).psi1 hb.fine hg' hc0 h1)).congr_eq
        (h0.mono fun t ht => ?_)
      simp only [psi1_eq, hm, phiMode, if_pos ht]
    · refine (hav (fun t w => Fl.psi2 (m' t w)) (fun w => psi2 (m w)) ((hm' hp).psi2 hb.fine hg' hc0 h1)).congr_eq
        (h0.mono fun t ht => ?_)
      simp only [psi2_eq, hm, contourMean_mul, phiMode, if_pos ht]
    · refine (hav (fun t w => Fl.psi3 (m' t w)) (fun w => psi3 (m w)) ((hm' hp).psi3 hb.fine hg' hc0 h1)).congr_eq
        (h0.mono fun t ht => ?_)
      simp only [psi3_eq, hm, contourMean_mul, phiMode, if_pos ht]
  have hlit : ∀ c : ℂ, FlNear (below l N) (fun p => A p.1) (fun p => g p.1) (fun _ => Fl.lit c) (fun _ => c) := fun c =>
    FlNear.lit hb.fine (isBigO_const_const c (one_ne_zero (α := ℝ)) _)
  constructor
  · have k4 := key (1 / 4) (by norm_num) (fun t w => w / 4) (fun w => w / 4) quarter_mul fun hx => hx.div_num hb.fine 4
    have k2 := key (1 / 2) (by norm_num) (fun t w => w / 2) (fun w => w / 2) half_mul fun hx => hx.div_num hb.fine 2
    have k3 := key (3 / 4) (by norm_num) (fun t w => 3 * w / 4) (fun w => 3 * w / 4) three_quarter_mul fun hx =>
      ((FlNear.num hb.fine 3).mul hb.fine hx).div_num hb.fine 4
    have k1 := key 1 one_pos (fun t w => w) (fun w => w) one_mul' fun hx => hx
    exact ⟨k4.1, k4.2.1, k2.1, k2.2.1, k3.1, k3.2.1, k1.1, k1.2.1, k1.2.2⟩
  · have k4 := key (1 / 4) (by norm_num) (fun t w => Fl.lit (1 / 4) * w) (fun w => 1 / 4 * w) (fun w => by push_cast; ring)
      fun hx => (hlit (1 / 4)).mul hb.fine hx
    have k2 := key (1 / 2) (by norm_num) (fun t w => Fl.lit (1 / 2) * w) (fun w => 1 / 2 * w) (fun w => by push_cast; ring)
      fun hx => (hlit (1 / 2)).mul hb.fine hx
    have k3 := key (3 / 4) (by norm_num) (fun t w => Fl.lit (3 / 4) * w) (fun w => 3 / 4 * w) (fun w => by push_cast; ring)
      fun hx => (hlit (3 / 4)).mul hb.fine hx
    have k1 := key 1 one_pos (fun t w => 1 * w) (fun w => 1 * w) (fun w => by push_cast; ring)
      fun hx => (FlNear.num_one hb.fine).mul hb.fine hx
    exact ⟨k4.1, k4.2.1, k2.1, k2.2.1, k3.1, k3.2.1, k1.1, k1.2.1, k1.2.2⟩

end Verif
