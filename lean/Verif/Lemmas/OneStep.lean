import Verif.Lemmas.CoefBounds
import Verif.Props.Accuracy
import Verif.Spec.Convergence

/-!
# The error of one step, from an inexact start and with the computed coefficients
-/

set_option linter.unusedSectionVars false

namespace Verif

open Matrix Finset Asymptotics
open scoped Matrix.Norms.Operator ContDiff

variable {ι : Type} [Fintype ι] [DecidableEq ι]

theorem LinOp.phi_close (cfg : ETDConfig ℝ) (L : LinOp ι) (hL : L.GoodContour cfg) : ∃ K η : ℝ, 0 ≤ K ∧ 0 < η ∧
    ∀ (N : ℕ) (h : ℝ), 0 < N → 0 ≤ h → h ≤ η → ∀ c, 0 < c → c ≤ 1 → L.CoefOk (cfg.withPoints N) [c] h ∧
      ∀ k, ‖L.phi (cfg.withPoints N) h k c - phiExact L.mat h k c‖ ≤ K * (1 / 2) ^ N := by
  cases L with
  | diag L =>
    obtain ⟨hcut, hR⟩ := hL
    refine ⟨Real.exp (cfg.modecutoff + cfg.contour_radius / (1 / 2)) * 2, 1, by positivity, one_pos,
      fun N h hN h0 h1 c c0 c1 => ⟨trivial, fun k => ?_⟩⟩
    have he : phiExact (LinOp.mat (.diag L)) h k c = Matrix.diagonal fun i => Verif.phi k (c * (h * L i)) := by
      unfold phiExact LinOp.mat
      rw [← Matrix.diagonal_smul, phiMat_diagonal]
      congr 1
      funext i
      simp only [Pi.smul_apply, smul_eq_mul]
      congr 1
      push_cast; ring
    rw [he]
    show ‖(Matrix.diagonal fun i => phiMode cfg.modecutoff cfg.contour_radius (cfg.withPoints N).contour_points.toNat k c (h * L i)) - _‖ ≤ _
    rw [ETDConfig.withPoints_toNat, Matrix.diagonal_sub, Matrix.linfty_opNorm_diagonal]
    refine (pi_norm_le_iff_of_nonneg (by positivity)).mpr fun i => ?_
    refine (C29_geometric hN hcut hR k c c0 c1 (h * L i) (q := 1 / 2) (by norm_num) (by norm_num)).trans (le_of_eq ?_)
    ring
  | full L =>
    have hR : 0 < cfg.contour_radius := hL
    refine ⟨6 * Real.exp (3 * cfg.contour_radius), cfg.contour_radius / 2 / (‖L‖ + 1), by positivity, by positivity,
      fun N h hN h0 h1 c c0 c1 => ?_⟩
    have hZ : ‖((c * h : ℝ) : ℂ) • L‖ ≤ cfg.contour_radius / 2 := by
      rw [le_div_iff₀ (by positivity)] at h1
      rw [norm_smul, Complex.norm_real, Real.norm_of_nonneg (by positivity)]
      have h2 : c * h * ‖L‖ ≤ 1 * h * ‖L‖ := by gcongr
      nlinarith [norm_nonneg L]
    refine ⟨?_, fun k => ?_⟩
    · show ContourOk cfg.contour_radius (cfg.withPoints N).contour_points.toNat L [c] h
      rw [ETDConfig.withPoints_toNat]
      exact (C30_geometric hN hR L h c 0 hZ).1
    · show ‖phiFull cfg.contour_radius (cfg.withPoints N).contour_points.toNat L h k c - phiMat k (((c * h : ℝ) : ℂ) • L)‖ ≤ _
      rw [ETDConfig.withPoints_toNat]
      exact (C30_geometric hN hR L h c k hZ).2

theorem LinOp.coefOk_list {cfg : ETDConfig ℝ} {L : LinOp ι} {h : ℝ} {cs : List ℝ} (hcs : ∀ c ∈ cs, L.CoefOk cfg [c] h) :
    L.CoefOk cfg cs h := by
  cases L with
  | diag L => trivial
  | full L => exact fun m hm c hc => hcs c hc m hm c (by simp)

theorem ASOp.phi_close (cfg : ETDConfig ℝ) (L : ASOp ι) (hL : L.inner.GoodContour cfg) : ∃ K η : ℝ, 0 ≤ K ∧ 0 < η ∧
    ∀ (N : ℕ) (h : ℝ), 0 < N → 0 ≤ h → h ≤ η → ∀ c, 0 < c → c ≤ 1 → L.inner.CoefOk (cfg.withPoints N) [c] h ∧
      ∀ k, ‖L.phi (cfg.withPoints N) h k c - phiExact L.mat h k c‖ ≤ K * (1 / 2) ^ N := by
  rcases L with L | L | ⟨lam, S, Sinv, hS⟩
  · exact LinOp.phi_close cfg (.diag L) hL
  · exact LinOp.phi_close cfg (.full L) hL
  · obtain ⟨K, η, hK, hη, h1⟩ := LinOp.phi_close cfg (.diag lam) hL
    refine ⟨‖S‖ * K * ‖Sinv‖, η, by positivity, hη, fun N h hN h0 h2 c c0 c1 => ⟨trivial, fun k => ?_⟩⟩
    have he : S * phiExact (Matrix.diagonal lam) h k c * Sinv = phiExact (ASOp.mat (.eig lam S Sinv hS)) h k c := by
      unfold phiExact ASOp.mat
      rw [← phiMat_conj _ _ _ _ hS]
      congr 1
      simp
    rw [← he]
    show ‖S * (LinOp.diag lam).phi (cfg.withPoints N) h k c * Sinv - S * phiExact (LinOp.diag lam).mat h k c * Sinv‖ ≤ _
    rw [← Matrix.sub_mul, ← Matrix.mul_sub]
    have h3 := (h1 N h hN h0 h2 c c0 c1).2 k
    refine (norm_mul_le _ _).trans ?_
    refine (mul_le_mul_of_nonneg_right ((norm_mul_le _ _).trans (mul_le_mul_of_nonneg_left h3 (norm_nonneg _))) (norm_nonneg _)).trans ?_
    exact le_of_eq (by ring)

/-- Stage count of the exact method. -/
theorem CSSolver.exact_s (m : CSSolver ι) : ∃ s, ∀ h, (m.exact h).s = s := by
  rcases m with L | ⟨cfg, L⟩ | ⟨cfg, L⟩ <;> exact ⟨_, fun _ => rfl⟩

theorem ASSolver.exact_s (m : ASSolver ι) : ∃ s, ∀ h, (m.exact h).s = s := by
  rcases m with L | ⟨cfg, L⟩ | ⟨cfg, L⟩ | L <;> exact ⟨_, fun _ => rfl⟩

/-- The method with which a constant-step solver with `N` contour points computes is close to the exact one. -/
theorem CSSolver.method_close (m : CSSolver ι) (hm : m.GoodContour) : ∃ K η : ℝ, 0 ≤ K ∧ 0 < η ∧ η ≤ 1 ∧
    ∀ (N : ℕ) (h : ℝ), 0 < N → 0 ≤ h → h ≤ η → (m.withPoints N).CoefOk h ∧
      (m.exact h).Close ((m.withPoints N).method h) (K * (1 / 2) ^ N) h := by
  rcases m with L | ⟨cfg, L⟩ | ⟨cfg, L⟩
  · exact ⟨0, 1, le_rfl, one_pos, le_rfl, fun N h _ _ _ => ⟨trivial, by rw [zero_mul]; exact ERK.Close.refl _ _⟩⟩
  · obtain ⟨K, η, hK, hη, h1⟩ := LinOp.phi_close cfg L hm
    obtain ⟨K', hK', h2⟩ := krogstad_phiMethod (ι := ι).close
    refine ⟨K' * K, min η 1, by positivity, lt_min hη one_pos, min_le_right _ _, fun N h hN h0 h3 => ⟨?_, ?_⟩⟩
    · exact LinOp.coefOk_list fun c hc => (h1 N h hN h0 (h3.trans (min_le_left _ _)) c
        (by fin_cases hc <;> norm_num) (by fin_cases hc <;> norm_num)).1
    · rw [mul_assoc]
      exact h2 L.mat h _ _ _ h0 (h3.trans (min_le_right _ _)) (by positivity) fun k c c0 c1 =>
        (h1 N h hN h0 (h3.trans (min_le_left _ _)) c c0 c1).2 k
  · obtain ⟨K, η, hK, hη, h1⟩ := LinOp.phi_close cfg L hm
    obtain ⟨K', hK', h2⟩ := (etd5_phiMethod (ι := ι) true).close
    refine ⟨K' * K, min η 1, by positivity, lt_min hη one_pos, min_le_right _ _, fun N h hN h0 h3 => ⟨?_, ?_⟩⟩
    · exact LinOp.coefOk_list fun c hc => (h1 N h hN h0 (h3.trans (min_le_left _ _)) c
        (by fin_cases hc <;> norm_num) (by fin_cases hc <;> norm_num)).1
    · rw [mul_assoc]
      exact h2 L.mat h _ _ _ h0 (h3.trans (min_le_right _ _)) (by positivity) fun k c c0 c1 =>
        (h1 N h hN h0 (h3.trans (min_le_left _ _)) c c0 c1).2 k

/-- The method of an adaptive solver, in the user's coordinates. -/
noncomputable def ASSolver.userMethod (m : ASSolver ι) (h : ℝ) : ERK ι := m.op.user (m.method h)

theorem ASSolver.method_close (m : ASSolver ι) (hm : m.GoodContour) : ∃ K η : ℝ, 0 ≤ K ∧ 0 < η ∧ η ≤ 1 ∧
    ∀ (N : ℕ) (h : ℝ), 0 < N → 0 ≤ h → h ≤ η → (m.withPoints N).CoefOk h ∧
      (m.exact h).Close ((m.withPoints N).userMethod h) (K * (1 / 2) ^ N) h := by
  rcases m with L | ⟨cfg, L⟩ | ⟨cfg, L⟩ | L
  · refine ⟨0, 1, le_rfl, one_pos, le_rfl, fun N h _ _ _ => ⟨trivial, ?_⟩⟩
    rw [zero_mul]
    show (lawson rk4 L.mat h).Close (L.user (lawson rk4 L.inner.mat h)) 0 h
    rw [L.user_lawson]; exact ERK.Close.refl _ _
  · obtain ⟨K, η, hK, hη, h1⟩ := ASOp.phi_close cfg L hm
    obtain ⟨K', hK', h2⟩ := krogstad_phiMethod (ι := ι).close
    refine ⟨K' * K, min η 1, by positivity, lt_min hη one_pos, min_le_right _ _, fun N h hN h0 h3 => ⟨?_, ?_⟩⟩
    · exact LinOp.coefOk_list fun c hc => (h1 N h hN h0 (h3.trans (min_le_left _ _)) c
        (by fin_cases hc <;> norm_num) (by fin_cases hc <;> norm_num)).1
    · rw [mul_assoc]
      show (krogstad (phiExact L.mat h) L.mat h).Close (L.user (krogstad (L.inner.phi (cfg.withPoints N) h) L.inner.mat h)) _ h
      rw [L.user_krogstad]
      exact h2 L.mat h _ _ _ h0 (h3.trans (min_le_right _ _)) (by positivity) fun k c c0 c1 =>
        (h1 N h hN h0 (h3.trans (min_le_left _ _)) c c0 c1).2 k
  · obtain ⟨K, η, hK, hη, h1⟩ := ASOp.phi_close cfg L hm
    obtain ⟨K', hK', h2⟩ := (etd5_phiMethod (ι := ι) false).close
    refine ⟨K' * K, min η 1, by positivity, lt_min hη one_pos, min_le_right _ _, fun N h hN h0 h3 => ⟨?_, ?_⟩⟩
    · exact LinOp.coefOk_list fun c hc => (h1 N h hN h0 (h3.trans (min_le_left _ _)) c
        (by fin_cases hc <;> norm_num) (by fin_cases hc <;> norm_num)).1
    · rw [mul_assoc]
      show (etd5Method false (phiExact L.mat h) L.mat h).Close
        (L.user (etd5Method false (L.inner.phi (cfg.withPoints N) h) L.inner.mat h)) _ h
      rw [L.user_etd5]
      exact h2 L.mat h _ _ _ h0 (h3.trans (min_le_right _ _)) (by positivity) fun k c c0 c1 =>
        (h1 N h hN h0 (h3.trans (min_le_left _ _)) c c0 c1).2 k
  · refine ⟨0, 1, le_rfl, one_pos, le_rfl, fun N h _ _ _ => ⟨trivial, ?_⟩⟩
    rw [zero_mul]; exact ERK.Close.refl _ _

variable {P : Type} {f : Vec ι → Vec ι} {K : Set P} {y : P → ℝ → Vec ι} {δ : ℝ} {K0 : Set (Vec ι)}

/-- Consistency, stability and nearby coefficients together. -/
theorem one_step_error {L : Mat ι} {ex : ℝ → ERK ι} {me : ℕ → ℝ → ERK ι} {p : ℕ} (hf : ContDiff ℝ ∞ f) (hy : Flows L f K y δ K0)
    (hs : ∃ s, ∀ h, (ex h).s = s) (hb : ∃ c : ℝ, 0 ≤ c ∧ ∀ h, 0 ≤ h → h ≤ 1 → (ex h).Bounded c h) {G : ℕ → ℝ → Prop}
    (hc : ∃ K η : ℝ, 0 ≤ K ∧ 0 < η ∧ η ≤ 1 ∧ ∀ (N : ℕ) (h : ℝ), 0 < N → 0 ≤ h → h ≤ η → G N h ∧ (ex h).Close (me N h) (K * (1 / 2) ^ N) h)
    (hl : (fun x : ℝ × P => ((ex x.1).run f (y x.2 0)).1 - y x.2 x.1) =O[small K] fun x => x.1 ^ (p + 1)) :
    ∃ C η : ℝ, 0 ≤ C ∧ 0 < η ∧ ∀ (N : ℕ) (h : ℝ), 0 < N → 0 < h → h < η → G N h ∧ ∀ q ∈ K, ∀ u, ‖u - y q 0‖ ≤ 1 →
      ‖((me N h).run f u).1 - y q h‖ ≤ (1 + C * h) * ‖u - y q 0‖ + C * h * (h ^ p + (1 / 2) ^ N) := by
  obtain ⟨s, hs⟩ := hs
  obtain ⟨c, hc0, hb⟩ := hb
  obtain ⟨k, η, hk, hη, hη1, hc⟩ := hc
  obtain ⟨C1, η1, hη1', hl⟩ := isBigO_small hl
  obtain ⟨r, hr⟩ := hy.compact.isBounded.exists_norm_le
  have hr0 : ∀ q ∈ K, ‖y q 0‖ ≤ r := fun q hq => hr _ (hy.mem q hq 0 (by simpa using hy.pos))
  obtain ⟨C2, hC2, hst⟩ := ERK.run_close (r := r + 1) (LipOnBalls.of_contDiff (hf.of_le (by exact_mod_cast le_top))) hk hc0 s
  refine ⟨C2 + C2 * k + |C1|, min η η1, by positivity, lt_min hη hη1', fun N h hN h0 h1 => ?_⟩
  have hη' : h ≤ η := (h1.trans_le (min_le_left _ _)).le
  obtain ⟨hG, hcl⟩ := hc N h hN h0.le hη'
  refine ⟨hG, fun q hq u hu => ?_⟩
  have hp1 : (1 / 2 : ℝ) ^ N ≤ 1 := pow_le_one₀ (by norm_num) (by norm_num)
  have hp0 : 0 ≤ (1 / 2 : ℝ) ^ N := by positivity
  have hyq := hr0 q hq
  have hur : ‖u‖ ≤ r + 1 := by
    have := norm_add_le (u - y q 0) (y q 0)
    rw [sub_add_cancel] at this
    linarith
  have e1 := hst (ex h) (me N h) h (k * (1 / 2) ^ N) (hs h) h0.le (by positivity) (mul_le_of_le_one_right hk hp1)
    (hb h h0.le (hη'.trans hη1)) hcl u (y q 0) hur (by linarith)
  have e2 := hl h h0 (h1.trans_le (min_le_right _ _)) q hq
  have e3 := norm_add_le (((me N h).run f u).1 - ((ex h).run f (y q 0)).1) (((ex h).run f (y q 0)).1 - y q h)
  rw [sub_add_sub_cancel] at e3
  have e4 : C1 * h ^ (p + 1) ≤ |C1| * h ^ (p + 1) := mul_le_mul_of_nonneg_right (le_abs_self _) (by positivity)
  have e5 : |C1| * h ^ (p + 1) = |C1| * h * h ^ p := by ring
  have d0 := norm_nonneg (u - y q 0)
  have a1 : 0 ≤ (C2 * k + |C1|) * h * ‖u - y q 0‖ := by positivity
  have a2 : 0 ≤ (C2 + C2 * k) * h * h ^ p := by positivity
  have a3 : 0 ≤ (C2 + |C1|) * h * (1 / 2) ^ N := by positivity
  have e2' : ‖((ex h).run f (y q 0)).1 - y q h‖ ≤ |C1| * h * h ^ p := by rw [← e5]; exact e2.trans e4
  nlinarith

theorem CSSolver.one_step (m : CSSolver ι) (hm : m.GoodContour) (hf : ContDiff ℝ ∞ f) (hy : Flows m.op.mat f K y δ K0) :
    ∃ C η : ℝ, 0 ≤ C ∧ 0 < η ∧ ∀ (N : ℕ) (h : ℝ), 0 < N → 0 < h → h < η → (m.withPoints N).CoefOk h ∧ ∀ q ∈ K, ∀ u, ‖u - y q 0‖ ≤ 1 →
      ‖(((m.withPoints N).method h).run f u).1 - y q h‖ ≤ (1 + C * h) * ‖u - y q 0‖ + C * h * (h ^ 4 + (1 / 2) ^ N) :=
  one_step_error (me := fun N h => (m.withPoints N).method h) hf hy m.exact_s m.exact_bounded (m.method_close hm) (m.exact_local hf hy)

theorem ASSolver.one_step (m : ASSolver ι) (hm : m.GoodContour) (hf : ContDiff ℝ ∞ f) (hy : Flows m.op.mat f K y δ K0) :
    ∃ C η : ℝ, 0 ≤ C ∧ 0 < η ∧ ∀ (N : ℕ) (h : ℝ), 0 < N → 0 < h → h < η → (m.withPoints N).CoefOk h ∧ ∀ q ∈ K, ∀ u, ‖u - y q 0‖ ≤ 1 →
      ‖(((m.withPoints N).userMethod h).run f u).1 - y q h‖ ≤ (1 + C * h) * ‖u - y q 0‖ + C * h * (h ^ m.orderOf + (1 / 2) ^ N) :=
  one_step_error (me := fun N h => (m.withPoints N).userMethod h) hf hy m.exact_s m.exact_bounded (m.method_close hm) (m.exact_local hf hy)

/-! ### Whole runs -/

/-- Discrete Gronwall inequality, with an estimate that is only available while the error is at most one. -/
theorem gronwall {tm e : ℕ → ℝ} {C d : ℝ} {n : ℕ} (hd : 0 ≤ d)
    (hstep : ∀ k < n, 0 ≤ e k ∧
      (e k ≤ 1 → e (k + 1) ≤ (1 + C * (tm (k + 1) - tm k)) * e k + C * (tm (k + 1) - tm k) * d))
    (hsmall : ∀ k ≤ n, Real.exp (C * (tm k - tm 0)) * (e 0 + d) ≤ 1) :
    ∀ k ≤ n, e k + d ≤ Real.exp (C * (tm k - tm 0)) * (e 0 + d) := by
  intro k
  induction k with
  | zero => intro _; simp
  | succ k ih =>
    intro hk
    have h1 := ih (by omega)
    obtain ⟨h3, h4⟩ := hstep k (by omega)
    have h5 := h4 (by have := hsmall k (by omega); linarith)
    have h6 : 1 + C * (tm (k + 1) - tm k) ≤ Real.exp (C * (tm (k + 1) - tm k)) := by
      have := Real.add_one_le_exp (C * (tm (k + 1) - tm k)); linarith
    calc e (k + 1) + d ≤ (1 + C * (tm (k + 1) - tm k)) * (e k + d) := by linarith
      _ ≤ Real.exp (C * (tm (k + 1) - tm k)) * (Real.exp (C * (tm k - tm 0)) * (e 0 + d)) :=
        mul_le_mul h6 h1 (by linarith) (Real.exp_pos _).le
      _ = Real.exp (C * (tm (k + 1) - tm 0)) * (e 0 + d) := by
        rw [← mul_assoc, ← Real.exp_add]; congr 2; ring

theorem Solves.flows {L : Mat ι} {t0 tf : ℝ} {Y : ℝ → Vec ι} (h : Solves L f t0 tf Y) :
    ∃ (δ : ℝ) (K0 : Set (Vec ι)), Flows L f (Set.Icc t0 tf) (fun q s => Y (q + s)) δ K0 := by
  obtain ⟨δ, hδ, hd⟩ := h.deriv
  refine ⟨δ / 2, Y '' Set.Icc (t0 - δ / 2) (tf + δ / 2), by positivity, ?_, ?_, ?_⟩
  · refine isCompact_Icc.image_of_continuousOn fun t ht => ?_
    exact (hd t (by linarith [ht.1]) (by linarith [ht.2])).continuousAt.continuousWithinAt
  · intro q hq s hs
    rw [abs_lt] at hs
    exact ⟨q + s, ⟨by linarith [hq.1], by linarith [hq.2]⟩, rfl⟩
  · intro q hq s hs
    rw [abs_lt] at hs
    have := hd (q + s) (by linarith [hq.1]) (by linarith [hq.2])
    exact this.comp_const_add q s

/-- A sequence of steps of lengths at most `H` along the solution. -/
theorem run_error {t0 tf : ℝ} {Y : ℝ → Vec ι} {me : ℕ → ℝ → ERK ι} {p : ℕ} (hp : p ≠ 0) {G : ℕ → ℝ → Prop} (ht : t0 ≤ tf)
    (h1 : ∃ C η : ℝ, 0 ≤ C ∧ 0 < η ∧ ∀ (N : ℕ) (h : ℝ), 0 < N → 0 < h → h < η → G N h ∧ ∀ q ∈ Set.Icc t0 tf, ∀ u, ‖u - Y (q + 0)‖ ≤ 1 →
      ‖((me N h).run f u).1 - Y (q + h)‖ ≤ (1 + C * h) * ‖u - Y (q + 0)‖ + C * h * (h ^ p + (1 / 2) ^ N)) :
    ∃ (C η : ℝ) (N0 : ℕ), 0 ≤ C ∧ 0 < η ∧ ∀ N, N0 ≤ N → (∀ h, 0 < h → h < η → G N h) ∧
      ∀ (H : ℝ) (n : ℕ) (tm : ℕ → ℝ) (st : ℕ → Vec ι), 0 < H → H < η → tm 0 = t0 →
        (∀ k < n, tm k ≤ tf ∧ tm k < tm (k + 1) ∧ tm (k + 1) - tm k ≤ H ∧ st (k + 1) = ((me N (tm (k + 1) - tm k)).run f (st k)).1) →
        ‖st 0 - Y t0‖ ≤ η → ∀ k ≤ n, ‖st k - Y (tm k)‖ ≤ C * (‖st 0 - Y t0‖ + H ^ p + (1 / 2) ^ N) := by
  obtain ⟨C, η, hC, hη, h1⟩ := h1
  set E := Real.exp (C * (tf - t0 + 1)) with hE
  have E0 : 0 < E := Real.exp_pos _
  obtain ⟨N0, hN0⟩ := exists_pow_lt_of_lt_one (show 0 < 1 / (3 * E) by positivity) (show (1 / 2 : ℝ) < 1 by norm_num)
  have hη3 : 0 < min (min η 1) (1 / (3 * E)) := lt_min (lt_min hη one_pos) (by positivity)
  refine ⟨E, min (min η 1) (1 / (3 * E)), N0 + 1, E0.le, hη3, fun N hN => ⟨fun h h0 h2 =>
    (h1 N h (by omega) h0 (h2.trans_le ((min_le_left _ _).trans (min_le_left _ _)))).1, ?_⟩⟩
  intro H n tm st H0 H1 htm hst h0
  have hHη : H < η := H1.trans_le ((min_le_left _ _).trans (min_le_left _ _))
  have hH1 : H < 1 := H1.trans_le ((min_le_left _ _).trans (min_le_right _ _))
  have hHE : H < 1 / (3 * E) := H1.trans_le (min_le_right _ _)
  have h0E : ‖st 0 - Y t0‖ ≤ 1 / (3 * E) := h0.trans (min_le_right _ _)
  have hNE : (1 / 2 : ℝ) ^ N ≤ 1 / (3 * E) := (pow_le_pow_of_le_one (by norm_num) (by norm_num) (by omega)).trans hN0.le
  have hHp : H ^ p ≤ H := pow_le_of_le_one H0.le hH1.le hp
  have hHp0 : 0 ≤ H ^ p := by positivity
  have hN0' : 0 ≤ (1 / 2 : ℝ) ^ N := by positivity
  have hmono : ∀ k ≤ n, t0 ≤ tm k := by
    intro k
    induction k with
    | zero => intro _; rw [htm]
    | succ k ih => intro hk; have := ih (by omega); have := (hst k (by omega)).2.1; linarith
  have hle : ∀ k ≤ n, tm k ≤ tf + 1 := by
    intro k hk
    cases k with
    | zero => rw [htm]; linarith
    | succ k => have := hst k (by omega); linarith [this.1, this.2.2.1]
  have hexp : ∀ k ≤ n, Real.exp (C * (tm k - tm 0)) ≤ E := by
    intro k hk
    refine Real.exp_le_exp.mpr (mul_le_mul_of_nonneg_left ?_ hC)
    rw [htm]; linarith [hle k hk]
  have hsum : 0 ≤ ‖st 0 - Y (tm 0)‖ + (H ^ p + (1 / 2) ^ N) := by positivity
  have hEsum : E * (‖st 0 - Y (tm 0)‖ + (H ^ p + (1 / 2) ^ N)) ≤ 1 := by
    have : E * (3 * (1 / (3 * E))) = 1 := by field_simp
    refine le_trans (mul_le_mul_of_nonneg_left ?_ E0.le) this.le
    rw [htm]; linarith
  have key := gronwall (tm := tm) (e := fun k => ‖st k - Y (tm k)‖) (C := C) (d := H ^ p + (1 / 2) ^ N) (n := n) (by positivity) (by
    intro k hk
    obtain ⟨a1, a2, a3, a4⟩ := hst k hk
    refine ⟨norm_nonneg _, fun hek => ?_⟩
    have b0 : 0 < tm (k + 1) - tm k := by linarith
    have b := (h1 N _ (by omega) b0 (a3.trans_lt hHη)).2 (tm k) ⟨hmono k hk.le, a1⟩ (st k) (by rwa [add_zero])
    rw [add_zero, add_sub_cancel, ← a4] at b
    refine b.trans ?_
    have c1 : (tm (k + 1) - tm k) ^ p ≤ H ^ p := pow_le_pow_left₀ b0.le a3 p
    have c2 : C * (tm (k + 1) - tm k) * ((tm (k + 1) - tm k) ^ p + (1 / 2) ^ N) ≤
        C * (tm (k + 1) - tm k) * (H ^ p + (1 / 2) ^ N) := mul_le_mul_of_nonneg_left (by linarith) (by positivity)
    linarith) (fun k hk => (mul_le_mul_of_nonneg_right (hexp k hk) hsum).trans hEsum)
  intro k hk
  have h3 := (key k hk).trans (mul_le_mul_of_nonneg_right (hexp k hk) hsum)
  rw [htm] at h3
  rw [add_assoc]
  have : 0 ≤ H ^ p + (1 / 2 : ℝ) ^ N := by positivity
  linarith

end Verif
