import Verif.Props.Convergence
import Verif.Lemmas.Calculus
import Verif.Lemmas.Factor

/-!
# Small trials: the solution moves little and the error estimate is small
-/

set_option linter.unusedSectionVars false

namespace Verif

open Matrix Finset Asymptotics
open scoped Matrix.Norms.Operator ContDiff

variable {ι : Type} [Fintype ι] [DecidableEq ι]

/-! ### Weights of the error estimate -/

/-- Error weights that are small multiples of the weights of the solution. -/
theorem ERK.R_of_B {M M' : ERK ι} {c ε h : ℝ} (hM : M.Bounded c h) (hC : M.Close M' ε h) (w : ℕ → ℂ) (k : ℕ → ℕ)
    (hk : ∀ j < M.s, k j < M.s) (hw : ∀ j, ‖w j‖ ≤ 6) (hR : ∀ j < M.s, M.R j = w j • M.B (k j)) (hR' : ∀ j < M.s, M'.R j = w j • M'.B (k j)) :
    ∀ j < M.s, ‖M.R j‖ ≤ 6 * c * h ∧ ‖M'.R j - M.R j‖ ≤ 6 * ε * h := by
  intro j hj
  have h1 := hM.B _ (hk j hj)
  have h2 := hC.B _ (hk j hj)
  rw [hR j hj, hR' j hj, ← smul_sub, norm_smul, norm_smul]
  constructor
  · have := mul_le_mul (hw j) h1 (norm_nonneg _) (by norm_num); linarith
  · have := mul_le_mul (hw j) h2 (norm_nonneg _) (by norm_num); linarith

/-- The factors for the four-stage methods: `b_4 (N_4 - N_5)`. -/
def w4 : ℕ → ℂ
  | 3 => 1
  | 4 => -1
  | _ => 0

/-- The factors for ETD35. -/
def w5 : ℕ → ℂ
  | 0 => -1
  | 2 => 4
  | 3 => -6
  | 4 => 4
  | 5 => -1
  | _ => 0

theorem w4_le (j : ℕ) : ‖w4 j‖ ≤ 6 := by
  unfold w4; split <;> norm_num

theorem w5_le (j : ℕ) : ‖w5 j‖ ≤ 6 := by
  unfold w5; split <;> norm_num

theorem krogstad_RB (φ : ℕ → ℝ → Mat ι) (L : Mat ι) (h : ℝ) (j : ℕ) : (krogstad φ L h).R j = w4 j • (krogstad φ L h).B 3 := by
  simp only [krogstad, w4]
  split
  · simp
  · show _ = (-1 : ℂ) • _
    rw [neg_smul, one_smul, smul_neg]
  · simp

theorem rk4_RB (L : Mat ι) (h : ℝ) (j : ℕ) : (lawson rk4 L h).R j = w4 j • (lawson rk4 L h).B 3 := by
  have e : ∀ j, (lawson rk4 L h).R j = ((h * rk4.r j : ℝ) : ℂ) • expm L ((1 - rk4.c j) * h) := fun _ => rfl
  have e' : (lawson rk4 L h).B 3 = ((h * (1 / 6) : ℝ) : ℂ) • expm L ((1 - 1) * h) := rfl
  rw [e, e']
  rcases j with _ | _ | _ | _ | _ | j
  · simp [rk4, w4]
  · simp [rk4, w4]
  · simp [rk4, w4]
  · simp [rk4, w4]
  · simp only [rk4, w4, smul_smul]
    congr 1
    push_cast; ring
  · simp [rk4, w4]

theorem etd5_RB (φ : ℕ → ℝ → Mat ι) (L : Mat ι) (h : ℝ) (j : ℕ) : (etd5Method false φ L h).R j = w5 j • (etd5Method false φ L h).B 4 := by
  simp only [etd5Method, w5]
  split <;> simp [smul_comm (h : ℂ), neg_smul]

theorem dp_RB (r : ℝ) (L : Mat ι) : ∃ c : ℝ, 0 ≤ c ∧ ∀ h, 0 ≤ h → h ≤ 1 → ∀ j < (dpWith r).s, ‖(lawson (dpWith r) L h).R j‖ ≤ c * h := by
  refine ⟨(∑ j ∈ range (dpWith r).s, |(dpWith r).r j|) * Real.exp ‖L‖, by positivity, fun h h0 h1 j hj => ?_⟩
  show ‖((h * (dpWith r).r j : ℝ) : ℂ) • expm L ((1 - (dpWith r).c j) * h)‖ ≤ _
  have h2 : |(dpWith r).r j| ≤ ∑ j ∈ range (dpWith r).s, |(dpWith r).r j| :=
    single_le_sum (f := fun j => |(dpWith r).r j|) (fun _ _ => abs_nonneg _) (mem_range.mpr hj)
  have h3 : ‖expm L ((1 - (dpWith r).c j) * h)‖ ≤ Real.exp ‖L‖ := expm_norm_le_one L (by
    rw [abs_mul, abs_of_nonneg h0]
    refine mul_le_one₀ ?_ h0 h1
    rw [abs_le]
    constructor <;> linarith [(dp_c r j).1, (dp_c r j).2])
  rw [norm_smul, Complex.norm_real, Real.norm_eq_abs, abs_mul, abs_of_nonneg h0, mul_assoc, mul_comm (_ * _) h]
  exact mul_le_mul_of_nonneg_left (mul_le_mul h2 h3 (norm_nonneg _) ((abs_nonneg _).trans h2)) h0

namespace ASSolver

theorem exact_Eout (m : ASSolver ι) (h : ℝ) : (m.exact h).Eout = expm m.op.mat h := by
  rcases m with L | ⟨cfg, L⟩ | ⟨cfg, L⟩ | L <;> rfl

/-- The computed coefficients are close to the exact ones, including those of the error estimate. -/
theorem weights (m : ASSolver ι) (hm : m.GoodContour) : ∃ c K η : ℝ, 0 ≤ c ∧ 0 ≤ K ∧ 0 < η ∧ η ≤ 1 ∧
    ∀ (N : ℕ) (h : ℝ), 0 < N → 0 ≤ h → h ≤ η → (m.withPoints N).CoefOk h ∧ (m.exact h).Bounded c h ∧
      (m.exact h).Close ((m.withPoints N).userMethod h) (K * (1 / 2) ^ N) h ∧
      ∀ j < (m.exact h).s, ‖(m.exact h).R j‖ ≤ 6 * c * h ∧
        ‖((m.withPoints N).userMethod h).R j - (m.exact h).R j‖ ≤ 6 * (K * (1 / 2) ^ N) * h := by
  obtain ⟨c, hc, h1⟩ := m.exact_bounded
  obtain ⟨K, η, hK, hη, hη1, h2⟩ := m.method_close hm
  rcases m with L | ⟨cfg, L⟩ | ⟨cfg, L⟩ | L
  · refine ⟨c, K, η, hc, hK, hη, hη1, fun N h hN h0 h3 => ?_⟩
    obtain ⟨a1, a2⟩ := h2 N h hN h0 h3
    have a3 := h1 h h0 (h3.trans hη1)
    refine ⟨a1, a3, a2, ERK.R_of_B a3 a2 w4 (fun _ => 3) (fun _ _ => ?_) w4_le (fun j _ => rk4_RB _ _ _) fun j _ => ?_⟩
    · show 3 < 5; norm_num
    · show (L.user (lawson rk4 L.inner.mat h)).R j = w4 j • (L.user (lawson rk4 L.inner.mat h)).B 3
      rw [L.user_lawson]; exact rk4_RB _ _ _
  · refine ⟨c, K, η, hc, hK, hη, hη1, fun N h hN h0 h3 => ?_⟩
    obtain ⟨a1, a2⟩ := h2 N h hN h0 h3
    have a3 := h1 h h0 (h3.trans hη1)
    refine ⟨a1, a3, a2, ERK.R_of_B a3 a2 w4 (fun _ => 3) (fun _ _ => ?_) w4_le (fun j _ => krogstad_RB _ _ _ _) fun j _ => ?_⟩
    · show 3 < 5; norm_num
    · show (L.user (krogstad (L.inner.phi (cfg.withPoints N) h) L.inner.mat h)).R j =
        w4 j • (L.user (krogstad (L.inner.phi (cfg.withPoints N) h) L.inner.mat h)).B 3
      rw [L.user_krogstad]; exact krogstad_RB _ _ _ _
  · refine ⟨c, K, η, hc, hK, hη, hη1, fun N h hN h0 h3 => ?_⟩
    obtain ⟨a1, a2⟩ := h2 N h hN h0 h3
    have a3 := h1 h h0 (h3.trans hη1)
    refine ⟨a1, a3, a2, ERK.R_of_B a3 a2 w5 (fun _ => 4) (fun _ _ => ?_) w5_le (fun j _ => etd5_RB _ _ _ _) fun j _ => ?_⟩
    · show 4 < 6; norm_num
    · show (L.user (etd5Method false (L.inner.phi (cfg.withPoints N) h) L.inner.mat h)).R j =
        w5 j • (L.user (etd5Method false (L.inner.phi (cfg.withPoints N) h) L.inner.mat h)).B 4
      rw [L.user_etd5]; exact etd5_RB _ _ _ _
  · obtain ⟨c', hc', h4⟩ := dp_RB (17 / 1920) (Matrix.diagonal L)
    refine ⟨c + c', K, η, by positivity, hK, hη, hη1, fun N h hN h0 h3 => ?_⟩
    obtain ⟨a1, a2⟩ := h2 N h hN h0 h3
    have a3 := h1 h h0 (h3.trans hη1)
    refine ⟨a1, ⟨fun i hi => (a3.E i hi).trans (by linarith), fun i hi j hj => (a3.A i hi j hj).trans (by linarith),
      a3.Eout.trans (by nlinarith), fun j hj => (a3.B j hj).trans (by nlinarith)⟩, a2, fun j hj => ⟨?_, ?_⟩⟩
    · have := h4 h h0 (h3.trans hη1) j hj
      refine le_trans this ?_
      nlinarith
    · show ‖(lawson (dpWith (17 / 1920)) (Matrix.diagonal L) h).R j - (lawson (dpWith (17 / 1920)) (Matrix.diagonal L) h).R j‖ ≤ _
      rw [sub_self, norm_zero]; positivity

variable {f : Vec ι → Vec ι}

/-- What a small step does, uniformly on balls and in the number of contour points. -/
theorem small_step (m : ASSolver ι) (hm : m.GoodContour) (hf : LipOnBalls f) (r : ℝ) : ∃ C η : ℝ, 0 ≤ C ∧ 0 < η ∧ η ≤ 1 ∧
    ∀ (N : ℕ) (h : ℝ), 0 < N → 0 ≤ h → h ≤ η → (m.withPoints N).CoefOk h ∧ ∀ u : Vec ι, ‖u‖ ≤ r →
      ‖(((m.withPoints N).userMethod h).run f u).1 - u‖ ≤ C * h ∧ ‖(((m.withPoints N).userMethod h).run f u).2‖ ≤ C * h ∧
      ‖(((m.withPoints N).userMethod h).run f u).2 - ((m.exact h).run f u).2‖ ≤ C * h * (1 / 2) ^ N := by
  obtain ⟨c, K, η, hc, hK, hη, hη1, hw⟩ := m.weights hm
  obtain ⟨s, hs⟩ := m.exact_s
  obtain ⟨C, hC, hv⟩ := ERK.values_close (r := max r 0) hf hK hc s
  have hr0 : 0 ≤ max r 0 := le_max_right _ _
  have hL := norm_nonneg m.op.mat
  set a := ‖m.op.mat‖ * Real.exp ‖m.op.mat‖ * max r 0 with ha
  have a0 : 0 ≤ a := by positivity
  refine ⟨a + s * ((c + K) * C) + s * ((6 * c + 6 * K) * C) + s * (6 * c * (C * K) + 6 * K * C), η, by positivity, hη, hη1,
    fun N h hN h0 h1 => ?_⟩
  obtain ⟨b1, b2, b3, b4⟩ := hw N h hN h0 h1
  refine ⟨b1, fun u hu => ?_⟩
  have hp1 : (1 / 2 : ℝ) ^ N ≤ 1 := pow_le_one₀ (by norm_num) (by norm_num)
  have hp0 : 0 ≤ (1 / 2 : ℝ) ^ N := by positivity
  have hKN : K * (1 / 2) ^ N ≤ K := mul_le_of_le_one_right hK hp1
  have hu' : ‖u‖ ≤ max r 0 := hu.trans (le_max_left _ _)
  have hval := hv (m.exact h) ((m.withPoints N).userMethod h) h (K * (1 / 2) ^ N) (hs h).ge (by positivity) hKN b2 b3 u u hu' hu'
  have hs' : ((m.withPoints N).userMethod h).s = s := by rw [b3.s, hs]
  have p1 : 0 ≤ s * ((c + K) * C) := by positivity
  have p2 : 0 ≤ s * ((6 * c + 6 * K) * C) := by positivity
  have p3 : 0 ≤ s * (6 * c * (C * K) + 6 * K * C) := by positivity
  refine ⟨?_, ?_, ?_⟩
  · have e1 : (((m.withPoints N).userMethod h).run f u).1 - u = (expm m.op.mat h - 1) *ᵥ u +
        ∑ j ∈ range s, ((m.withPoints N).userMethod h).B j *ᵥ ((m.withPoints N).userMethod h).values f u s j := by
      show ((m.withPoints N).userMethod h).out u _ - u = _
      rw [ERK.out, hs', b3.Eout, m.exact_Eout, sub_mulVec, one_mulVec]; abel
    have e2 : ‖expm m.op.mat h - 1‖ ≤ ‖m.op.mat‖ * Real.exp ‖m.op.mat‖ * h := by
      rw [← phiOne_mul m.op.mat h, add_sub_cancel_right]
      refine (norm_mul_le _ _).trans ?_
      rw [norm_smul, Complex.norm_real, Real.norm_of_nonneg h0]
      have := phiExact_norm_le m.op.mat h0 (h1.trans hη1) 1 one_pos le_rfl
      unfold phiExact at this
      rw [one_mul] at this
      have := mul_le_mul_of_nonneg_left this (mul_nonneg hL h0)
      linarith
    rw [e1]
    refine (norm_add_le _ _).trans ?_
    have e3 : ‖(expm m.op.mat h - 1) *ᵥ u‖ ≤ a * h := (ERK.norm_mulVec_le e2 hu').trans (le_of_eq (by rw [ha]; ring))
    have e4 : ‖∑ j ∈ range s, ((m.withPoints N).userMethod h).B j *ᵥ ((m.withPoints N).userMethod h).values f u s j‖ ≤
        s * ((c + K) * C) * h := by
      refine (norm_sum_le_of_le _ (n := fun _ => (c + K) * h * C) fun j hj => ?_).trans (le_of_eq (by simp; ring))
      refine ERK.norm_mulVec_le ?_ (hval j).2.1
      rw [mem_range, ← hs h] at hj
      have := norm_add_le (((m.withPoints N).userMethod h).B j - (m.exact h).B j) ((m.exact h).B j)
      rw [sub_add_cancel] at this
      have := b2.B j hj
      have := b3.B j hj
      have := mul_le_mul_of_nonneg_right hKN h0
      linarith
    nlinarith
  · have e1 : (((m.withPoints N).userMethod h).run f u).2 =
        ∑ j ∈ range s, ((m.withPoints N).userMethod h).R j *ᵥ ((m.withPoints N).userMethod h).values f u s j := by
      show ((m.withPoints N).userMethod h).err _ = _
      rw [ERK.err, hs']
    rw [e1]
    have e4 : ‖∑ j ∈ range s, ((m.withPoints N).userMethod h).R j *ᵥ ((m.withPoints N).userMethod h).values f u s j‖ ≤
        s * ((6 * c + 6 * K) * C) * h := by
      refine (norm_sum_le_of_le _ (n := fun _ => (6 * c + 6 * K) * h * C) fun j hj => ?_).trans (le_of_eq (by simp; ring))
      refine ERK.norm_mulVec_le ?_ (hval j).2.1
      rw [mem_range, ← hs h] at hj
      have := norm_add_le (((m.withPoints N).userMethod h).R j - (m.exact h).R j) ((m.exact h).R j)
      rw [sub_add_cancel] at this
      have := b4 j hj
      have := mul_le_mul_of_nonneg_right hKN h0
      linarith [this, (b4 j hj).1, (b4 j hj).2]
    nlinarith
  · have e1 : (((m.withPoints N).userMethod h).run f u).2 - ((m.exact h).run f u).2 =
        ∑ j ∈ range s, (((m.withPoints N).userMethod h).R j *ᵥ ((m.withPoints N).userMethod h).values f u s j -
          (m.exact h).R j *ᵥ (m.exact h).values f u s j) := by
      show ((m.withPoints N).userMethod h).err _ - (m.exact h).err _ = _
      rw [ERK.err, ERK.err, hs', hs, sum_sub_distrib]
    rw [e1]
    have e4 : ‖∑ j ∈ range s, (((m.withPoints N).userMethod h).R j *ᵥ ((m.withPoints N).userMethod h).values f u s j -
          (m.exact h).R j *ᵥ (m.exact h).values f u s j)‖ ≤ s * (6 * c * (C * K) + 6 * K * C) * (h * (1 / 2) ^ N) := by
      refine (norm_sum_le_of_le _ (n := fun _ => 6 * c * h * (C * (0 + K * (1 / 2) ^ N)) + 6 * (K * (1 / 2) ^ N) * h * C) fun j hj => ?_).trans
        (le_of_eq (by simp; ring))
      rw [mem_range, ← hs h] at hj
      refine ERK.mulVec_sub_mulVec_le (b4 j hj).1 (b4 j hj).2 (hval j).2.1 ?_
      have := (hval j).2.2
      rwa [sub_self, norm_zero] at this
    have : 0 ≤ h * (1 / 2 : ℝ) ^ N := by positivity
    rw [mul_assoc]
    nlinarith

end ASSolver

end Verif
