import Verif.Spec.Oscillation
import Verif.Lemmas.Damping

/-!
# The limit of rapid modes
-/

set_option linter.unusedSectionVars false

namespace Verif

open Matrix Filter Topology

variable {ι : Type} [Fintype ι] [DecidableEq ι]

theorem bdd_of_tendsto {x : ℕ → Vec ι} {a : Vec ι} (h : Tendsto x atTop (𝓝 a)) : ∃ b, ∀ n, ‖x n‖ ≤ b := by
  obtain ⟨b, hb⟩ := (Metric.isBounded_range_of_tendsto x h).exists_norm_le
  exact ⟨b, fun n => hb _ ⟨n, rfl⟩⟩

theorem bdd_comp {f : Vec ι → Vec ι} (hf : Continuous f) {x : ℕ → Vec ι} (h : ∃ b, ∀ n, ‖x n‖ ≤ b) : ∃ b, ∀ n, ‖f (x n)‖ ≤ b := by
  obtain ⟨b, hb⟩ := h
  obtain ⟨c, hc⟩ := (isCompact_closedBall (0 : Vec ι) b).exists_bound_of_continuousOn hf.continuousOn
  exact ⟨c, fun n => hc _ (mem_closedBall_zero_iff.mpr (hb n))⟩

theorem mulVec_fade {A : ℕ → Mat ι} {v : ℕ → Vec ι} (hA : Tendsto A atTop (𝓝 0)) (hv : ∃ b, ∀ n, ‖v n‖ ≤ b) :
    Tendsto (fun n => A n *ᵥ v n) atTop (𝓝 0) := by
  obtain ⟨b, hb⟩ := hv
  refine tendsto_pi_nhds.mpr fun i => ?_
  simp only [mulVec, dotProduct]
  have : (0 : Vec ι) i = ∑ j : ι, (0 : ℂ) := by simp
  rw [this]
  refine tendsto_finsetSum _ fun j _ => ?_
  have h1 : Tendsto (fun n => A n i j) atTop (𝓝 0) := tendsto_pi_nhds.mp (tendsto_pi_nhds.mp hA i) j
  exact h1.zero_mul_isBoundedUnder_le (isBoundedUnder_of ⟨b, fun n => (norm_le_pi_norm (v n) j).trans (hb n)⟩)

namespace ERK

/-- The weights of the nonlinear function tend to zero. -/
structure Fade (s : ℕ) (M : ℕ → ERK ι) : Prop where
  stages : ∀ n, (M n).s = s
  E : ∃ C : ℝ, ∀ n, ∀ i < s, ∀ v, ‖(M n).E i *ᵥ v‖ ≤ C * ‖v‖
  A : ∀ i < s, ∀ j < i, Tendsto (fun n => (M n).A i j) atTop (𝓝 0)
  B : ∀ j < s, Tendsto (fun n => (M n).B j) atTop (𝓝 0)
  R : ∀ j < s, Tendsto (fun n => (M n).R j) atTop (𝓝 0)

theorem run_fade {s : ℕ} {M : ℕ → ERK ι} (hM : Fade s M) {f : Vec ι → Vec ι} (hf : Continuous f) {u : ℕ → Vec ι}
    (hu : ∃ b, ∀ n, ‖u n‖ ≤ b) : Tendsto (fun n => ((M n).run f (u n)).1 - (M n).Eout *ᵥ u n) atTop (𝓝 0) ∧
      Tendsto (fun n => ((M n).run f (u n)).2) atTop (𝓝 0) := by
  have hv : ∀ k ≤ s, ∀ j, ∃ b, ∀ n, ‖(M n).values f (u n) k j‖ ≤ b := by
    intro k
    induction k with
    | zero => intro _ j; exact ⟨0, fun n => by simp [values]⟩
    | succ k ih =>
      intro hk j
      simp only [values]
      by_cases hj : j = k
      · subst hj
        simp only [Function.update_self]
        refine bdd_comp hf ?_
        have h1 : Tendsto (fun n => ∑ i ∈ Finset.range j, (M n).A j i *ᵥ (M n).values f (u n) j i) atTop (𝓝 0) := by
          have : (0 : Vec ι) = ∑ i ∈ Finset.range j, (0 : Vec ι) := by simp
          rw [this]
          exact tendsto_finsetSum _ fun i hi => mulVec_fade (hM.A j hk i (Finset.mem_range.mp hi)) (ih (by omega) i)
        obtain ⟨b1, hb1⟩ := bdd_of_tendsto h1
        obtain ⟨b2, hb2⟩ := hu
        obtain ⟨C, hC⟩ := hM.E
        refine ⟨|C| * b2 + b1, fun n => (norm_add_le _ _).trans (add_le_add ?_ (hb1 n))⟩
        refine (hC n j hk _).trans ?_
        exact mul_le_mul (le_abs_self C) (hb2 n) (norm_nonneg _) (abs_nonneg _)
      · simp only [Function.update_of_ne hj]
        exact ih (by omega) j
  have key : ∀ W : ℕ → ℕ → Mat ι, (∀ j < s, Tendsto (fun n => W n j) atTop (𝓝 0)) →
      Tendsto (fun n => ∑ j ∈ Finset.range s, W n j *ᵥ (M n).values f (u n) s j) atTop (𝓝 0) := by
    intro W hW
    have : (0 : Vec ι) = ∑ i ∈ Finset.range s, (0 : Vec ι) := by simp
    rw [this]
    exact tendsto_finsetSum _ fun i hi => mulVec_fade (hW i (Finset.mem_range.mp hi)) (hv s le_rfl i)
  constructor
  · simp only [run, out, hM.stages, add_sub_cancel_left]
    exact key (fun n => (M n).B) hM.B
  · simp only [run, err, hM.stages]
    exact key (fun n => (M n).R) hM.R

/-- Convergence of the weights of the nonlinear function. -/
structure NearWeights (M : ℕ → ERK ι) (M0 : ERK ι) : Prop where
  s : ∀ n, (M n).s = M0.s
  A : ∀ i < M0.s, ∀ j < i, Tendsto (fun n => (M n).A i j) atTop (𝓝 (M0.A i j))
  B : ∀ j < M0.s, Tendsto (fun n => (M n).B j) atTop (𝓝 (M0.B j))
  R : ∀ j < M0.s, Tendsto (fun n => (M n).R j) atTop (𝓝 (M0.R j))

theorem run_nearWeights {M : ℕ → ERK ι} {M0 : ERK ι} (hM : NearWeights M M0) {f : Vec ι → Vec ι} (hf : Continuous f) {u : ℕ → Vec ι}
    {u0 : Vec ι} (hE : ∀ i < M0.s, Tendsto (fun n => (M n).E i *ᵥ u n) atTop (𝓝 (M0.E i *ᵥ u0)))
    (hEo : Tendsto (fun n => (M n).Eout *ᵥ u n) atTop (𝓝 (M0.Eout *ᵥ u0))) :
    Tendsto (fun n => (M n).run f (u n)) atTop (𝓝 (M0.run f u0)) := by
  have hv : ∀ k ≤ M0.s, ∀ j, Tendsto (fun n => (M n).values f (u n) k j) atTop (𝓝 (M0.values f u0 k j)) := by
    intro k
    induction k with
    | zero => intro _ j; exact tendsto_const_nhds
    | succ k ih =>
      intro hk j
      simp only [values]
      by_cases hj : j = k
      · subst hj
        simp only [Function.update_self]
        refine (hf.tendsto _).comp ?_
        exact (hE _ hk).add (tendsto_finsetSum _ fun i hi => tendsto_mulVec (hM.A _ hk _ (Finset.mem_range.mp hi)) (ih (by omega) i))
      · simp only [Function.update_of_ne hj]
        exact ih (by omega) j
  unfold run
  refine Tendsto.prodMk_nhds ?_ ?_
  · simp only [out, hM.s]
    exact hEo.add (tendsto_finsetSum _ fun i hi => tendsto_mulVec (hM.B _ (Finset.mem_range.mp hi)) (hv _ le_rfl i))
  · simp only [err, hM.s]
    exact tendsto_finsetSum _ fun i hi => tendsto_mulVec (hM.R _ (Finset.mem_range.mp hi)) (hv _ le_rfl i)

end ERK

/-- `φ_k`, `k ≥ 1`, at points further and further from zero with bounded real part. -/
theorem phi_far {z : ℕ → ℂ} {ω : ℝ} (hω : 0 ≤ ω) (hr : ∀ n, (z n).re ≤ ω) (hz : Tendsto (fun n => ‖z n‖) atTop atTop) (k : ℕ) :
    Tendsto (fun n => phi (k + 1) (z n)) atTop (𝓝 0) := by
  rw [tendsto_zero_iff_norm_tendsto_zero]
  have h1 : Tendsto (fun n => (Real.exp ω + 1) * ‖z n‖⁻¹) atTop (𝓝 0) := by
    simpa using (tendsto_inv_atTop_zero.comp hz).const_mul (Real.exp ω + 1)
  refine squeeze_zero' (Eventually.of_forall fun _ => norm_nonneg _) ?_ h1
  filter_upwards [hz.eventually_gt_atTop 0] with n hn
  have h0 : z n ≠ 0 := norm_pos_iff.mp hn
  have h3 : phi (k + 1) (z n) = (phi k (z n) - (k.factorial : ℂ)⁻¹) * (z n)⁻¹ := by
    rw [phi_succ k (z n)]; field_simp; ring
  rw [h3, norm_mul, norm_inv]
  refine mul_le_mul_of_nonneg_right ?_ (by positivity)
  have h4 := norm_phi_le_of_re hω (hr n) k
  have h5 : ‖((k.factorial : ℂ)⁻¹)‖ ≤ 1 := by
    rw [norm_inv, Complex.norm_natCast]
    exact inv_le_one_of_one_le₀ (by exact_mod_cast Nat.one_le_iff_ne_zero.mpr k.factorial_ne_zero)
  exact (norm_sub_le _ _).trans (add_le_add h4 h5)

/-- The same for the values the solvers use. -/
theorem phiMode_far {z : ℕ → ℂ} {ω : ℝ} (hω : 0 ≤ ω) (hr : ∀ n, (z n).re ≤ ω) (hz : Tendsto (fun n => ‖z n‖) atTop atTop) (cut R : ℝ)
    (N k : ℕ) {c : ℝ} (hc : 0 < c) : Tendsto (fun n => phiMode cut R N (k + 1) c (z n)) atTop (𝓝 0) := by
  have h2 : Tendsto (fun n => ‖(c : ℂ) * z n‖) atTop atTop := by
    simp only [norm_mul (c : ℂ), Complex.norm_real, Real.norm_of_nonneg hc.le]
    exact hz.const_mul_atTop hc
  have h3 : ∀ n, ((c : ℂ) * z n).re ≤ c * ω := fun n => by
    rw [Complex.re_ofReal_mul]
    exact mul_le_mul_of_nonneg_left (hr n) hc.le
  refine (phi_far (by positivity) h3 h2 k).congr' ?_
  filter_upwards [hz.eventually_ge_atTop cut, h2.eventually_gt_atTop 0] with n a1 a2
  rw [phiMode, if_neg (not_lt.mpr a1), phi_eq_phiDiv]
  exact norm_pos_iff.mp a2

theorem RapidIn.phiDiag {D : Set ι} {L : ℕ → Vec ι} {L0 : Vec ι} (hL : RapidIn D L L0) (cut R : ℝ) (N : ℕ) {h : ℝ} (hh : 0 < h) (k : ℕ)
    {c : ℝ} (hc : 0 < c) : Tendsto (fun n => phiDiag cut R N (L n) h (k + 1) c) atTop
      (𝓝 (dropMat D * Verif.phiDiag cut R N L0 h (k + 1) c)) := by
  obtain ⟨⟨ω, hω⟩, hL, h0⟩ := hL
  refine diagonal_left (fun i hi => ?_) fun i hi n => by rw [h0 i hi n]
  refine phiMode_far (ω := h * |ω|) (by positivity) (fun n => ?_) ?_ cut R N k hc
  · rw [Complex.re_ofReal_mul]
    exact mul_le_mul_of_nonneg_left ((hω n i hi).trans (le_abs_self ω)) hh.le
  · simp only [norm_mul, Complex.norm_real, Real.norm_of_nonneg hh.le]
    exact (hL i hi).const_mul_atTop hh

theorem dropMat_univ : dropMat (Set.univ : Set ι) = 0 := by
  unfold dropMat
  simp

theorem Rapid.phiDiag {L : ℕ → Vec ι} (hL : Rapid L) (cut R : ℝ) (N : ℕ) {h : ℝ} (hh : 0 < h) (k : ℕ) {c : ℝ} (hc : 0 < c) :
    Tendsto (fun n => phiDiag cut R N (L n) h (k + 1) c) atTop (𝓝 0) := by
  have h1 : RapidIn Set.univ L 0 := by
    obtain ⟨⟨ω, hω⟩, h2⟩ := hL
    exact ⟨⟨ω, fun n i _ => hω n i⟩, fun i _ => h2 i, fun i hi => absurd trivial hi⟩
  have := h1.phiDiag cut R N hh k hc
  rwa [dropMat_univ, zero_mul] at this

theorem Rapid.expm {L : ℕ → Vec ι} (hL : Rapid L) (T : ℝ) : ∃ C : ℝ, 1 ≤ C ∧ ∀ n θ, 0 ≤ θ → θ ≤ T → ∀ v : Vec ι,
    ‖expm (Matrix.diagonal (L n)) θ *ᵥ v‖ ≤ C * ‖v‖ := by
  obtain ⟨⟨ω, hω⟩, -⟩ := hL
  refine ⟨Real.exp (|T| * |ω|), Real.one_le_exp (by positivity), fun n θ h0 h1 v => ?_⟩
  rw [expm_diag]
  refine (pi_norm_le_iff_of_nonneg (by positivity)).mpr fun i => ?_
  rw [mulVec_diagonal, norm_mul, Complex.norm_exp, Complex.re_ofReal_mul]
  refine mul_le_mul (Real.exp_le_exp.mpr ?_) (norm_le_pi_norm v i) (norm_nonneg _) (Real.exp_pos _).le
  calc θ * (L n i).re ≤ θ * |ω| := mul_le_mul_of_nonneg_left ((hω n i).trans (le_abs_self ω)) h0
    _ ≤ |T| * |ω| := mul_le_mul_of_nonneg_right (h1.trans (le_abs_self T)) (abs_nonneg _)

/-- The φ values with that of `φ_0` (never used) replaced by zero. -/
noncomputable def positive (φ : ℕ → ℝ → Mat ι) : ℕ → ℝ → Mat ι
  | 0, _ => 0
  | k + 1, c => φ (k + 1) c

theorem krogstad_positive (φ : ℕ → ℝ → Mat ι) (L : Mat ι) (h : ℝ) : krogstad (positive φ) L h = krogstad φ L h := rfl

theorem etd5_positive (b : Bool) (φ : ℕ → ℝ → Mat ι) (L : Mat ι) (h : ℝ) : etd5Method b (positive φ) L h = etd5Method b φ L h := rfl

theorem positive_near {P : Mat ι} {φ : ℕ → ℕ → ℝ → Mat ι} {φ0 : ℕ → ℝ → Mat ι}
    (hφ : ∀ k c, 0 < c → Tendsto (fun n => φ n (k + 1) c) atTop (𝓝 (P * φ0 (k + 1) c))) (k : ℕ) (c : ℝ)
    (h0 : 0 < c) (_h1 : c ≤ 1) : Tendsto (fun n => positive (φ n) k c) atTop (𝓝 (P * positive φ0 k c)) := by
  cases k with
  | zero =>
    show Tendsto (fun _ => (0 : Mat ι)) atTop (𝓝 (P * 0))
    rw [mul_zero]
    exact tendsto_const_nhds
  | succ k => exact hφ k c h0

theorem positive_tendsto {φ : ℕ → ℕ → ℝ → Mat ι} (hφ : ∀ k c, 0 < c → Tendsto (fun n => φ n (k + 1) c) atTop (𝓝 0)) (k : ℕ) (c : ℝ)
    (h0 : 0 < c) (_h1 : c ≤ 1) : Tendsto (fun n => positive (φ n) k c) atTop (𝓝 ((0 : Mat ι) * (1 : Mat ι))) := by
  rw [zero_mul]
  cases k with
  | zero => exact tendsto_const_nhds
  | succ k => exact hφ k c h0

theorem krogstad_fade {L : ℕ → Vec ι} {φ : ℕ → ℕ → ℝ → Mat ι} (hL : Rapid L)
    (hφ : ∀ k c, 0 < c → Tendsto (fun n => φ n (k + 1) c) atTop (𝓝 0)) {h : ℝ} (hh : 0 < h) :
    ERK.Fade 5 fun n => krogstad (φ n) (Matrix.diagonal (L n)) h := by
  have hT := krogstad_tends (l := atTop) (φ := fun n => positive (φ n)) (φ0 := fun _ _ => 0 * 1) (0 : Mat ι) h (positive_tendsto hφ)
  obtain ⟨m1, m2, m3⟩ := krogstad_mul (0 : Mat ι) (fun _ _ => 1) (0 : Mat ι) 0 h
  obtain ⟨C, hC1, hC⟩ := hL.expm h
  refine ⟨fun _ => rfl, ⟨C, fun n i hi v => ?_⟩, fun i _ j _ => ?_, fun j _ => ?_, fun j _ => ?_⟩
  · interval_cases i
    · show ‖(1 : Mat ι) *ᵥ v‖ ≤ _
      rw [one_mulVec]
      exact le_mul_of_one_le_left (norm_nonneg _) hC1
    · exact hC n (h / 2) (by positivity) (by linarith) v
    · exact hC n (h / 2) (by positivity) (by linarith) v
    · exact hC n h hh.le le_rfl v
    · exact hC n h hh.le le_rfl v
  · have := hT.A i j
    rw [m1, zero_mul] at this; exact this
  · have := hT.B j
    rw [m2, zero_mul] at this; exact this
  · have := hT.R j
    rw [m3, zero_mul] at this; exact this

theorem etd5_fade (b : Bool) {L : ℕ → Vec ι} {φ : ℕ → ℕ → ℝ → Mat ι} (hL : Rapid L)
    (hφ : ∀ k c, 0 < c → Tendsto (fun n => φ n (k + 1) c) atTop (𝓝 0)) {h : ℝ} (hh : 0 < h) :
    ERK.Fade (if b then 7 else 6) fun n => etd5Method b (φ n) (Matrix.diagonal (L n)) h := by
  have hT := etd5_tends (l := atTop) b (φ := fun n => positive (φ n)) (φ0 := fun _ _ => 0 * 1) (0 : Mat ι) h (positive_tendsto hφ)
  obtain ⟨m1, m2, m3⟩ := etd5_mul b (0 : Mat ι) (fun _ _ => 1) (0 : Mat ι) 0 h
  obtain ⟨C, hC1, hC⟩ := hL.expm h
  refine ⟨fun _ => rfl, ⟨C, fun n i hi v => ?_⟩, fun i _ j _ => ?_, fun j _ => ?_, fun j _ => ?_⟩
  · have hi : i < 7 := lt_of_lt_of_le hi (by split <;> omega)
    interval_cases i
    · show ‖(1 : Mat ι) *ᵥ v‖ ≤ _
      rw [one_mulVec]
      exact le_mul_of_one_le_left (norm_nonneg _) hC1
    · exact hC n (h / 4) (by positivity) (by linarith) v
    · exact hC n (h / 4) (by positivity) (by linarith) v
    · exact hC n (h / 2) (by positivity) (by linarith) v
    · exact hC n (3 * h / 4) (by positivity) (by linarith) v
    · exact hC n h hh.le le_rfl v
    · exact hC n h hh.le le_rfl v
  · have := hT.A i j
    rw [m1, zero_mul] at this; exact this
  · have := hT.B j
    rw [m2, zero_mul] at this; exact this
  · have := hT.R j
    rw [m3, zero_mul] at this; exact this

/-! ### Some rapid modes -/

variable {D : Set ι} {L : ℕ → Vec ι} {L0 : Vec ι}

/-- Rapid modes that die out remain so. -/
theorem RapidIn.expm (hL : RapidIn D L L0) {u : ℕ → Vec ι} {u0 : Vec ι} (hu : Tendsto u atTop (𝓝 u0)) (h0 : ∀ i ∈ D, u0 i = 0) {θ : ℝ}
    (hθ : 0 ≤ θ) : Tendsto (fun n => expm (Matrix.diagonal (L n)) θ *ᵥ u n) atTop
      (𝓝 ((dropMat D * Verif.expm (Matrix.diagonal L0) θ) *ᵥ u0)) := by
  obtain ⟨⟨ω, hω⟩, -, hL0⟩ := hL
  rw [← mulVec_mulVec, dropMat_mulVec]
  simp only [expm_diag]
  refine tendsto_pi_nhds.mpr fun i => ?_
  have hui := tendsto_pi_nhds.mp hu i
  simp only [mulVec_diagonal, without]
  split
  · next hi =>
    rw [h0 i hi] at hui
    have h1 : IsBoundedUnder (· ≤ ·) atTop (norm ∘ fun n => Complex.exp (θ * L n i)) :=
      isBoundedUnder_of ⟨Real.exp (θ * |ω|), fun n => by
        rw [Function.comp_apply, Complex.norm_exp, Complex.re_ofReal_mul]
        exact Real.exp_le_exp.mpr (mul_le_mul_of_nonneg_left ((hω n i hi).trans (le_abs_self ω)) hθ)⟩
    refine (hui.zero_mul_isBoundedUnder_le h1).congr fun n => mul_comm _ _
  · next hi =>
    simp only [hL0 i hi]
    exact hui.const_mul _

theorem krogstad_rapid {φ : ℕ → ℕ → ℝ → Mat ι} {φ0 : ℕ → ℝ → Mat ι} (hL : RapidIn D L L0)
    (hφ : ∀ k c, 0 < c → Tendsto (fun n => φ n (k + 1) c) atTop (𝓝 (dropMat D * φ0 (k + 1) c))) {h : ℝ} (hh : 0 < h)
    {f : Vec ι → Vec ι} (hf : Continuous f) {u : ℕ → Vec ι} {u0 : Vec ι} (hu : Tendsto u atTop (𝓝 u0)) (h0 : ∀ i ∈ D, u0 i = 0) :
    Tendsto (fun n => (krogstad (φ n) (Matrix.diagonal (L n)) h).run f (u n)) atTop
      (𝓝 (((krogstad φ0 (Matrix.diagonal L0) h).mask (dropMat D)).run f u0)) := by
  have hT := krogstad_tends (l := atTop) (φ := fun n => positive (φ n)) (φ0 := fun k c => dropMat D * positive φ0 k c)
    (Matrix.diagonal L0) h (positive_near hφ)
  obtain ⟨m1, m2, m3⟩ := krogstad_mul (dropMat D) (positive φ0) (Matrix.diagonal L0) (Matrix.diagonal L0) h
  have hN : ERK.NearWeights (fun n => krogstad (φ n) (Matrix.diagonal (L n)) h) ((krogstad φ0 (Matrix.diagonal L0) h).mask (dropMat D)) := by
    refine ⟨fun _ => rfl, fun i _ j _ => ?_, fun j _ => ?_, fun j _ => ?_⟩
    · have := hT.A i j
      rw [m1] at this; exact this
    · have := hT.B j
      rw [m2] at this; exact this
    · have := hT.R j
      rw [m3] at this; exact this
  refine ERK.run_nearWeights hN hf (fun i hi => ?_) (hL.expm hu h0 hh.le)
  · have hi : i < 5 := hi
    interval_cases i
    · exact tendsto_mulVec tendsto_const_nhds hu
    · exact hL.expm hu h0 (θ := h / 2) (by positivity)
    · exact hL.expm hu h0 (θ := h / 2) (by positivity)
    · exact hL.expm hu h0 hh.le
    · exact hL.expm hu h0 hh.le

theorem etd5_rapid (b : Bool) {φ : ℕ → ℕ → ℝ → Mat ι} {φ0 : ℕ → ℝ → Mat ι} (hL : RapidIn D L L0)
    (hφ : ∀ k c, 0 < c → Tendsto (fun n => φ n (k + 1) c) atTop (𝓝 (dropMat D * φ0 (k + 1) c))) {h : ℝ} (hh : 0 < h)
    {f : Vec ι → Vec ι} (hf : Continuous f) {u : ℕ → Vec ι} {u0 : Vec ι} (hu : Tendsto u atTop (𝓝 u0)) (h0 : ∀ i ∈ D, u0 i = 0) :
    Tendsto (fun n => (etd5Method b (φ n) (Matrix.diagonal (L n)) h).run f (u n)) atTop
      (𝓝 (((etd5Method b φ0 (Matrix.diagonal L0) h).mask (dropMat D)).run f u0)) := by
  have hT := etd5_tends (l := atTop) b (φ := fun n => positive (φ n)) (φ0 := fun k c => dropMat D * positive φ0 k c)
    (Matrix.diagonal L0) h (positive_near hφ)
  obtain ⟨m1, m2, m3⟩ := etd5_mul b (dropMat D) (positive φ0) (Matrix.diagonal L0) (Matrix.diagonal L0) h
  have hN : ERK.NearWeights (fun n => etd5Method b (φ n) (Matrix.diagonal (L n)) h) ((etd5Method b φ0 (Matrix.diagonal L0) h).mask (dropMat D)) := by
    refine ⟨fun _ => rfl, fun i _ j _ => ?_, fun j _ => ?_, fun j _ => ?_⟩
    · have := hT.A i j
      rw [m1] at this; exact this
    · have := hT.B j
      rw [m2] at this; exact this
    · have := hT.R j
      rw [m3] at this; exact this
  refine ERK.run_nearWeights hN hf (fun i hi => ?_) (hL.expm hu h0 hh.le)
  · have hi : i < 7 := lt_of_lt_of_le hi (by show (if b then 7 else 6) ≤ 7; split <;> omega)
    interval_cases i
    · exact tendsto_mulVec tendsto_const_nhds hu
    · exact hL.expm hu h0 (θ := h / 4) (by positivity)
    · exact hL.expm hu h0 (θ := h / 4) (by positivity)
    · exact hL.expm hu h0 (θ := h / 2) (by positivity)
    · exact hL.expm hu h0 (θ := 3 * h / 4) (by positivity)
    · exact hL.expm hu h0 hh.le
    · exact hL.expm hu h0 hh.le

end Verif
