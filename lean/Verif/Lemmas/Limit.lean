import Verif.Lemmas.ContourMat
import Verif.Props.Phi
import Verif.Lemmas.User
import Verif.Lemmas.Stages
import Verif.Spec.Limit

/-!
# Exponential Runge–Kutta steps depend continuously on the coefficients
-/

set_option linter.unusedSectionVars false

namespace Verif

open Matrix Filter Topology

variable {ι : Type} [Fintype ι] [DecidableEq ι]

theorem tendsto_mulVec {α : Type} {l : Filter α} {A : α → Mat ι} {v : α → Vec ι} {A0 : Mat ι} {v0 : Vec ι}
    (hA : Tendsto A l (𝓝 A0)) (hv : Tendsto v l (𝓝 v0)) : Tendsto (fun n => A n *ᵥ v n) l (𝓝 (A0 *ᵥ v0)) := by
  refine tendsto_pi_nhds.mpr fun i => ?_
  simp only [mulVec, dotProduct]
  refine tendsto_finsetSum _ fun j _ => ?_
  exact ((tendsto_pi_nhds.mp (tendsto_pi_nhds.mp hA i)) j).mul (tendsto_pi_nhds.mp hv j)

namespace ERK

theorem values_stages (M : ERK ι) (f : Vec ι → Vec ι) (u : Vec ι) (k : ℕ) :
    M.stages (total f) u k = .ok (M.values f u k) := by
  induction k with
  | zero => rfl
  | succ k ih => exact M.stages_succ_ok _ _ ih rfl

/-- For an `nl_func` that never raises the step is the total map. -/
theorem step_eq_run (M : ERK ι) (f : Vec ι → Vec ι) (u : Vec ι) : M.step (total f) u = .ok (M.run f u) := by
  unfold step run
  rw [values_stages]

/-- Coefficientwise convergence of methods with the same number of stages. -/
structure Tends (l : Filter ℕ) (M : ℕ → ERK ι) (M0 : ERK ι) : Prop where
  s : ∀ n, (M n).s = M0.s
  E : ∀ i, Tendsto (fun n => (M n).E i) l (𝓝 (M0.E i))
  A : ∀ i j, Tendsto (fun n => (M n).A i j) l (𝓝 (M0.A i j))
  Eout : Tendsto (fun n => (M n).Eout) l (𝓝 M0.Eout)
  B : ∀ j, Tendsto (fun n => (M n).B j) l (𝓝 (M0.B j))
  R : ∀ j, Tendsto (fun n => (M n).R j) l (𝓝 (M0.R j))

theorem run_tendsto {l : Filter ℕ} {M : ℕ → ERK ι} {M0 : ERK ι} (hM : Tends l M M0) {f : Vec ι → Vec ι}
    (hf : Continuous f) (u : Vec ι) : Tendsto (fun n => (M n).run f u) l (𝓝 (M0.run f u)) := by
  have hv : ∀ k j, Tendsto (fun n => (M n).values f u k j) l (𝓝 (M0.values f u k j)) := by
    intro k
    induction k with
    | zero => intro j; exact tendsto_const_nhds
    | succ k ih =>
      intro j
      simp only [values]
      by_cases hj : j = k
      · subst hj
        simp only [Function.update_self]
        refine (hf.tendsto _).comp ?_
        exact (tendsto_mulVec (hM.E _) tendsto_const_nhds).add
          (tendsto_finsetSum _ fun i _ => tendsto_mulVec (hM.A _ _) (ih i))
      · simp only [Function.update_of_ne hj]
        exact ih j
  unfold run
  refine Tendsto.prodMk_nhds ?_ ?_
  · simp only [out, hM.s]
    exact (tendsto_mulVec hM.Eout tendsto_const_nhds).add
      (tendsto_finsetSum _ fun i _ => tendsto_mulVec (hM.B _) (hv _ i))
  · simp only [err, hM.s]
    exact tendsto_finsetSum _ fun i _ => tendsto_mulVec (hM.R _) (hv _ i)

end ERK

/-- φ values, with those for fractions outside `(0, 1]` (never used) replaced by zero. -/
noncomputable def clip (φ : ℕ → ℝ → Mat ι) (k : ℕ) (c : ℝ) : Mat ι := if 0 < c ∧ c ≤ 1 then φ k c else 0

theorem krogstad_clip (φ : ℕ → ℝ → Mat ι) (L : Mat ι) (h : ℝ) : krogstad (clip φ) L h = krogstad φ L h := by
  have h1 : ∀ k, clip φ k 1 = φ k 1 := fun k => if_pos (by norm_num)
  have h2 : ∀ k, clip φ k (1 / 2) = φ k (1 / 2) := fun k => if_pos (by norm_num)
  simp only [krogstad, h1, h2]

theorem etd5_clip (fsal : Bool) (φ : ℕ → ℝ → Mat ι) (L : Mat ι) (h : ℝ) :
    etd5Method fsal (clip φ) L h = etd5Method fsal φ L h := by
  have h1 : ∀ k, clip φ k 1 = φ k 1 := fun k => if_pos (by norm_num)
  have h2 : ∀ k, clip φ k (1 / 2) = φ k (1 / 2) := fun k => if_pos (by norm_num)
  have h3 : ∀ k, clip φ k (1 / 4) = φ k (1 / 4) := fun k => if_pos (by norm_num)
  have h4 : ∀ k, clip φ k (3 / 4) = φ k (3 / 4) := fun k => if_pos (by norm_num)
  simp only [etd5Method, h1, h2, h3, h4]

theorem clip_tendsto {l : Filter ℕ} {φ : ℕ → ℕ → ℝ → Mat ι} {φ0 : ℕ → ℝ → Mat ι}
    (hφ : ∀ k c, 0 < c → c ≤ 1 → Tendsto (fun n => φ n k c) l (𝓝 (φ0 k c))) : Tendsto (fun n => clip (φ n)) l (𝓝 (clip φ0)) := by
  refine tendsto_pi_nhds.mpr fun k => tendsto_pi_nhds.mpr fun c => ?_
  unfold clip
  split
  · next hc => exact hφ k c hc.1 hc.2
  · exact tendsto_const_nhds

/-- Krogstad's method depends continuously on the φ values. -/
theorem krogstad_tends {l : Filter ℕ} {φ : ℕ → ℕ → ℝ → Mat ι} {φ0 : ℕ → ℝ → Mat ι} (L : Mat ι) (h : ℝ)
    (hφ : ∀ k c, 0 < c → c ≤ 1 → Tendsto (fun n => φ n k c) l (𝓝 (φ0 k c))) :
    ERK.Tends l (fun n => krogstad (φ n) L h) (krogstad φ0 L h) := by
  have hc := clip_tendsto hφ
  rw [← krogstad_clip φ0, show (fun n => krogstad (φ n) L h) = fun n => krogstad (clip (φ n)) L h from
    funext fun n => (krogstad_clip _ _ _).symm]
  have cA : ∀ i j, Continuous fun φ : ℕ → ℝ → Mat ι => (krogstad φ L h).A i j := by
    intro i j
    simp only [krogstad]
    split <;> fun_prop
  have cB : ∀ j, Continuous fun φ : ℕ → ℝ → Mat ι => (krogstad φ L h).B j := by
    intro j
    simp only [krogstad]
    split <;> fun_prop
  have cR : ∀ j, Continuous fun φ : ℕ → ℝ → Mat ι => (krogstad φ L h).R j := by
    intro j
    simp only [krogstad]
    split <;> fun_prop
  exact ⟨fun _ => rfl, fun i => tendsto_const_nhds, fun i j => ((cA i j).tendsto _).comp hc, tendsto_const_nhds,
    fun j => ((cB j).tendsto _).comp hc, fun j => ((cR j).tendsto _).comp hc⟩

/-- The fifth order method depends continuously on the φ values. -/
theorem etd5_tends {l : Filter ℕ} (fsal : Bool) {φ : ℕ → ℕ → ℝ → Mat ι} {φ0 : ℕ → ℝ → Mat ι} (L : Mat ι) (h : ℝ)
    (hφ : ∀ k c, 0 < c → c ≤ 1 → Tendsto (fun n => φ n k c) l (𝓝 (φ0 k c))) :
    ERK.Tends l (fun n => etd5Method fsal (φ n) L h) (etd5Method fsal φ0 L h) := by
  have hc := clip_tendsto hφ
  rw [← etd5_clip fsal φ0, show (fun n => etd5Method fsal (φ n) L h) = fun n => etd5Method fsal (clip (φ n)) L h from
    funext fun n => (etd5_clip _ _ _ _).symm]
  have cA : ∀ i j, Continuous fun φ : ℕ → ℝ → Mat ι => (etd5Method fsal φ L h).A i j := by
    intro i j
    simp only [etd5Method]
    split <;> try fun_prop
    split <;> fun_prop
  have cB : ∀ j, Continuous fun φ : ℕ → ℝ → Mat ι => (etd5Method fsal φ L h).B j := by
    intro j
    simp only [etd5Method]
    split <;> fun_prop
  have cR : ∀ j, Continuous fun φ : ℕ → ℝ → Mat ι => (etd5Method fsal φ L h).R j := by
    intro j
    simp only [etd5Method]
    split <;> fun_prop
  exact ⟨fun _ => rfl, fun i => tendsto_const_nhds, fun i j => ((cA i j).tendsto _).comp hc, tendsto_const_nhds,
    fun j => ((cB j).tendsto _).comp hc, fun j => ((cR j).tendsto _).comp hc⟩

/-- Only the fractions `1/2` and `1` matter. -/
theorem krogstad_only {φ φ' : ℕ → ℝ → Mat ι} (L : Mat ι) (h : ℝ) (hφ : ∀ k, ∀ c ∈ [(1 / 2 : ℝ), 1], φ k c = φ' k c) :
    krogstad φ L h = krogstad φ' L h := by
  have h1 : ∀ k, φ k 1 = φ' k 1 := fun k => hφ k _ (by simp)
  have h2 : ∀ k, φ k (1 / 2) = φ' k (1 / 2) := fun k => hφ k _ (by simp)
  simp only [krogstad, h1, h2]

/-- Only the fractions `1/4`, `1/2`, `3/4` and `1` matter. -/
theorem etd5_only (fsal : Bool) {φ φ' : ℕ → ℝ → Mat ι} (L : Mat ι) (h : ℝ)
    (hφ : ∀ k, ∀ c ∈ [(1 / 4 : ℝ), 1 / 2, 3 / 4, 1], φ k c = φ' k c) :
    etd5Method fsal φ L h = etd5Method fsal φ' L h := by
  have h1 : ∀ k, φ k 1 = φ' k 1 := fun k => hφ k _ (by simp)
  have h2 : ∀ k, φ k (1 / 2) = φ' k (1 / 2) := fun k => hφ k _ (by simp)
  have h3 : ∀ k, φ k (1 / 4) = φ' k (1 / 4) := fun k => hφ k _ (by simp)
  have h4 : ∀ k, φ k (3 / 4) = φ' k (3 / 4) := fun k => hφ k _ (by simp)
  simp only [etd5Method, h1, h2, h3, h4]

theorem ETDConfig.withPoints_toNat (cfg : ETDConfig ℝ) (N : ℕ) : (cfg.withPoints N).contour_points.toNat = N :=
  Int.toNat_natCast N

theorem smul_powers_tendsto {Z : Mat ι} {R c : ℝ} (hc : 0 < c) (hc1 : c ≤ 1)
    (hZ : Tendsto (fun N => ((R : ℂ)⁻¹ • Z) ^ N) atTop (𝓝 0)) :
    Tendsto (fun N => ((R : ℂ)⁻¹ • ((c : ℂ) • Z)) ^ N) atTop (𝓝 0) := by
  have hb : ∀ N : ℕ, ((R : ℂ)⁻¹ • ((c : ℂ) • Z)) ^ N = ((c : ℂ) ^ N) • ((R : ℂ)⁻¹ • Z) ^ N := by
    intro N
    rw [smul_comm, smul_pow (c : ℂ)]
  simp_rw [hb]
  refine tendsto_pi_nhds.mpr fun i => tendsto_pi_nhds.mpr fun j => ?_
  have hij := tendsto_pi_nhds.mp (tendsto_pi_nhds.mp hZ i) j
  rw [Matrix.zero_apply, tendsto_zero_iff_norm_tendsto_zero] at hij ⊢
  refine squeeze_zero (fun _ => norm_nonneg _) (fun N => ?_) hij
  rw [Matrix.smul_apply, norm_smul, norm_pow, Complex.norm_real, Real.norm_of_nonneg hc.le]
  exact mul_le_of_le_one_left (norm_nonneg _) (pow_le_one₀ hc.le hc1)

namespace LinOp

theorem phi_tendsto {cfg : ETDConfig ℝ} {h : ℝ} {L : LinOp ι} (hL : L.Resolved cfg h) (k : ℕ) (c : ℝ) (hc : 0 < c)
    (hc1 : c ≤ 1) : Tendsto (fun N => L.phi (cfg.withPoints N) h k c) atTop (𝓝 (phiExact L.mat h k c)) := by
  cases L with
  | diag L =>
    obtain ⟨hcut, hR⟩ := hL
    have he : phiExact (LinOp.mat (.diag L)) h k c = Matrix.diagonal fun i => Verif.phi k (c * (h * L i)) := by
      unfold phiExact LinOp.mat
      rw [← Matrix.diagonal_smul, phiMat_diagonal]
      congr 1
      funext i
      simp only [Pi.smul_apply, smul_eq_mul]
      congr 1
      push_cast; ring
    rw [he]
    show Tendsto (fun N => Matrix.diagonal fun i => phiMode cfg.modecutoff cfg.contour_radius
      (cfg.withPoints N).contour_points.toNat k c (h * L i)) _ _
    simp_rw [ETDConfig.withPoints_toNat]
    refine tendsto_pi_nhds.mpr fun i => tendsto_pi_nhds.mpr fun j => ?_
    by_cases hij : i = j
    · subst hij
      simp only [Matrix.diagonal_apply_eq]
      exact C29_converges hcut hR k c hc.ne' _
    · simp only [Matrix.diagonal_apply_ne _ hij]
      exact tendsto_const_nhds
  | full L =>
    obtain ⟨hR, hsp⟩ := hL
    show Tendsto (fun N => phiFull cfg.contour_radius (cfg.withPoints N).contour_points.toNat L h k c) _ _
    simp_rw [ETDConfig.withPoints_toNat]
    refine phiFull_tendsto hR L h c k ?_
    have := smul_powers_tendsto hc hc1 (powers_tendsto_of_spectrum hR _ hsp)
    simpa only [smul_smul, Complex.ofReal_mul] using this

open scoped Matrix.Norms.Operator in
theorem coefOk_eventually {cfg : ETDConfig ℝ} {h : ℝ} {L : LinOp ι} (hL : L.Resolved cfg h) (cs : List ℝ)
    (hcs : ∀ c ∈ cs, 0 < c ∧ c ≤ 1) : ∀ᶠ N in atTop, L.CoefOk (cfg.withPoints N) cs h := by
  cases L with
  | diag L => exact Eventually.of_forall fun _ => trivial
  | full L =>
    obtain ⟨hR, hsp⟩ := hL
    have key : ∀ c ∈ cs, ∀ᶠ N in atTop, ContourOk cfg.contour_radius N L [c] h := by
      intro c hc
      have := smul_powers_tendsto (hcs c hc).1 (hcs c hc).2 (powers_tendsto_of_spectrum hR _ hsp)
      have h1 : Tendsto (fun N => ((cfg.contour_radius : ℂ)⁻¹ • (((c * h : ℝ) : ℂ) • L)) ^ N) atTop (𝓝 0) := by
        simpa only [smul_smul, Complex.ofReal_mul] using this
      have h2 := h1.norm
      rw [norm_zero] at h2
      filter_upwards [h2.eventually_lt_const one_pos, eventually_gt_atTop 0] with N hN hN0
      exact contourOk_of_small hN0 hR L h c hN
    have hall : ∀ᶠ N in atTop, ∀ c ∈ cs, ContourOk cfg.contour_radius N L [c] h := by
      induction cs with
      | nil => simp
      | cons c cs ih =>
        filter_upwards [key c (by simp), ih (fun x hx => hcs x (by simp [hx])) fun x hx => key x (by simp [hx])] with N h1 h2
        intro x hx
        rcases List.mem_cons.mp hx with rfl | hx
        · exact h1
        · exact h2 x hx
    filter_upwards [hall] with N hN
    intro m hm c hc
    have hm' : m < N := by rwa [ETDConfig.withPoints_toNat] at hm
    rw [ETDConfig.withPoints_toNat]
    exact hN c hc m hm' c (by simp)

end LinOp

namespace ASOp

theorem phi_tendsto {cfg : ETDConfig ℝ} {h : ℝ} {L : ASOp ι} (hL : L.inner.Resolved cfg h) (k : ℕ) (c : ℝ) (hc : 0 < c)
    (hc1 : c ≤ 1) : Tendsto (fun N => L.phi (cfg.withPoints N) h k c) atTop (𝓝 (phiExact L.mat h k c)) := by
  rcases L with L | L | ⟨lam, S, Sinv, hS⟩
  · exact LinOp.phi_tendsto (L := .diag L) hL k c hc hc1
  · exact LinOp.phi_tendsto (L := .full L) hL k c hc hc1
  · have h1 := LinOp.phi_tendsto (L := .diag lam) hL k c hc hc1
    have hcont : Continuous fun X : Mat ι => S * X * Sinv := by fun_prop
    have h2 := (hcont.tendsto _).comp h1
    have he : S * phiExact (Matrix.diagonal lam) h k c * Sinv = phiExact (ASOp.mat (.eig lam S Sinv hS)) h k c := by
      unfold phiExact ASOp.mat
      rw [← phiMat_conj _ _ _ _ hS]
      congr 1
      simp
    rw [← he]
    exact h2

end ASOp

end Verif
