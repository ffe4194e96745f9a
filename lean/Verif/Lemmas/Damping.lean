import Verif.Spec.Damping
import Verif.Lemmas.Limit
import Verif.Lemmas.StiffPhi

/-!
# The limit of strong damping
-/

set_option linter.unusedSectionVars false

namespace Verif

open Matrix Filter Topology

variable {ι : Type} [Fintype ι] [DecidableEq ι]

namespace ERK

/-- Convergence of the coefficients that are used. -/
structure Near (M : ℕ → ERK ι) (M0 : ERK ι) : Prop where
  s : ∀ n, (M n).s = M0.s
  E : ∀ i < M0.s, Tendsto (fun n => (M n).E i) atTop (𝓝 (M0.E i))
  A : ∀ i < M0.s, ∀ j < i, Tendsto (fun n => (M n).A i j) atTop (𝓝 (M0.A i j))
  Eout : Tendsto (fun n => (M n).Eout) atTop (𝓝 M0.Eout)
  B : ∀ j < M0.s, Tendsto (fun n => (M n).B j) atTop (𝓝 (M0.B j))
  R : ∀ j < M0.s, Tendsto (fun n => (M n).R j) atTop (𝓝 (M0.R j))

theorem run_near {M : ℕ → ERK ι} {M0 : ERK ι} (hM : Near M M0) {f : Vec ι → Vec ι} (hf : Continuous f) {u : ℕ → Vec ι} {u0 : Vec ι}
    (hu : Tendsto u atTop (𝓝 u0)) : Tendsto (fun n => (M n).run f (u n)) atTop (𝓝 (M0.run f u0)) := by
  have hv : ∀ k ≤ M0.s, ∀ j, Tendsto (fun n => (M n).values f (u n) k j) atTop (𝓝 (M0.values f u0 k j)) := by
    intro k
    induction k with
    | zero => intro _ j; exact tendsto_const_nhds
    | succ k ih =>
      intro hk j
      simp only [values]
      by_cases hj : j = k
      · subst hj
        simp only [Function.update_self]
        refine (hf.tendsto _).comp ?_
        exact (tendsto_mulVec (hM.E _ hk) hu).add
          (tendsto_finsetSum _ fun i hi => tendsto_mulVec (hM.A _ hk _ (Finset.mem_range.mp hi)) (ih (by omega) i))
      · simp only [Function.update_of_ne hj]
        exact ih (by omega) j
  unfold run
  refine Tendsto.prodMk_nhds ?_ ?_
  · simp only [out, hM.s]
    exact (tendsto_mulVec hM.Eout hu).add
      (tendsto_finsetSum _ fun i hi => tendsto_mulVec (hM.B _ (Finset.mem_range.mp hi)) (hv _ le_rfl i))
  · simp only [err, hM.s]
    exact tendsto_finsetSum _ fun i hi => tendsto_mulVec (hM.R _ (Finset.mem_range.mp hi)) (hv _ le_rfl i)

/-- The method with all coefficients multiplied by `P`. -/
def mask (P : Mat ι) (M : ERK ι) : ERK ι where
  s := M.s
  E := fun i => if i = 0 then 1 else P * M.E i
  A := fun i j => P * M.A i j
  Eout := P * M.Eout
  B := fun j => P * M.B j
  R := fun j => P * M.R j

/-- The masked method with the function `f` is the method itself with `P f`. -/
theorem mask_run {P : Mat ι} {M : ERK ι} (h0 : M.E 0 = 1) (hE : ∀ i, Commute P (M.E i)) (hA : ∀ i j, Commute P (M.A i j))
    (hEo : Commute P M.Eout) (hB : ∀ j, Commute P (M.B j)) (hR : ∀ j, Commute P (M.R j)) (f : Vec ι → Vec ι) {u : Vec ι}
    (hu : P *ᵥ u = u) : (M.mask P).run f u = M.run (fun x => P *ᵥ f x) u := by
  have key : ∀ {X : Mat ι}, Commute P X → ∀ w, (P * X) *ᵥ w = X *ᵥ (P *ᵥ w) := fun hX w => by
    rw [hX.eq, mulVec_mulVec]
  have ku : ∀ {X : Mat ι}, Commute P X → (P * X) *ᵥ u = X *ᵥ u := fun hX => by rw [key hX, hu]
  have hv : ∀ k j, M.values (fun x => P *ᵥ f x) u k j = P *ᵥ (M.mask P).values f u k j := by
    intro k
    induction k with
    | zero => intro j; simp [values]
    | succ k ih =>
      intro j
      simp only [values]
      by_cases hj : j = k
      · subst hj
        simp only [Function.update_self]
        congr 2
        simp only [arg, mask, ih]
        congr 1
        · by_cases hj : j = 0
          · subst hj; simp [h0]
          · simp only [hj, if_false]; exact (ku (hE j)).symm
        · exact Finset.sum_congr rfl fun i _ => (key (hA j i) _).symm
      · simp only [Function.update_of_ne hj]
        exact ih j
  unfold run
  simp only [out, err, hv]
  refine Prod.ext ?_ ?_
  · show (P * M.Eout) *ᵥ u + _ = _
    rw [ku hEo]
    congr 1
    exact Finset.sum_congr rfl fun i _ => key (hB i) _
  · show ∑ i ∈ Finset.range M.s, (P * M.R i) *ᵥ _ = _
    exact Finset.sum_congr rfl fun i _ => key (hR i) _

end ERK

/-- `φ_k` at points further and further to the left. -/
theorem phi_left {z : ℕ → ℂ} (hz : Tendsto (fun n => (z n).re) atTop atBot) (k : ℕ) : Tendsto (fun n => phi k (z n)) atTop (𝓝 0) := by
  rw [tendsto_zero_iff_norm_tendsto_zero]
  cases k with
  | zero =>
    simp only [phi_zero, Complex.norm_exp]
    exact Real.tendsto_exp_atBot.comp hz
  | succ k =>
    have h1 : Tendsto (fun n => 2 * ‖z n‖⁻¹) atTop (𝓝 0) := by
      have h2 : Tendsto (fun n => ‖z n‖) atTop atTop :=
        tendsto_atTop_mono (fun n => (neg_le_abs _).trans (Complex.abs_re_le_norm (z n))) (tendsto_neg_atBot_atTop.comp hz)
      simpa using (tendsto_inv_atTop_zero.comp h2).const_mul 2
    refine squeeze_zero' (Eventually.of_forall fun _ => norm_nonneg _) ?_ h1
    filter_upwards [hz.eventually_lt_atBot 0] with n hn
    have h0 : z n ≠ 0 := fun h => by simp [h] at hn
    have h3 : phi (k + 1) (z n) = (phi k (z n) - (k.factorial : ℂ)⁻¹) * (z n)⁻¹ := by
      rw [phi_succ k (z n)]; field_simp; ring
    rw [h3, norm_mul, norm_inv]
    refine mul_le_mul_of_nonneg_right ?_ (by positivity)
    have h4 := norm_phi_le_of_re le_rfl hn.le k
    have h5 : ‖((k.factorial : ℂ)⁻¹)‖ ≤ 1 := by
      rw [norm_inv, Complex.norm_natCast]
      exact inv_le_one_of_one_le₀ (by exact_mod_cast Nat.one_le_iff_ne_zero.mpr k.factorial_ne_zero)
    calc _ ≤ ‖phi k (z n)‖ + ‖((k.factorial : ℂ)⁻¹)‖ := norm_sub_le _ _
      _ ≤ 2 := by rw [Real.exp_zero] at h4; linarith

theorem re_left {z : ℕ → ℂ} (hz : Tendsto (fun n => (z n).re) atTop atBot) {c : ℝ} (hc : 0 < c) :
    Tendsto (fun n => ((c : ℂ) * z n).re) atTop atBot := by
  simp only [Complex.re_ofReal_mul]
  exact hz.const_mul_atBot hc

/-- The same for the values the solvers use. -/
theorem phiMode_left {z : ℕ → ℂ} (hz : Tendsto (fun n => (z n).re) atTop atBot) (cut R : ℝ) (N k : ℕ) {c : ℝ} (hc : 0 < c) :
    Tendsto (fun n => phiMode cut R N k c (z n)) atTop (𝓝 0) := by
  refine (phi_left (re_left hz hc) k).congr' ?_
  filter_upwards [hz.eventually_lt_atBot 0, hz.eventually_lt_atBot (-cut)] with n h1 h2
  have h0 : z n ≠ 0 := fun h => by simp [h] at h1
  have h3 : ¬ ‖z n‖ < cut := by
    have := (neg_le_abs _).trans (Complex.abs_re_le_norm (z n))
    linarith
  rw [phiMode, if_neg h3, phi_eq_phiDiv]
  exact mul_ne_zero (by exact_mod_cast hc.ne') h0

/-- The projection that removes the modes in `D`. -/
noncomputable def dropMat (D : Set ι) : Mat ι := open Classical in Matrix.diagonal fun i => if i ∈ D then 0 else 1

theorem dropMat_mulVec (D : Set ι) (v : Vec ι) : dropMat D *ᵥ v = without D v := by
  funext i
  unfold dropMat without
  rw [mulVec_diagonal]
  split <;> simp

theorem diagonal_left {D : Set ι} {x : ℕ → Vec ι} {x0 : Vec ι} (h1 : ∀ i ∈ D, Tendsto (fun n => x n i) atTop (𝓝 0))
    (h2 : ∀ i, i ∉ D → ∀ n, x n i = x0 i) : Tendsto (fun n => Matrix.diagonal (x n)) atTop (𝓝 (dropMat D * Matrix.diagonal x0)) := by
  classical
  unfold dropMat
  rw [Matrix.diagonal_mul_diagonal]
  refine tendsto_pi_nhds.mpr fun i => tendsto_pi_nhds.mpr fun j => ?_
  by_cases hij : i = j
  · subst hij
    simp only [Matrix.diagonal_apply_eq]
    by_cases hi : i ∈ D
    · simpa [hi] using h1 i hi
    · simp only [hi, if_false, one_mul, h2 i hi]; exact tendsto_const_nhds
  · simp only [Matrix.diagonal_apply_ne _ hij]
    exact tendsto_const_nhds

variable {D : Set ι} {L : ℕ → Vec ι} {L0 : Vec ι}

theorem Damped.expm (hd : Damped D L L0) {θ : ℝ} (hθ : 0 < θ) :
    Tendsto (fun n => expm (Matrix.diagonal (L n)) θ) atTop (𝓝 (dropMat D * Verif.expm (Matrix.diagonal L0) θ)) := by
  simp only [expm_diag]
  refine diagonal_left (fun i hi => ?_) fun i hi n => by rw [hd.2 i hi n]
  simpa only [phi_zero] using phi_left (re_left (hd.1 i hi) hθ) 0

theorem Damped.phiDiag (hd : Damped D L L0) (cut R : ℝ) (N : ℕ) {h : ℝ} (hh : 0 < h) (k : ℕ) {c : ℝ} (hc : 0 < c) :
    Tendsto (fun n => phiDiag cut R N (L n) h k c) atTop (𝓝 (dropMat D * Verif.phiDiag cut R N L0 h k c)) :=
  diagonal_left (fun i hi => phiMode_left (re_left (hd.1 i hi) hh) cut R N k hc) fun i hi n => by rw [hd.2 i hi n]

/-! ### The methods -/

theorem clip_near {φ : ℕ → ℕ → ℝ → Mat ι} {φ0 : ℕ → ℝ → Mat ι}
    (hφ : ∀ k c, 0 < c → c ≤ 1 → Tendsto (fun n => φ n k c) atTop (𝓝 (φ0 k c))) : Tendsto (fun n => clip (φ n)) atTop (𝓝 (clip φ0)) :=
  clip_tendsto hφ

/-- The weights of Krogstad's method are linear in the φ values. -/
theorem krogstad_mul (P : Mat ι) (φ : ℕ → ℝ → Mat ι) (L L' : Mat ι) (h : ℝ) :
    (∀ i j, (krogstad (fun k c => P * φ k c) L h).A i j = P * (krogstad φ L' h).A i j) ∧
    (∀ j, (krogstad (fun k c => P * φ k c) L h).B j = P * (krogstad φ L' h).B j) ∧
    ∀ j, (krogstad (fun k c => P * φ k c) L h).R j = P * (krogstad φ L' h).R j := by
  refine ⟨fun i j => ?_, fun j => ?_, fun j => ?_⟩ <;> simp only [krogstad] <;> split <;>
    simp [mul_sub, mul_add]

theorem krogstad_near {P : Mat ι} {φ : ℕ → ℕ → ℝ → Mat ι} {φ0 : ℕ → ℝ → Mat ι} {L : ℕ → Mat ι} {L0 : Mat ι} {h : ℝ} (hh : 0 < h)
    (hφ : ∀ k c, 0 < c → c ≤ 1 → Tendsto (fun n => φ n k c) atTop (𝓝 (P * φ0 k c)))
    (hE : ∀ θ, 0 < θ → Tendsto (fun n => expm (L n) θ) atTop (𝓝 (P * expm L0 θ))) :
    ERK.Near (fun n => krogstad (φ n) (L n) h) ((krogstad φ0 L0 h).mask P) := by
  have hT := krogstad_tends (l := atTop) (φ0 := fun k c => P * φ0 k c) L0 h hφ
  obtain ⟨m1, m2, m3⟩ := krogstad_mul P φ0 L0 L0 h
  have h2 : 0 < h / 2 := by positivity
  refine ⟨fun _ => rfl, fun i hi => ?_, fun i _ j _ => ?_, hE h hh, fun j _ => ?_, fun j _ => ?_⟩
  · have hi : i < 5 := hi
    interval_cases i
    · exact tendsto_const_nhds
    · exact hE _ h2
    · exact hE _ h2
    · exact hE _ hh
    · exact hE _ hh
  · have := hT.A i j
    rw [m1] at this; exact this
  · have := hT.B j
    rw [m2] at this; exact this
  · have := hT.R j
    rw [m3] at this; exact this

theorem etd5_mul (b : Bool) (P : Mat ι) (φ : ℕ → ℝ → Mat ι) (L L' : Mat ι) (h : ℝ) :
    (∀ i j, (etd5Method b (fun k c => P * φ k c) L h).A i j = P * (etd5Method b φ L' h).A i j) ∧
    (∀ j, (etd5Method b (fun k c => P * φ k c) L h).B j = P * (etd5Method b φ L' h).B j) ∧
    ∀ j, (etd5Method b (fun k c => P * φ k c) L h).R j = P * (etd5Method b φ L' h).R j := by
  refine ⟨fun i j => ?_, fun j => ?_, fun j => ?_⟩ <;> simp only [etd5Method] <;> split <;> (try split) <;>
    simp [mul_sub, mul_add]

theorem etd5_near (b : Bool) {P : Mat ι} {φ : ℕ → ℕ → ℝ → Mat ι} {φ0 : ℕ → ℝ → Mat ι} {L : ℕ → Mat ι} {L0 : Mat ι} {h : ℝ} (hh : 0 < h)
    (hφ : ∀ k c, 0 < c → c ≤ 1 → Tendsto (fun n => φ n k c) atTop (𝓝 (P * φ0 k c)))
    (hE : ∀ θ, 0 < θ → Tendsto (fun n => expm (L n) θ) atTop (𝓝 (P * expm L0 θ))) :
    ERK.Near (fun n => etd5Method b (φ n) (L n) h) ((etd5Method b φ0 L0 h).mask P) := by
  have hT := etd5_tends (l := atTop) b (φ0 := fun k c => P * φ0 k c) L0 h hφ
  obtain ⟨m1, m2, m3⟩ := etd5_mul b P φ0 L0 L0 h
  refine ⟨fun _ => rfl, fun i hi => ?_, fun i _ j _ => ?_, hE h hh, fun j _ => ?_, fun j _ => ?_⟩
  · have hi : i < 7 := lt_of_lt_of_le hi (by show (if b then 7 else 6) ≤ 7; split <;> omega)
    interval_cases i
    · exact tendsto_const_nhds
    · exact hE (h / 4) (by positivity)
    · exact hE (h / 4) (by positivity)
    · exact hE (h / 2) (by positivity)
    · exact hE (3 * h / 4) (by positivity)
    · exact hE h hh
    · exact hE h hh
  · have := hT.A i j
    rw [m1] at this; exact this
  · have := hT.B j
    rw [m2] at this; exact this
  · have := hT.R j
    rw [m3] at this; exact this

theorem commute_dropMat (D : Set ι) (x : Vec ι) : Commute (dropMat D) (Matrix.diagonal x) := by
  unfold dropMat
  exact Matrix.commute_diagonal _ _

theorem krogstad_mul_right (P : Mat ι) (φ : ℕ → ℝ → Mat ι) (L L' : Mat ι) (h : ℝ) :
    (∀ i j, (krogstad (fun k c => φ k c * P) L h).A i j = (krogstad φ L' h).A i j * P) ∧
    (∀ j, (krogstad (fun k c => φ k c * P) L h).B j = (krogstad φ L' h).B j * P) ∧
    ∀ j, (krogstad (fun k c => φ k c * P) L h).R j = (krogstad φ L' h).R j * P := by
  refine ⟨fun i j => ?_, fun j => ?_, fun j => ?_⟩ <;> simp only [krogstad] <;> split <;>
    simp [sub_mul, add_mul]

theorem krogstad_drop {φ : ℕ → ℝ → Mat ι} (hφ : ∀ k c, Commute (dropMat D) (φ k c)) (L0 : Vec ι) (h : ℝ) (f : Vec ι → Vec ι)
    {u : Vec ι} (hu : without D u = u) : ((krogstad φ (Matrix.diagonal L0) h).mask (dropMat D)).run f u =
      (krogstad φ (Matrix.diagonal L0) h).run (fun x => without D (f x)) u := by
  simp only [← dropMat_mulVec] at hu ⊢
  have hE : ∀ θ, Commute (dropMat D) (expm (Matrix.diagonal L0) θ) := fun θ => by rw [expm_diag]; exact commute_dropMat D _
  obtain ⟨a1, a2, a3⟩ := krogstad_mul (dropMat D) φ (Matrix.diagonal L0) (Matrix.diagonal L0) h
  obtain ⟨b1, b2, b3⟩ := krogstad_mul_right (dropMat D) φ (Matrix.diagonal L0) (Matrix.diagonal L0) h
  have hc : (fun k c => dropMat D * φ k c) = fun k c => φ k c * dropMat D := funext fun k => funext fun c => (hφ k c).eq
  refine ERK.mask_run rfl ?_ (fun i j => ?_) (hE h) (fun j => ?_) (fun j => ?_) f hu
  · intro i
    simp only [krogstad]
    split <;> first | exact hE _ | exact Commute.one_right _
  · exact (a1 i j).symm.trans ((congrArg (fun φ => (krogstad φ (Matrix.diagonal L0) h).A i j) hc).trans (b1 i j))
  · exact (a2 j).symm.trans ((congrArg (fun φ => (krogstad φ (Matrix.diagonal L0) h).B j) hc).trans (b2 j))
  · exact (a3 j).symm.trans ((congrArg (fun φ => (krogstad φ (Matrix.diagonal L0) h).R j) hc).trans (b3 j))

theorem etd5_mul_right (b : Bool) (P : Mat ι) (φ : ℕ → ℝ → Mat ι) (L L' : Mat ι) (h : ℝ) :
    (∀ i j, (etd5Method b (fun k c => φ k c * P) L h).A i j = (etd5Method b φ L' h).A i j * P) ∧
    (∀ j, (etd5Method b (fun k c => φ k c * P) L h).B j = (etd5Method b φ L' h).B j * P) ∧
    ∀ j, (etd5Method b (fun k c => φ k c * P) L h).R j = (etd5Method b φ L' h).R j * P := by
  refine ⟨fun i j => ?_, fun j => ?_, fun j => ?_⟩ <;> simp only [etd5Method] <;> split <;> (try split) <;>
    simp [sub_mul, add_mul]

theorem etd5_drop (b : Bool) {φ : ℕ → ℝ → Mat ι} (hφ : ∀ k c, Commute (dropMat D) (φ k c)) (L0 : Vec ι) (h : ℝ) (f : Vec ι → Vec ι)
    {u : Vec ι} (hu : without D u = u) : ((etd5Method b φ (Matrix.diagonal L0) h).mask (dropMat D)).run f u =
      (etd5Method b φ (Matrix.diagonal L0) h).run (fun x => without D (f x)) u := by
  simp only [← dropMat_mulVec] at hu ⊢
  have hE : ∀ θ, Commute (dropMat D) (expm (Matrix.diagonal L0) θ) := fun θ => by rw [expm_diag]; exact commute_dropMat D _
  obtain ⟨a1, a2, a3⟩ := etd5_mul b (dropMat D) φ (Matrix.diagonal L0) (Matrix.diagonal L0) h
  obtain ⟨b1, b2, b3⟩ := etd5_mul_right b (dropMat D) φ (Matrix.diagonal L0) (Matrix.diagonal L0) h
  have hc : (fun k c => dropMat D * φ k c) = fun k c => φ k c * dropMat D := funext fun k => funext fun c => (hφ k c).eq
  refine ERK.mask_run rfl ?_ (fun i j => ?_) (hE h) (fun j => ?_) (fun j => ?_) f hu
  · intro i
    simp only [etd5Method]
    split <;> first | exact hE _ | exact Commute.one_right _
  · exact (a1 i j).symm.trans ((congrArg (fun φ => (etd5Method b φ (Matrix.diagonal L0) h).A i j) hc).trans (b1 i j))
  · exact (a2 j).symm.trans ((congrArg (fun φ => (etd5Method b φ (Matrix.diagonal L0) h).B j) hc).trans (b2 j))
  · exact (a3 j).symm.trans ((congrArg (fun φ => (etd5Method b φ (Matrix.diagonal L0) h).R j) hc).trans (b3 j))

/-- A Lawson method when all modes are damped: the weights between stages at the same time remain. -/
noncomputable def frozen (T : Tableau) (h : ℝ) : ERK ι where
  s := T.s
  E := fun i => if T.c i = 0 then 1 else 0
  A := fun i j => if T.c i = T.c j then ((h * T.a i j : ℝ) : ℂ) • 1 else 0
  Eout := 0
  B := fun j => if T.c j = 1 then ((h * T.b j : ℝ) : ℂ) • 1 else 0
  R := fun j => if T.c j = 1 then ((h * T.r j : ℝ) : ℂ) • 1 else 0

theorem lawson_near {T : Tableau} (h0 : ∀ i, 0 ≤ T.c i) (h1 : ∀ i < T.s, T.c i ≤ 1) (hm : ∀ i < T.s, ∀ j < i, T.c j ≤ T.c i)
    (hd : Damped Set.univ L L0) {h : ℝ} (hh : 0 < h) :
    ERK.Near (fun n => lawson T (Matrix.diagonal (L n)) h) (frozen T h) := by
  have hz : dropMat (Set.univ : Set ι) = 0 := by
    unfold dropMat
    simp
  have hE : ∀ θ, 0 < θ → Tendsto (fun n => expm (Matrix.diagonal (L n)) θ) atTop (𝓝 0) := fun θ hθ => by
    have := hd.expm hθ
    rwa [hz, zero_mul] at this
  have h00 : ∀ n, expm (Matrix.diagonal (L n)) 0 = 1 := fun n => by simp [expm]
  have key : ∀ (w x y : ℝ), x ≤ y → Tendsto (fun n => ((w : ℝ) : ℂ) • expm (Matrix.diagonal (L n)) ((y - x) * h)) atTop
      (𝓝 (if y = x then ((w : ℝ) : ℂ) • 1 else 0)) := by
    intro w x y hxy
    split
    · next he => subst he; simp only [sub_self, zero_mul, h00]; exact tendsto_const_nhds
    · next hne =>
      have := (hE ((y - x) * h) (mul_pos (sub_pos.mpr (lt_of_le_of_ne hxy (Ne.symm hne))) hh)).const_smul ((w : ℝ) : ℂ)
      rwa [smul_zero] at this
  refine ⟨fun _ => rfl, fun i _ => ?_, fun i hi j hj => key _ _ _ (hm i hi j hj), hE h hh, fun j hj => ?_, fun j hj => ?_⟩
  · have := key 1 0 (T.c i) (h0 i)
    simpa [lawson, frozen] using this
  · have := key (h * T.b j) (T.c j) 1 (h1 j hj)
    simp only [eq_comm (a := (1 : ℝ))] at this
    exact this
  · have := key (h * T.r j) (T.c j) 1 (h1 j hj)
    simp only [eq_comm (a := (1 : ℝ))] at this
    exact this

end Verif
