import Verif.Lemmas.StiffMethods
import Verif.Lemmas.CoefBounds

/-!
# Stability of a step, independently of the size of the linear operator
-/

set_option linter.unusedSectionVars false

namespace Verif

open Matrix Finset
open scoped Matrix.Norms.Operator

variable {ι : Type} [Fintype ι] [DecidableEq ι] {L : Vec ι} {f g : Vec ι → Vec ι} {K ω R : ℝ}

/-- Constant in the difference of the first `n` values. -/
noncomputable def stableStage (c K : ℝ) : ℕ → ℝ
  | 0 => 0
  | n + 1 => stableStage c K n + (1 + K * (c + n * (c * stableStage c K n)))

theorem stableStage_nonneg {c K : ℝ} (hc : 0 ≤ c) (hK : 0 ≤ K) (n : ℕ) : 0 ≤ stableStage c K n := by
  induction n with
  | zero => exact le_rfl
  | succ n ih => unfold stableStage; positivity

theorem values_stable {M : ERK ι} {c h δ : ℝ} (hc : 0 ≤ c) (hK : 0 ≤ K) (hM : M.Bounded c h)
    (hf : ∀ a b, ‖f a - f b‖ ≤ K * ‖a - b‖) (hg : ∀ a, ‖g a - f a‖ ≤ δ) (u v : Vec ι) :
    ∀ n ≤ M.s, ∀ j, ‖M.values g v n j - M.values f u n j‖ ≤ stableStage c K n * (‖v - u‖ + δ) := by
  have δ0 : 0 ≤ δ := (norm_nonneg _).trans (hg u)
  set d := ‖v - u‖ + δ with hd
  have d0 : 0 ≤ d := by positivity
  intro n
  induction n with
  | zero => intro _ j; simp [ERK.values, stableStage]
  | succ n ih =>
    intro hn j
    have hns : n < M.s := hn
    have ih := ih hns.le
    set S := stableStage c K n with hS
    have S0 : 0 ≤ S := stableStage_nonneg hc hK n
    have hX : stableStage c K (n + 1) = S + (1 + K * (c + n * (c * S))) := rfl
    rw [hX]
    by_cases hj : j = n
    · subst hj
      simp only [ERK.values, Function.update_self]
      have harg : ‖M.arg v (M.values g v j) j - M.arg u (M.values f u j) j‖ ≤ (c + j * (c * S)) * d := by
        have e : M.arg v (M.values g v j) j - M.arg u (M.values f u j) j =
            M.E j *ᵥ (v - u) + ∑ i ∈ range j, M.A j i *ᵥ (M.values g v j i - M.values f u j i) := by
          simp only [ERK.arg, mulVec_sub, sum_sub_distrib]
          exact add_sub_add_comm _ _ _ _
        rw [e]
        refine (norm_add_le _ _).trans ?_
        have h1 : ‖M.E j *ᵥ (v - u)‖ ≤ c * d := ERK.norm_mulVec_le (hM.E j hns) (by linarith)
        have h2 : ‖∑ i ∈ range j, M.A j i *ᵥ (M.values g v j i - M.values f u j i)‖ ≤ ∑ i ∈ range j, c * (S * d) :=
          norm_sum_le_of_le _ fun i hi => ERK.norm_mulVec_le (hM.A j hns i (mem_range.mp hi)) (ih i)
        rw [sum_const, card_range, nsmul_eq_mul] at h2
        linarith
      calc _ ≤ ‖g (M.arg v (M.values g v j) j) - f (M.arg v (M.values g v j) j)‖ +
            ‖f (M.arg v (M.values g v j) j) - f (M.arg u (M.values f u j) j)‖ := norm_sub_le_norm_sub_add_norm_sub _ _ _
        _ ≤ δ + K * ((c + j * (c * S)) * d) := add_le_add (hg _) ((hf _ _).trans (mul_le_mul_of_nonneg_left harg hK))
        _ ≤ _ := by
          have : 0 ≤ S * d := by positivity
          have : δ ≤ d := by have := norm_nonneg (v - u); linarith
          linarith
    · simp only [ERK.values, Function.update_of_ne hj]
      refine (ih j).trans (mul_le_mul_of_nonneg_right ?_ d0)
      have : 0 ≤ 1 + K * (c + n * (c * S)) := by positivity
      linarith

/-- Constant in the difference of two steps. -/
noncomputable def stableConst (c K : ℝ) (s : ℕ) : ℝ := c + s * (c * stableStage c K s)

theorem stableConst_nonneg {c K : ℝ} (hc : 0 ≤ c) (hK : 0 ≤ K) (s : ℕ) : 0 ≤ stableConst c K s := by
  have := stableStage_nonneg hc hK s
  unfold stableConst; positivity

theorem run_stable {M : ERK ι} {c h δ : ℝ} (hc : 0 ≤ c) (hK : 0 ≤ K) (hh : 0 ≤ h) (hM : M.Bounded c h)
    (hf : ∀ a b, ‖f a - f b‖ ≤ K * ‖a - b‖) (hg : ∀ a, ‖g a - f a‖ ≤ δ) (u v : Vec ι) :
    ‖(M.run g v).1 - (M.run f u).1‖ ≤ (1 + stableConst c K M.s * h) * ‖v - u‖ + stableConst c K M.s * h * δ := by
  have hv := values_stable hc hK hM hf hg u v M.s le_rfl
  have S0 := stableStage_nonneg hc hK M.s
  set S := stableStage c K M.s with hS
  have δ0 : 0 ≤ δ := (norm_nonneg _).trans (hg u)
  have e1 : (M.run g v).1 - (M.run f u).1 = M.Eout *ᵥ (v - u) +
      ∑ j ∈ range M.s, M.B j *ᵥ (M.values g v M.s j - M.values f u M.s j) := by
    simp only [ERK.run, ERK.out, mulVec_sub, sum_sub_distrib]
    exact add_sub_add_comm _ _ _ _
  rw [e1]
  have h1 : ‖M.Eout *ᵥ (v - u)‖ ≤ (1 + c * h) * ‖v - u‖ := ERK.norm_mulVec_le hM.Eout le_rfl
  have h2 : ‖∑ j ∈ range M.s, M.B j *ᵥ (M.values g v M.s j - M.values f u M.s j)‖ ≤ ∑ j ∈ range M.s, c * h * (S * (‖v - u‖ + δ)) :=
    norm_sum_le_of_le _ fun j hj => ERK.norm_mulVec_le (hM.B j (mem_range.mp hj)) (hv j)
  rw [sum_const, card_range, nsmul_eq_mul] at h2
  have h3 : 0 ≤ c * h * δ := by positivity
  have e2 : stableConst c K M.s = c + M.s * (c * S) := rfl
  rw [e2]
  calc _ ≤ (1 + c * h) * ‖v - u‖ + M.s * (c * h * (S * (‖v - u‖ + δ))) := (norm_add_le _ _).trans (add_le_add h1 h2)
    _ ≤ _ := by linarith

/-- Bound for the coefficients of all methods. -/
noncomputable def stableBound (ω R : ℝ) : ℝ := stiffBound ω R + ω * Real.exp ω

theorem stableBound_nonneg (hω : 0 ≤ ω) (R : ℝ) : 0 ≤ stableBound ω R := by
  have := stiffBound_nonneg ω R
  unfold stableBound; positivity

theorem exp_le_stableBound (hω : 0 ≤ ω) (R : ℝ) : 12 * Real.exp ω ≤ stableBound ω R := by
  have h1 : 0 ≤ ω * Real.exp ω := by positivity
  have h2 : 0 < Real.exp (3 * R) := Real.exp_pos _
  unfold stableBound stiffBound; linarith

theorem expm_diag_le_one {θ : ℝ} (hω : 0 ≤ ω) (hL : ∀ i, (L i).re ≤ ω) (h0 : 0 ≤ θ) (h1 : θ ≤ 1) :
    ‖expm (Matrix.diagonal L) θ‖ ≤ Real.exp ω :=
  (expm_diag_le hL h0).trans (Real.exp_le_exp.mpr (mul_le_of_le_one_right hω h1))

theorem expm_diag_out {h : ℝ} (hω : 0 ≤ ω) (hL : ∀ i, (L i).re ≤ ω) (h0 : 0 ≤ h) (h1 : h ≤ 1) (R : ℝ) :
    ‖expm (Matrix.diagonal L) h‖ ≤ 1 + stableBound ω R * h := by
  refine ((expm_diag_le hL h0).trans (exp_le_one_add hω h0 h1)).trans ?_
  have := mul_le_mul_of_nonneg_right (show ω * Real.exp ω ≤ stableBound ω R by
    have := stiffBound_nonneg ω R; unfold stableBound; linarith) h0
  linarith

theorem ERK.StiffOk.bounded {M : ERK ι} {x : ℕ → ℝ} {ε h : ℝ} (hω : 0 ≤ ω) (hL : ∀ i, (L i).re ≤ ω) (h0 : 0 ≤ h) (h1 : h ≤ 1)
    (hM : M.StiffOk L x (stiffBound ω R) ε h) : M.Bounded (stableBound ω R) h := by
  have b0 := stiffBound_nonneg ω R
  have b1 : stiffBound ω R ≤ stableBound ω R := by
    have : 0 ≤ ω * Real.exp ω := by positivity
    unfold stableBound; linarith
  refine ⟨fun i hi => ?_, fun i hi j hj => ?_, ?_, fun j hj => ?_⟩
  · rw [hM.E i hi]
    refine (expm_diag_le_one hω hL (mul_nonneg (hM.x01 i).1 h0) (mul_le_one₀ (hM.x01 i).2 h0 h1)).trans ?_
    have := exp_le_stableBound hω R
    have := Real.exp_pos ω
    linarith
  · exact (hM.A i hi j hj).trans ((mul_le_of_le_one_right b0 h1).trans b1)
  · rw [hM.Eout]; exact expm_diag_out hω hL h0 h1 R
  · exact (hM.B j hj).trans (mul_le_mul_of_nonneg_right b1 h0)

/-- Integrating factor methods whose abscissae increase from 0 to 1, with weights of moderate size. -/
theorem lawson_stable {T : Tableau} (hT : ∀ i < T.s, 0 ≤ T.c i ∧ T.c i ≤ 1 ∧ |T.b i| ≤ 12 ∧ ∀ j < i, T.c j ≤ T.c i ∧ |T.a i j| ≤ 12)
    {h : ℝ} (hω : 0 ≤ ω) (hL : ∀ i, (L i).re ≤ ω) (h0 : 0 ≤ h) (h1 : h ≤ 1) (R : ℝ) :
    (lawson T (Matrix.diagonal L) h).Bounded (stableBound ω R) h := by
  have e0 := Real.exp_pos ω
  have b1 := exp_le_stableBound hω R
  have hw : ∀ {a θ : ℝ}, |a| ≤ 12 → 0 ≤ θ → θ ≤ 1 → ‖((h * a : ℝ) : ℂ) • expm (Matrix.diagonal L) (θ * h)‖ ≤ stableBound ω R * h := by
    intro a θ ha t0 t1
    rw [norm_smul, Complex.norm_real, Real.norm_eq_abs, abs_mul, abs_of_nonneg h0]
    have h3 := expm_diag_le_one hω hL (mul_nonneg t0 h0) (mul_le_one₀ t1 h0 h1)
    have h4 := mul_le_mul ha h3 (norm_nonneg _) (by norm_num)
    calc h * |a| * ‖expm (Matrix.diagonal L) (θ * h)‖ = |a| * ‖expm (Matrix.diagonal L) (θ * h)‖ * h := by ring
      _ ≤ _ := mul_le_mul_of_nonneg_right (h4.trans b1) h0
  refine ⟨fun i hi => ?_, fun i hi j hj => ?_, expm_diag_out hω hL h0 h1 R, fun j hj => ?_⟩
  · obtain ⟨a1, a2, -⟩ := hT i hi
    exact (expm_diag_le_one hω hL (mul_nonneg a1 h0) (mul_le_one₀ a2 h0 h1)).trans (by linarith)
  · obtain ⟨a1, a2, -, a4⟩ := hT i hi
    obtain ⟨a5, a6⟩ := a4 j hj
    obtain ⟨c1, c2, -⟩ := hT j (hj.trans hi)
    exact (hw a6 (by linarith) (by linarith)).trans (mul_le_of_le_one_right (stableBound_nonneg hω R) h1)
  · obtain ⟨c1, c2, c3, -⟩ := hT j hj
    exact hw c3 (by linarith) (by linarith)

theorem rk4_stable : ∀ i < rk4.s, 0 ≤ rk4.c i ∧ rk4.c i ≤ 1 ∧ |rk4.b i| ≤ 12 ∧ ∀ j < i, rk4.c j ≤ rk4.c i ∧ |rk4.a i j| ≤ 12 := by
  intro i hi
  have hi : i < 5 := hi
  interval_cases i <;>
  refine ⟨by norm_num [rk4], by norm_num [rk4], by norm_num [rk4, abs_le], fun j hj => ?_⟩ <;>
  interval_cases j <;> norm_num [rk4, abs_le]

theorem dp_mono : ∀ i < 7, ∀ j < i, dormandPrince.c j ≤ dormandPrince.c i := by
  intro i hi j hj
  interval_cases i <;> interval_cases j <;> simp only [dormandPrince] <;> norm_num

theorem dp_a : ∀ i < 7, ∀ j < i, |dormandPrince.a i j| ≤ 12 := by
  intro i hi j hj
  interval_cases i <;> interval_cases j <;> simp only [dormandPrince] <;> rw [abs_le] <;> norm_num

theorem dp_b : ∀ i < 7, |dormandPrince.b i| ≤ 12 := by
  intro i hi
  interval_cases i <;> simp only [dormandPrince] <;> rw [abs_le] <;> norm_num

theorem dp_stable (r : ℝ) : ∀ i < (dpWith r).s, 0 ≤ (dpWith r).c i ∧ (dpWith r).c i ≤ 1 ∧ |(dpWith r).b i| ≤ 12 ∧
    ∀ j < i, (dpWith r).c j ≤ (dpWith r).c i ∧ |(dpWith r).a i j| ≤ 12 :=
  fun i hi => ⟨(dp_c r i).1, (dp_c r i).2, dp_b i hi, fun j hj => ⟨dp_mono i hi j hj, dp_a i hi j hj⟩⟩

end Verif
