import Verif.Lemmas.Limit
import Verif.Props.ContourBounds
import Mathlib.Analysis.Calculus.ContDiff.RCLike

/-!
# Stability of exponential Runge–Kutta steps

A step depends Lipschitz continuously on the state, with a constant `1 + C h`, and on the coefficients.
-/

set_option linter.unusedSectionVars false

namespace Verif

open Matrix Finset
open scoped Matrix.Norms.Operator

variable {ι : Type} [Fintype ι] [DecidableEq ι]

/-- Lipschitz on every ball. -/
def LipOnBalls (f : Vec ι → Vec ι) : Prop :=
  ∀ r : ℝ, ∃ C : ℝ, 0 ≤ C ∧ ∀ u v : Vec ι, ‖u‖ ≤ r → ‖v‖ ≤ r → ‖f u - f v‖ ≤ C * ‖u - v‖

theorem LipOnBalls.of_contDiff {f : Vec ι → Vec ι} (hf : ContDiff ℝ 1 f) : LipOnBalls f := by
  intro r
  obtain ⟨C, hC⟩ := (hf.contDiffOn (s := Metric.closedBall 0 r)).exists_lipschitzOnWith one_ne_zero (convex_closedBall _ _)
    (isCompact_closedBall _ _)
  refine ⟨C, C.2, fun u v hu hv => ?_⟩
  have := hC.dist_le_mul u (mem_closedBall_zero_iff.mpr hu) v (mem_closedBall_zero_iff.mpr hv)
  rwa [dist_eq_norm, dist_eq_norm] at this

theorem LipOnBalls.bounded {f : Vec ι → Vec ι} (hf : LipOnBalls f) (r : ℝ) : ∃ C : ℝ, 0 ≤ C ∧ ∀ u : Vec ι, ‖u‖ ≤ r → ‖f u‖ ≤ C := by
  obtain ⟨C, hC, h⟩ := hf (max r 0)
  refine ⟨C * max r 0 + ‖f 0‖, by positivity, fun u hu => ?_⟩
  have h1 := h u 0 (hu.trans (le_max_left _ _)) (by simp)
  rw [sub_zero] at h1
  calc ‖f u‖ = ‖(f u - f 0) + f 0‖ := by rw [sub_add_cancel]
    _ ≤ ‖f u - f 0‖ + ‖f 0‖ := norm_add_le _ _
    _ ≤ C * max r 0 + ‖f 0‖ := by
      have : C * ‖u‖ ≤ C * max r 0 := mul_le_mul_of_nonneg_left (hu.trans (le_max_left _ _)) hC
      linarith

namespace ERK

/-- Bounds on the coefficients of a method for a step of length `h`. -/
structure Bounded (M : ERK ι) (c h : ℝ) : Prop where
  E : ∀ i < M.s, ‖M.E i‖ ≤ c
  A : ∀ i < M.s, ∀ j < i, ‖M.A i j‖ ≤ c
  Eout : ‖M.Eout‖ ≤ 1 + c * h
  B : ∀ j < M.s, ‖M.B j‖ ≤ c * h

/-- Two methods that differ little in the weights of the nonlinear terms. -/
structure Close (M M' : ERK ι) (ε h : ℝ) : Prop where
  s : M'.s = M.s
  E : ∀ i < M.s, M'.E i = M.E i
  A : ∀ i < M.s, ∀ j < i, ‖M'.A i j - M.A i j‖ ≤ ε
  Eout : M'.Eout = M.Eout
  B : ∀ j < M.s, ‖M'.B j - M.B j‖ ≤ ε * h

theorem Close.refl (M : ERK ι) (h : ℝ) : Close M M 0 h :=
  ⟨rfl, fun _ _ => rfl, fun _ _ _ _ => by simp, rfl, fun _ _ => by simp⟩

theorem norm_mulVec_le {A : Mat ι} {v : Vec ι} {a b : ℝ} (hA : ‖A‖ ≤ a) (hv : ‖v‖ ≤ b) : ‖A *ᵥ v‖ ≤ a * b :=
  (Matrix.linfty_opNorm_mulVec A v).trans (mul_le_mul hA hv (norm_nonneg _) ((norm_nonneg _).trans hA))

theorem mulVec_sub_mulVec_le {A A' : Mat ι} {v v' : Vec ι} {a b d e : ℝ} (hA : ‖A‖ ≤ a) (hd : ‖A' - A‖ ≤ d) (hv' : ‖v'‖ ≤ b)
    (he : ‖v' - v‖ ≤ e) : ‖A' *ᵥ v' - A *ᵥ v‖ ≤ a * e + d * b := by
  have : A' *ᵥ v' - A *ᵥ v = A *ᵥ (v' - v) + (A' - A) *ᵥ v' := by
    rw [mulVec_sub, sub_mulVec]; abel
  rw [this]
  exact (norm_add_le _ _).trans (add_le_add (norm_mulVec_le hA he) (norm_mulVec_le hd hv'))

theorem values_close {f : Vec ι → Vec ι} (hf : LipOnBalls f) {b c r : ℝ} (hb : 0 ≤ b) (hc : 0 ≤ c) (n : ℕ) : ∃ C : ℝ, 0 ≤ C ∧
    ∀ (M M' : ERK ι) (h ε : ℝ), n ≤ M.s → 0 ≤ ε → ε ≤ b → M.Bounded c h → M.Close M' ε h →
      ∀ u v : Vec ι, ‖u‖ ≤ r → ‖v‖ ≤ r → ∀ j,
        ‖M.values f v n j‖ ≤ C ∧ ‖M'.values f u n j‖ ≤ C ∧ ‖M'.values f u n j - M.values f v n j‖ ≤ C * (‖u - v‖ + ε) := by
  induction n with
  | zero =>
    refine ⟨0, le_rfl, fun M M' h ε _ _ _ _ _ u v _ _ j => ?_⟩
    simp [values]
  | succ n ih =>
    obtain ⟨C, hC, ih⟩ := ih
    obtain ⟨Λ, hΛ, hlip⟩ := hf (c * r + n * ((c + b) * C))
    obtain ⟨F, hF, hbd⟩ := hf.bounded (c * r + n * ((c + b) * C))
    refine ⟨C + F + Λ * (c + n * (c * C + C)), by positivity, fun M M' h ε hn hε hε1 hM hM' u v hu hv j => ?_⟩
    have hns : n < M.s := hn
    have ih := ih M M' h ε hns.le hε hε1 hM hM' u v hu hv
    have hr : 0 ≤ r := (norm_nonneg u).trans hu
    have hd : 0 ≤ ‖u - v‖ + ε := by positivity
    set X := C + F + Λ * (c + n * (c * C + C)) with hX
    have hCX : C ≤ X := by
      have : 0 ≤ F + Λ * (c + n * (c * C + C)) := by positivity
      linarith
    by_cases hj : j = n
    · subst hj
      simp only [values, Function.update_self]
      have hargv : ‖M.arg v (M.values f v j) j‖ ≤ c * r + j * ((c + b) * C) := by
        refine (norm_add_le _ _).trans (add_le_add (norm_mulVec_le (hM.E j hns) hv) ?_)
        calc _ ≤ ∑ i ∈ range j, (c + b) * C := norm_sum_le_of_le _ fun i hi =>
              norm_mulVec_le ((hM.A j hns i (mem_range.mp hi)).trans (by linarith)) (ih i).1
          _ = _ := by rw [sum_const, card_range, nsmul_eq_mul]
      have hargu : ‖M'.arg u (M'.values f u j) j‖ ≤ c * r + j * ((c + b) * C) := by
        refine (norm_add_le _ _).trans (add_le_add (norm_mulVec_le ?_ hu) ?_)
        · rw [hM'.E j hns]; exact hM.E j hns
        calc _ ≤ ∑ i ∈ range j, (c + b) * C := norm_sum_le_of_le _ fun i hi =>
              norm_mulVec_le (by
                have h1 := hM'.A j hns i (mem_range.mp hi)
                have h2 := hM.A j hns i (mem_range.mp hi)
                have h3 := norm_add_le (M'.A j i - M.A j i) (M.A j i)
                rw [sub_add_cancel] at h3
                linarith) (ih i).2.1
          _ = _ := by rw [sum_const, card_range, nsmul_eq_mul]
      have hdiff : ‖M'.arg u (M'.values f u j) j - M.arg v (M.values f v j) j‖ ≤ (c + j * (c * C + C)) * (‖u - v‖ + ε) := by
        have e1 : M'.arg u (M'.values f u j) j - M.arg v (M.values f v j) j = M.E j *ᵥ (u - v) +
            ∑ i ∈ range j, (M'.A j i *ᵥ M'.values f u j i - M.A j i *ᵥ M.values f v j i) := by
          rw [arg, arg, hM'.E j hns, mulVec_sub, sum_sub_distrib]; abel
        rw [e1]
        have h1 : ‖M.E j *ᵥ (u - v)‖ ≤ c * (‖u - v‖ + ε) :=
          norm_mulVec_le (hM.E j hns) (by linarith)
        have h2 : ‖∑ i ∈ range j, (M'.A j i *ᵥ M'.values f u j i - M.A j i *ᵥ M.values f v j i)‖ ≤
            ∑ i ∈ range j, (c * C + C) * (‖u - v‖ + ε) := by
          refine norm_sum_le_of_le _ fun i hi => ?_
          have := mulVec_sub_mulVec_le (hM.A j hns i (mem_range.mp hi)) (hM'.A j hns i (mem_range.mp hi)) (ih i).2.1 (ih i).2.2
          have h4 : ε * C ≤ (‖u - v‖ + ε) * C := mul_le_mul_of_nonneg_right (by have := norm_nonneg (u - v); linarith) hC
          nlinarith
        rw [sum_const, card_range, nsmul_eq_mul] at h2
        calc _ ≤ c * (‖u - v‖ + ε) + j * ((c * C + C) * (‖u - v‖ + ε)) := (norm_add_le _ _).trans (add_le_add h1 h2)
          _ = _ := by ring
      have hFX : F ≤ X := by
        have : 0 ≤ C + Λ * (c + j * (c * C + C)) := by positivity
        linarith
      refine ⟨(hbd _ hargv).trans hFX, (hbd _ hargu).trans hFX, (hlip _ _ hargu hargv).trans ?_⟩
      calc _ ≤ Λ * ((c + j * (c * C + C)) * (‖u - v‖ + ε)) := mul_le_mul_of_nonneg_left hdiff hΛ
        _ = Λ * (c + j * (c * C + C)) * (‖u - v‖ + ε) := by ring
        _ ≤ X * (‖u - v‖ + ε) := mul_le_mul_of_nonneg_right (by linarith) hd
    · simp only [values, Function.update_of_ne hj]
      exact ⟨(ih j).1.trans hCX, (ih j).2.1.trans hCX, (ih j).2.2.trans (mul_le_mul_of_nonneg_right hCX hd)⟩

/-- Steps with nearby coefficients from nearby states. -/
theorem run_close {f : Vec ι → Vec ι} (hf : LipOnBalls f) {b c r : ℝ} (hb : 0 ≤ b) (hc : 0 ≤ c) (s : ℕ) : ∃ C : ℝ, 0 ≤ C ∧
    ∀ (M M' : ERK ι) (h ε : ℝ), M.s = s → 0 ≤ h → 0 ≤ ε → ε ≤ b → M.Bounded c h → M.Close M' ε h →
      ∀ u v : Vec ι, ‖u‖ ≤ r → ‖v‖ ≤ r →
        ‖(M'.run f u).1 - (M.run f v).1‖ ≤ (1 + C * h) * ‖u - v‖ + C * h * ε := by
  obtain ⟨C, hC, hv⟩ := values_close (r := r) hf hb hc s
  refine ⟨c + s * (c * C + C), by positivity, fun M M' h ε hs hh hε hε1 hM hM' u v hu hv' => ?_⟩
  subst hs
  have hv := hv M M' h ε le_rfl hε hε1 hM hM' u v hu hv'
  have e1 : (M'.run f u).1 - (M.run f v).1 = M.Eout *ᵥ (u - v) +
      ∑ j ∈ range M.s, (M'.B j *ᵥ M'.values f u M.s j - M.B j *ᵥ M.values f v M.s j) := by
    rw [run, run, hM'.s]
    simp only [out, hM'.s, hM'.Eout, mulVec_sub, sum_sub_distrib]
    exact add_sub_add_comm _ _ _ _
  rw [e1]
  have h1 : ‖M.Eout *ᵥ (u - v)‖ ≤ (1 + c * h) * ‖u - v‖ := norm_mulVec_le hM.Eout le_rfl
  have h2 : ‖∑ j ∈ range M.s, (M'.B j *ᵥ M'.values f u M.s j - M.B j *ᵥ M.values f v M.s j)‖ ≤
      ∑ j ∈ range M.s, (c * C + C) * h * (‖u - v‖ + ε) := by
    refine norm_sum_le_of_le _ fun j hj => ?_
    have := mulVec_sub_mulVec_le (hM.B j (mem_range.mp hj)) (hM'.B j (mem_range.mp hj)) (hv j).2.1 (hv j).2.2
    have h3 : 0 ≤ h * C * ‖u - v‖ := by positivity
    nlinarith
  rw [sum_const, card_range, nsmul_eq_mul] at h2
  have h3 : 0 ≤ c * h * ε := by positivity
  calc _ ≤ (1 + c * h) * ‖u - v‖ + M.s * ((c * C + C) * h * (‖u - v‖ + ε)) := (norm_add_le _ _).trans (add_le_add h1 h2)
    _ ≤ _ := by nlinarith

end ERK

end Verif
