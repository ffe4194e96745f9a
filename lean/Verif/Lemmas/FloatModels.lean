import Verif.Spec.FloatModels
import Verif.Lemmas.FloatArith

/-!
# Errors of transforms and of the model problems
-/

set_option linter.unusedSectionVars false

namespace Verif

open Finset

variable {N M : ℕ} {A : CArith} {B : RArith} {F : FftLib} {ρ R : ℝ}

/-! ### Sizes of transforms -/

theorem norm_rootPow (N : ℕ) (k : ℤ) : ‖rootPow N k‖ = 1 := by
  unfold rootPow
  rw [show 2 * (Real.pi : ℂ) * Complex.I * (k : ℂ) / (N : ℂ) = ((2 * Real.pi * k / N : ℝ) : ℂ) * Complex.I by push_cast; ring]
  exact Complex.norm_exp_ofReal_mul_I _

theorem fft1_sub (u v : ℕ → ℂ) (m : ℕ) : fft1 N u m - fft1 N v m = fft1 N (fun j => u j - v j) m := by
  simp only [fft1, ← Finset.sum_sub_distrib, sub_mul]

theorem norm_fft1_le {u : ℕ → ℂ} {b : ℝ} (hu : ∀ j < N, ‖u j‖ ≤ b) (m : ℕ) : ‖fft1 N u m‖ ≤ N * b := by
  unfold fft1
  refine (norm_sum_le _ _).trans ((Finset.sum_le_card_nsmul _ _ b fun j hj => ?_).trans (by simp))
  rw [norm_mul, norm_rootPow, mul_one]
  exact hu j (Finset.mem_range.1 hj)

theorem fft1_near {u v : ℕ → ℂ} {e : ℝ} (h : ∀ j < N, ‖u j - v j‖ ≤ e) (m : ℕ) : ‖fft1 N u m - fft1 N v m‖ ≤ N * e := by
  rw [fft1_sub]; exact norm_fft1_le h m

theorem norm_rfft1_le {u : ℕ → ℝ} {b : ℝ} (hu : ∀ j < N, |u j| ≤ b) (m : ℕ) : ‖rfft1 N u m‖ ≤ N * b :=
  norm_fft1_le (fun j hj => by simpa using hu j hj) m

theorem rfft1_near {u v : ℕ → ℝ} {e : ℝ} (h : ∀ j < N, |u j - v j| ≤ e) (m : ℕ) : ‖rfft1 N u m - rfft1 N v m‖ ≤ N * e :=
  fft1_near (fun j hj => by rw [← Complex.ofReal_sub, Complex.norm_real, Real.norm_eq_abs]; exact h j hj) m

theorem ifft1_sub (u v : ℕ → ℂ) (m : ℕ) : ifft1 N u m - ifft1 N v m = ifft1 N (fun j => u j - v j) m := by
  simp only [ifft1, ← sub_div, ← Finset.sum_sub_distrib, sub_mul]

theorem norm_ifft1_le (hN : N ≠ 0) {u : ℕ → ℂ} {b : ℝ} (hu : ∀ j < N, ‖u j‖ ≤ b) (m : ℕ) : ‖ifft1 N u m‖ ≤ b := by
  have hN' : (0 : ℝ) < N := by exact_mod_cast Nat.pos_of_ne_zero hN
  unfold ifft1
  rw [norm_div, Complex.norm_natCast, div_le_iff₀ hN', mul_comm]
  refine (norm_sum_le _ _).trans ((Finset.sum_le_card_nsmul _ _ b fun j hj => ?_).trans (by simp))
  rw [norm_mul, norm_rootPow, mul_one]
  exact hu j (Finset.mem_range.1 hj)

theorem ifft1_near (hN : N ≠ 0) {u v : ℕ → ℂ} {e : ℝ} (h : ∀ j < N, ‖u j - v j‖ ≤ e) (m : ℕ) : ‖ifft1 N u m - ifft1 N v m‖ ≤ e := by
  rw [ifft1_sub]; exact norm_ifft1_le hN h m

theorem irfft1_sub (u v : ℕ → ℂ) (j : ℕ) : irfft1 N u j - irfft1 N v j = irfft1 N (fun m => u m - v m) j := by
  simp only [irfft1, ← sub_div]
  congr 1
  simp only [sub_mul, Complex.sub_re, mul_sub, Finset.sum_sub_distrib]
  split_ifs <;> ring

theorem abs_irfft1_le (hN : N ≠ 0) {y : ℕ → ℂ} {b : ℝ} (hy : ∀ m ≤ N / 2, ‖y m‖ ≤ b) (j : ℕ) : |irfft1 N y j| ≤ b := by
  have hN' : (0 : ℝ) < N := by exact_mod_cast Nat.pos_of_ne_zero hN
  have hb : 0 ≤ b := (norm_nonneg _).trans (hy 0 (Nat.zero_le _))
  unfold irfft1
  rw [abs_div, Nat.abs_cast, div_le_iff₀ hN']
  have h0 : |(y 0).re| ≤ b := (Complex.abs_re_le_norm _).trans (hy 0 (Nat.zero_le _))
  have h1 : |∑ m ∈ Ico 1 ((N + 1) / 2), 2 * (y m * rootPow N (j * m : ℕ)).re| ≤ (((N + 1) / 2 - 1 : ℕ) : ℝ) * (2 * b) := by
    refine (Finset.abs_sum_le_sum_abs _ _).trans ((Finset.sum_le_card_nsmul _ _ (2 * b) fun m hm => ?_).trans (by simp))
    rw [Finset.mem_Ico] at hm
    rw [abs_mul, abs_of_pos (by norm_num : (0 : ℝ) < 2)]
    refine mul_le_mul_of_nonneg_left ((Complex.abs_re_le_norm _).trans ?_) (by norm_num)
    rw [norm_mul, norm_rootPow, mul_one]
    exact hy m (by omega)
  rcases Nat.even_or_odd' N with ⟨k, hk | hk⟩
  · have e1 : (N + 1) / 2 - 1 = k - 1 := by omega
    have hk1 : 1 ≤ k := by omega
    have h2 : |(y (N / 2)).re * (-1) ^ j| ≤ b := by
      rw [abs_mul, abs_pow, abs_neg, abs_one, one_pow, mul_one]
      exact (Complex.abs_re_le_norm _).trans (hy _ le_rfl)
    rw [if_pos (by omega)]
    rw [e1, Nat.cast_sub hk1, Nat.cast_one] at h1
    refine (abs_add_three _ _ _).trans ?_
    have : (N : ℝ) = 2 * k := by rw [hk]; push_cast; ring
    rw [this]
    nlinarith
  · have e1 : (N + 1) / 2 - 1 = k := by omega
    rw [if_neg (by omega), add_zero]
    rw [e1] at h1
    refine (abs_add_le _ _).trans ?_
    have : (N : ℝ) = 2 * k + 1 := by rw [hk]; push_cast; ring
    rw [this]
    nlinarith

theorem irfft1_near (hN : N ≠ 0) {u v : ℕ → ℂ} {e : ℝ} (h : ∀ m ≤ N / 2, ‖u m - v m‖ ≤ e) (j : ℕ) : |irfft1 N u j - irfft1 N v j| ≤ e := by
  rw [irfft1_sub]; exact abs_irfft1_le hN h j

/-! ### Inexact transforms of inexact signals -/

theorem FftLib.Within.rfft_near (hF : F.Within N ρ R) {u u' : ℕ → ℝ} {b e : ℝ} (hb : b ≤ R) (hu : ∀ j < N, |u' j| ≤ b)
    (h : ∀ j < N, |u' j - u j| ≤ e) {m : ℕ} (hm : m ≤ N / 2) : ‖F.rfft N u' m - rfft1 N u m‖ ≤ ρ * (1 + N * b) + N * e :=
  (norm_sub_le_norm_sub_add_norm_sub _ (rfft1 N u' m) _).trans (add_le_add (hF.rfft u' b hb hu m hm) (rfft1_near h m))

theorem FftLib.Within.fft_near (hF : F.Within N ρ R) {u u' : ℕ → ℂ} {b e : ℝ} (hb : b ≤ R) (hu : ∀ j < N, ‖u' j‖ ≤ b)
    (h : ∀ j < N, ‖u' j - u j‖ ≤ e) {m : ℕ} (hm : m < N) : ‖F.fft N u' m - fft1 N u m‖ ≤ ρ * (1 + N * b) + N * e :=
  (norm_sub_le_norm_sub_add_norm_sub _ (fft1 N u' m) _).trans (add_le_add (hF.fft u' b hb hu m hm) (fft1_near h m))

theorem FftLib.Within.ifft_near (hF : F.Within N ρ R) {y y' : ℕ → ℂ} {b e : ℝ} (hb : b ≤ R) (hy : ∀ m < N, ‖y' m‖ ≤ b)
    (h : ∀ m < N, ‖y' m - y m‖ ≤ e) {j : ℕ} (hj : j < N) : ‖F.ifft N y' j - ifft1 N y j‖ ≤ ρ * (1 + b) + e :=
  (norm_sub_le_norm_sub_add_norm_sub _ (ifft1 N y' j) _).trans (add_le_add (hF.ifft y' b hb hy j hj) (ifft1_near (by omega) h j))

theorem FftLib.Within.irfft_near (hF : F.Within N ρ R) {y y' : ℕ → ℂ} {b e : ℝ} (hb : b ≤ R) (hy : ∀ m ≤ N / 2, ‖y' m‖ ≤ b)
    (h : ∀ m ≤ N / 2, ‖y' m - y m‖ ≤ e) {j : ℕ} (hj : j < N) : |F.irfft N y' j - irfft1 N y j| ≤ ρ * (1 + b) + e :=
  (abs_sub_le _ (irfft1 N y' j) _).trans (add_le_add (hF.irfft y' b hb hy j hj) (irfft1_near (by omega) h j))

/-! ### Products -/

theorem CArith.Within.mul_near (hA : A.Within ρ R) (hρ : 0 ≤ ρ) {x x' y y' : ℂ} {a b d e : ℝ} (hx : ‖x'‖ ≤ a) (hy : ‖y'‖ ≤ b) (ha : a ≤ R) (hb : b ≤ R)
    (hab : a * b ≤ R) (h1 : ‖x' - x‖ ≤ d) (h2 : ‖y' - y‖ ≤ e) : ‖A.mul x' y' - x * y‖ ≤ ρ * (1 + a * b) + (d * b + ‖x‖ * e) := by
  have h0 : 0 ≤ a := (norm_nonneg _).trans hx
  have hp : ‖x' * y'‖ ≤ a * b := by rw [norm_mul]; exact mul_le_mul hx hy (norm_nonneg _) h0
  have h3 := hA.mul x' y' (hx.trans ha) (hy.trans hb) (hp.trans hab)
  have h4 : ‖x' * y' - x * y‖ ≤ d * b + ‖x‖ * e := by
    rw [show x' * y' - x * y = (x' - x) * y' + x * (y' - y) by ring]
    refine (norm_add_le _ _).trans ?_
    rw [norm_mul, norm_mul]
    exact add_le_add (mul_le_mul h1 hy (norm_nonneg _) ((norm_nonneg _).trans h1)) (mul_le_mul_of_nonneg_left h2 (norm_nonneg _))
  refine (norm_sub_le_norm_sub_add_norm_sub _ (x' * y') _).trans (add_le_add (h3.trans ?_) h4)
  exact mul_le_mul_of_nonneg_left (by linarith) hρ

theorem RArith.Within.mul_near (hB : B.Within ρ R) (hρ : 0 ≤ ρ) {x x' y y' : ℝ} {a b d e : ℝ} (hx : |x'| ≤ a) (hy : |y'| ≤ b) (ha : a ≤ R) (hb : b ≤ R)
    (hab : a * b ≤ R) (h1 : |x' - x| ≤ d) (h2 : |y' - y| ≤ e) : |B.mul x' y' - x * y| ≤ ρ * (1 + a * b) + (d * b + |x| * e) := by
  have h0 : 0 ≤ a := (abs_nonneg _).trans hx
  have hp : |x' * y'| ≤ a * b := by rw [abs_mul]; exact mul_le_mul hx hy (abs_nonneg _) h0
  have h3 := hB.mul x' y' (hx.trans ha) (hy.trans hb) (hp.trans hab)
  have h4 : |x' * y' - x * y| ≤ d * b + |x| * e := by
    rw [show x' * y' - x * y = (x' - x) * y' + x * (y' - y) by ring]
    refine (abs_add_le _ _).trans ?_
    rw [abs_mul, abs_mul]
    exact add_le_add (mul_le_mul h1 hy (abs_nonneg _) ((abs_nonneg _).trans h1)) (mul_le_mul_of_nonneg_left h2 (abs_nonneg _))
  refine (abs_sub_le _ (x' * y') _).trans (add_le_add (h3.trans ?_) h4)
  exact mul_le_mul_of_nonneg_left (by linarith) hρ

theorem norm_le_of_near {E : Type} [SeminormedAddCommGroup E] {x x' : E} {a d : ℝ} (hx : ‖x‖ ≤ a) (h : ‖x' - x‖ ≤ d) : ‖x'‖ ≤ a + d := by
  have := norm_add_le x (x' - x)
  rw [add_sub_cancel] at this
  linarith

end Verif
