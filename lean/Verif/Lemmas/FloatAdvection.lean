import Verif.Lemmas.FloatModels
import Verif.Props.ModelConv

/-!
# The nonlinear part of the model problems in floating point
-/

set_option linter.unusedSectionVars false

namespace Verif

open Finset

variable {M : ℕ} {A : CArith} {B : RArith} {F : FftLib} {ρ R κ b : ℝ}

theorem specExt_norm_le {y : Vec (Fin (M + 1))} {b : ℝ} (hb : 0 ≤ b) (hy : ∀ m, ‖y m‖ ≤ b) (m : ℕ) : ‖specExt y m‖ ≤ b := by
  unfold specExt
  split_ifs with h
  · exact hy _
  · simpa using hb

theorem specExt_near {y y' : Vec (Fin (M + 1))} {e : ℝ} (he : 0 ≤ e) (h : ∀ m, ‖y' m - y m‖ ≤ e) (m : ℕ) :
    ‖specExt y' m - specExt y m‖ ≤ e := by
  unfold specExt
  split_ifs with h'
  · exact h _
  · simpa using he

/-- `1j * kx * uf` -/
theorem fl_ik_near (hA : A.Within ρ R) (hρ : 0 ≤ ρ) (hρ1 : ρ ≤ 1) {k : ℝ} {z : ℂ} (hκ : |k| ≤ κ) (hb : ‖z‖ ≤ b)
    (hR : 10 * ((1 + κ) * (1 + b)) ≤ R) :
    ‖A.mul (A.mul Complex.I (k : ℂ)) z - Complex.I * (k : ℂ) * z‖ ≤ 4 * ((1 + κ) * (1 + b)) * ρ := by
  have h0 : 0 ≤ κ := (abs_nonneg _).trans hκ
  have h1 : 0 ≤ b := (norm_nonneg _).trans hb
  have hP : 1 + κ + b + κ * b = (1 + κ) * (1 + b) := by ring
  have hκb : 0 ≤ κ * b := mul_nonneg h0 h1
  have hk : ‖(k : ℂ)‖ ≤ κ := by rwa [Complex.norm_real, Real.norm_eq_abs]
  have hI : ‖Complex.I * (k : ℂ)‖ ≤ κ := by rwa [norm_mul, Complex.norm_I, one_mul]
  have a1 : ‖A.mul Complex.I (k : ℂ) - Complex.I * (k : ℂ)‖ ≤ ρ * (1 + κ) := by
    have := hA.mul Complex.I (k : ℂ) (by rw [Complex.norm_I]; nlinarith) (by nlinarith) (by nlinarith)
    exact this.trans (mul_le_mul_of_nonneg_left (by linarith) hρ)
  have a2 : ‖A.mul Complex.I (k : ℂ)‖ ≤ 2 * (1 + κ) := (norm_le_of_near hI a1).trans (by nlinarith)
  have a3 := hA.mul_near hρ (x := Complex.I * (k : ℂ)) (y := z) (y' := z) a2 hb (by nlinarith) (by nlinarith) (by nlinarith) a1
    (e := 0) (by simp)
  refine a3.trans ?_
  rw [mul_zero, add_zero, ← hP]
  nlinarith [mul_nonneg hρ h0, mul_nonneg hρ h1, mul_nonneg hρ hκb]

/-- The spectrum of `u u_x`, for a spectrum with entries up to `b` and wavenumbers up to `κ`. -/
theorem flAdvection_near (hM : M ≠ 0) (hA : A.Within ρ R) (hB : B.Within ρ R) (hF : F.Within (2 * M) ρ R) (hρ : 0 ≤ ρ) (hρ1 : ρ ≤ 1)
    {kx : Fin (M + 1) → ℝ} (hκ : ∀ m, |kx m| ≤ κ) {uf : Vec (Fin (M + 1))} (hb : ∀ m, ‖uf m‖ ≤ b)
    (hR : 100 * M * ((1 + κ) * (1 + b) ^ 2) ≤ R) :
    ∃ v v', advection kx uf = .ok v ∧ flAdvection A B F kx uf = .ok v' ∧ (∀ m, ‖v m‖ ≤ 2 * M * ((1 + κ) * (1 + b) ^ 2)) ∧
      ∀ m, ‖v' m - v m‖ ≤ 180 * M * ((1 + κ) * (1 + b) ^ 2) * ρ := by
  have hM1 : (1 : ℝ) ≤ M := by exact_mod_cast Nat.one_le_iff_ne_zero.2 hM
  have h0 : 0 ≤ κ := (abs_nonneg _).trans (hκ 0)
  have h1 : 0 ≤ b := (norm_nonneg _).trans (hb 0)
  have hq : 1 ≤ 1 + κ := by linarith
  have hr : 1 ≤ 1 + b := by linarith
  have hP : 1 ≤ (1 + κ) * (1 + b) := by nlinarith
  have hPS : (1 + κ) * (1 + b) ≤ (1 + κ) * (1 + b) ^ 2 := by nlinarith
  have hrS : 1 + b ≤ (1 + κ) * (1 + b) ^ 2 := by nlinarith
  set q := 1 + κ with hq'
  set r := 1 + b with hr'
  set S := q * r ^ 2 with hS
  have hS1 : 1 ≤ S := hP.trans hPS
  have hMS : S ≤ M * S := by nlinarith
  have hSR : 100 * S ≤ R := by nlinarith
  set y : Vec (Fin (M + 1)) := fun m => Complex.I * (kx m : ℂ) * uf m with hy
  set y' : Vec (Fin (M + 1)) := fun m => A.mul (A.mul Complex.I (kx m : ℂ)) (uf m) with hy'
  have n1 : ∀ m, ‖y' m - y m‖ ≤ 4 * (q * r) * ρ := fun m => fl_ik_near hA hρ hρ1 (hκ m) (hb m) (by nlinarith)
  have n2 : ∀ m, ‖y m‖ ≤ q * r := fun m => by
    simp only [hy, norm_mul, Complex.norm_I, one_mul, Complex.norm_real, Real.norm_eq_abs]
    exact mul_le_mul ((hκ m).trans (by linarith)) ((hb m).trans (by linarith)) (norm_nonneg _) (by linarith)
  have n3 : ∀ m, ‖y' m‖ ≤ 5 * (q * r) := fun m => (norm_le_of_near (n2 m) (n1 m)).trans (by nlinarith)
  have hN : 2 * M ≠ 0 := by omega
  -- the two signals
  have u1 : ∀ j < 2 * M, |F.irfft (2 * M) (specExt uf) j - irfft1 (2 * M) (specExt uf) j| ≤ r * ρ := fun j hj => by
    have := hF.irfft (specExt uf) b (by nlinarith) (fun m _ => specExt_norm_le h1 hb m) j hj
    linarith
  have u2 : ∀ j, |irfft1 (2 * M) (specExt uf) j| ≤ r := fun j =>
    (abs_irfft1_le hN (fun m _ => specExt_norm_le h1 hb m) j).trans (by linarith)
  have u3 : ∀ j < 2 * M, |F.irfft (2 * M) (specExt uf) j| ≤ 2 * r := fun j hj =>
    (norm_le_of_near (E := ℝ) (u2 j) (u1 j hj)).trans (by nlinarith)
  have x1 : ∀ j < 2 * M, |F.irfft (2 * M) (specExt y') j - irfft1 (2 * M) (specExt y) j| ≤ 10 * (q * r) * ρ := fun j hj => by
    have := hF.irfft_near (y := specExt y) (y' := specExt y') (b := 5 * (q * r)) (e := 4 * (q * r) * ρ) (by nlinarith)
      (fun m _ => specExt_norm_le (by positivity) n3 m) (fun m _ => specExt_near (by positivity) n1 m) hj
    nlinarith
  have x2 : ∀ j, |irfft1 (2 * M) (specExt y) j| ≤ q * r := fun j => abs_irfft1_le hN (fun m _ => specExt_norm_le (by positivity) n2 m) j
  have x3 : ∀ j < 2 * M, |F.irfft (2 * M) (specExt y') j| ≤ 11 * (q * r) := fun j hj =>
    (norm_le_of_near (E := ℝ) (x2 j) (x1 j hj)).trans (by nlinarith)
  -- their product
  have p1 : ∀ j < 2 * M, |B.mul (F.irfft (2 * M) (specExt uf) j) (F.irfft (2 * M) (specExt y') j) -
      irfft1 (2 * M) (specExt uf) j * irfft1 (2 * M) (specExt y) j| ≤ 44 * S * ρ := fun j hj => by
    have hab : 2 * r * (11 * (q * r)) = 22 * S := by rw [hS]; ring
    have := hB.mul_near hρ (u3 j hj) (x3 j hj) (by linarith) (by linarith) (by rw [hab]; linarith) (u1 j hj) (x1 j hj)
    rw [hab] at this
    have h3 : |irfft1 (2 * M) (specExt uf) j| * (10 * (q * r) * ρ) ≤ r * (10 * (q * r) * ρ) :=
      mul_le_mul_of_nonneg_right (u2 j) (by positivity)
    have h4 : r * (10 * (q * r) * ρ) = 10 * S * ρ := by rw [hS]; ring
    have h5 : r * ρ * (11 * (q * r)) = 11 * S * ρ := by rw [hS]; ring
    nlinarith
  have p2 : ∀ j, |irfft1 (2 * M) (specExt uf) j * irfft1 (2 * M) (specExt y) j| ≤ S := fun j => by
    rw [abs_mul, hS, show q * r ^ 2 = r * (q * r) by ring]
    exact mul_le_mul (u2 j) (x2 j) (abs_nonneg _) (by linarith)
  have p3 : ∀ j < 2 * M, |B.mul (F.irfft (2 * M) (specExt uf) j) (F.irfft (2 * M) (specExt y') j)| ≤ 45 * S := fun j hj =>
    (norm_le_of_near (E := ℝ) (p2 j) (p1 j hj)).trans (by nlinarith)
  refine ⟨_, _, advection_ok hM kx uf, by rw [flAdvection, if_neg hM], fun m => ?_, fun m => ?_⟩
  · have := norm_rfft1_le (N := 2 * M) (fun j _ => p2 j) m.val
    push_cast at this
    exact this
  · have := hF.rfft_near (b := 45 * S) (by linarith) p3 p1 (m := m.val) (by omega)
    refine this.trans ?_
    push_cast
    nlinarith [mul_nonneg hρ (show (0 : ℝ) ≤ M * S - 1 by nlinarith)]

end Verif
