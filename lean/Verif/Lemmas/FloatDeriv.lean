import Verif.Lemmas.FloatModels
import Verif.Lemmas.Spectral

/-!
# Rounding errors of `(1j * kx) ** n * y`
-/

set_option linter.unusedSectionVars false

namespace Verif

variable {A : CArith} {F : FftLib} {ρ R κ b : ℝ}

theorem pow_near {w w' : ℂ} {q e : ℝ} (hw : ‖w‖ ≤ q) (hw' : ‖w'‖ ≤ q) (h : ‖w' - w‖ ≤ e * q) (n : ℕ) : ‖w' ^ n - w ^ n‖ ≤ n * q ^ n * e := by
  have hq : 0 ≤ q := (norm_nonneg _).trans hw
  induction n with
  | zero => simp
  | succ n ih =>
    rw [pow_succ, pow_succ, show w' ^ n * w' - w ^ n * w = (w' ^ n - w ^ n) * w' + w ^ n * (w' - w) by ring]
    refine (norm_add_le _ _).trans ?_
    rw [norm_mul, norm_mul, norm_pow]
    have h1 : ‖w' ^ n - w ^ n‖ * ‖w'‖ ≤ n * q ^ n * e * q := mul_le_mul ih hw' (norm_nonneg _) ((norm_nonneg _).trans ih)
    have h2 : ‖w‖ ^ n * ‖w' - w‖ ≤ q ^ n * (e * q) := mul_le_mul (pow_le_pow_left₀ (norm_nonneg _) hw n) h (norm_nonneg _) (by positivity)
    push_cast
    rw [pow_succ]
    linarith

/-- One entry of the spectrum of the derivative. -/
theorem flEntry_near {n : ℕ} (hA : A.Within ρ R) (hp : PowWithin A ρ R n) (hρ : 0 ≤ ρ) (hρ1 : ρ ≤ 1) {k Z : ℝ} {y y' : ℂ} (hκ : |k| ≤ κ)
    (hZ : 1 ≤ Z) (hn : n ≠ 0) (hy : ‖y‖ ≤ Z) (hyy : ‖y' - y‖ ≤ Z * ρ) (hR : 13 * ((2 * (1 + κ)) ^ n * Z) ≤ R) :
    ‖A.mul (A.pow (A.mul Complex.I (k : ℂ)) n) y' - (Complex.I * (k : ℂ)) ^ n * y‖ ≤ (2 * n + 12) * ((2 * (1 + κ)) ^ n * Z) * ρ ∧
    ‖(Complex.I * (k : ℂ)) ^ n * y‖ ≤ (2 * (1 + κ)) ^ n * Z ∧
    ‖A.mul (A.pow (A.mul Complex.I (k : ℂ)) n) y'‖ ≤ 13 * ((2 * (1 + κ)) ^ n * Z) := by
  have h0 : 0 ≤ κ := (abs_nonneg _).trans hκ
  set q := 2 * (1 + κ) with hq
  have hq1 : 1 ≤ q := by linarith
  have hQ : q ≤ q ^ n := le_self_pow₀ hq1 hn
  set Q := q ^ n with hQd
  have hQ1 : 1 ≤ Q := hq1.trans hQ
  have hQZ : Q ≤ Q * Z := by nlinarith
  have hZQ : Z ≤ Q * Z := by nlinarith
  have hI : ‖Complex.I * (k : ℂ)‖ ≤ κ := by rwa [norm_mul, Complex.norm_I, one_mul, Complex.norm_real, Real.norm_eq_abs]
  have a1 : ‖A.mul Complex.I (k : ℂ) - Complex.I * (k : ℂ)‖ ≤ ρ * (1 + κ) := by
    have hk : ‖(k : ℂ)‖ ≤ κ := by rwa [Complex.norm_real, Real.norm_eq_abs]
    have := hA.mul Complex.I (k : ℂ) (by rw [Complex.norm_I]; nlinarith) (by nlinarith) (by nlinarith)
    exact this.trans (mul_le_mul_of_nonneg_left (by linarith) hρ)
  have a2 : ‖A.mul Complex.I (k : ℂ)‖ ≤ q := (norm_le_of_near hI a1).trans (by nlinarith)
  set w := Complex.I * (k : ℂ) with hw
  set w' := A.mul Complex.I (k : ℂ) with hw'
  have b1 : ‖w' ^ n‖ ≤ Q := by rw [norm_pow]; exact pow_le_pow_left₀ (norm_nonneg _) a2 n
  have b0 : ‖w ^ n‖ ≤ Q := by rw [norm_pow]; exact pow_le_pow_left₀ (norm_nonneg _) (hI.trans (by linarith)) n
  have b2 : ‖A.pow w' n - w' ^ n‖ ≤ 2 * Q * ρ := (hp w' (a2.trans (by nlinarith)) (b1.trans (by nlinarith))).trans (by nlinarith)
  have b3 : ‖w' ^ n - w ^ n‖ ≤ n * Q * ρ := pow_near (hI.trans (by linarith)) a2 (a1.trans (by nlinarith)) n
  have b4 : ‖A.pow w' n - w ^ n‖ ≤ (n + 2) * Q * ρ := (norm_sub_le_norm_sub_add_norm_sub _ (w' ^ n) _).trans (by nlinarith)
  have b5 : ‖A.pow w' n‖ ≤ 3 * Q := (norm_le_of_near b1 b2).trans (by nlinarith)
  have b6 : ‖y'‖ ≤ 2 * Z := (norm_le_of_near hy hyy).trans (by nlinarith)
  have hP1 : 1 ≤ Q * Z := hQ1.trans hQZ
  have h6 : 3 * Q * (2 * Z) = 6 * (Q * Z) := by ring
  have c1 := hA.mul_near hρ b5 b6 (by linarith) (by linarith) (by linarith) b4 hyy
  have c2 : ‖w ^ n * y‖ ≤ Q * Z := by rw [norm_mul]; exact mul_le_mul b0 hy (norm_nonneg _) (by linarith)
  refine ⟨c1.trans ?_, c2, ?_⟩
  · have h1 := mul_le_mul_of_nonneg_right b0 (show 0 ≤ Z * ρ by positivity)
    have h2 := mul_le_mul_of_nonneg_left hP1 hρ
    rw [h6, show (n + 2) * Q * ρ * (2 * Z) = (2 * n + 4) * (Q * Z) * ρ by ring]
    rw [show Q * (Z * ρ) = Q * Z * ρ by ring] at h1
    generalize Q * Z = P at *
    linarith
  · have hs : ‖A.pow w' n * y'‖ ≤ 6 * (Q * Z) := by
      rw [norm_mul, ← h6]; exact mul_le_mul b5 b6 (norm_nonneg _) (by linarith)
    have hm := hA.mul (A.pow w' n) y' (b5.trans (by linarith)) (b6.trans (by linarith)) (hs.trans (by linarith))
    have h7 : ρ * (1 + ‖A.pow w' n * y'‖) ≤ 1 * (1 + 6 * (Q * Z)) := mul_le_mul hρ1 (by linarith) (by positivity) zero_le_one
    have := norm_le_of_near hs (hm.trans h7)
    linarith

theorem flDxFft_ok {s : List ℕ} {N : ℕ} (hN : N ≠ 0) {kx : NdArr ℝ} (hk : kx.shape = s ++ [N]) {u : NdArr ℂ}
    (hu : u.shape = s ++ [N]) {n : ℕ} (hn : n ≠ 0) :
    ∃ v, flDxFft A F kx (.cplx u) (.int n) = .ok (.cplx v) ∧ v.shape = s ++ [N] ∧
      ∀ idx, ∀ j < N, v.get (idx ++ [j]) = F.ifft N (fun m => A.mul (A.pow (A.mul Complex.I (kx.get (idx ++ [m]) : ℂ)) n)
        (F.fft N (fun j => u.get (idx ++ [j])) m)) j := by
  refine ⟨(flSpectralDeriv A kx n (u.mapLines N (F.fft N))).mapLines N (F.ifft N), ?_, ?_, ?_⟩
  · have h0 : ¬ ((n : ℤ) < 0) := by omega
    have h1 : ¬ ((n : ℤ) = 0) := by omega
    have hs : (u.mapLines N (F.fft N)).shape = s ++ [N] := by simp [NdArr.mapLines, hu]
    simp only [flDxFft, if_neg h0, if_neg h1, flNpFft, NumArr.toComplex, hu, List.getLast?_append, List.getLast?_singleton,
      Option.some_or, if_neg hN, bind, Except.bind, hk, hs, ne_eq, not_true_eq_false, if_false, pure, Except.pure,
      Int.toNat_natCast]
    simp
  · simp [NdArr.mapLines, flSpectralDeriv, hu]
  · intro idx j hj
    have hl' : ∀ {α : Type} (w : NdArr α) (i : List ℕ), w.line i = fun k => w.get (i ++ [k]) := fun _ _ => rfl
    simp [NdArr.mapLines, flSpectralDeriv, hl']

theorem flDxRfft_ok {s : List ℕ} {N : ℕ} (hN : N ≠ 0) (hs0 : s.prod ≠ 0) {kx : NdArr ℝ} (hk : kx.shape = s ++ [N / 2 + 1])
    {u : NdArr ℝ} (hu : u.shape = s ++ [N]) {n : ℕ} (hn : n ≠ 0) :
    ∃ v, flDxRfft A F kx (.real u) (.int n) = .ok v ∧ v.shape = s ++ [N] ∧
      ∀ idx, ∀ j < N, v.get (idx ++ [j]) = F.irfft N (fun m => A.mul (A.pow (A.mul Complex.I (kx.get (idx ++ [m]) : ℂ)) n)
        (F.rfft N (fun j => u.get (idx ++ [j])) m)) j := by
  have hsz : u.size ≠ 0 := by simp [NdArr.size, hu, hN]; simpa using hs0
  refine ⟨(flSpectralDeriv A kx n (u.mapLines (N / 2 + 1) (F.rfft N))).mapLines N (F.irfft N), ?_, ?_, ?_⟩
  · have h0 : ¬ ((n : ℤ) < 0) := by omega
    have h1 : ¬ ((n : ℤ) = 0) := by omega
    have hs : (u.mapLines (N / 2 + 1) (F.rfft N)).shape = s ++ [N / 2 + 1] := by simp [NdArr.mapLines, hu]
    simp only [flDxRfft, if_neg h0, if_neg h1, if_neg hsz, flNpRfft, hu, List.getLast?_append, List.getLast?_singleton,
      Option.some_or, if_neg hN, bind, Except.bind, hk, hs, ne_eq, not_true_eq_false, if_false, pure, Except.pure,
      Int.toNat_natCast]
    simp
  · simp [NdArr.mapLines, flSpectralDeriv, hu]
  · intro idx j hj
    have hl' : ∀ {α : Type} (w : NdArr α) (i : List ℕ), w.line i = fun k => w.get (i ++ [k]) := fun _ _ => rfl
    simp [NdArr.mapLines, flSpectralDeriv, hl']

end Verif
