import Verif.Lemmas.Fourier
import Verif.Model.Derivatives
import Mathlib.Analysis.Calculus.IteratedDeriv.Defs
import Mathlib.Analysis.SpecialFunctions.ExpDeriv
import Mathlib.Analysis.Calculus.Deriv.Add
import Mathlib.Analysis.Complex.Basic

/-!
# Spectral differentiation along the last axis
-/

set_option linter.unusedSectionVars false

namespace Verif

open Finset

/-- What `dx_fft` computes on a line of length `N`. -/
noncomputable def fftLine (N : ℕ) (kx : ℕ → ℝ) (n : ℕ) (u : ℕ → ℂ) (j : ℕ) : ℂ :=
  ifft1 N (fun m => (Complex.I * (kx m : ℂ)) ^ n * fft1 N u m) j

/-- What `dx_rfft` computes on a line of length `N`. -/
noncomputable def rfftLine (N : ℕ) (kx : ℕ → ℝ) (n : ℕ) (u : ℕ → ℝ) (j : ℕ) : ℝ :=
  irfft1 N (fun m => (Complex.I * (kx m : ℂ)) ^ n * rfft1 N u m) j

theorem fftLine_zero {N : ℕ} (kx : ℕ → ℝ) (u : ℕ → ℂ) {j : ℕ} (hj : j < N) : fftLine N kx 0 u j = u j := by
  rw [fftLine]
  simp only [pow_zero, one_mul]
  exact ifft1_fft1 u hj

theorem rfftLine_zero {N : ℕ} (kx : ℕ → ℝ) (u : ℕ → ℝ) {j : ℕ} (hj : j < N) : rfftLine N kx 0 u j = u j := by
  rw [rfftLine]
  simp only [pow_zero, one_mul]
  exact irfft1_rfft1 u hj

theorem dxFft_ok {s : List ℕ} {N : ℕ} (hN : N ≠ 0) {kx : NdArr ℝ} (hk : kx.shape = s ++ [N]) {u : NdArr ℂ}
    (hu : u.shape = s ++ [N]) (n : ℕ) :
    ∃ v, dxFft kx (.cplx u) (.int n) = .ok (.cplx v) ∧ v.shape = s ++ [N] ∧
      ∀ idx, ∀ j < N, v.get (idx ++ [j]) = fftLine N (fun m => kx.get (idx ++ [m])) n (fun j => u.get (idx ++ [j])) j := by
  cases n with
  | zero => exact ⟨u, by simp [dxFft], hu, fun idx j hj => (fftLine_zero (fun m => kx.get (idx ++ [m])) (fun j => u.get (idx ++ [j])) hj).symm⟩
  | succ n =>
    refine ⟨(spectralDeriv kx (n + 1) (u.mapLines N (fft1 N))).mapLines N (ifft1 N), ?_, ?_, ?_⟩
    · have h0 : ¬ ((((n + 1 : ℕ) : ℤ)) < 0) := by omega
      have h1 : ¬ ((((n + 1 : ℕ) : ℤ)) = 0) := by omega
      have hs : (u.mapLines N (fft1 N)).shape = s ++ [N] := by simp [NdArr.mapLines, hu]
      simp only [dxFft, if_neg h0, if_neg h1, npFft, NumArr.toComplex, hu, List.getLast?_append, List.getLast?_singleton,
        Option.some_or, if_neg hN, bind, Except.bind, hk, hs, ne_eq, not_true_eq_false, if_false, pure, Except.pure,
        Int.toNat_natCast]
      simp
    · simp [NdArr.mapLines, spectralDeriv, hu]
    · intro idx j hj
      have hl' : ∀ {α : Type} (w : NdArr α) (i : List ℕ), w.line i = fun k => w.get (i ++ [k]) := fun _ _ => rfl
      simp [NdArr.mapLines, spectralDeriv, hl', fftLine]

theorem dxRfft_ok {s : List ℕ} {N : ℕ} (hN : N ≠ 0) (hs0 : s.prod ≠ 0) {kx : NdArr ℝ} (hk : kx.shape = s ++ [N / 2 + 1])
    {u : NdArr ℝ} (hu : u.shape = s ++ [N]) (n : ℕ) :
    ∃ v, dxRfft kx (.real u) (.int n) = .ok v ∧ v.shape = s ++ [N] ∧
      ∀ idx, ∀ j < N, v.get (idx ++ [j]) = rfftLine N (fun m => kx.get (idx ++ [m])) n (fun j => u.get (idx ++ [j])) j := by
  have hsz : u.size ≠ 0 := by simp [NdArr.size, hu, hN]; simpa using hs0
  cases n with
  | zero => exact ⟨u, by simp [dxRfft, hsz], hu, fun idx j hj => (rfftLine_zero (fun m => kx.get (idx ++ [m])) (fun j => u.get (idx ++ [j])) hj).symm⟩
  | succ n =>
    refine ⟨(spectralDeriv kx (n + 1) (u.mapLines (N / 2 + 1) (rfft1 N))).mapLines N (irfft1 N), ?_, ?_, ?_⟩
    · have h0 : ¬ ((((n + 1 : ℕ) : ℤ)) < 0) := by omega
      have h1 : ¬ ((((n + 1 : ℕ) : ℤ)) = 0) := by omega
      have hs : (u.mapLines (N / 2 + 1) (rfft1 N)).shape = s ++ [N / 2 + 1] := by simp [NdArr.mapLines, hu]
      simp only [dxRfft, if_neg h0, if_neg h1, if_neg hsz, npRfft, hu, List.getLast?_append, List.getLast?_singleton,
        Option.some_or, if_neg hN, bind, Except.bind, hk, hs, ne_eq, not_true_eq_false, if_false, pure, Except.pure,
        Int.toNat_natCast]
      simp
    · simp [NdArr.mapLines, spectralDeriv, hu]
    · intro idx j hj
      have hl' : ∀ {α : Type} (w : NdArr α) (i : List ℕ), w.line i = fun k => w.get (i ++ [k]) := fun _ _ => rfl
      simp [NdArr.mapLines, spectralDeriv, hl', rfftLine]

theorem fftLine_congr {N : ℕ} {kx kx' : ℕ → ℝ} (hk : ∀ m < N, kx m = kx' m) {u u' : ℕ → ℂ} (hu : ∀ j < N, u j = u' j) (n j : ℕ) :
    fftLine N kx n u j = fftLine N kx' n u' j := by
  rw [fftLine, fftLine]
  refine ifft1_congr (fun m hm => ?_) j
  rw [hk m hm, fft1_congr hu]

theorem irfft1_congr {N : ℕ} {y z : ℕ → ℂ} (h : ∀ m ≤ N / 2, y m = z m) (j : ℕ) : irfft1 N y j = irfft1 N z j := by
  rw [irfft1, irfft1, h 0 (by omega), h (N / 2) le_rfl]
  congr 3
  refine sum_congr rfl fun m hm => ?_
  simp only [mem_Ico] at hm
  rw [h m (by omega)]

theorem rfftLine_congr {N : ℕ} {kx kx' : ℕ → ℝ} (hk : ∀ m ≤ N / 2, kx m = kx' m) {u u' : ℕ → ℝ} (hu : ∀ j < N, u j = u' j)
    (n j : ℕ) : rfftLine N kx n u j = rfftLine N kx' n u' j := by
  rw [rfftLine, rfftLine]
  refine irfft1_congr (fun m hm => ?_) j
  rw [hk m hm, rfft1, rfft1, fft1_congr fun j hj => by rw [hu j hj]]

/-- Orders add up. -/
theorem fftLine_comp (N : ℕ) (kx : ℕ → ℝ) (n1 n2 : ℕ) (u : ℕ → ℂ) (j : ℕ) :
    fftLine N kx n2 (fftLine N kx n1 u) j = fftLine N kx (n1 + n2) u j := by
  rw [fftLine, fftLine]
  refine ifft1_congr (fun m hm => ?_) j
  show _ * fft1 N (ifft1 N _) m = _
  rw [fft1_ifft1 _ hm]
  ring

theorem fft1_add (N : ℕ) (u v : ℕ → ℂ) (m : ℕ) : fft1 N (fun j => u j + v j) m = fft1 N u m + fft1 N v m := by
  simp only [fft1, add_mul, sum_add_distrib]

theorem fft1_smul (N : ℕ) (c : ℂ) (u : ℕ → ℂ) (m : ℕ) : fft1 N (fun j => c * u j) m = c * fft1 N u m := by
  simp only [fft1, mul_sum, mul_assoc]

theorem ifft1_add (N : ℕ) (u v : ℕ → ℂ) (m : ℕ) : ifft1 N (fun j => u j + v j) m = ifft1 N u m + ifft1 N v m := by
  simp only [ifft1, add_mul, sum_add_distrib, add_div]

theorem ifft1_smul (N : ℕ) (c : ℂ) (u : ℕ → ℂ) (m : ℕ) : ifft1 N (fun j => c * u j) m = c * ifft1 N u m := by
  simp only [ifft1, mul_assoc, ← mul_sum, mul_div_assoc]

theorem fftLine_linear (N : ℕ) (kx : ℕ → ℝ) (n : ℕ) (c d : ℂ) (u v : ℕ → ℂ) (j : ℕ) :
    fftLine N kx n (fun j => c * u j + d * v j) j = c * fftLine N kx n u j + d * fftLine N kx n v j := by
  simp only [fftLine]
  rw [← ifft1_smul, ← ifft1_smul, ← ifft1_add]
  congr 1
  funext m
  rw [fft1_add N (fun j => c * u j) (fun j => d * v j), fft1_smul, fft1_smul]
  ring

theorem irfft1_add (N : ℕ) (u v : ℕ → ℂ) (m : ℕ) : irfft1 N (fun j => u j + v j) m = irfft1 N u m + irfft1 N v m := by
  simp only [irfft1, add_mul, Complex.add_re, mul_add, sum_add_distrib]
  split_ifs <;> ring

theorem irfft1_smul (N : ℕ) (c : ℝ) (u : ℕ → ℂ) (m : ℕ) : irfft1 N (fun j => (c : ℂ) * u j) m = c * irfft1 N u m := by
  have h : ∀ z : ℂ, ((c : ℂ) * z).re = c * z.re := fun z => by simp
  simp only [irfft1, mul_assoc, h]
  have hs : ∑ m_1 ∈ Ico 1 ((N + 1) / 2), 2 * (c * (u m_1 * rootPow N ((m * m_1 : ℕ) : ℤ)).re) =
      c * ∑ m_1 ∈ Ico 1 ((N + 1) / 2), 2 * (u m_1 * rootPow N ((m * m_1 : ℕ) : ℤ)).re := by
    rw [mul_sum]; exact sum_congr rfl fun _ _ => by ring
  rw [hs]
  split_ifs <;> ring

theorem rfftLine_linear (N : ℕ) (kx : ℕ → ℝ) (n : ℕ) (c d : ℝ) (u v : ℕ → ℝ) (j : ℕ) :
    rfftLine N kx n (fun j => c * u j + d * v j) j = c * rfftLine N kx n u j + d * rfftLine N kx n v j := by
  simp only [rfftLine]
  rw [← irfft1_smul, ← irfft1_smul, ← irfft1_add]
  congr 1
  funext m
  simp only [rfft1]
  push_cast
  rw [fft1_add N (fun j => (c : ℂ) * u j) (fun j => (d : ℂ) * v j), fft1_smul, fft1_smul]
  ring

/-! ### Derivatives of sums of exponentials -/

theorem iteratedDeriv_expSum {S : Type} (s : Finset S) (c α : S → ℂ) (a : ℝ) (n : ℕ) :
    iteratedDeriv n (fun x : ℝ => ∑ k ∈ s, c k * Complex.exp (α k * ((x : ℂ) - a))) =
      fun x : ℝ => ∑ k ∈ s, c k * α k ^ n * Complex.exp (α k * ((x : ℂ) - a)) := by
  induction n with
  | zero => funext x; simp
  | succ n ih =>
    rw [iteratedDeriv_succ, ih]
    funext x
    refine HasDerivAt.deriv ?_
    refine HasDerivAt.fun_sum fun k _ => ?_
    have h1 : HasDerivAt (fun x : ℝ => α k * ((x : ℂ) - a)) (α k) x := by
      have := ((Complex.ofRealCLM.hasDerivAt (x := x)).sub_const (a : ℂ)).const_mul (α k)
      simpa using this
    refine (h1.cexp.const_mul (c k * α k ^ n)).congr_deriv ?_
    ring

theorem iteratedDeriv_reExpSum {S : Type} (s : Finset S) (c α : S → ℂ) (a : ℝ) (n : ℕ) :
    iteratedDeriv n (fun x : ℝ => ∑ k ∈ s, (c k * Complex.exp (α k * ((x : ℂ) - a))).re) =
      fun x : ℝ => ∑ k ∈ s, (c k * α k ^ n * Complex.exp (α k * ((x : ℂ) - a))).re := by
  induction n with
  | zero => funext x; simp
  | succ n ih =>
    rw [iteratedDeriv_succ, ih]
    funext x
    refine HasDerivAt.deriv ?_
    refine HasDerivAt.fun_sum fun k _ => ?_
    have h1 : HasDerivAt (fun x : ℝ => α k * ((x : ℂ) - a)) (α k) x := by
      have := ((Complex.ofRealCLM.hasDerivAt (x := x)).sub_const (a : ℂ)).const_mul (α k)
      simpa using this
    have h2 := h1.cexp.const_mul (c k * α k ^ n)
    have h3 := (Complex.reCLM.hasFDerivAt (x := c k * α k ^ n * Complex.exp (α k * ((x : ℂ) - a)))).comp_hasDerivAt x h2
    refine h3.congr_deriv ?_
    simp only [Complex.reCLM_apply]
    congr 1
    ring

end Verif
