import Verif.Model.Fourier
import Mathlib.Analysis.SpecialFunctions.Complex.Log
import Mathlib.Algebra.BigOperators.Field
import Mathlib.Algebra.Field.GeomSum
import Mathlib.Data.Complex.BigOperators
import Mathlib.Tactic.FieldSimp
import Mathlib.Tactic.LinearCombination

/-!
# The discrete Fourier transform: inversion, orthogonality and the real transforms
-/

set_option linter.unusedSectionVars false

namespace Verif

open Finset

theorem rootPow_add (N : ℕ) (k l : ℤ) : rootPow N (k + l) = rootPow N k * rootPow N l := by
  rw [rootPow, rootPow, rootPow, ← Complex.exp_add]
  congr 1
  push_cast; ring

@[simp] theorem rootPow_zero (N : ℕ) : rootPow N 0 = 1 := by simp [rootPow]

theorem rootPow_conj (N : ℕ) (k : ℤ) : (starRingEnd ℂ) (rootPow N k) = rootPow N (-k) := by
  rw [rootPow, rootPow, ← Complex.exp_conj]
  congr 1
  simp only [map_div₀, map_mul, Complex.conj_I, Complex.conj_ofReal, map_ofNat, map_intCast, map_natCast]
  push_cast; ring

theorem rootPow_natCast_mul (N : ℕ) (j : ℕ) (k : ℤ) : rootPow N (j * k) = rootPow N k ^ j := by
  rw [rootPow, rootPow, ← Complex.exp_nat_mul]
  congr 1
  push_cast; ring

theorem rootPow_eq_one_iff {N : ℕ} (hN : N ≠ 0) (k : ℤ) : rootPow N k = 1 ↔ (N : ℤ) ∣ k := by
  have hN' : (N : ℂ) ≠ 0 := Nat.cast_ne_zero.2 hN
  have hpi : (2 * (Real.pi : ℂ) * Complex.I) ≠ 0 := Complex.two_pi_I_ne_zero
  rw [rootPow, Complex.exp_eq_one_iff]
  constructor
  · rintro ⟨n, hn⟩
    refine ⟨n, ?_⟩
    have h : (2 * (Real.pi : ℂ) * Complex.I) * (k : ℂ) = (2 * (Real.pi : ℂ) * Complex.I) * ((N : ℂ) * (n : ℂ)) := by
      rw [div_eq_iff hN'] at hn
      linear_combination hn
    have := mul_left_cancel₀ hpi h
    exact_mod_cast this
  · rintro ⟨n, rfl⟩
    refine ⟨n, ?_⟩
    push_cast
    field_simp

theorem rootPow_period {N : ℕ} (hN : N ≠ 0) (k n : ℤ) : rootPow N (k + N * n) = rootPow N k := by
  rw [rootPow_add, (rootPow_eq_one_iff hN _).2 ⟨n, rfl⟩, mul_one]

theorem rootPow_congr {N : ℕ} (hN : N ≠ 0) {k l : ℤ} (h : (N : ℤ) ∣ k - l) : rootPow N k = rootPow N l := by
  obtain ⟨n, hn⟩ := h
  rw [show k = l + N * n by linarith, rootPow_period hN]

/-- The sum of the powers of a root of unity. -/
theorem sum_rootPow {N : ℕ} (hN : N ≠ 0) (k : ℤ) :
    ∑ j ∈ range N, rootPow N ((j : ℤ) * k) = if (N : ℤ) ∣ k then (N : ℂ) else 0 := by
  simp only [rootPow_natCast_mul]
  split
  · next h => rw [(rootPow_eq_one_iff hN k).2 h]; simp
  · next h =>
    have h1 : rootPow N k ≠ 1 := fun h' => h ((rootPow_eq_one_iff hN k).1 h')
    rw [geom_sum_eq h1, ← rootPow_natCast_mul, (rootPow_eq_one_iff hN _).2 (Dvd.intro _ rfl), sub_self, zero_div]

theorem dvd_sub_iff_of_lt {N m l : ℕ} (hm : m < N) (hl : l < N) : (N : ℤ) ∣ (m : ℤ) - l ↔ m = l := by
  constructor
  · rintro ⟨n, hn⟩
    have h1 : n < 1 := by
      by_contra h
      have : (N : ℤ) * 1 ≤ N * n := by apply mul_le_mul_of_nonneg_left <;> omega
      omega
    have h2 : -1 < n := by
      by_contra h
      have : (N : ℤ) * n ≤ N * (-1) := by apply mul_le_mul_of_nonneg_left <;> omega
      omega
    have : n = 0 := by omega
    subst this
    omega
  · rintro rfl; simp

/-- `fft` inverts `ifft`. -/
theorem fft1_ifft1 {N : ℕ} (y : ℕ → ℂ) {m : ℕ} (hm : m < N) : fft1 N (ifft1 N y) m = y m := by
  have hN : N ≠ 0 := by omega
  have hN' : (N : ℂ) ≠ 0 := Nat.cast_ne_zero.2 hN
  simp only [fft1, ifft1]
  calc ∑ j ∈ range N, (∑ l ∈ range N, y l * rootPow N (j * l : ℕ)) / N * rootPow N (-(j * m : ℕ))
      = ∑ j ∈ range N, ∑ l ∈ range N, y l / N * rootPow N ((j : ℤ) * ((l : ℤ) - m)) := by
        refine sum_congr rfl fun j _ => ?_
        rw [sum_div, sum_mul]
        refine sum_congr rfl fun l _ => ?_
        rw [show ((j : ℤ) * ((l : ℤ) - m)) = ((j * l : ℕ) : ℤ) + -((j * m : ℕ) : ℤ) by push_cast; ring, rootPow_add]
        ring
    _ = ∑ l ∈ range N, y l / N * (if (N : ℤ) ∣ (l : ℤ) - m then (N : ℂ) else 0) := by
        rw [sum_comm]
        refine sum_congr rfl fun l _ => ?_
        rw [← mul_sum, sum_rootPow hN]
    _ = y m := by
        rw [sum_eq_single m]
        · simp [hN']
        · intro l hl hlm
          rw [if_neg (by rw [dvd_sub_iff_of_lt (mem_range.1 hl) hm]; exact hlm), mul_zero]
        · intro h; exact absurd (mem_range.2 hm) h

/-- `ifft` inverts `fft`. -/
theorem ifft1_fft1 {N : ℕ} (u : ℕ → ℂ) {j : ℕ} (hj : j < N) : ifft1 N (fft1 N u) j = u j := by
  have hN : N ≠ 0 := by omega
  have hN' : (N : ℂ) ≠ 0 := Nat.cast_ne_zero.2 hN
  simp only [fft1, ifft1]
  rw [div_eq_iff hN']
  calc ∑ m ∈ range N, (∑ l ∈ range N, u l * rootPow N (-(l * m : ℕ))) * rootPow N (j * m : ℕ)
      = ∑ m ∈ range N, ∑ l ∈ range N, u l * rootPow N ((m : ℤ) * ((j : ℤ) - l)) := by
        refine sum_congr rfl fun m _ => ?_
        rw [sum_mul]
        refine sum_congr rfl fun l _ => ?_
        rw [show ((m : ℤ) * ((j : ℤ) - l)) = -((l * m : ℕ) : ℤ) + ((j * m : ℕ) : ℤ) by push_cast; ring, rootPow_add]
        ring
    _ = ∑ l ∈ range N, u l * (if (N : ℤ) ∣ (j : ℤ) - l then (N : ℂ) else 0) := by
        rw [sum_comm]
        refine sum_congr rfl fun l _ => ?_
        rw [← mul_sum, sum_rootPow hN]
    _ = u j * N := by
        rw [sum_eq_single j]
        · simp
        · intro l hl hlm
          rw [if_neg (by rw [dvd_sub_iff_of_lt hj (mem_range.1 hl)]; exact fun h => hlm h.symm), mul_zero]
        · intro h; exact absurd (mem_range.2 hj) h

/-- Parseval's identity for two inverse transforms. -/
theorem sum_ifft1_mul_conj {N : ℕ} (hN : N ≠ 0) (y z : ℕ → ℂ) :
    ∑ j ∈ range N, ifft1 N y j * (starRingEnd ℂ) (ifft1 N z j) = (∑ m ∈ range N, y m * (starRingEnd ℂ) (z m)) / N := by
  have hN' : (N : ℂ) ≠ 0 := Nat.cast_ne_zero.2 hN
  rw [eq_div_iff hN']
  calc (∑ j ∈ range N, ifft1 N y j * (starRingEnd ℂ) (ifft1 N z j)) * N
      = ∑ j ∈ range N, ∑ m ∈ range N, ifft1 N y j * ((starRingEnd ℂ) (z m) * rootPow N (-(j * m : ℕ))) := by
        rw [sum_mul]
        refine sum_congr rfl fun j _ => ?_
        rw [← mul_sum, mul_assoc]
        congr 1
        conv_lhs => rw [ifft1]
        rw [map_div₀, map_sum, map_natCast, div_mul_cancel₀ _ hN']
        refine sum_congr rfl fun m _ => ?_
        rw [map_mul, rootPow_conj]
    _ = ∑ m ∈ range N, fft1 N (ifft1 N y) m * (starRingEnd ℂ) (z m) := by
        rw [sum_comm]
        refine sum_congr rfl fun m _ => ?_
        rw [fft1, sum_mul]
        exact sum_congr rfl fun j _ => by ring
    _ = _ := sum_congr rfl fun m hm => by rw [fft1_ifft1 y (mem_range.1 hm)]

theorem fft1_congr {N : ℕ} {u v : ℕ → ℂ} (h : ∀ j < N, u j = v j) (m : ℕ) : fft1 N u m = fft1 N v m := by
  simp only [fft1]
  exact sum_congr rfl fun j hj => by rw [h j (mem_range.1 hj)]

theorem ifft1_congr {N : ℕ} {u v : ℕ → ℂ} (h : ∀ j < N, u j = v j) (m : ℕ) : ifft1 N u m = ifft1 N v m := by
  simp only [ifft1]
  congr 1
  exact sum_congr rfl fun j hj => by rw [h j (mem_range.1 hj)]

/-- The transform of a real signal is Hermitian. -/
theorem fft1_real_conj {N : ℕ} (hN : N ≠ 0) (u : ℕ → ℝ) {m : ℕ} (hm : m ≤ N) :
    fft1 N (fun j => (u j : ℂ)) (N - m) = (starRingEnd ℂ) (fft1 N (fun j => (u j : ℂ)) m) := by
  simp only [fft1]
  rw [map_sum]
  refine sum_congr rfl fun j _ => ?_
  rw [map_mul, rootPow_conj, Complex.conj_ofReal]
  congr 1
  refine rootPow_congr hN ⟨-j, ?_⟩
  push_cast [Nat.cast_sub hm]; ring

/-- The spectrum of length `N` of the real signal `irfft(y, n=N)`. -/
noncomputable def herm (N : ℕ) (y : ℕ → ℂ) (m : ℕ) : ℂ :=
  if m = 0 then ((y 0).re : ℂ) else if 2 * m < N then y m else if 2 * m = N then ((y m).re : ℂ) else
    (starRingEnd ℂ) (y (N - m))

theorem rootPow_half {M : ℕ} (hM : M ≠ 0) (j : ℕ) : rootPow (2 * M) ((j * M : ℕ) : ℤ) = (-1) ^ j := by
  have : rootPow (2 * M) (M : ℤ) = -1 := by
    have hM' : (M : ℂ) ≠ 0 := Nat.cast_ne_zero.2 hM
    rw [rootPow, ← Complex.exp_pi_mul_I]
    congr 1
    push_cast
    field_simp
  push_cast
  rw [rootPow_natCast_mul, this]

/-- Pair the modes `m` and `N - m`. -/
theorem sum_range_pair {N : ℕ} (hN : N ≠ 0) (f : ℕ → ℂ) :
    ∑ m ∈ range N, f m = f 0 + (∑ m ∈ Ico 1 ((N + 1) / 2), (f m + f (N - m))) + (if N % 2 = 0 then f (N / 2) else 0) := by
  have h1 : ∑ m ∈ range N, f m = ∑ m ∈ range ((N + 1) / 2), f m + ∑ m ∈ Ico ((N + 1) / 2) N, f m := by
    rw [range_eq_Ico, range_eq_Ico, sum_Ico_consecutive _ (by omega) (by omega)]
  have h2 : ∑ m ∈ range ((N + 1) / 2), f m = f 0 + ∑ m ∈ Ico 1 ((N + 1) / 2), f m := by
    rw [range_eq_Ico, sum_eq_sum_Ico_succ_bot (by omega)]
  have h3 : ∑ m ∈ Ico (N / 2 + 1) N, f m = ∑ m ∈ Ico 1 ((N + 1) / 2), f (N - m) := by
    refine sum_nbij' (fun m => N - m) (fun m => N - m) ?_ ?_ ?_ ?_ ?_ <;> intro m hm <;> simp only [mem_Ico] at hm ⊢ <;> try omega
    congr 1; omega
  have h4 : ∑ m ∈ Ico ((N + 1) / 2) N, f m = (if N % 2 = 0 then f (N / 2) else 0) + ∑ m ∈ Ico (N / 2 + 1) N, f m := by
    split
    · next h => rw [show (N + 1) / 2 = N / 2 by omega, sum_eq_sum_Ico_succ_bot (by omega)]
    · next h => rw [show (N + 1) / 2 = N / 2 + 1 by omega, zero_add]
  rw [h1, h2, h4, h3, sum_add_distrib]
  ring

/-- `irfft` is `ifft` of the Hermitian extension. -/
theorem irfft1_eq_ifft1 {N : ℕ} (hN : N ≠ 0) (y : ℕ → ℂ) (j : ℕ) : (irfft1 N y j : ℂ) = ifft1 N (herm N y) j := by
  rw [irfft1, ifft1, Complex.ofReal_div, Complex.ofReal_natCast]
  congr 1
  rw [sum_range_pair hN]
  simp only [Complex.ofReal_add, Complex.ofReal_sum]
  congr 1
  · congr 1
    · simp [herm]
    · refine sum_congr rfl fun m hm => ?_
      simp only [mem_Ico] at hm
      have e1 : herm N y m = y m := by rw [herm, if_neg (by omega), if_pos (by omega)]
      have e2 : herm N y (N - m) = (starRingEnd ℂ) (y m) := by
        rw [herm, if_neg (by omega), if_neg (by omega), if_neg (by omega)]
        congr 2; omega
      rw [e1, e2]
      have e3 : rootPow N (j * (N - m) : ℕ) = (starRingEnd ℂ) (rootPow N (j * m : ℕ)) := by
        rw [rootPow_conj]
        refine rootPow_congr hN ⟨j, ?_⟩
        push_cast [Nat.cast_sub (show m ≤ N by omega)]; ring
      rw [e3, ← map_mul, Complex.add_conj]
  · split
    · next h =>
      have hh : N = 2 * (N / 2) := by omega
      have e1 : herm N y (N / 2) = ((y (N / 2)).re : ℂ) := by
        rw [herm, if_neg (by omega), if_neg (by omega), if_pos (by omega)]
      have e2 : rootPow N (j * (N / 2) : ℕ) = (-1) ^ j := by
        conv_lhs => rw [hh]
        rw [Nat.mul_div_cancel_left _ two_pos]
        exact rootPow_half (by omega) j
      rw [e1, e2]
      push_cast; rfl
    · simp

/-- `rfft` of a real signal determines its whole transform. -/
theorem herm_rfft1 {N : ℕ} (hN : N ≠ 0) (u : ℕ → ℝ) {m : ℕ} (hm : m < N) :
    herm N (rfft1 N u) m = fft1 N (fun j => (u j : ℂ)) m := by
  have hre : ∀ m, m ≤ N → fft1 N (fun j => (u j : ℂ)) (N - m) = fft1 N (fun j => (u j : ℂ)) m →
      (((fft1 N (fun j => (u j : ℂ)) m).re : ℝ) : ℂ) = fft1 N (fun j => (u j : ℂ)) m := by
    intro m hm h
    rw [fft1_real_conj hN u hm] at h
    exact Complex.conj_eq_iff_re.1 h
  unfold herm rfft1
  split
  · next h =>
    subst h
    refine hre 0 (by omega) ?_
    rw [Nat.sub_zero]
    simp only [fft1]
    refine sum_congr rfl fun j _ => ?_
    congr 1
    refine rootPow_congr hN ⟨-j, ?_⟩
    push_cast; ring
  · split
    · rfl
    · split
      · next h => exact hre m hm.le (by congr 1; omega)
      · rw [← fft1_real_conj hN u (by omega)]
        congr 1; omega

/-- `irfft` inverts `rfft`. -/
theorem irfft1_rfft1 {N : ℕ} (u : ℕ → ℝ) {j : ℕ} (hj : j < N) : irfft1 N (rfft1 N u) j = u j := by
  have hN : N ≠ 0 := by omega
  have h := irfft1_eq_ifft1 hN (rfft1 N u) j
  rw [ifft1_congr (fun m hm => herm_rfft1 hN u hm), ifft1_fft1 _ hj] at h
  exact_mod_cast h

/-- `rfft` of `irfft`: the Hermitian part of the spectrum. -/
theorem rfft1_irfft1 {N : ℕ} (y : ℕ → ℂ) {m : ℕ} (hm : m < N) : rfft1 N (irfft1 N y) m = herm N y m := by
  have hN : N ≠ 0 := by omega
  rw [rfft1, fft1_congr (fun j _ => irfft1_eq_ifft1 hN y j), fft1_ifft1 _ hm]

end Verif
