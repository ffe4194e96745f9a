import Verif.Lemmas.Translate

/-!
# Reflection of a periodic grid
-/

set_option linter.unusedSectionVars false

namespace Verif

open Finset

variable {M : ℕ}

theorem specExt_neg_star (y : Vec (Fin (M + 1))) (m : ℕ) : specExt (-star y) m = -star (specExt y m) := by
  unfold specExt
  split
  · rfl
  · simp

/-- The place opposite to `j`. -/
theorem opposite_dvd {N : ℕ} (hN : N ≠ 0) (j : ℕ) : (N : ℤ) ∣ ((N - j % N) % N : ℕ) + j := by
  have h1 : j % N < N := Nat.mod_lt _ (Nat.pos_of_ne_zero hN)
  have h2 := Nat.mod_add_div j N
  have h3 := Nat.mod_add_div (N - j % N) N
  refine ⟨1 + (j / N : ℕ) - ((N - j % N) / N : ℕ), ?_⟩
  zify [h1.le] at h2 h3 ⊢
  linear_combination h3 - h2

theorem samples_neg_star (hM : M ≠ 0) (v : Vec (Fin (M + 1))) : samples (-star v) = fun j => -mirror (2 * M) (samples v) j := by
  have hN : 2 * M ≠ 0 := by omega
  funext j
  unfold mirror samples
  set k := (2 * M - j % (2 * M)) % (2 * M) with hk
  have hd : ((2 * M : ℕ) : ℤ) ∣ (k : ℤ) + j := opposite_dvd hN j
  unfold irfft1
  rw [← neg_div]
  congr 1
  rw [neg_add, neg_add]
  congr 1
  · have h0 : (specExt (-star v) 0).re = -(specExt v 0).re := by rw [specExt_neg_star]; simp
    rw [h0]
    congr 1
    · rw [← sum_neg_distrib]
      refine sum_congr rfl fun m _ => ?_
      rw [specExt_neg_star]
      have : rootPow (2 * M) (k * m : ℕ) = (starRingEnd ℂ) (rootPow (2 * M) (j * m : ℕ)) := by
        rw [rootPow_conj]
        refine rootPow_congr hN ?_
        obtain ⟨c, hc⟩ := hd
        refine ⟨c * m, ?_⟩
        push_cast at hc ⊢
        linear_combination (m : ℤ) * hc
      rw [this]
      simp
      ring
  · rw [specExt_neg_star]
    split
    · have : ((-1 : ℝ)) ^ k = (-1) ^ j := by
        have hd' : 2 ∣ k + j := by
          obtain ⟨c, hc⟩ := hd
          have : (2 : ℤ) ∣ ((k + j : ℕ) : ℤ) := ⟨M * c, by push_cast at hc ⊢; linear_combination hc⟩
          exact_mod_cast this
        rcases Nat.even_or_odd j with h | h
        · rw [h.neg_one_pow, ((Nat.even_add.mp (even_iff_two_dvd.mpr hd')).mpr h).neg_one_pow]
        · have : Odd k := by
            rw [← Nat.not_even_iff_odd] at h ⊢
            exact fun h' => h ((Nat.even_add.mp (even_iff_two_dvd.mpr hd')).mp h')
          rw [h.neg_one_pow, this.neg_one_pow]
      rw [this]
      simp
    · simp

theorem sum_range_mirror {N : ℕ} (hN : N ≠ 0) (f : ℕ → ℂ) : ∑ j ∈ range N, f ((N - j % N) % N) = ∑ j ∈ range N, f j := by
  obtain ⟨n, rfl⟩ := Nat.exists_eq_succ_of_ne_zero hN
  rw [sum_range_succ', sum_range_succ' f]
  congr 1
  · rw [← sum_range_reflect (fun j => f (j + 1))]
    refine sum_congr rfl fun j hj => ?_
    have := mem_range.mp hj
    rw [Nat.mod_eq_of_lt (show j + 1 < n + 1 by omega), Nat.mod_eq_of_lt (show n + 1 - (j + 1) < n + 1 by omega)]
    congr 1; omega
  · simp

theorem spectrum_mirror (hM : M ≠ 0) (f : ℕ → ℝ) : spectrum M (fun j => -mirror (2 * M) f j) = -star (spectrum M f) := by
  have hN : 2 * M ≠ 0 := by omega
  funext m
  show rfft1 _ _ _ = -(starRingEnd ℂ) (rfft1 _ _ _)
  unfold rfft1 fft1 mirror
  rw [map_sum, ← sum_range_mirror hN (fun j => (starRingEnd ℂ) ((f j : ℂ) * rootPow (2 * M) (-(j * m : ℕ)))), ← sum_neg_distrib]
  refine sum_congr rfl fun j _ => ?_
  rw [map_mul, rootPow_conj, Complex.conj_ofReal]
  push_cast
  rw [neg_mul]
  congr 2
  refine rootPow_congr hN ?_
  obtain ⟨c, hc⟩ := opposite_dvd hN j
  refine ⟨-(c * m), ?_⟩
  push_cast at hc ⊢
  linear_combination (-(m : ℤ)) * hc

theorem advection_neg_star (kx : Fin (M + 1) → ℝ) (v : Vec (Fin (M + 1))) :
    advection kx (-star v) = (advection kx v).map fun w => -star w := by
  unfold advection
  split
  · rfl
  · rename_i hM
    have e : (fun m => Complex.I * (kx m : ℂ) * (-star v) m) = -(-star fun m => Complex.I * (kx m : ℂ) * v m) := by
      funext m; simp
    have h1 := samples_neg_star hM v
    have h2 := samples_neg_star hM fun m => Complex.I * (kx m : ℂ) * v m
    have h3 := spectrum_mirror hM fun j =>
      irfft1 (2 * M) (specExt v) j * irfft1 (2 * M) (specExt fun m => Complex.I * (kx m : ℂ) * v m) j
    simp only [Except.map]
    congr 1
    refine Eq.trans ?_ h3
    have h4 : ∀ w : Vec (Fin (M + 1)), samples (-w) = fun j => -samples w j := by
      intro w
      funext j
      unfold samples irfft1
      have : ∀ m, specExt (-w) m = -specExt w m := by
        intro m; unfold specExt; split <;> simp
      simp only [this]
      rw [← neg_div]
      congr 1
      rw [neg_add, neg_add, ← sum_neg_distrib]
      have h0 : (-specExt w 0).re = -(specExt w 0).re := rfl
      rw [h0]
      congr 1
      · congr 1
        refine sum_congr rfl fun m _ => ?_
        rw [neg_mul, Complex.neg_re, mul_neg]
      · split <;> simp
    have h5 := h4 (-star fun m => Complex.I * (kx m : ℂ) * v m)
    rw [h2] at h5
    unfold samples at h1 h5
    rw [e, h1, h5]
    refine spectrum_congr (M := M) fun j _ => ?_
    unfold mirror
    ring

theorem burgersNl_neg_star (kx : Fin (M + 1) → ℝ) (v : Vec (Fin (M + 1))) :
    burgersNl kx (-star v) = (burgersNl kx v).map fun w => -star w := by
  unfold burgersNl
  rw [advection_neg_star]
  cases advection kx v with
  | error e => rfl
  | ok w =>
    simp only [Except.map]
    rw [show (fun m => -(-star w) m) = -star fun m => -w m by funext m; simp]

end Verif
