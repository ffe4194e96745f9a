import Verif.Spec.Translate
import Verif.Lemmas.Fourier
import Verif.Props.Conservation

/-!
# Translations of a periodic grid
-/

set_option linter.unusedSectionVars false

namespace Verif

open Finset

variable {M : ℕ}

/-- The factors by which a translation multiplies the modes. -/
noncomputable def phases (M s : ℕ) : Vec (Fin (M + 1)) := fun m => rootPow (2 * M) (s * m : ℕ)

theorem norm_phases (s : ℕ) (m : Fin (M + 1)) : ‖phases M s m‖ = 1 := by
  unfold phases rootPow
  rw [show (2 * (Real.pi : ℂ) * Complex.I * (((s * m : ℕ) : ℤ) : ℂ) / ((2 * M : ℕ) : ℂ)) =
    ((2 * Real.pi * (s * m : ℕ) / (2 * M : ℕ) : ℝ) : ℂ) * Complex.I by push_cast; ring]
  exact Complex.norm_exp_ofReal_mul_I _

theorem specExt_phases (s : ℕ) (y : Vec (Fin (M + 1))) (m : ℕ) : specExt (phases M s * y) m = rootPow (2 * M) (s * m : ℕ) * specExt y m := by
  unfold specExt
  split
  · rfl
  · simp

theorem irfft1_periodic (hM : M ≠ 0) (y : ℕ → ℂ) (j : ℕ) : irfft1 (2 * M) y (j % (2 * M)) = irfft1 (2 * M) y j := by
  have hN : 2 * M ≠ 0 := by omega
  apply Complex.ofReal_injective
  rw [irfft1_eq_ifft1 hN, irfft1_eq_ifft1 hN]
  unfold ifft1
  congr 1
  refine sum_congr rfl fun m _ => ?_
  congr 1
  refine rootPow_congr hN ⟨-((j / (2 * M) : ℕ) * m), ?_⟩
  have := Nat.mod_add_div j (2 * M)
  have h : (j : ℤ) = (j % (2 * M) : ℕ) + (2 * M : ℕ) * (j / (2 * M) : ℕ) := by exact_mod_cast this.symm
  push_cast at h ⊢
  linear_combination (-(m : ℤ)) * h

theorem samples_phases (hM : M ≠ 0) (s : ℕ) (v : Vec (Fin (M + 1))) : samples (phases M s * v) = roll (2 * M) s (samples v) := by
  funext j
  unfold roll samples
  rw [irfft1_periodic hM]
  unfold irfft1
  congr 2
  · congr 1
    · rw [specExt_phases]; simp
    · refine sum_congr rfl fun m _ => ?_
      rw [specExt_phases, mul_comm (rootPow _ _), mul_assoc, ← rootPow_add]
      congr 4
      push_cast; ring
  · rw [specExt_phases, show 2 * M / 2 = M by omega, rootPow_half hM]
    split
    · rw [pow_add]
      have : ((-1 : ℂ) ^ s * specExt v M).re = (-1) ^ s * (specExt v M).re := by
        have : ((-1 : ℂ) ^ s) = (((-1) ^ s : ℝ) : ℂ) := by push_cast; rfl
        rw [this, Complex.re_ofReal_mul]
      rw [this]; ring
    · rfl

theorem sum_range_roll {N : ℕ} (hN : N ≠ 0) (s : ℕ) (f : ℕ → ℂ) : ∑ j ∈ range N, f ((j + s) % N) = ∑ j ∈ range N, f j := by
  induction s with
  | zero => exact sum_congr rfl fun j hj => by rw [add_zero, Nat.mod_eq_of_lt (mem_range.mp hj)]
  | succ s ih =>
    rw [← ih]
    obtain ⟨n, rfl⟩ := Nat.exists_eq_succ_of_ne_zero hN
    rw [sum_range_succ, sum_range_succ' (fun j => f ((j + s) % (n + 1)))]
    congr 1
    · refine sum_congr rfl fun j _ => ?_
      rw [show j + (s + 1) = j + 1 + s by ring]
    · rw [show n + (s + 1) = s + (n + 1) by ring, Nat.add_mod_right, zero_add]

theorem spectrum_roll (hM : M ≠ 0) (s : ℕ) (f : ℕ → ℝ) : spectrum M (roll (2 * M) s f) = phases M s * spectrum M f := by
  have hN : 2 * M ≠ 0 := by omega
  funext m
  show rfft1 _ _ _ = phases M s m * rfft1 _ _ _
  unfold rfft1 fft1 roll phases
  rw [← sum_range_roll hN s (fun j => (f j : ℂ) * rootPow (2 * M) (-(j * m : ℕ))), mul_sum]
  refine sum_congr rfl fun j _ => ?_
  rw [mul_left_comm, ← rootPow_add]
  congr 1
  refine rootPow_congr hN ⟨-((j + s) / (2 * M) : ℕ) * m, ?_⟩
  have := Nat.mod_add_div (j + s) (2 * M)
  have h : (j : ℤ) + s = ((j + s) % (2 * M) : ℕ) + (2 * M : ℕ) * ((j + s) / (2 * M) : ℕ) := by exact_mod_cast this.symm
  push_cast at h ⊢
  linear_combination (-(m : ℤ)) * h

theorem spectrum_congr {f g : ℕ → ℝ} (h : ∀ j < 2 * M, f j = g j) : spectrum M f = spectrum M g := by
  funext m
  exact fft1_congr (fun j hj => by rw [h j hj]) _

theorem advection_phases (kx : Fin (M + 1) → ℝ) (s : ℕ) (v : Vec (Fin (M + 1))) :
    advection kx (phases M s * v) = (advection kx v).map (phases M s * ·) := by
  unfold advection
  split
  · rfl
  · rename_i hM
    have e : (fun m => Complex.I * (kx m : ℂ) * (phases M s * v) m) = phases M s * fun m => Complex.I * (kx m : ℂ) * v m := by
      funext m; simp only [Pi.mul_apply]; ring
    simp only [Except.map, e]
    congr 1
    have h1 := samples_phases hM s v
    have h2 := samples_phases hM s fun m => Complex.I * (kx m : ℂ) * v m
    unfold samples at h1 h2
    rw [h1, h2]
    exact spectrum_roll hM s fun j => irfft1 (2 * M) (specExt v) j * irfft1 (2 * M) (specExt fun m => Complex.I * (kx m : ℂ) * v m) j

theorem kdvNl_phases (kx : Fin (M + 1) → ℝ) (s : ℕ) (v : Vec (Fin (M + 1))) :
    kdvNl kx (phases M s * v) = (kdvNl kx v).map (phases M s * ·) := by
  unfold kdvNl
  rw [advection_phases]
  cases advection kx v with
  | error e => rfl
  | ok w =>
    simp only [Except.map]
    congr 1; funext m; simp only [Pi.mul_apply]; ring

theorem burgersNl_phases (kx : Fin (M + 1) → ℝ) (s : ℕ) (v : Vec (Fin (M + 1))) :
    burgersNl kx (phases M s * v) = (burgersNl kx v).map (phases M s * ·) := by
  unfold burgersNl
  rw [advection_phases]
  cases advection kx v with
  | error e => rfl
  | ok w =>
    simp only [Except.map]
    congr 1; funext m; simp only [Pi.mul_apply]; ring

end Verif
