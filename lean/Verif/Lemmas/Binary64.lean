import Verif.Model.Binary64
import Mathlib.Tactic.FieldSimp
import Mathlib.Tactic.Linarith
import Mathlib.Tactic.NormNum

/-! # Evaluating `rnd64`, and its monotonicity on binades -/

set_option linter.unusedSectionVars false

namespace Verif

theorem roundHalfEven_eq {y : ℝ} {N : ℤ} (h1 : (N : ℝ) - 1 / 2 < y) (h2 : y < N + 1 / 2) : roundHalfEven y = N := by
  unfold roundHalfEven
  rcases le_or_gt (N : ℝ) y with h | h
  · have hf : ⌊y⌋ = N := Int.floor_eq_iff.2 ⟨h, by linarith⟩
    rw [hf, if_pos (by linarith)]
  · have hf : ⌊y⌋ = N - 1 := Int.floor_eq_iff.2 ⟨by push_cast; linarith, by push_cast; linarith⟩
    rw [hf, if_neg (by push_cast; linarith), if_pos (by push_cast; linarith)]
    ring

/-- `rnd64 x = N * 2 ^ e` if `x` lies in the binade of exponent `e + 52` and `N` is the nearest multiple. -/
theorem rnd64_eq {x : ℝ} {N : ℤ} (e : ℤ) (h1 : (2 : ℝ) ^ (e + 52) ≤ x) (h2 : x < (2 : ℝ) ^ (e + 53))
    (h3 : ((N : ℝ) - 1 / 2) * (2 : ℝ) ^ e < x) (h4 : x < (N + 1 / 2) * (2 : ℝ) ^ e) : rnd64 x = N * (2 : ℝ) ^ e := by
  have hx : 0 < x := lt_of_lt_of_le (zpow_pos two_pos _) h1
  have hl : Int.log 2 |x| = e + 52 := by
    rw [abs_of_pos hx]
    apply le_antisymm
    · have := (Int.lt_zpow_iff_log_lt (b := 2) one_lt_two hx (x := e + 53)).1 (by exact_mod_cast h2)
      omega
    · exact (Int.zpow_le_iff_le_log (b := 2) one_lt_two hx).1 (by exact_mod_cast h1)
  have he : (0 : ℝ) < (2 : ℝ) ^ e := zpow_pos two_pos _
  simp only [rnd64, hl, add_sub_cancel_right]
  rw [roundHalfEven_eq (N := N)]
  · rw [lt_div_iff₀ he]; exact h3
  · rw [div_lt_iff₀ he]; exact h4

theorem roundHalfEven_tie {y : ℝ} {N : ℤ} (hN : Even N) (h1 : (N : ℝ) - 1 / 2 ≤ y) (h2 : y ≤ N + 1 / 2) :
    roundHalfEven y = N := by
  rcases eq_or_lt_of_le h1 with h1 | h1
  · unfold roundHalfEven
    have hf : ⌊y⌋ = N - 1 := Int.floor_eq_iff.2 ⟨by push_cast; linarith, by push_cast; linarith⟩
    rw [hf, if_neg (by push_cast; linarith), if_neg (by push_cast; linarith), if_neg]
    · ring
    · rintro ⟨r, hr⟩
      obtain ⟨q, hq⟩ := hN
      omega
  · rcases eq_or_lt_of_le h2 with h2 | h2
    · unfold roundHalfEven
      have hf : ⌊y⌋ = N := Int.floor_eq_iff.2 ⟨by linarith, by linarith⟩
      rw [hf, if_neg (by linarith), if_neg (by linarith), if_pos hN]
    · exact roundHalfEven_eq h1 h2

/-- The same, ties included, for an even significand. -/
theorem rnd64_eq_even {x : ℝ} {N : ℤ} (e : ℤ) (hN : Even N) (h1 : (2 : ℝ) ^ (e + 52) ≤ x) (h2 : x < (2 : ℝ) ^ (e + 53))
    (h3 : ((N : ℝ) - 1 / 2) * (2 : ℝ) ^ e ≤ x) (h4 : x ≤ (N + 1 / 2) * (2 : ℝ) ^ e) : rnd64 x = N * (2 : ℝ) ^ e := by
  have hx : 0 < x := lt_of_lt_of_le (zpow_pos two_pos _) h1
  have hl : Int.log 2 |x| = e + 52 := by
    rw [abs_of_pos hx]
    apply le_antisymm
    · have := (Int.lt_zpow_iff_log_lt (b := 2) one_lt_two hx (x := e + 53)).1 (by exact_mod_cast h2)
      omega
    · exact (Int.zpow_le_iff_le_log (b := 2) one_lt_two hx).1 (by exact_mod_cast h1)
  have he : (0 : ℝ) < (2 : ℝ) ^ e := zpow_pos two_pos _
  simp only [rnd64, hl, add_sub_cancel_right]
  rw [roundHalfEven_tie hN]
  · rw [le_div_iff₀ he]; exact h3
  · rw [div_le_iff₀ he]; exact h4

@[simp] theorem rnd64_zero : rnd64 0 = 0 := by
  simp [rnd64, roundHalfEven]

theorem abs_roundHalfEven_sub_le (y : ℝ) : |(roundHalfEven y : ℝ) - y| ≤ 1 / 2 := by
  have h1 := Int.floor_le y
  have h2 := Int.lt_floor_add_one y
  unfold roundHalfEven
  split_ifs <;> push_cast <;> rw [abs_le] <;> constructor <;> linarith

/-- The relative error of rounding is at most `2 ^ (-53)`. -/
theorem rnd64_error (x : ℝ) : |rnd64 x - x| ≤ 1 / 2 ^ 53 * |x| := by
  rcases eq_or_ne x 0 with rfl | hx
  · simp
  · have hx' : 0 < |x| := abs_pos.2 hx
    simp only [rnd64]
    set e := Int.log 2 |x| - 52 with he
    have hp : (0 : ℝ) < (2 : ℝ) ^ e := zpow_pos two_pos _
    have h1 := abs_roundHalfEven_sub_le (x / (2 : ℝ) ^ e)
    have h2 : (2 : ℝ) ^ (e + 52) ≤ |x| := by
      have := Int.zpow_log_le_self (b := 2) one_lt_two hx'
      rw [he, sub_add_cancel]
      exact_mod_cast this
    rw [zpow_add₀ two_ne_zero] at h2
    have h3 : (roundHalfEven (x / (2 : ℝ) ^ e) : ℝ) * (2 : ℝ) ^ e - x
        = ((roundHalfEven (x / (2 : ℝ) ^ e) : ℝ) - x / (2 : ℝ) ^ e) * (2 : ℝ) ^ e := by field_simp
    rw [h3, abs_mul, abs_of_pos hp]
    have h4 : (2 : ℝ) ^ (52 : ℤ) = 2 ^ 52 := by norm_num
    rw [h4] at h2
    calc _ ≤ 1 / 2 * (2 : ℝ) ^ e := mul_le_mul_of_nonneg_right h1 hp.le
      _ ≤ _ := by
        rw [div_mul_eq_mul_div, div_mul_eq_mul_div, div_le_div_iff₀ (by norm_num) (by norm_num)]
        linarith

end Verif
