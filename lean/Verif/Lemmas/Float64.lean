import Verif.Lemmas.Binary64
import Mathlib.Tactic.Ring
import Mathlib.Tactic.Positivity

/-!
# Arithmetic of binary64 numbers

Which numbers `rnd64` leaves unchanged, its monotonicity, and Sterbenz' lemma on exact differences.
-/

set_option linter.unusedSectionVars false

namespace Verif

/-- Numbers with a 53-bit significand (any exponent). -/
def IsF64 (x : ℝ) : Prop := ∃ m e : ℤ, |m| ≤ 2 ^ 53 ∧ x = m * (2 : ℝ) ^ e

theorem roundHalfEven_int (M : ℤ) : roundHalfEven M = M :=
  roundHalfEven_eq (by linarith) (by linarith)

theorem roundHalfEven_mono {y z : ℝ} (h : y ≤ z) : roundHalfEven y ≤ roundHalfEven z := by
  have h1 : ⌊y⌋ ≤ ⌊z⌋ := Int.floor_mono h
  rcases eq_or_lt_of_le h1 with h2 | h2
  · unfold roundHalfEven
    rw [h2]
    split_ifs <;> first | omega | linarith
  · have a : roundHalfEven y ≤ ⌊y⌋ + 1 := by unfold roundHalfEven; split_ifs <;> omega
    have b : ⌊z⌋ ≤ roundHalfEven z := by unfold roundHalfEven; split_ifs <;> omega
    omega

theorem roundHalfEven_neg (y : ℝ) : roundHalfEven (-y) = -roundHalfEven y := by
  rcases eq_or_ne y ⌊y⌋ with h | h
  · rw [h, show -((⌊y⌋ : ℤ) : ℝ) = ((-⌊y⌋ : ℤ) : ℝ) by push_cast; rfl, roundHalfEven_int, roundHalfEven_int]
  · have h1 := Int.floor_le y
    have h2 := Int.lt_floor_add_one y
    have h3 : ⌊-y⌋ = -⌊y⌋ - 1 := Int.floor_eq_iff.2
      ⟨by push_cast; linarith, by push_cast; have := lt_of_le_of_ne h1 (Ne.symm h); linarith⟩
    have he : Even (-⌊y⌋ - 1) ↔ ¬ Even ⌊y⌋ := by
      rw [Int.even_sub_one, even_neg]
    unfold roundHalfEven
    rw [h3]
    simp only [he]
    push_cast
    split_ifs <;> first | omega | (exfalso; linarith)

@[simp] theorem rnd64_neg (x : ℝ) : rnd64 (-x) = -rnd64 x := by
  simp only [rnd64, abs_neg, neg_div, roundHalfEven_neg]
  push_cast; ring

/-- Exponent of the last bit. -/
theorem rnd64_pos {x : ℝ} (hx : 0 < x) : ∃ e : ℤ, (2 : ℝ) ^ (e + 52) ≤ x ∧ x < (2 : ℝ) ^ (e + 53) ∧
    rnd64 x = roundHalfEven (x / (2 : ℝ) ^ e) * (2 : ℝ) ^ e := by
  refine ⟨Int.log 2 x - 52, ?_, ?_, ?_⟩
  · have := Int.zpow_log_le_self (b := 2) one_lt_two hx
    rw [sub_add_cancel]; exact_mod_cast this
  · have := Int.lt_zpow_succ_log_self (b := 2) one_lt_two x
    rw [show Int.log 2 x - 52 + 53 = Int.log 2 x + 1 by ring]; exact_mod_cast this
  · simp only [rnd64, abs_of_pos hx]

theorem IsF64.neg {x : ℝ} (h : IsF64 x) : IsF64 (-x) := by
  obtain ⟨m, e, h1, h2⟩ := h
  exact ⟨-m, e, by rwa [abs_neg], by rw [h2]; push_cast; ring⟩

theorem isF64_zero : IsF64 0 := ⟨0, 0, by norm_num, by simp⟩

theorem isF64_zpow (e : ℤ) : IsF64 ((2 : ℝ) ^ e) := ⟨1, e, by norm_num, by simp⟩

theorem IsF64.mul_zpow {x : ℝ} (h : IsF64 x) (k : ℤ) : IsF64 (x * (2 : ℝ) ^ k) := by
  obtain ⟨m, e, h1, h2⟩ := h
  exact ⟨m, e + k, h1, by rw [h2, zpow_add₀ two_ne_zero]; ring⟩

/-- A binary64 number that is not small is a multiple of the last bit. -/
theorem IsF64.multiple {g : ℝ} (hg : IsF64 g) {e : ℤ} (h : (2 : ℝ) ^ (e + 52) ≤ |g|) : ∃ M : ℤ, g = M * (2 : ℝ) ^ e := by
  obtain ⟨m, e', h1, h2⟩ := hg
  rcases le_or_gt e e' with h3 | h3
  · obtain ⟨k, hk⟩ := Int.le.dest h3
    refine ⟨m * 2 ^ k, ?_⟩
    rw [h2, ← hk, zpow_add₀ two_ne_zero]
    push_cast
    rw [zpow_natCast]; ring
  · have hp : (0 : ℝ) < (2 : ℝ) ^ e' := zpow_pos two_pos _
    have a1 : |g| = |(m : ℝ)| * (2 : ℝ) ^ e' := by rw [h2, abs_mul, abs_of_pos hp]
    have a2 : |(m : ℝ)| ≤ 2 ^ 53 := by
      rw [← Int.cast_abs]; exact_mod_cast h1
    have a3 : (2 : ℝ) ^ (e' + 53) ≤ (2 : ℝ) ^ (e + 52) := zpow_le_zpow_right₀ one_le_two (by omega)
    have a4 : (2 : ℝ) ^ (e' + 53) = 2 ^ 53 * (2 : ℝ) ^ e' := by
      rw [zpow_add₀ two_ne_zero, mul_comm]; norm_num
    have a5 : |g| ≤ 2 ^ 53 * (2 : ℝ) ^ e' := by rw [a1]; exact mul_le_mul_of_nonneg_right a2 hp.le
    have a6 : |g| = (2 : ℝ) ^ (e + 52) := le_antisymm (by linarith) h
    have a7 : (2 : ℝ) ^ (e + 52) = ((2 ^ 52 : ℤ) : ℝ) * (2 : ℝ) ^ e := by
      rw [zpow_add₀ two_ne_zero, mul_comm]; norm_num
    rcases abs_choice g with h4 | h4
    · exact ⟨2 ^ 52, by rw [← a7, ← a6, h4]⟩
    · refine ⟨-2 ^ 52, ?_⟩
      have : g = -|g| := by rw [h4]; ring
      rw [this, a6, a7]; push_cast; ring

theorem rnd64_le_of_le_pos {x g : ℝ} (hx : 0 < x) (hg : IsF64 g) (h : x ≤ g) : rnd64 x ≤ g := by
  obtain ⟨e, h1, h2, h3⟩ := rnd64_pos hx
  have hp : (0 : ℝ) < (2 : ℝ) ^ e := zpow_pos two_pos _
  rw [h3]
  rcases le_or_gt ((2 : ℝ) ^ (e + 53)) g with h4 | h4
  · refine le_trans ?_ h4
    have : roundHalfEven (x / (2 : ℝ) ^ e) ≤ 2 ^ 53 := by
      rw [← roundHalfEven_int (2 ^ 53)]
      apply roundHalfEven_mono
      rw [div_le_iff₀ hp]
      push_cast
      rw [zpow_add₀ two_ne_zero, mul_comm] at h2
      exact le_of_lt (by exact_mod_cast h2)
    rw [zpow_add₀ two_ne_zero, mul_comm]
    apply mul_le_mul_of_nonneg_left _ hp.le
    exact_mod_cast this
  · obtain ⟨M, hM⟩ := hg.multiple (e := e) (by rw [abs_of_pos (lt_of_lt_of_le hx h)]; linarith)
    rw [hM]
    apply mul_le_mul_of_nonneg_right _ hp.le
    have : roundHalfEven (x / (2 : ℝ) ^ e) ≤ M := by
      rw [← roundHalfEven_int M]
      apply roundHalfEven_mono
      rw [div_le_iff₀ hp, ← hM]; exact h
    exact_mod_cast this

theorem rnd64_ge_of_ge_pos {x g : ℝ} (hg0 : 0 < g) (hg : IsF64 g) (h : g ≤ x) : g ≤ rnd64 x := by
  obtain ⟨e, h1, h2, h3⟩ := rnd64_pos (lt_of_lt_of_le hg0 h)
  have hp : (0 : ℝ) < (2 : ℝ) ^ e := zpow_pos two_pos _
  rw [h3]
  rcases le_or_gt g ((2 : ℝ) ^ (e + 52)) with h4 | h4
  · refine le_trans h4 ?_
    have : 2 ^ 52 ≤ roundHalfEven (x / (2 : ℝ) ^ e) := by
      rw [← roundHalfEven_int (2 ^ 52)]
      apply roundHalfEven_mono
      rw [le_div_iff₀ hp]
      push_cast
      rw [zpow_add₀ two_ne_zero, mul_comm] at h1
      exact_mod_cast h1
    rw [zpow_add₀ two_ne_zero, mul_comm]
    apply mul_le_mul_of_nonneg_right _ hp.le
    exact_mod_cast this
  · obtain ⟨M, hM⟩ := hg.multiple (e := e) (by rw [abs_of_pos hg0]; exact h4.le)
    rw [hM]
    apply mul_le_mul_of_nonneg_right _ hp.le
    have : M ≤ roundHalfEven (x / (2 : ℝ) ^ e) := by
      rw [← roundHalfEven_int M]
      apply roundHalfEven_mono
      rw [le_div_iff₀ hp, ← hM]; exact h
    exact_mod_cast this

theorem rnd64_nonneg {x : ℝ} (hx : 0 ≤ x) : 0 ≤ rnd64 x := by
  rcases eq_or_lt_of_le hx with h | h
  · rw [← h, rnd64_zero]
  · obtain ⟨e, h1, h2, h3⟩ := rnd64_pos h
    exact (zpow_pos two_pos _).le.trans (rnd64_ge_of_ge_pos (zpow_pos two_pos _) (isF64_zpow _) h1)

theorem rnd64_pos' {x : ℝ} (hx : 0 < x) : 0 < rnd64 x := by
  obtain ⟨e, h1, h2, h3⟩ := rnd64_pos hx
  exact (zpow_pos two_pos _).trans_le (rnd64_ge_of_ge_pos (zpow_pos two_pos _) (isF64_zpow _) h1)

/-- Rounding does not move a number across a binary64 number. -/
theorem rnd64_le_of_le {x g : ℝ} (hg : IsF64 g) (h : x ≤ g) : rnd64 x ≤ g := by
  rcases lt_trichotomy x 0 with hx | rfl | hx
  · rcases le_or_gt 0 g with h0 | h0
    · have := rnd64_nonneg (x := -x) (by linarith)
      rw [rnd64_neg] at this; linarith
    · have := rnd64_ge_of_ge_pos (x := -x) (g := -g) (by linarith) hg.neg (by linarith)
      rw [rnd64_neg] at this; linarith
  · rw [rnd64_zero]; exact h
  · exact rnd64_le_of_le_pos hx hg h

theorem rnd64_ge_of_ge {x g : ℝ} (hg : IsF64 g) (h : g ≤ x) : g ≤ rnd64 x := by
  have := rnd64_le_of_le (x := -x) hg.neg (by linarith)
  rw [rnd64_neg] at this; linarith

/-- Binary64 numbers are not changed by rounding. -/
theorem IsF64.rnd {x : ℝ} (h : IsF64 x) : rnd64 x = x :=
  le_antisymm (rnd64_le_of_le h le_rfl) (rnd64_ge_of_ge h le_rfl)

theorem isF64_rnd (x : ℝ) : IsF64 (rnd64 x) := by
  have key : ∀ x : ℝ, 0 < x → IsF64 (rnd64 x) := by
    intro x hx
    obtain ⟨e, h1, h2, h3⟩ := rnd64_pos hx
    have hp : (0 : ℝ) < (2 : ℝ) ^ e := zpow_pos two_pos _
    refine ⟨_, e, ?_, h3⟩
    have h4 := rnd64_le_of_le_pos hx (isF64_zpow (e + 53)) h2.le
    have h5 := rnd64_nonneg hx.le
    rw [h3] at h4 h5
    rw [zpow_add₀ two_ne_zero, mul_comm] at h4
    have h6 : ((roundHalfEven (x / (2 : ℝ) ^ e) : ℤ) : ℝ) ≤ (2 : ℝ) ^ (53 : ℤ) := by
      exact le_of_mul_le_mul_left h4 hp
    have h7 : (0 : ℝ) ≤ ((roundHalfEven (x / (2 : ℝ) ^ e) : ℤ) : ℝ) := nonneg_of_mul_nonneg_left h5 hp
    rw [abs_of_nonneg (by exact_mod_cast h7)]
    exact_mod_cast h6
  rcases lt_trichotomy x 0 with hx | rfl | hx
  · have := (key (-x) (by linarith)).neg
    rwa [rnd64_neg, neg_neg] at this
  · rw [rnd64_zero]; exact isF64_zero
  · exact key x hx

theorem isF64_iff {x : ℝ} : IsF64 x ↔ rnd64 x = x := ⟨IsF64.rnd, fun h => h ▸ isF64_rnd x⟩

@[simp] theorem rnd64_rnd64 (x : ℝ) : rnd64 (rnd64 x) = rnd64 x := (isF64_rnd x).rnd

/-- Rounding is monotone. -/
theorem rnd64_mono {x y : ℝ} (h : x ≤ y) : rnd64 x ≤ rnd64 y := by
  have key : ∀ x y : ℝ, 0 < x → x ≤ y → rnd64 x ≤ rnd64 y := by
    intro x y hx h
    obtain ⟨e, h1, h2, h3⟩ := rnd64_pos hx
    obtain ⟨e', h1', h2', h3'⟩ := rnd64_pos (hx.trans_le h)
    rcases lt_trichotomy e e' with he | rfl | he
    · have h4 := rnd64_le_of_le_pos hx (isF64_zpow (e + 53)) h2.le
      have h5 := rnd64_ge_of_ge_pos (zpow_pos two_pos _) (isF64_zpow (e' + 52)) h1'
      have h6 : (2 : ℝ) ^ (e + 53) ≤ (2 : ℝ) ^ (e' + 52) := zpow_le_zpow_right₀ one_le_two (by omega)
      linarith
    · have hp : (0 : ℝ) < (2 : ℝ) ^ e := zpow_pos two_pos _
      rw [h3, h3']
      apply mul_le_mul_of_nonneg_right _ hp.le
      exact_mod_cast roundHalfEven_mono (div_le_div_of_nonneg_right h hp.le)
    · have h6 : (2 : ℝ) ^ (e' + 53) ≤ (2 : ℝ) ^ (e + 52) := zpow_le_zpow_right₀ one_le_two (by omega)
      linarith
  rcases lt_or_ge 0 x with hx | hx
  · exact key x y hx h
  · rcases le_or_gt 0 y with hy | hy
    · exact (rnd64_le_of_le isF64_zero hx).trans (rnd64_nonneg hy)
    · have := key (-y) (-x) (by linarith) (by linarith)
      rw [rnd64_neg, rnd64_neg] at this; linarith

/-- Sterbenz: the difference of two binary64 numbers within a factor of two of each other is a binary64 number. -/
theorem IsF64.sub {x y : ℝ} (hx : IsF64 x) (hy : IsF64 y) (h1 : y / 2 ≤ x) (h2 : x ≤ y) : IsF64 (y - x) := by
  have hy0 : 0 ≤ y := by linarith
  rcases eq_or_lt_of_le hy0 with h0 | h0
  · have : x = 0 := by linarith
    rw [← h0, this, sub_zero]; exact isF64_zero
  have hx0 : 0 < x := by linarith
  obtain ⟨e, a1, a2, -⟩ := rnd64_pos hx0
  have hp : (0 : ℝ) < (2 : ℝ) ^ e := zpow_pos two_pos _
  obtain ⟨M, hM⟩ := hx.multiple (e := e) (by rw [abs_of_pos hx0]; exact a1)
  obtain ⟨N, hN⟩ := hy.multiple (e := e) (by rw [abs_of_pos h0]; linarith)
  refine ⟨N - M, e, ?_, by rw [hM, hN]; push_cast; ring⟩
  have b1 : 0 ≤ N - M := by
    rw [hM, hN] at h2
    have := le_of_mul_le_mul_right h2 hp
    have : M ≤ N := by exact_mod_cast this
    omega
  have b2 : N - M ≤ 2 ^ 53 := by
    have c1 : y - x ≤ (2 : ℝ) ^ (e + 53) := by linarith
    rw [zpow_add₀ two_ne_zero, mul_comm, hM, hN, ← sub_mul] at c1
    have := le_of_mul_le_mul_right c1 hp
    have c2 : ((N - M : ℤ) : ℝ) ≤ ((2 ^ 53 : ℤ) : ℝ) := by push_cast; norm_num at this; linarith
    exact_mod_cast c2
  rw [abs_of_nonneg b1]; exact b2

/-- The absolute error of rounding is at most half of the last bit. -/
theorem rnd64_abs_error {x : ℝ} (hx : 0 ≤ x) {e : ℤ} (h : x < (2 : ℝ) ^ (e + 53)) : |rnd64 x - x| ≤ (2 : ℝ) ^ e / 2 := by
  rcases eq_or_lt_of_le hx with h0 | h0
  · rw [← h0, rnd64_zero, sub_zero, abs_zero]
    exact (div_pos (zpow_pos two_pos _) two_pos).le
  obtain ⟨e', h1, h2, h3⟩ := rnd64_pos h0
  have hp : (0 : ℝ) < (2 : ℝ) ^ e' := zpow_pos two_pos _
  have he : e' ≤ e := by
    by_contra hc
    have : (2 : ℝ) ^ (e + 53) ≤ (2 : ℝ) ^ (e' + 52) := zpow_le_zpow_right₀ one_le_two (by omega)
    linarith
  have h4 := abs_roundHalfEven_sub_le (x / (2 : ℝ) ^ e')
  have h5 : rnd64 x - x = ((roundHalfEven (x / (2 : ℝ) ^ e') : ℝ) - x / (2 : ℝ) ^ e') * (2 : ℝ) ^ e' := by
    rw [h3]; field_simp
  rw [h5, abs_mul, abs_of_pos hp]
  have h6 : (2 : ℝ) ^ e' ≤ (2 : ℝ) ^ e := zpow_le_zpow_right₀ one_le_two he
  nlinarith [abs_nonneg ((roundHalfEven (x / (2 : ℝ) ^ e') : ℝ) - x / (2 : ℝ) ^ e')]

/-- The rest of an interval `[x, y]` with `0 ≤ x`, added to `x`, gives at most the binary64 number following `y`. -/
theorem IsF64.add_rest_le {x y g : ℝ} (hx0 : 0 ≤ x) (hxy : x < y) (hy : IsF64 y) (hg : IsF64 g) (h : y < g) :
    x + rnd64 (y - x) ≤ g := by
  have hy0 : 0 < y := by linarith
  obtain ⟨e, h1, h2, -⟩ := rnd64_pos hy0
  have hp : (0 : ℝ) < (2 : ℝ) ^ e := zpow_pos two_pos _
  obtain ⟨M, hM⟩ := hy.multiple (e := e) (by rw [abs_of_pos hy0]; exact h1)
  obtain ⟨N, hN⟩ := hg.multiple (e := e) (by rw [abs_of_pos (by linarith)]; linarith)
  have a1 : M + 1 ≤ N := by
    rw [hM, hN] at h
    have : M < N := by exact_mod_cast lt_of_mul_lt_mul_right h hp.le
    omega
  have a2 : y + (2 : ℝ) ^ e ≤ g := by
    have : ((M + 1 : ℤ) : ℝ) ≤ N := by exact_mod_cast a1
    rw [hM, hN]
    push_cast at this
    nlinarith
  have a3 := rnd64_abs_error (x := y - x) (by linarith) (e := e) (by linarith)
  rw [abs_le] at a3
  linarith [a3.2]

end Verif
