import Verif.Model.Grids
import Verif.Lemmas.Binary64

/-!
# C42: the periodic grids
-/

set_option linter.unusedSectionVars false

namespace Verif

/-- The grid and the wavenumbers that both constructors promise in exact arithmetic: `n` points `a + j (b - a) / n`. -/
noncomputable def gridPoints (n : ℕ) (a b : ℝ) : List ℝ := (List.range n).map fun j : ℕ => a + (j : ℝ) * (b - a) / n

theorem checkGridSize_ok {n : PyVal ℝ} {N : ℕ} : checkGridSize n = .ok N ↔ ∃ k : ℕ, n = .int (2 * (k + 2)) ∧ N = 2 * (k + 2) := by
  constructor
  · intro h
    cases n with
    | int z =>
      simp only [checkGridSize] at h
      split at h
      · cases h
      · next hz =>
        push Not at hz
        cases h
        obtain ⟨h1, h2⟩ := hz
        refine ⟨(z / 2 - 2).toNat, ?_, ?_⟩
        · congr 1; omega
        · omega
    | _ => simp [checkGridSize] at h
  · rintro ⟨k, rfl, rfl⟩
    simp only [checkGridSize]
    rw [if_neg (by omega)]
    congr 1

/-- C42. `TypeError` iff `n` is not an integer. -/
theorem C42_type_error (rnd : ℝ → ℝ) (n : PyVal ℝ) (a b : ℝ) :
    (constructXKxRfft rnd n a b = .error .typeError ↔ ∀ z, n ≠ .int z) ∧
    (constructXKxFft rnd n a b = .error .typeError ↔ ∀ z, n ≠ .int z) := by
  cases n with
  | int z =>
    simp only [constructXKxRfft, constructXKxFft, checkGridSize, bind, Except.bind,
      throw, throwThe, MonadExceptOf.throw, pure, Except.pure]
    by_cases h : z ≤ 2 ∨ z % 2 ≠ 0
    · rw [if_pos h]; simp
    · rw [if_neg h]
      have h' : ¬ ∀ w, (PyVal.int z : PyVal ℝ) ≠ PyVal.int w := fun hw => hw z rfl
      simp only [h', iff_false]
      constructor <;> split <;> simp
  | _ => simp [constructXKxRfft, constructXKxFft, checkGridSize, bind, Except.bind]

/-- C42. `ValueError` iff `n` is an integer that is at most two or odd. -/
theorem C42_value_error (rnd : ℝ → ℝ) (n : PyVal ℝ) (a b : ℝ) :
    (constructXKxRfft rnd n a b = .error .valueError ↔ ∃ z, n = .int z ∧ (z ≤ 2 ∨ Odd z)) ∧
    (constructXKxFft rnd n a b = .error .valueError ↔ ∃ z, n = .int z ∧ (z ≤ 2 ∨ Odd z)) := by
  cases n with
  | int z =>
    simp only [PyVal.int.injEq, exists_eq_left', Int.odd_iff, constructXKxRfft, constructXKxFft, checkGridSize, bind, Except.bind,
      throw, throwThe, MonadExceptOf.throw, pure, Except.pure]
    by_cases h : z ≤ 2 ∨ z % 2 ≠ 0
    · rw [if_pos h]; simp only [true_iff, and_self]; omega
    · rw [if_neg h]
      have h' : ¬ (z ≤ 2 ∨ z % 2 = 1) := by omega
      simp only [h', iff_false]
      constructor <;> split <;> simp
  | _ => simp [constructXKxRfft, constructXKxFft, checkGridSize, bind, Except.bind]

theorem npArange_id {a b : ℝ} {n : ℕ} (hab : a ≠ b) (hn : n ≠ 0) : npArange id a b ((b - a) / n) = gridPoints n a b := by
  have hb : b - a ≠ 0 := sub_ne_zero.2 hab.symm
  have hn' : (n : ℝ) ≠ 0 := Nat.cast_ne_zero.2 hn
  have hc : (b - a) / ((b - a) / n) = n := by field_simp
  simp only [npArange, id, hc, Int.ceil_natCast, Int.toNat_natCast, gridPoints]
  apply List.map_congr_left
  intro i _
  split
  · next h => simp [h]
  · split
    · next h => simp [h]
    · ring

/-- C42. In exact arithmetic `construct_x_kx_rfft(n, a, b)` returns, for every even `n > 2` and `a ≠ b`, the `n` points
`a + j (b - a) / n` and the `n / 2 + 1` wavenumbers `2 π m / (b - a)`, `m = 0, …, n / 2`. -/
theorem C42_rfft (k : ℕ) {a b : ℝ} (hab : a ≠ b) :
    constructXKxRfft id (.int (2 * (k + 2))) a b =
      .ok (gridPoints (2 * (k + 2)) a b, (List.range (k + 3)).map fun m : ℕ => 2 * Real.pi * (m : ℝ) / (b - a)) := by
  have hb : b - a ≠ 0 := sub_ne_zero.2 hab.symm
  have hc : checkGridSize (.int (2 * (k + 2))) = .ok (2 * (k + 2)) := checkGridSize_ok.2 ⟨k, rfl, rfl⟩
  have hn : ((2 * (k + 2) : ℕ) : ℝ) ≠ 0 := by positivity
  simp only [constructXKxRfft, hc, bind, Except.bind, id, div_eq_zero_iff, hb, hn, or_self, if_false, pure, Except.pure,
    npArange_id hab (show 2 * (k + 2) ≠ 0 by omega), npRfftfreq, List.map_map]
  congr 2
  rw [show 2 * (k + 2) / 2 + 1 = k + 3 by omega]
  apply List.map_congr_left
  intro i _
  simp only [Function.comp]
  field_simp

/-- C42. In exact arithmetic `construct_x_kx_fft(n, a, b)` returns the same points and the wavenumbers `2 π m / (b - a)` for
`m = 0, …, n / 2 - 1, -n / 2, …, -1`. -/
theorem C42_fft (k : ℕ) {a b : ℝ} (hab : a ≠ b) :
    constructXKxFft id (.int (2 * (k + 2))) a b =
      .ok (gridPoints (2 * (k + 2)) a b,
        (List.range (2 * (k + 2))).map fun m : ℕ =>
          2 * Real.pi * (if m < k + 2 then (m : ℝ) else (m : ℝ) - (2 * (k + 2) : ℕ)) / (b - a)) := by
  have hb : b - a ≠ 0 := sub_ne_zero.2 hab.symm
  have hc : checkGridSize (.int (2 * (k + 2))) = .ok (2 * (k + 2)) := checkGridSize_ok.2 ⟨k, rfl, rfl⟩
  have hn : ((2 * (k + 2) : ℕ) : ℝ) ≠ 0 := by positivity
  simp only [constructXKxFft, hc, bind, Except.bind, id, div_eq_zero_iff, hb, hn, or_self, if_false, pure, Except.pure,
    npArange_id hab (show 2 * (k + 2) ≠ 0 by omega), npFftfreq, List.map_map, List.map_append]
  congr 2
  rw [show 2 * (k + 2) / 2 = k + 2 by omega, show (2 * (k + 2) - 1) / 2 + 1 = k + 2 by omega,
    show 2 * (k + 2) = (k + 2) + (k + 2) by omega, List.range_add (n := k + 2) (m := k + 2), List.map_append, List.map_map]
  congr 1
  · apply List.map_congr_left
    intro i hi
    rw [if_pos (List.mem_range.1 hi)]
    simp only [Function.comp]
    field_simp
  · apply List.map_congr_left
    intro i hi
    simp only [Function.comp]
    rw [if_neg (by omega)]
    push_cast
    field_simp
    ring

/-- C42. The points lie in `[a, b)`, are equally spaced and start at `a`. -/
theorem C42_points {n : ℕ} {a b : ℝ} (hab : a < b) :
    (gridPoints n a b).length = n ∧ (∀ x ∈ gridPoints n a b, a ≤ x ∧ x < b) ∧
    (gridPoints n a b).Pairwise (· < ·) := by
  refine ⟨by simp [gridPoints], ?_, ?_⟩
  · intro x hx
    simp only [gridPoints, List.mem_map, List.mem_range] at hx
    obtain ⟨j, hj, rfl⟩ := hx
    have hb : 0 < b - a := by linarith
    have hn : (0 : ℝ) < n := by exact_mod_cast (show 0 < n by omega)
    have hj' : (j : ℝ) < n := by exact_mod_cast hj
    constructor
    · have : 0 ≤ (j : ℝ) * (b - a) / n := by positivity
      linarith
    · have : (j : ℝ) * (b - a) / n < b - a := by
        rw [div_lt_iff₀ hn]; nlinarith
      linarith
  · rw [gridPoints, List.pairwise_map]
    refine List.pairwise_lt_range.imp_of_mem ?_
    intro i j _ hj hij
    have hn : (0 : ℝ) < n := by exact_mod_cast (show 0 < n by have := List.mem_range.1 hj; omega)
    have hij' : (i : ℝ) < j := by exact_mod_cast hij
    have : (i : ℝ) * (b - a) / n < j * (b - a) / n := by
      apply div_lt_div_of_pos_right _ hn
      exact mul_lt_mul_of_pos_right hij' (by linarith)
    linarith

example : constructXKxRfft id (.int 4) 0 1 =
    .ok ([0, 1 / 4, 1 / 2, 3 / 4], [0, 2 * Real.pi, 4 * Real.pi]) := by
  have h := C42_rfft 0 (a := 0) (b := 1) (by norm_num)
  norm_num [gridPoints, List.range_succ] at h
  rw [h]
  congr 3; ring_nf

/-- C42. For equal end points both raise. -/
theorem C42_empty_interval (k : ℕ) (a : ℝ) :
    constructXKxRfft id (.int (2 * (k + 2))) a a = .error .zeroDivisionError ∧
    constructXKxFft id (.int (2 * (k + 2))) a a = .error .zeroDivisionError := by
  have hc : checkGridSize (.int (2 * (k + 2))) = .ok (2 * (k + 2)) := checkGridSize_ok.2 ⟨k, rfl, rfl⟩
  constructor <;> simp [constructXKxRfft, constructXKxFft, hc, bind, Except.bind, throw, throwThe, MonadExceptOf.throw]

/-- C42. With any rounding of relative error at most `ε`, and `n ε ≤ 1 / 4`, the number of points is `n` or `n + 1`. -/
theorem C42_rounding {rnd : ℝ → ℝ} {ε : ℝ} (hr : ∀ x, |rnd x - x| ≤ ε * |x|) (k : ℕ) (hε : ((2 * (k + 2) : ℕ) : ℝ) * ε ≤ 1 / 4)
    {a b : ℝ} (hab : a ≠ b) :
    ∃ x kx, constructXKxRfft rnd (.int (2 * (k + 2))) a b = .ok (x, kx) ∧ kx.length = k + 3 ∧
      (x.length = 2 * (k + 2) ∨ x.length = 2 * (k + 2) + 1) := by
  have hc : checkGridSize (.int (2 * (k + 2))) = .ok (2 * (k + 2)) := checkGridSize_ok.2 ⟨k, rfl, rfl⟩
  have hb : b - a ≠ 0 := sub_ne_zero.2 hab.symm
  set n : ℕ := 2 * (k + 2) with hn
  have hn4 : (4 : ℝ) ≤ n := by exact_mod_cast (show 4 ≤ n by omega)
  have hε0 : 0 ≤ ε := by
    have := (abs_nonneg _).trans (hr 1)
    simpa using this
  have hε1 : ε ≤ 1 / 16 := by nlinarith
  have hne : ∀ {x : ℝ}, x ≠ 0 → rnd x ≠ 0 := by
    intro x hx h0
    have := hr x
    rw [h0, zero_sub, abs_neg] at this
    have hx' : 0 < |x| := abs_pos.2 hx
    nlinarith
  have hrel : ∀ {x : ℝ}, x ≠ 0 → ∃ δ, |δ| ≤ ε ∧ rnd x = x * (1 + δ) := by
    intro x hx
    refine ⟨(rnd x - x) / x, ?_, by field_simp; ring⟩
    rw [abs_div, div_le_iff₀ (abs_pos.2 hx)]
    exact hr x
  have hD : rnd (b - a) ≠ 0 := hne hb
  set D := rnd (b - a) with hDdef
  have hn0 : (n : ℝ) ≠ 0 := by positivity
  have hDn : D / n ≠ 0 := div_ne_zero hD hn0
  obtain ⟨δ, hδ, hd⟩ := hrel hDn
  have hd0 : rnd (D / n) ≠ 0 := hne hDn
  have hδ' := abs_le.1 hδ
  have h1δ : 0 < 1 + δ := by linarith
  have hq : D / rnd (D / n) = n / (1 + δ) := by rw [hd]; field_simp
  have hq0 : D / rnd (D / n) ≠ 0 := div_ne_zero hD hd0
  obtain ⟨η, hη, hq2⟩ := hrel hq0
  have hη' := abs_le.1 hη
  rw [hq] at hq2
  have hup : (n : ℝ) / (1 + δ) * (1 + η) ≤ n + 1 := by
    rw [div_mul_eq_mul_div, div_le_iff₀ h1δ]
    nlinarith
  have hlo : (n : ℝ) - 1 < n / (1 + δ) * (1 + η) := by
    rw [div_mul_eq_mul_div, lt_div_iff₀ h1δ]
    nlinarith
  simp only [constructXKxRfft, hc, bind, Except.bind, ← hDdef, pure, Except.pure]
  rw [if_neg hd0]
  refine ⟨_, _, rfl, ?_, ?_⟩
  · simp only [npRfftfreq, List.length_map, List.length_range]; omega
  · simp only [npArange, List.length_map, List.length_range, ← hDdef, hq, hq2]
    have hc1 : ⌈(n : ℝ) / (1 + δ) * (1 + η)⌉ ≤ (n : ℤ) + 1 := Int.ceil_le.2 (by push_cast; exact hup)
    have hc2 : (n : ℤ) - 1 < ⌈(n : ℝ) / (1 + δ) * (1 + η)⌉ := Int.lt_ceil.2 (by push_cast; exact hlo)
    omega

example : ∃ x kx, constructXKxRfft rnd64 (.int (2 * (1 + 2))) 0 1 = .ok (x, kx) ∧ kx.length = 1 + 3 ∧
    (x.length = 2 * (1 + 2) ∨ x.length = 2 * (1 + 2) + 1) :=
  C42_rounding (ε := 1 / 2 ^ 53) rnd64_error 1 (by norm_num) (by norm_num)

/-- C42. In binary64 the number of points can be `n + 1`: with 98 points requested on `[0, 1]`, the quotient `1 / (1 / 98)`
rounds to the number after 98, and `np.arange` returns 99 points.  (The number of wavenumbers is right, so `rfft` of the grid
function does not match them.) -/
theorem C42_binary64_extra_point :
    ∃ x kx, constructXKxRfft rnd64 (.int 98) 0 1 = .ok (x, kx) ∧ x.length = 99 ∧ kx.length = 50 := by
  have h1 : rnd64 ((1 : ℝ) - 0) = 1 := by
    have := rnd64_eq (x := (1 : ℝ) - 0) (N := 2 ^ 52) (-52) (by norm_num) (by norm_num) (by norm_num) (by norm_num)
    rw [this]; norm_num
  have h2 : rnd64 ((1 : ℝ) / ((98 : ℕ) : ℝ)) = 5882252574524729 * (2 : ℝ) ^ (-59 : ℤ) := by
    have := rnd64_eq (x := (1 : ℝ) / ((98 : ℕ) : ℝ)) (N := 5882252574524729) (-59) (by norm_num) (by norm_num) (by norm_num)
      (by norm_num)
    rw [this]; norm_num
  have h3 : rnd64 ((1 : ℝ) / (5882252574524729 * (2 : ℝ) ^ (-59 : ℤ))) = 6896136929411073 * (2 : ℝ) ^ (-46 : ℤ) := by
    have := rnd64_eq (x := (1 : ℝ) / (5882252574524729 * (2 : ℝ) ^ (-59 : ℤ))) (N := 6896136929411073) (-46) (by norm_num)
      (by norm_num) (by norm_num) (by norm_num)
    rw [this]; norm_num
  have hc : checkGridSize (.int 98) = .ok 98 := checkGridSize_ok.2 ⟨47, by norm_num, by norm_num⟩
  have h4 : ⌈(6896136929411073 : ℝ) * (2 : ℝ) ^ (-46 : ℤ)⌉ = 99 := by
    rw [Int.ceil_eq_iff]; norm_num
  simp only [constructXKxRfft, hc, bind, Except.bind, h1, h2, pure, Except.pure]
  rw [if_neg (by norm_num)]
  refine ⟨_, _, rfl, ?_, ?_⟩
  · simp only [npArange, List.length_map, List.length_range, h1, h3, h4]
    rfl
  · simp [npRfftfreq]

/-- A float for `n`, an odd `n`, `n = 2`, and an empty interval. -/
example : constructXKxRfft id (.float (.fin 16)) (0 : ℝ) 1 = .error .typeError ∧
    constructXKxFft id (.int 15) (0 : ℝ) 1 = .error .valueError ∧ constructXKxRfft id (.int 2) (0 : ℝ) 1 = .error .valueError ∧
    constructXKxFft id (.int 6) (3 : ℝ) 3 = .error .zeroDivisionError :=
  ⟨(C42_type_error _ _ _ _).1.2 (by simp), (C42_value_error _ _ _ _).2.2 ⟨15, rfl, .inr (by decide)⟩,
    (C42_value_error _ _ _ _).1.2 ⟨2, rfl, .inl le_rfl⟩, (C42_empty_interval 1 3).2⟩

/-- The sixteen points on `[-1, 1)`. -/
example : ∀ x ∈ gridPoints 16 (-1) 1, -1 ≤ x ∧ x < 1 := (C42_points (by norm_num)).2.1

end Verif
