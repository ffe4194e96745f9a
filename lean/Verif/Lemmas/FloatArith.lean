import Verif.Spec.FloatCoefs
import Verif.Lemmas.RoundedArith
import Mathlib.Analysis.SpecialFunctions.Exp

/-!
# NumPy's arithmetic for complex numbers is nearly exact
-/

set_option linter.unusedSectionVars false

namespace Verif

variable {rnd : ℝ → ℝ} {u : ℝ}

/-- Rounding a number that is itself computed. -/
theorem rnd_near (hr : ∀ x, |rnd x - x| ≤ u * |x|) (hu : 0 ≤ u) {x' x e : ℝ} (h : |x' - x| ≤ e) :
    |rnd x' - x| ≤ u * (|x| + e) + e := by
  have h1 := hr x'
  have h2 : |x'| ≤ |x| + e := by
    have := abs_add_le x (x' - x)
    rw [add_sub_cancel] at this
    linarith
  have h3 := abs_add_le (rnd x' - x') (x' - x)
  rw [sub_add_sub_cancel] at h3
  have h4 := mul_le_mul_of_nonneg_left h2 hu
  linarith

/-- The denominator of Smith's quotient. -/
theorem smith_den {x y : ℝ} (hx : x ≠ 0) : |y * (y / x)| ≤ |x + y * (y / x)| ∧ |x| ≤ |x + y * (y / x)| ∧ x + y * (y / x) = (x ^ 2 + y ^ 2) / x := by
  have h1 : x + y * (y / x) = (x ^ 2 + y ^ 2) / x := by field_simp
  have hx' : 0 < |x| := abs_pos.mpr hx
  have h2 : |(x ^ 2 + y ^ 2) / x| = (x ^ 2 + y ^ 2) / |x| := by rw [abs_div, abs_of_nonneg (by positivity)]
  refine ⟨?_, ?_, h1⟩
  · rw [h1, h2, ← mul_div_assoc, abs_div, abs_of_nonneg (mul_self_nonneg y)]
    gcongr
    nlinarith [sq_nonneg x]
  · rw [h1, h2, le_div_iff₀ hx', abs_mul_abs_self]
    nlinarith [sq_nonneg y]

/-- The numerator of Smith's quotient. -/
theorem smith_num (hr : ∀ x, |rnd x - x| ≤ u * |x|) (hu : 0 ≤ u) (hu1 : u ≤ 1 / 14) {r' r : ℝ} (h1 : |r' - r| ≤ u * |r|) (hr1 : |r| ≤ 1) (q : ℝ) :
    |rnd (q * r') - q * r| ≤ 3 * u * |q * r| := by
  have h2 : |q * r' - q * r| ≤ u * |q * r| := by
    rw [← mul_sub, abs_mul, abs_mul]
    nlinarith [mul_le_mul_of_nonneg_left h1 (abs_nonneg q)]
  have h3 := rnd_near hr hu h2
  have h4 : 0 ≤ u * |q * r| := by positivity
  nlinarith

/-- One component of Smith's quotient: `(p + q r) / (x + y r)` with `r = y / x`. -/
theorem smith_error (hr : ∀ x, |rnd x - x| ≤ u * |x|) (hu : 0 ≤ u) (hu1 : u ≤ 1 / 14) {x y : ℝ} (hx : x ≠ 0) (hxy : |y| ≤ |x|) (p q : ℝ)
    {n' : ℝ} (hn : |n' - (p + q * (y / x))| ≤ 7 * u * (|p| + |q|)) :
    |rnd (n' * rnd (1 / rnd (x + rnd (y * rnd (y / x))))) - (p + q * (y / x)) * (1 / (x + y * (y / x)))| ≤
      30 * u * ((|p| + |q|) * (1 / |x + y * (y / x)|)) := by
  have hr1 : |y / x| ≤ 1 := by
    rw [abs_div]
    exact div_le_one_of_le₀ hxy (abs_nonneg x)
  obtain ⟨hd1, hd2, -⟩ := smith_den (y := y) hx
  have hp := smith_num hr hu hu1 (hr (y / x)) hr1 y
  set d := x + y * (y / x) with hd
  set S := 1 / |d| with hS
  set M := |p| + |q| with hM
  have hd0 : 0 < |d| := (abs_pos.mpr hx).trans_le hd2
  have hS0 : 0 < S := by positivity
  have hM0 : 0 ≤ M := by positivity
  have hdne : d ≠ 0 := abs_pos.mp hd0
  have hud : 0 ≤ u * |d| := by positivity
  have e1 : |x + rnd (y * rnd (y / x)) - d| ≤ 3 * u * |d| := by
    rw [hd, add_sub_add_left_eq_sub]
    exact hp.trans (mul_le_mul_of_nonneg_left hd1 (by positivity))
  have e2 : |rnd (x + rnd (y * rnd (y / x))) - d| ≤ 5 * u * |d| := by
    have := rnd_near hr hu e1
    nlinarith
  set d' := rnd (x + rnd (y * rnd (y / x))) with hd'
  have e3 : |d| / 2 ≤ |d'| := by
    have := abs_sub_abs_le_abs_sub d d'
    rw [abs_sub_comm] at e2
    nlinarith
  have hd'0 : 0 < |d'| := by linarith
  have hd'ne : d' ≠ 0 := abs_pos.mp hd'0
  have e4 : |1 / d' - 1 / d| ≤ 10 * u * S := by
    rw [div_sub_div _ _ hd'ne hdne, one_mul, mul_one, abs_div, abs_mul, abs_sub_comm, hS, mul_one_div, div_le_div_iff₀ (by positivity) hd0]
    calc |d' - d| * |d| ≤ 5 * u * |d| * |d| := mul_le_mul_of_nonneg_right e2 hd0.le
      _ = 10 * u * (|d| / 2 * |d|) := by ring
      _ ≤ 10 * u * (|d'| * |d|) := by gcongr
  have hSd : |1 / d| = S := by rw [abs_div, abs_one]
  have huS : 0 ≤ u * S := by positivity
  have e5 : |rnd (1 / d') - 1 / d| ≤ 12 * u * S := by
    have := rnd_near hr hu e4
    rw [hSd] at this
    nlinarith
  have e6 : |rnd (1 / d')| ≤ 2 * S := by
    have := abs_add_le (1 / d) (rnd (1 / d') - 1 / d)
    rw [add_sub_cancel, hSd] at this
    nlinarith
  have e7 : |p + q * (y / x)| ≤ M := by
    refine (abs_add_le _ _).trans ?_
    rw [abs_mul]
    nlinarith [abs_nonneg q]
  have huMS : 0 ≤ u * (M * S) := by positivity
  have e8 : |n' * rnd (1 / d') - (p + q * (y / x)) * (1 / d)| ≤ 26 * u * (M * S) := by
    have h1 : n' * rnd (1 / d') - (p + q * (y / x)) * (1 / d) =
        (n' - (p + q * (y / x))) * rnd (1 / d') + (p + q * (y / x)) * (rnd (1 / d') - 1 / d) := by ring
    rw [h1]
    refine (abs_add_le _ _).trans ?_
    rw [abs_mul, abs_mul]
    have h2 := mul_le_mul hn e6 (abs_nonneg _) (by positivity)
    have h3 := mul_le_mul e7 e5 (abs_nonneg _) hM0
    nlinarith
  have e9 : |(p + q * (y / x)) * (1 / d)| ≤ M * S := by
    rw [abs_mul, hSd]
    exact mul_le_mul_of_nonneg_right e7 hS0.le
  have := rnd_near hr hu e8
  have h4 := mul_le_mul_of_nonneg_left e9 hu
  nlinarith

/-- Smith's quotient. -/
theorem cdiv_error (hr : ∀ x, |rnd x - x| ≤ u * |x|) (hu : 0 ≤ u) (hu1 : u ≤ 1 / 14) (a b : ℂ) (hb : b ≠ 0) :
    ‖cdiv rnd a b - a / b‖ ≤ 120 * u * ‖a / b‖ := by
  have hb0 : 0 < ‖b‖ := norm_pos_iff.mpr hb
  have hq : ‖a / b‖ = ‖a‖ * (1 / ‖b‖) := by rw [norm_div, mul_one_div]
  have hN : b.re ^ 2 + b.im ^ 2 = ‖b‖ ^ 2 := by rw [← Complex.normSq_eq_norm_sq, Complex.normSq_apply]; ring
  have hN0 : b.re ^ 2 + b.im ^ 2 ≠ 0 := by rw [hN]; positivity
  have ha1 := Complex.abs_re_le_norm a
  have ha2 := Complex.abs_im_le_norm a
  -- the numerator
  have num : ∀ {x y p q s : ℝ}, x ≠ 0 → |y| ≤ |x| → |s - q * (y / x)| ≤ 3 * u * |q * (y / x)| →
      |rnd (p + s) - (p + q * (y / x))| ≤ 7 * u * (|p| + |q|) := by
    intro x y p q s hx hxy hs
    have hr1 : |y / x| ≤ 1 := by
      rw [abs_div]
      exact div_le_one_of_le₀ hxy (abs_nonneg x)
    have h1 : |q * (y / x)| ≤ |q| := by
      rw [abs_mul]
      nlinarith [abs_nonneg q]
    have h2 : |p + s - (p + q * (y / x))| ≤ 3 * u * |q| := by
      rw [add_sub_add_left_eq_sub]
      exact hs.trans (mul_le_mul_of_nonneg_left h1 (by positivity))
    have h3 := rnd_near hr hu h2
    have h4 := mul_le_mul_of_nonneg_left ((abs_add_le p (q * (y / x))).trans (add_le_add_right h1 _)) hu
    have h5 : 0 ≤ u * |q| := by positivity
    have h6 : 0 ≤ u * |p| := by positivity
    nlinarith
  -- the bound
  have fin : ∀ {x y p q : ℝ}, x ≠ 0 → x ^ 2 + y ^ 2 = ‖b‖ ^ 2 → |p| ≤ ‖a‖ → |q| ≤ ‖a‖ →
      30 * u * ((|p| + |q|) * (1 / |x + y * (y / x)|)) ≤ 60 * u * (‖a‖ * (1 / ‖b‖)) := by
    intro x y p q hx hxy hp hq
    have h1 : ‖b‖ ≤ |x + y * (y / x)| := by
      have hx' : 0 < |x| := abs_pos.mpr hx
      rw [(smith_den (y := y) hx).2.2, hxy, abs_div, abs_of_nonneg (by positivity), le_div_iff₀ hx']
      have : |x| ≤ ‖b‖ := abs_le_of_sq_le_sq (by nlinarith [sq_nonneg y]) hb0.le
      nlinarith
    have h2 : 1 / |x + y * (y / x)| ≤ 1 / ‖b‖ := one_div_le_one_div_of_le hb0 h1
    have h3 : (|p| + |q|) * (1 / |x + y * (y / x)|) ≤ (2 * ‖a‖) * (1 / ‖b‖) :=
      mul_le_mul (by linarith) h2 (by positivity) (by positivity)
    nlinarith
  have key : |(cdiv rnd a b - a / b).re| ≤ 60 * u * (‖a‖ * (1 / ‖b‖)) ∧ |(cdiv rnd a b - a / b).im| ≤ 60 * u * (‖a‖ * (1 / ‖b‖)) := by
    by_cases h : |b.im| ≤ |b.re|
    · have hx : b.re ≠ 0 := by
        intro h0
        rw [h0, abs_zero] at h
        exact hN0 (by rw [h0, abs_nonpos_iff.mp h]; ring)
      have hr1 : |b.im / b.re| ≤ 1 := by
        rw [abs_div]
        exact div_le_one_of_le₀ h (abs_nonneg _)
      have s1 := smith_num hr hu hu1 (hr (b.im / b.re)) hr1 a.im
      have s2 := smith_num hr hu hu1 (hr (b.im / b.re)) hr1 a.re
      constructor
      · have := smith_error hr hu hu1 hx h a.re a.im (num hx h s1)
        have e : (a.re + a.im * (b.im / b.re)) * (1 / (b.re + b.im * (b.im / b.re))) = (a / b).re := by
          rw [(smith_den (y := b.im) hx).2.2, Complex.div_re, Complex.normSq_apply]
          field_simp
        rw [e] at this
        simp only [Complex.sub_re, cdiv, if_pos h]
        exact this.trans (fin hx hN ha1 ha2)
      · have s3 : |-rnd (a.re * rnd (b.im / b.re)) - -a.re * (b.im / b.re)| ≤ 3 * u * |-a.re * (b.im / b.re)| := by
          rw [neg_mul, abs_neg, ← abs_neg]
          convert s2 using 2
          ring
        have := smith_error hr hu hu1 hx h a.im (-a.re) (num hx h s3)
        have e : (a.im + -a.re * (b.im / b.re)) * (1 / (b.re + b.im * (b.im / b.re))) = (a / b).im := by
          rw [(smith_den (y := b.im) hx).2.2, Complex.div_im, Complex.normSq_apply]
          field_simp
          ring
        rw [e, ← sub_eq_add_neg] at this
        simp only [Complex.sub_im, cdiv, if_pos h]
        exact this.trans (fin hx hN ha2 (by rwa [abs_neg]))
    · have h' := le_of_not_ge h
      have hx : b.im ≠ 0 := by
        intro h0
        rw [h0, abs_zero] at h
        exact h (abs_nonneg _)
      have hr1 : |b.re / b.im| ≤ 1 := by
        rw [abs_div]
        exact div_le_one_of_le₀ h' (abs_nonneg _)
      have hN' : b.im ^ 2 + b.re ^ 2 = ‖b‖ ^ 2 := by rw [add_comm, hN]
      have s1 := smith_num hr hu hu1 (hr (b.re / b.im)) hr1 a.im
      have s2 := smith_num hr hu hu1 (hr (b.re / b.im)) hr1 a.re
      constructor
      · have := smith_error hr hu hu1 hx h' a.im a.re (num hx h' s2)
        have e : (a.im + a.re * (b.re / b.im)) * (1 / (b.im + b.re * (b.re / b.im))) = (a / b).re := by
          rw [(smith_den (y := b.re) hx).2.2, Complex.div_re, Complex.normSq_apply]
          field_simp
          ring
        rw [e, add_comm] at this
        simp only [Complex.sub_re, cdiv, if_neg h]
        exact this.trans (fin hx hN' ha2 ha1)
      · have := smith_error hr hu hu1 hx h' (-a.re) a.im (num hx h' s1)
        have e : (-a.re + a.im * (b.re / b.im)) * (1 / (b.im + b.re * (b.re / b.im))) = (a / b).im := by
          rw [(smith_den (y := b.re) hx).2.2, Complex.div_im, Complex.normSq_apply]
          field_simp
          ring
        rw [e, neg_add_eq_sub] at this
        simp only [Complex.sub_im, cdiv, if_neg h]
        exact this.trans (fin hx hN' (by rwa [abs_neg]) ha2)
  have := Complex.norm_le_abs_re_add_abs_im (cdiv rnd a b - a / b)
  rw [hq]
  linarith [key.1, key.2]

/-- Products of two rounded numbers. -/
theorem rnd_mul_error (hr : ∀ x, |rnd x - x| ≤ u * |x|) (hu : 0 ≤ u) (hu1 : u ≤ 1 / 14) (x y : ℝ) :
    |rnd (rnd x * rnd y) - x * y| ≤ 5 * u * |x * y| := by
  have h1 := hr x
  have h2 := hr y
  have h3 : |rnd y| ≤ 2 * |y| := by
    have := abs_add_le y (rnd y - y)
    rw [add_sub_cancel] at this
    nlinarith [abs_nonneg y]
  have h4 : |rnd x * rnd y - x * y| ≤ 3 * u * |x * y| := by
    have e : rnd x * rnd y - x * y = (rnd x - x) * rnd y + x * (rnd y - y) := by ring
    rw [e]
    refine (abs_add_le _ _).trans ?_
    rw [abs_mul, abs_mul, abs_mul]
    have h5 := mul_le_mul h1 h3 (abs_nonneg _) (by positivity)
    have h6 := mul_le_mul_of_nonneg_left h2 (abs_nonneg x)
    linarith
  have h5 := rnd_near hr hu h4
  have h6 : 0 ≤ u * |x * y| := by positivity
  nlinarith

theorem cexp_error (hr : ∀ x, |rnd x - x| ≤ u * |x|) (hu : 0 ≤ u) (hu1 : u ≤ 1 / 14) (z : ℂ) :
    ‖cexp rnd z - Complex.exp z‖ ≤ 10 * u * ‖Complex.exp z‖ := by
  have h1 : |(cexp rnd z - Complex.exp z).re| ≤ 5 * u * |(Complex.exp z).re| := by
    rw [Complex.sub_re, Complex.exp_re]
    exact rnd_mul_error hr hu hu1 _ _
  have h2 : |(cexp rnd z - Complex.exp z).im| ≤ 5 * u * |(Complex.exp z).im| := by
    rw [Complex.sub_im, Complex.exp_im]
    exact rnd_mul_error hr hu hu1 _ _
  have h3 := Complex.norm_le_abs_re_add_abs_im (cexp rnd z - Complex.exp z)
  have h4 := mul_le_mul_of_nonneg_left (Complex.abs_re_le_norm (Complex.exp z)) hu
  have h5 := mul_le_mul_of_nonneg_left (Complex.abs_im_le_norm (Complex.exp z)) hu
  linarith

theorem cpow_error (hr : ∀ x, |rnd x - x| ≤ u * |x|) (hu : 0 ≤ u) (hu1 : u ≤ 1 / 14) (z : ℂ) {n : ℕ} (hn : n ≤ 3) :
    ‖cpow rnd z n - z ^ n‖ ≤ 36 * u * ‖z ^ n‖ := by
  have hc := fun w => cmul_error hr hu (hu1.trans (by norm_num)) z w
  have h2 : ‖cmul rnd z z - z ^ 2‖ ≤ 12 * u * ‖z ^ 2‖ := by
    have := hc z
    rwa [← norm_mul, ← pow_two] at this
  have hz : 0 ≤ u * ‖z ^ n‖ := by positivity
  interval_cases n
  · simpa [cpow] using hu
  · simpa [cpow] using by positivity
  · refine (show ‖cpow rnd z 2 - z ^ 2‖ ≤ _ from h2).trans ?_
    linarith
  · have h3 := hc (cmul rnd z z)
    have h4 : ‖cmul rnd z z‖ ≤ 2 * ‖z ^ 2‖ := by
      have := norm_add_le (z ^ 2) (cmul rnd z z - z ^ 2)
      rw [add_sub_cancel] at this
      nlinarith [norm_nonneg (z ^ 2)]
    have e : cpow rnd z 3 - z ^ 3 = (cmul rnd z (cmul rnd z z) - z * cmul rnd z z) + z * (cmul rnd z z - z ^ 2) := by
      simp only [cpow]
      ring
    rw [e]
    refine (norm_add_le _ _).trans ?_
    rw [norm_mul z (_ - _)]
    have h5 := mul_le_mul_of_nonneg_left h4 (norm_nonneg z)
    have h6 := mul_le_mul_of_nonneg_left h2 (norm_nonneg z)
    have h7 : ‖z ^ 3‖ = ‖z‖ * ‖z ^ 2‖ := by rw [← norm_mul]; ring_nf
    rw [h7]
    nlinarith

/-- Sums by rounded additions in any order. -/
theorem SumsTo.error (hr : ∀ x, |rnd x - x| ≤ u * |x|) (hu : 0 ≤ u) {l : List ℂ} {s : ℂ} (h : SumsTo rnd l s) :
    ‖s - l.sum‖ ≤ ((1 + 2 * u) ^ l.length - 1) * (l.map norm).sum := by
  have hpos : ∀ l : List ℂ, 0 ≤ (l.map norm).sum := fun l => List.sum_nonneg (by simp)
  have hbig : ∀ {m n : ℕ}, m ≤ n → (1 + 2 * u) ^ m ≤ (1 + 2 * u) ^ n := fun h => pow_le_pow_right₀ (by linarith) h
  have hle : ∀ l : List ℂ, ‖l.sum‖ ≤ (l.map norm).sum := by
    intro l
    induction l with
    | nil => simp
    | cons a l ih =>
      rw [List.sum_cons, List.map_cons, List.sum_cons]
      exact (norm_add_le _ _).trans (by linarith)
  induction h with
  | nil => simp
  | single z =>
    simp only [List.sum_singleton, sub_self, norm_zero, List.length_singleton, pow_one, List.map_cons, List.map_nil]
    have := mul_nonneg hu (norm_nonneg z)
    linarith
  | @add l l' l'' a b _ _ h1 h2 hp iha ihb =>
    rw [← hp.length_eq, ← hp.sum_eq, ← (hp.map norm).sum_eq, List.sum_append, List.map_append, List.sum_append, List.length_append]
    have hl : 1 ≤ l.length := List.length_pos_of_ne_nil h1
    have hl' : 1 ≤ l'.length := List.length_pos_of_ne_nil h2
    obtain ⟨n, hn⟩ : ∃ n, l.length + l'.length = n + 1 := ⟨l.length + l'.length - 1, by omega⟩
    have e1 : ‖a - l.sum‖ ≤ ((1 + 2 * u) ^ n - 1) * (l.map norm).sum :=
      iha.trans (mul_le_mul_of_nonneg_right (sub_le_sub_right (hbig (by omega)) 1) (hpos l))
    have e2 : ‖b - l'.sum‖ ≤ ((1 + 2 * u) ^ n - 1) * (l'.map norm).sum :=
      ihb.trans (mul_le_mul_of_nonneg_right (sub_le_sub_right (hbig (by omega)) 1) (hpos l'))
    have e3 := cround_error hr hu (a + b)
    set q := (1 + 2 * u) ^ n with hq
    set S := (l.map norm).sum
    set S' := (l'.map norm).sum
    have e4 : ‖a + b‖ ≤ q * (S + S') := by
      have h3 : a + b = (l.sum + l'.sum) + ((a - l.sum) + (b - l'.sum)) := by ring
      rw [h3]
      refine (norm_add_le _ _).trans ?_
      have h4 := norm_add_le l.sum l'.sum
      have h5 := norm_add_le (a - l.sum) (b - l'.sum)
      have h6 := hle l
      have h7 := hle l'
      linarith
    have h3 : cround rnd (a + b) - (l.sum + l'.sum) = (cround rnd (a + b) - (a + b)) + ((a - l.sum) + (b - l'.sum)) := by ring
    rw [h3, hn, pow_succ]
    refine (norm_add_le _ _).trans ?_
    have h5 := norm_add_le (a - l.sum) (b - l'.sum)
    have h6 := mul_le_mul_of_nonneg_left e4 (show 0 ≤ 2 * u by linarith)
    linarith

/-- NumPy's arithmetic is nearly exact. -/
theorem CArith.numpy_within (hr : ∀ x, |rnd x - x| ≤ u * |x|) (hu : 0 ≤ u) (hu1 : u ≤ 1 / 14) {sum : List ℂ → ℂ}
    (hs : ∀ l, SumsTo rnd l (sum l)) (R : ℝ) : (CArith.numpy rnd sum).Within (120 * u) R where
  add x y _ _ _ := (cround_error hr hu _).trans (by
    have := mul_le_mul_of_nonneg_left (norm_add_le x y) hu
    nlinarith [norm_nonneg x, norm_nonneg y])
  sub x y _ _ _ := (cround_error hr hu _).trans (by
    have := mul_le_mul_of_nonneg_left (norm_sub_le x y) hu
    nlinarith [norm_nonneg x, norm_nonneg y])
  mul x y _ _ _ := (cmul_error hr hu (hu1.trans (by norm_num)) x y).trans (by
    rw [← norm_mul]
    nlinarith [norm_nonneg (x * y)])
  div x y h0 _ _ _ _ := (cdiv_error hr hu hu1 x y h0).trans (by nlinarith)
  pow x n _ _ hn := (cpow_error hr hu hu1 x hn).trans (by nlinarith [norm_nonneg (x ^ n)])
  exp x _ _ := (cexp_error hr hu hu1 x).trans (by nlinarith [norm_nonneg (Complex.exp x)])
  abs x _ := (hr ‖x‖).trans (by
    rw [abs_of_nonneg (norm_nonneg x)]
    nlinarith [norm_nonneg x])
  sum l _ h1 := by
    refine ((hs l).error hr hu).trans ?_
    have hS : 0 ≤ (l.map norm).sum := List.sum_nonneg (by simp)
    have hn : (0 : ℝ) ≤ l.length := Nat.cast_nonneg _
    have h2 : (1 + 2 * u) ^ l.length ≤ Real.exp (l.length * (2 * u)) := by
      rw [Real.exp_nat_mul]
      refine pow_le_pow_left₀ (by linarith) ?_ _
      linarith [Real.add_one_le_exp (2 * u)]
    have h3 : Real.exp (l.length * (2 * u)) - 1 ≤ 2 * (l.length * (2 * u)) := by
      have h0 : 0 ≤ l.length * (2 * u) := by positivity
      have := Real.abs_exp_sub_one_le (x := l.length * (2 * u)) (by rw [abs_of_nonneg h0]; nlinarith)
      rw [abs_of_nonneg h0] at this
      exact (le_abs_self _).trans this
    have h4 : 0 ≤ l.length * u := by positivity
    nlinarith [mul_nonneg h4 hS]
  tau := by
    have h1 : |rnd (2 * rnd Real.pi) - 2 * Real.pi| ≤ 5 * u * (2 * Real.pi) := by
      have h2 := hr Real.pi
      have hpi := Real.pi_pos
      rw [abs_of_pos hpi] at h2
      have h3 : |2 * rnd Real.pi - 2 * Real.pi| ≤ u * (2 * Real.pi) := by
        rw [← mul_sub, abs_mul, abs_of_pos two_pos]
        linarith
      have h4 := rnd_near hr hu h3
      rw [abs_of_pos (show 0 < 2 * Real.pi by positivity)] at h4
      have : 0 ≤ u * (2 * Real.pi) := by positivity
      nlinarith
    have e : (CArith.numpy rnd sum).tau - 2 * Real.pi * Complex.I = ((rnd (2 * rnd Real.pi) - 2 * Real.pi : ℝ) : ℂ) * Complex.I := by
      apply Complex.ext <;> simp [CArith.numpy]
    rw [e, norm_mul, Complex.norm_I, mul_one, Complex.norm_real]
    refine h1.trans ?_
    nlinarith [Real.pi_pos]

end Verif
