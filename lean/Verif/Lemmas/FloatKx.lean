import Verif.Model.FloatModels

/-!
# Relative errors of products and quotients
-/

set_option linter.unusedSectionVars false

namespace Verif

variable {u : ℝ}

/-- `x'` is `x` after at most `k` relative errors of size `u`. -/
def RelNear (u : ℝ) (k : ℕ) (x' x : ℝ) : Prop := ∃ θ, x' = x * θ ∧ (1 - u) ^ k ≤ θ ∧ θ * (1 - u) ^ k ≤ 1

namespace RelNear

variable {k l : ℕ} {x x' y y' : ℝ}

theorem refl (x : ℝ) : RelNear u 0 x x := ⟨1, by simp⟩

theorem pos (hu1 : u < 1) (h : RelNear u k x' x) : ∃ θ, x' = x * θ ∧ 0 < θ := by
  obtain ⟨θ, h1, h2, -⟩ := h
  exact ⟨θ, h1, (pow_pos (by linarith) k).trans_le h2⟩

theorem ne_zero (hu1 : u < 1) (h : RelNear u k x' x) (hx : x ≠ 0) : x' ≠ 0 := by
  obtain ⟨θ, h1, h2⟩ := h.pos hu1
  rw [h1]
  exact mul_ne_zero hx h2.ne'

theorem mul (hu1 : u < 1) (hx : RelNear u k x' x) (hy : RelNear u l y' y) : RelNear u (k + l) (x' * y') (x * y) := by
  obtain ⟨θ, rfl, h1, h2⟩ := hx
  obtain ⟨η, rfl, h3, h4⟩ := hy
  have p1 : 0 < (1 - u) ^ k := pow_pos (by linarith) k
  have p2 : 0 < (1 - u) ^ l := pow_pos (by linarith) l
  refine ⟨θ * η, by ring, ?_, ?_⟩
  · rw [pow_add]; exact mul_le_mul h1 h3 p2.le (p1.le.trans h1)
  · rw [pow_add, show θ * η * ((1 - u) ^ k * (1 - u) ^ l) = (θ * (1 - u) ^ k) * (η * (1 - u) ^ l) by ring]
    exact mul_le_one₀ h2 (mul_nonneg (p2.le.trans h3) p2.le) h4

theorem inv (hu1 : u < 1) (hx : RelNear u k x' x) : RelNear u k x'⁻¹ x⁻¹ := by
  obtain ⟨θ, rfl, h1, h2⟩ := hx
  have p1 : 0 < (1 - u) ^ k := pow_pos (by linarith) k
  have p2 : 0 < θ := p1.trans_le h1
  refine ⟨θ⁻¹, by rw [mul_inv], ?_, ?_⟩
  · rw [← one_div, le_div_iff₀ p2, mul_comm]; exact h2
  · rw [inv_mul_eq_div, div_le_one p2]; exact h1

theorem div (hu1 : u < 1) (hx : RelNear u k x' x) (hy : RelNear u l y' y) : RelNear u (k + l) (x' / y') (x / y) := by
  rw [div_eq_mul_inv, div_eq_mul_inv]
  exact hx.mul hu1 (hy.inv hu1)

theorem round {rnd : ℝ → ℝ} (hr : ∀ x, |rnd x - x| ≤ u * |x|) (hu : 0 ≤ u) (hu1 : u < 1) (hx : RelNear u k x' x) : RelNear u (k + 1) (rnd x') x := by
  have h1 : RelNear u 1 (rnd x') x' := by
    rcases eq_or_ne x' 0 with h0 | h0
    · have : rnd x' = 0 := by simpa [h0] using hr x'
      exact ⟨1, by rw [this, h0]; simp, by simpa using hu, by simpa using hu⟩
    · have h := hr x'
      refine ⟨rnd x' / x', by field_simp, ?_, ?_⟩
      all_goals
        have h2 : |rnd x' / x' - 1| ≤ u := by
          rw [div_sub_one h0, abs_div, div_le_iff₀ (abs_pos.2 h0)]; exact h
        obtain ⟨h3, h4⟩ := abs_le.1 h2
      · rw [pow_one]; linarith
      · rw [pow_one]; nlinarith
  obtain ⟨θ, e1, a1, a2⟩ := h1
  obtain ⟨η, e2, b1, b2⟩ := hx
  have := RelNear.mul hu1 ⟨η, e2, b1, b2⟩ (⟨θ, (one_mul θ).symm, a1, a2⟩ : RelNear u 1 θ 1)
  rw [e1]
  simpa using this

/-- The relative error. -/
theorem error (hu : 0 ≤ u) (hu1 : u < 1) (hx : RelNear u k x' x) (hk : 10 * k * u ≤ 1) : |x' - x| ≤ 10 / 9 * k * u * |x| := by
  obtain ⟨θ, rfl, h1, h2⟩ := hx
  have hb : 1 - k * u ≤ (1 - u) ^ k := by
    have := one_add_mul_le_pow (a := -u) (n := k) (by linarith)
    rw [show (1 : ℝ) + -u = 1 - u by ring] at this
    linarith
  rw [show x * θ - x = (θ - 1) * x by ring, abs_mul]
  refine mul_le_mul_of_nonneg_right (abs_le.2 ⟨?_, ?_⟩) (abs_nonneg _)
  · nlinarith [mul_nonneg (Nat.cast_nonneg (α := ℝ) k) hu]
  · have h3 : 0 ≤ θ := by nlinarith
    nlinarith [mul_nonneg (Nat.cast_nonneg (α := ℝ) k) hu, mul_le_mul_of_nonneg_left hb h3]

end RelNear

/-- One wavenumber: `2π q / (n dx)`. -/
theorem flKx_error {rnd : ℝ → ℝ} (hr : ∀ x, |rnd x - x| ≤ u * |x|) (hu : 0 ≤ u) (hu1 : u ≤ 1 / 100) {n : ℕ} (hn : n ≠ 0) (a b q : ℝ) :
    |(RArith.numpy rnd).mul (RArith.numpy rnd).tau ((RArith.numpy rnd).mul q
      ((RArith.numpy rnd).div 1 ((RArith.numpy rnd).mul n (rnd (rnd (b - a) / n))))) - 2 * Real.pi * q / (b - a)|
      ≤ 10 * u * |2 * Real.pi * q / (b - a)| := by
  have hu' : u < 1 := by linarith
  have hn' : (n : ℝ) ≠ 0 := by exact_mod_cast hn
  have rd {k : ℕ} {x' x : ℝ} (h : RelNear u k x' x) := h.round hr hu hu'
  have d1 := rd ((rd (RelNear.refl (b - a))).div hu' (RelNear.refl (n : ℝ)))
  have d2 := rd ((RelNear.refl (u := u) (1 : ℝ)).div hu' (rd ((RelNear.refl (n : ℝ)).mul hu' d1)))
  have d3 := rd ((RelNear.refl q).mul hu' d2)
  have d4 := rd ((RelNear.refl (u := u) (2 : ℝ)).mul hu' (rd (RelNear.refl Real.pi)))
  have d5 := rd (d4.mul hu' d3)
  have e : 2 * Real.pi * (q * (1 / (n * ((b - a) / n)))) = 2 * Real.pi * q / (b - a) := by
    rw [mul_div_cancel₀ _ hn']; ring
  rw [e] at d5
  refine (d5.error hu hu' (by norm_num; linarith)).trans ?_
  refine mul_le_mul_of_nonneg_right ?_ (abs_nonneg _)
  norm_num
  nlinarith

end Verif
