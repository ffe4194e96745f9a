import Verif.Spec.FloatCoefs
import Mathlib.Analysis.Asymptotics.Lemmas
import Mathlib.Analysis.Complex.Exponential

/-!
# Rounding errors of expressions
-/

set_option linter.unusedSectionVars false

namespace Verif

open Asymptotics Filter

variable {T : Type} {l : Filter T} {A : T → CArith} {ρ g : T → ℝ}

/-- Arithmetics that are eventually exact up to `ρ`, and a bound `g` for all errors. -/
structure Fine (l : Filter T) (A : T → CArith) (ρ g : T → ℝ) : Prop where
  within : ∀ R, ∀ᶠ t in l, (A t).Within (ρ t) R
  nonneg : ∀ᶠ t in l, 0 ≤ ρ t
  le : ρ =O[l] g
  one : g =O[l] (1 : T → ℝ)

/-- `x'` is computed in place of the bounded `x`, up to `O(g)`. -/
structure FlNear (l : Filter T) (A : T → CArith) (g : T → ℝ) (x' : ∀ t, Fl (A t)) (x : T → ℂ) : Prop where
  bdd : x =O[l] (1 : T → ℝ)
  err : (fun t => (x' t).val - x t) =O[l] g

namespace FlNear

variable {x' y' : ∀ t, Fl (A t)} {x y : T → ℂ}

theorem bdd' (hf : Fine l A ρ g) (hx : FlNear l A g x' x) : (fun t => (x' t).val) =O[l] (1 : T → ℝ) := by
  have := (hx.err.trans hf.one).add hx.bdd
  simpa using this

theorem exists_le {w : T → ℂ} (h : w =O[l] (1 : T → ℝ)) : ∃ B : ℝ, 0 ≤ B ∧ ∀ᶠ t in l, ‖w t‖ ≤ B := by
  obtain ⟨B, hB, h1⟩ := h.exists_nonneg
  refine ⟨B, hB, h1.bound.mono fun t ht => ?_⟩
  simpa using ht

theorem of_round (hf : Fine l A ρ g) {w : T → ℂ} (hx : x =O[l] (1 : T → ℝ)) (hw : (fun t => w t - x t) =O[l] g)
    (hr : (fun t => (x' t).val - w t) =O[l] ρ) : FlNear l A g x' x :=
  ⟨hx, by simpa using (hr.trans hf.le).add hw⟩

theorem round {w' w : T → ℂ} (hf : Fine l A ρ g) (B : ℝ) (h : ∀ᶠ t in l, ‖w' t - w t‖ ≤ ρ t * B) : (fun t => w' t - w t) =O[l] ρ := by
  refine IsBigO.of_bound |B| ?_
  filter_upwards [h, hf.nonneg] with t ht h0
  rw [Real.norm_of_nonneg h0, mul_comm]
  exact ht.trans (mul_le_mul_of_nonneg_left (le_abs_self _) h0)

theorem lit (hf : Fine l A ρ g) {w : T → ℂ} (hw : w =O[l] (1 : T → ℝ)) : FlNear l A g (fun t => Fl.lit (w t)) w :=
  ⟨hw, by simpa [Fl.lit, Fl.val] using isBigO_zero g l⟩

theorem num (hf : Fine l A ρ g) (n : ℕ) [n.AtLeastTwo] : FlNear l A g (fun t => (OfNat.ofNat n : Fl (A t))) (fun _ => (OfNat.ofNat n : ℂ)) := by
  have := lit (A := A) hf (isBigO_const_const (OfNat.ofNat n : ℂ) (one_ne_zero (α := ℝ)) l)
  refine ⟨this.bdd, ?_⟩
  have h := this.err
  simp only [Fl.lit, Fl.val, sub_self] at h
  refine h.congr_left fun t => ?_
  change (0 : ℂ) = ((OfNat.ofNat n : ℕ) : ℂ) - _
  simp

theorem num_one (hf : Fine l A ρ g) : FlNear l A g (fun t => (1 : Fl (A t))) (fun _ => (1 : ℂ)) := by
  have := lit (A := A) hf (isBigO_const_const (1 : ℂ) (one_ne_zero (α := ℝ)) l)
  refine ⟨this.bdd, ?_⟩
  have h := this.err
  simp only [Fl.lit, Fl.val, sub_self] at h
  refine h.congr_left fun t => ?_
  change (0 : ℂ) = ((1 : ℕ) : ℂ) - _
  simp

theorem neg (hx : FlNear l A g x' x) : FlNear l A g (fun t => -x' t) (fun t => -x t) := by
  refine ⟨hx.bdd.neg_left, hx.err.neg_left.congr_left fun t => ?_⟩
  change _ = -(x' t).val - -x t
  ring

theorem add (hf : Fine l A ρ g) (hx : FlNear l A g x' x) (hy : FlNear l A g y' y) :
    FlNear l A g (fun t => x' t + y' t) (fun t => x t + y t) := by
  obtain ⟨B, hB, h1⟩ := exists_le (hx.bdd' hf)
  obtain ⟨C, hC, h2⟩ := exists_le (hy.bdd' hf)
  refine of_round hf (hx.bdd.add hy.bdd) (w := fun t => (x' t).val + (y' t).val)
    ((hx.err.add hy.err).congr_left fun t => by ring) (round hf (1 + B + C) ?_)
  filter_upwards [h1, h2, hf.within (B + C), hf.nonneg] with t h1 h2 h3 h4
  refine (h3.add (x' t).val (y' t).val (by linarith) (by linarith) ((norm_add_le _ _).trans (by linarith))).trans ?_
  exact mul_le_mul_of_nonneg_left (by linarith) h4

theorem sub (hf : Fine l A ρ g) (hx : FlNear l A g x' x) (hy : FlNear l A g y' y) :
    FlNear l A g (fun t => x' t - y' t) (fun t => x t - y t) := by
  obtain ⟨B, hB, h1⟩ := exists_le (hx.bdd' hf)
  obtain ⟨C, hC, h2⟩ := exists_le (hy.bdd' hf)
  refine of_round hf (hx.bdd.sub hy.bdd) (w := fun t => (x' t).val - (y' t).val)
    ((hx.err.sub hy.err).congr_left fun t => by ring) (round hf (1 + B + C) ?_)
  filter_upwards [h1, h2, hf.within (B + C), hf.nonneg] with t h1 h2 h3 h4
  refine (h3.sub (x' t).val (y' t).val (by linarith) (by linarith) ((norm_sub_le _ _).trans (by linarith))).trans ?_
  exact mul_le_mul_of_nonneg_left (by linarith) h4

theorem mul_err (hf : Fine l A ρ g) (hx : FlNear l A g x' x) (hy : FlNear l A g y' y) :
    (fun t => (x' t).val * (y' t).val - x t * y t) =O[l] g := by
  have h1 := hx.err.mul (hy.bdd' hf)
  have h2 := hx.bdd.mul hy.err
  simp only [Pi.one_apply, mul_one, one_mul] at h1 h2
  exact (h1.add h2).congr_left fun t => by ring

theorem bdd_mul {w v : T → ℂ} (hw : w =O[l] (1 : T → ℝ)) (hv : v =O[l] (1 : T → ℝ)) : (fun t => w t * v t) =O[l] (1 : T → ℝ) :=
  (hw.mul hv).congr_right fun _ => mul_one 1

theorem mul (hf : Fine l A ρ g) (hx : FlNear l A g x' x) (hy : FlNear l A g y' y) :
    FlNear l A g (fun t => x' t * y' t) (fun t => x t * y t) := by
  obtain ⟨B, hB, h1⟩ := exists_le (hx.bdd' hf)
  obtain ⟨C, hC, h2⟩ := exists_le (hy.bdd' hf)
  refine of_round hf (bdd_mul hx.bdd hy.bdd) (w := fun t => (x' t).val * (y' t).val) (hx.mul_err hf hy)
    (round hf (1 + B * C) ?_)
  filter_upwards [h1, h2, hf.within (B + C + B * C), hf.nonneg] with t h1 h2 h3 h4
  have h5 : ‖(x' t).val * (y' t).val‖ ≤ B * C := (norm_mul_le _ _).trans (mul_le_mul h1 h2 (norm_nonneg _) hB)
  have h6 : 0 ≤ B * C := by positivity
  refine (h3.mul (x' t).val (y' t).val (by linarith) (by linarith) (by linarith)).trans ?_
  exact mul_le_mul_of_nonneg_left (by linarith) h4

theorem pow (hf : Fine l A ρ g) (hx : FlNear l A g x' x) {n : ℕ} (hn : n ≤ 3) :
    FlNear l A g (fun t => x' t ^ n) (fun t => x t ^ n) := by
  have hb : ∀ k, (fun t => (x' t).val ^ k) =O[l] (1 : T → ℝ) ∧ (fun t => x t ^ k) =O[l] (1 : T → ℝ) ∧
      (fun t => (x' t).val ^ k - x t ^ k) =O[l] g := by
    intro k
    induction k with
    | zero =>
      refine ⟨?_, ?_, ?_⟩
      · exact (isBigO_const_const (1 : ℂ) (one_ne_zero (α := ℝ)) l).congr_left fun t => (pow_zero _).symm
      · exact (isBigO_const_const (1 : ℂ) (one_ne_zero (α := ℝ)) l).congr_left fun t => (pow_zero _).symm
      · simpa using isBigO_zero g l
    | succ k ih =>
      obtain ⟨a, b, c⟩ := ih
      refine ⟨(bdd_mul a (hx.bdd' hf)).congr_left fun t => (pow_succ _ _).symm,
        (bdd_mul b hx.bdd).congr_left fun t => (pow_succ _ _).symm, ?_⟩
      have h1 := c.mul (hx.bdd' hf)
      have h2 := b.mul hx.err
      simp only [Pi.one_apply, mul_one, one_mul] at h1 h2
      exact (h1.add h2).congr_left fun t => by ring
  obtain ⟨B, hB, h1⟩ := exists_le (hx.bdd' hf)
  obtain ⟨C, hC, h2⟩ := exists_le (hb n).1
  refine of_round hf (hb n).2.1 (w := fun t => (x' t).val ^ n) (hb n).2.2 (round hf (1 + C) ?_)
  filter_upwards [h1, h2, hf.within (B + C), hf.nonneg] with t h1 h2 h3 h4
  refine (h3.pow (x' t).val n (by linarith) (by linarith) hn).trans ?_
  exact mul_le_mul_of_nonneg_left (by linarith) h4

theorem exp (hf : Fine l A ρ g) (hx : FlNear l A g x' x) :
    FlNear l A g (fun t => Fl.exp (x' t)) (fun t => Complex.exp (x t)) := by
  have hE : ∀ {w : T → ℂ}, w =O[l] (1 : T → ℝ) → (fun t => Complex.exp (w t)) =O[l] (1 : T → ℝ) := by
    intro w hw
    obtain ⟨B, hB, h1⟩ := exists_le hw
    refine IsBigO.of_bound (Real.exp B) (h1.mono fun t ht => ?_)
    simpa using (Complex.norm_exp_le_exp_norm _).trans (Real.exp_le_exp.2 ht)
  obtain ⟨B, hB, h1⟩ := exists_le (hx.bdd' hf)
  obtain ⟨C, hC, h2⟩ := exists_le (hE (hx.bdd' hf))
  refine of_round hf (hE hx.bdd) (w := fun t => Complex.exp (x' t).val) ?_ (round hf (1 + C) ?_)
  · obtain ⟨D, hD, h3⟩ := exists_le ((hx.err.trans hf.one))
    have h4 : (fun t => Complex.exp ((x' t).val - x t) - 1) =O[l] g := by
      refine IsBigO.trans (IsBigO.of_bound (Real.exp D) ?_) hx.err
      filter_upwards [h3] with t ht
      have := Complex.norm_exp_sub_sum_le_norm_mul_exp ((x' t).val - x t) 1
      simp only [Finset.sum_range_one, pow_zero, Nat.factorial_zero, Nat.cast_one, div_one, pow_one] at this
      refine this.trans ?_
      rw [mul_comm]
      exact mul_le_mul_of_nonneg_right (Real.exp_le_exp.2 ht) (norm_nonneg _)
    have h5 := (hE hx.bdd).mul h4
    simp only [Pi.one_apply, one_mul] at h5
    refine h5.congr_left fun t => ?_
    rw [mul_sub, ← Complex.exp_add, mul_one, add_sub_cancel]
  · filter_upwards [h1, h2, hf.within (B + C), hf.nonneg] with t h1 h2 h3 h4
    refine (h3.exp (x' t).val (by linarith) (by linarith)).trans ?_
    exact mul_le_mul_of_nonneg_left (by linarith) h4

/-- Division by numbers that stay away from zero. -/
theorem div (hf : Fine l A ρ g) (hx : FlNear l A g x' x) (hy : FlNear l A g y' y) (h0 : ∀ᶠ t in l, (y' t).val ≠ 0) (h0' : ∀ᶠ t in l, y t ≠ 0)
    (hi : (fun t => (y t)⁻¹) =O[l] (1 : T → ℝ)) (hi' : (fun t => (y' t).val⁻¹) =O[l] (1 : T → ℝ)) :
    FlNear l A g (fun t => x' t / y' t) (fun t => x t / y t) := by
  have hq := bdd_mul (hx.bdd' hf) hi'
  obtain ⟨B, hB, h1⟩ := exists_le (hx.bdd' hf)
  obtain ⟨C, hC, h2⟩ := exists_le (hy.bdd' hf)
  obtain ⟨D, hD, h3⟩ := exists_le hq
  obtain ⟨G, hG, h7⟩ := exists_le hi'
  refine of_round hf ((bdd_mul hx.bdd hi).congr_left fun t => (div_eq_mul_inv _ _).symm) (w := fun t => (x' t).val / (y' t).val) ?_
    (round hf (1 + D) ?_)
  · have e1 := hx.err.mul hi'
    have e2 := (hx.bdd.mul hy.err).mul (hi.mul hi')
    simp only [Pi.one_apply, mul_one, one_mul] at e1 e2
    refine (e1.sub e2).congr' ?_ EventuallyEq.rfl
    filter_upwards [h0, h0'] with t a b
    field_simp
    ring
  · filter_upwards [h1, h2, h3, h0, hf.within (B + C + D + G), hf.nonneg, h7] with t h1 h2 h3 h4 h5 h6 h7
    rw [← div_eq_mul_inv] at h3
    refine (h5.div (x' t).val (y' t).val h4 (by linarith) (by linarith) (by linarith) (by linarith)).trans ?_
    exact mul_le_mul_of_nonneg_left (by linarith) h6

/-- Division by an exact number. -/
theorem div_num (hf : Fine l A ρ g) (hx : FlNear l A g x' x) (n : ℕ) [n.AtLeastTwo] :
    FlNear l A g (fun t => x' t / (OfNat.ofNat n : Fl (A t))) (fun t => x t / (OfNat.ofNat n : ℂ)) := by
  have e : ∀ t, (OfNat.ofNat n : Fl (A t)).val = (OfNat.ofNat n : ℂ) := fun t => by
    change ((OfNat.ofNat n : ℕ) : ℂ) = _
    simp
  have hne : (OfNat.ofNat n : ℂ) ≠ 0 := OfNat.ofNat_ne_zero n
  refine hx.div hf (num hf n) (Eventually.of_forall fun t => by rw [e]; exact hne) (Eventually.of_forall fun t => hne) ?_ ?_
  · exact isBigO_const_const _ (one_ne_zero (α := ℝ)) l
  · simp only [e]; exact isBigO_const_const _ (one_ne_zero (α := ℝ)) l

theorem mono {g' : T → ℝ} (hx : FlNear l A g x' x) (h : g =O[l] g') : FlNear l A g' x' x := ⟨hx.bdd, hx.err.trans h⟩

theorem mono_filter {l' : Filter T} (hx : FlNear l A g x' x) (h : l' ≤ l) : FlNear l' A g x' x := ⟨hx.bdd.mono h, hx.err.mono h⟩

/-- Computed numbers stay away from zero when the exact ones do. -/
theorem ne_zero (hx : FlNear l A g x' x) (hg : Tendsto g l (nhds 0)) {δ : ℝ} (hδ : 0 < δ) (h0 : ∀ᶠ t in l, δ ≤ ‖x t‖) :
    ∀ᶠ t in l, δ / 2 ≤ ‖(x' t).val‖ := by
  have h1 : Tendsto (fun t => (x' t).val - x t) l (nhds 0) := hx.err.trans_tendsto hg
  have h2 : ∀ᶠ t in l, ‖(x' t).val - x t‖ < δ / 2 := by
    have := h1.norm
    rw [norm_zero] at this
    exact this.eventually (gt_mem_nhds (by positivity))
  filter_upwards [h0, h2] with t a b
  have : ‖x t‖ ≤ ‖(x' t).val‖ + ‖(x' t).val - x t‖ := by
    have := norm_sub_le (x' t).val ((x' t).val - x t)
    simpa using this
  linarith

theorem inv_bdd {w : T → ℂ} {δ : ℝ} (hδ : 0 < δ) (h0 : ∀ᶠ t in l, δ ≤ ‖w t‖) : (fun t => (w t)⁻¹) =O[l] (1 : T → ℝ) := by
  refine IsBigO.of_bound δ⁻¹ (h0.mono fun t ht => ?_)
  rw [norm_inv, Pi.one_apply, norm_one, mul_one]
  exact inv_anti₀ hδ ht

theorem div_away (hf : Fine l A ρ g) (hg : Tendsto g l (nhds 0)) (hx : FlNear l A g x' x) (hy : FlNear l A g y' y) {δ : ℝ} (hδ : 0 < δ)
    (h0 : ∀ᶠ t in l, δ ≤ ‖y t‖) : FlNear l A g (fun t => x' t / y' t) (fun t => x t / y t) := by
  have h1 := hy.ne_zero hg hδ h0
  refine hx.div hf hy (h1.mono fun t ht h => ?_) (h0.mono fun t ht h => ?_) (inv_bdd hδ h0) (inv_bdd (half_pos hδ) h1)
  · rw [h, norm_zero] at ht; linarith
  · rw [h, norm_zero] at ht; linarith

end FlNear

end Verif
