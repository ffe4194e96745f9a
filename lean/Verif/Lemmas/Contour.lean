import Verif.Lemmas.PhiFun
import Mathlib.RingTheory.RootsOfUnity.Complex
import Mathlib.Analysis.Complex.TaylorSeries
import Mathlib.Analysis.Complex.LocallyUniformLimit

/-!
# Sums over equally spaced points on a circle
-/

set_option linter.unusedSectionVars false

namespace Verif

open Matrix Filter Topology

theorem norm_node (R : ℝ) (N m : ℕ) (hR : 0 ≤ R) : ‖node R N m‖ = R := by
  unfold node
  have : 2 * (Real.pi : ℂ) * Complex.I * ((m : ℂ) + 1 / 2) / (N : ℂ) =
      ((2 * Real.pi * (m + 1 / 2) / N : ℝ) : ℂ) * Complex.I := by push_cast; ring
  rw [norm_mul, this, Complex.norm_exp_ofReal_mul_I, mul_one, Complex.norm_real, Real.norm_of_nonneg hR]

theorem node_ne_zero {R : ℝ} (hR : 0 < R) (N m : ℕ) : node R N m ≠ 0 := by
  rw [← norm_pos_iff, norm_node R N m hR.le]; exact hR

theorem node_eq (R : ℝ) (N m : ℕ) :
    node R N m = (R * Complex.exp (Real.pi * Complex.I / N)) * Complex.exp (2 * Real.pi * Complex.I / N) ^ m := by
  unfold node
  rw [← Complex.exp_nat_mul, mul_assoc (R : ℂ), ← Complex.exp_add]
  congr 2; ring

theorem node_pow {N : ℕ} (hN : 0 < N) (R : ℝ) (m : ℕ) : node R N m ^ N = -(R : ℂ) ^ N := by
  have hN' : (N : ℂ) ≠ 0 := by exact_mod_cast hN.ne'
  unfold node
  rw [mul_pow, ← Complex.exp_nat_mul]
  have : (N : ℂ) * (2 * (Real.pi : ℂ) * Complex.I * ((m : ℂ) + 1 / 2) / (N : ℂ)) =
      Real.pi * Complex.I + m * (2 * Real.pi * Complex.I) := by field_simp; ring
  rw [this, Complex.exp_add, Complex.exp_nat_mul_two_pi_mul_I, Complex.exp_pi_mul_I]
  ring

theorem sum_node_pow {N : ℕ} (hN : 0 < N) (R : ℝ) (l : ℕ) :
    ∑ m ∈ Finset.range N, node R N m ^ (l * N) = N * (-(R : ℂ) ^ N) ^ l := by
  simp_rw [mul_comm l N, pow_mul, node_pow hN]
  simp

theorem sum_node_pow_zero {N : ℕ} (hN : 0 < N) (R : ℝ) (j : ℕ) (hj : ¬ N ∣ j) :
    ∑ m ∈ Finset.range N, node R N m ^ j = 0 := by
  have hω := Complex.isPrimitiveRoot_exp N hN.ne'
  have h1 : Complex.exp (2 * Real.pi * Complex.I / N) ^ j ≠ 1 := fun h => hj (hω.dvd_of_pow_eq_one j h)
  simp_rw [node_eq, mul_pow, ← pow_mul, mul_comm _ j, pow_mul]
  rw [← Finset.mul_sum, ← mul_pow]
  have := geom_sum_eq h1 N
  rw [this, ← pow_mul, mul_comm j N, pow_mul, hω.pow_eq_one]
  simp

/-- Aliasing: sampling a power series on the circle and weighting with `node^(N-k)` picks every `N`-th coefficient. -/
theorem alias_hasSum {N k : ℕ} (hk : k < N) {R : ℝ} (hR : 0 ≤ R) (a : ℕ → ℂ) (ha : Summable fun j => ‖a j‖ * R ^ j) :
    HasSum (fun l : ℕ => a (k + l * N) * (-(R : ℂ) ^ N) ^ (l + 1))
      ((∑ m ∈ Finset.range N, node R N m ^ (N - k) * ∑' j, a j * node R N m ^ j) / N) := by
  have hN : 0 < N := by omega
  have hN' : (N : ℂ) ≠ 0 := by exact_mod_cast hN.ne'
  have hs : ∀ m, HasSum (fun j => a j * node R N m ^ j) (∑' j, a j * node R N m ^ j) := fun m => by
    refine (Summable.of_norm ?_).hasSum
    refine ha.congr fun j => ?_
    rw [norm_mul, norm_pow, norm_node R N m hR]
  have h1 : HasSum (fun j => ∑ m ∈ Finset.range N, node R N m ^ (N - k) * (a j * node R N m ^ j))
      (∑ m ∈ Finset.range N, node R N m ^ (N - k) * ∑' j, a j * node R N m ^ j) :=
    hasSum_sum fun m _ => (hs m).mul_left _
  have h2 := h1.div_const (N : ℂ)
  have hinj : Function.Injective fun l : ℕ => k + l * N := fun x y h => by
    have : x * N = y * N := by simpa using h
    exact Nat.eq_of_mul_eq_mul_right hN this
  have h3 : ∀ j, (∑ m ∈ Finset.range N, node R N m ^ (N - k) * (a j * node R N m ^ j)) =
      a j * ∑ m ∈ Finset.range N, node R N m ^ (N - k + j) := by
    intro j
    rw [Finset.mul_sum]
    refine Finset.sum_congr rfl fun m _ => ?_
    rw [pow_add]; ring
  refine ((hinj.hasSum_iff ?_).mpr h2).congr_fun ?_
  · intro j hj
    rw [h3, sum_node_pow_zero hN, mul_zero, zero_div]
    rintro ⟨q, hq⟩
    apply hj
    have hq0 : q ≠ 0 := by rintro rfl; omega
    obtain ⟨l, rfl⟩ := Nat.exists_eq_succ_of_ne_zero hq0
    refine ⟨l, ?_⟩
    show k + l * N = j
    have : N * (l + 1) = l * N + N := by ring
    rw [Nat.succ_eq_add_one, this] at hq
    omega
  · intro l
    simp only [Function.comp_apply]
    rw [h3, show N - k + (k + l * N) = (l + 1) * N by rw [add_mul, one_mul]; omega, sum_node_pow hN]
    field_simp

/-- The mean over the circle around `z` of a function with a power series there. -/
theorem mean_hasSum {N : ℕ} (hN : 0 < N) {R : ℝ} (hR : 0 < R) (a : ℕ → ℂ) (ha : Summable fun j => ‖a j‖ * R ^ j) :
    HasSum (fun l : ℕ => a (l * N) * (-(R : ℂ) ^ N) ^ l) ((∑ m ∈ Finset.range N, ∑' j, a j * node R N m ^ j) / N) := by
  have hne : -(R : ℂ) ^ N ≠ 0 := neg_ne_zero.mpr (pow_ne_zero _ (by exact_mod_cast hR.ne'))
  have h := (alias_hasSum hN hR.le a ha).div_const (-(R : ℂ) ^ N)
  have e : (∑ m ∈ Finset.range N, node R N m ^ (N - 0) * ∑' j, a j * node R N m ^ j) / N / (-(R : ℂ) ^ N) =
      (∑ m ∈ Finset.range N, ∑' j, a j * node R N m ^ j) / N := by
    simp_rw [Nat.sub_zero, node_pow hN]
    rw [← Finset.mul_sum, div_right_comm, mul_div_cancel_left₀ _ hne]
  rw [e] at h
  refine h.congr_fun fun l => ?_
  rw [zero_add, pow_succ, ← mul_assoc, mul_div_cancel_right₀ _ hne]

theorem taylor_summable {f : ℂ → ℂ} (hf : Differentiable ℂ f) (z : ℂ) {R : ℝ} (hR : 0 ≤ R) :
    Summable fun j : ℕ => ‖iteratedDeriv j f z / (j.factorial : ℂ)‖ * R ^ j := by
  have h := (Complex.hasSum_taylorSeries_of_entire hf z (z + R)).summable
  refine h.norm.congr fun j => ?_
  rw [norm_smul, norm_smul, add_sub_cancel_left, norm_pow, Complex.norm_real, Real.norm_of_nonneg hR, norm_inv, norm_div,
    div_eq_mul_inv]
  ring

theorem taylor_eval {f : ℂ → ℂ} (hf : Differentiable ℂ f) (z w : ℂ) :
    f (z + w) = ∑' j : ℕ, iteratedDeriv j f z / (j.factorial : ℂ) * w ^ j := by
  rw [← (Complex.hasSum_taylorSeries_of_entire hf z (z + w)).tsum_eq]
  refine tsum_congr fun j => ?_
  rw [add_sub_cancel_left, smul_eq_mul, smul_eq_mul]; ring

/-- The mean of an entire function over the circle: the value at the centre and the aliased Taylor terms. -/
theorem contourMean_hasSum {N : ℕ} (hN : 0 < N) {R : ℝ} (hR : 0 < R) {f : ℂ → ℂ} (hf : Differentiable ℂ f) (z : ℂ) :
    HasSum (fun l : ℕ => (-1) ^ l * (R : ℂ) ^ (l * N) * iteratedDeriv (l * N) f z / ((l * N).factorial : ℂ))
      (contourMean R N f z) := by
  have h := mean_hasSum hN hR _ (taylor_summable hf z hR.le)
  unfold contourMean
  simp_rw [taylor_eval hf z]
  refine h.congr_fun fun l => ?_
  rw [neg_pow ((R : ℂ) ^ N), ← pow_mul, mul_comm N l]; ring

theorem tail_tendsto (b : ℕ → ℝ) : Tendsto (fun N => ∑' j, b (j + N)) atTop (𝓝 0) := by
  simpa using tendsto_sum_nat_add b

/-- The aliased terms are bounded by a tail of the Taylor series. -/
theorem alias_bound {N : ℕ} (hN : 0 < N) {R : ℝ} (hR : 0 ≤ R) (a : ℕ → ℂ) (ha : Summable fun j => ‖a j‖ * R ^ j) :
    ‖(∑' l : ℕ, a (l * N) * (-(R : ℂ) ^ N) ^ l) - a 0‖ ≤ ∑' j, ‖a (j + N)‖ * R ^ (j + N) := by
  have hinj : Function.Injective fun l : ℕ => l * N := fun x y h => Nat.eq_of_mul_eq_mul_right hN h
  have hn : ∀ l : ℕ, ‖a (l * N) * (-(R : ℂ) ^ N) ^ l‖ = ‖a (l * N)‖ * R ^ (l * N) := by
    intro l
    rw [norm_mul, norm_pow, norm_neg, norm_pow, Complex.norm_real, Real.norm_of_nonneg hR, ← pow_mul, mul_comm N l]
  have hs : Summable fun l : ℕ => ‖a (l * N) * (-(R : ℂ) ^ N) ^ l‖ := by
    refine (ha.comp_injective hinj).congr fun l => ?_
    rw [hn]; rfl
  rw [hs.of_norm.tsum_eq_zero_add]
  simp only [zero_mul, pow_zero, mul_one, add_sub_cancel_left]
  have hs' := (summable_nat_add_iff 1).mpr hs
  refine (norm_tsum_le_tsum_norm hs').trans ?_
  have ht := (summable_nat_add_iff (f := fun j => ‖a j‖ * R ^ j) N).mpr ha
  have hinj' : Function.Injective fun l : ℕ => l * N := hinj
  have e : (fun l : ℕ => ‖a ((l + 1) * N) * (-(R : ℂ) ^ N) ^ (l + 1)‖) =
      (fun j => ‖a (j + N)‖ * R ^ (j + N)) ∘ fun l => l * N := by
    funext l
    rw [hn, Function.comp_apply, add_mul, one_mul]
  rw [e]
  exact tsum_comp_le_tsum_of_inj ht (fun j => by positivity) hinj'

/-- The mean over the circle converges to the value at the centre, for every radius. -/
theorem contourMean_tendsto {R : ℝ} (hR : 0 < R) {f : ℂ → ℂ} (hf : Differentiable ℂ f) (z : ℂ) :
    Tendsto (fun N => contourMean R N f z) atTop (𝓝 (f z)) := by
  rw [tendsto_iff_norm_sub_tendsto_zero]
  have ha := taylor_summable hf z hR.le
  refine squeeze_zero' (Eventually.of_forall fun _ => norm_nonneg _) ?_ 
    (tail_tendsto fun j => ‖iteratedDeriv j f z / (j.factorial : ℂ)‖ * R ^ j)
  filter_upwards [eventually_gt_atTop 0] with N hN
  have h := alias_bound hN hR.le _ ha
  rw [(mean_hasSum hN hR _ ha).tsum_eq] at h
  unfold contourMean
  simp_rw [taylor_eval hf z]
  simpa using h

theorem phi_differentiable (k : ℕ) : Differentiable ℂ (phi k) := by
  intro z
  have : DifferentiableOn ℂ (phi k) (Metric.ball 0 (‖z‖ + 1)) := by
    refine Complex.differentiableOn_tsum_of_summable_norm (u := fun j => (‖z‖ + 1) ^ j / (j.factorial : ℝ))
      (Real.summable_pow_div_factorial _) (fun j => ?_) Metric.isOpen_ball (fun j w hw => ?_)
    · exact ((differentiable_id.pow j).div_const _).differentiableOn
    · rw [norm_div, norm_pow, Complex.norm_natCast]
      have hw' : ‖w‖ ≤ ‖z‖ + 1 := (mem_ball_zero_iff.mp hw).le
      have hf : (j.factorial : ℝ) ≤ ((j + k).factorial : ℝ) := by exact_mod_cast Nat.factorial_le (Nat.le_add_right j k)
      have hp : (0 : ℝ) < j.factorial := by exact_mod_cast Nat.factorial_pos j
      gcongr
  exact (this.differentiableAt (Metric.isOpen_ball.mem_nhds (by simp)))

theorem phi_comp_differentiable (k : ℕ) (c : ℂ) : Differentiable ℂ fun w => phi k (c * w) :=
  (phi_differentiable k).comp (differentiable_id.const_mul c)

end Verif
