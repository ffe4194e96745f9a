import Verif.Spec.ETrees
import Verif.Lemmas.PhiFun
import Verif.Lemmas.Expm
import Mathlib.Analysis.Asymptotics.Lemmas
import Mathlib.Tactic.IntervalCases
import Mathlib.Tactic.NormNum

/-!
# Coefficients of the methods as power series in the step size
-/

set_option linter.unusedSectionVars false

namespace Verif

open Matrix Finset Filter Topology Asymptotics
open scoped Matrix.Norms.Operator

variable {ι : Type} [Fintype ι] [DecidableEq ι] {L : Mat ι}

/-- `G h = ∑_k g_k (h L)^k`, asymptotically. -/
def HasExp (L : Mat ι) (G : ℝ → Mat ι) (g : ℕ → ℝ) : Prop :=
  ∀ n, (fun h => G h - ∑ k ∈ range n, (g k * h ^ k) • L ^ k) =O[𝓝 0] fun h : ℝ => h ^ n

namespace HasExp

variable {G G' : ℝ → Mat ι} {g g' : ℕ → ℝ}

theorem congr (h : HasExp L G g) (hG : ∀ h, G h = G' h) (hg : ∀ k, g k = g' k) : HasExp L G' g' := by
  obtain rfl : G = G' := funext hG
  obtain rfl : g = g' := funext hg
  exact h

theorem add (h : HasExp L G g) (h' : HasExp L G' g') : HasExp L (fun x => G x + G' x) fun k => g k + g' k := by
  intro n
  refine ((h n).add (h' n)).congr_left fun x => ?_
  simp only [add_mul, add_smul, sum_add_distrib]
  abel

theorem smul (h : HasExp L G g) (a : ℂ) (b : ℝ) (hab : a = b) : HasExp L (fun x => a • G x) fun k => b * g k := by
  intro n
  refine ((h n).const_smul_left b).congr_left fun x => ?_
  simp only [Pi.smul_apply, smul_sub, smul_sum, smul_smul, mul_assoc, hab, Complex.coe_smul]

theorem neg (h : HasExp L G g) : HasExp L (fun x => -G x) fun k => -g k :=
  (h.smul (-1) (-1) (by simp)).congr (fun x => by simp) fun k => by simp

theorem sub (h : HasExp L G g) (h' : HasExp L G' g') : HasExp L (fun x => G x - G' x) fun k => g k - g' k :=
  (h.add h'.neg).congr (fun x => by abel) fun k => by ring

theorem zero (L : Mat ι) : HasExp L (fun _ => 0) fun _ => 0 := by
  intro n
  simp only [zero_mul, zero_smul, sum_const_zero, sub_zero]
  exact isBigO_zero _ _

/-- A factor `h` in front. -/
theorem times_h (h : HasExp L G g) (n : ℕ) :
    (fun x : ℝ => (x : ℂ) • G x - ∑ k ∈ range n, (g k * x ^ (k + 1)) • L ^ k) =O[𝓝 0] fun x : ℝ => x ^ (n + 1) := by
  have h1 := (isBigO_refl (fun x : ℝ => x) (𝓝 0)).smul (h n)
  refine (h1.congr_left fun x => ?_).congr_right fun x => ?_
  · simp only [smul_sub, smul_sum, smul_smul, Complex.coe_smul]
    congr 1
    refine sum_congr rfl fun k _ => ?_
    congr 1
    ring
  · rw [smul_eq_mul]
    ring

end HasExp

theorem phiMat_expand (k n : ℕ) (A : Mat ι) :
    phiMat k A = ∑ j ∈ range n, ((j + k).factorial : ℂ)⁻¹ • A ^ j + A ^ n * phiMat (k + n) A := by
  induction n with
  | zero => simp
  | succ n ih =>
    rw [ih, phiMat_succ (k + n), sum_range_succ, mul_add, pow_succ, mul_assoc, mul_smul_comm, mul_one, Nat.add_comm n k, ← add_assoc,
      add_assoc k]

theorem norm_phiMat_le (k : ℕ) (A : Mat ι) (r : ℝ) (h : ‖A‖ ≤ r) :
    ‖phiMat k A‖ ≤ max 1 ‖(1 : Mat ι)‖ * ∑' j : ℕ, r ^ j / (j.factorial : ℝ) := by
  rw [← tsum_mul_left]
  refine tsum_of_norm_bounded ((Real.summable_pow_div_factorial r).mul_left _).hasSum fun j => ?_
  have h1 : ‖A ^ j‖ ≤ max 1 ‖(1 : Mat ι)‖ * r ^ j := by
    cases j with
    | zero => simp
    | succ j =>
      refine (norm_pow_le' A j.succ_pos).trans ?_
      have h2 := pow_le_pow_left₀ (norm_nonneg A) h (j + 1)
      have h3 : 0 ≤ r ^ (j + 1) := (pow_nonneg (norm_nonneg A) _).trans h2
      exact h2.trans (le_mul_of_one_le_left h3 (le_max_left _ _))
  rw [norm_smul, norm_inv, Complex.norm_natCast, mul_div_assoc', div_eq_inv_mul]
  have hf : (j.factorial : ℝ) ≤ ((j + k).factorial : ℝ) := by exact_mod_cast Nat.factorial_le (Nat.le_add_right j k)
  have hp : (0 : ℝ) < j.factorial := by exact_mod_cast Nat.factorial_pos j
  exact mul_le_mul (inv_anti₀ hp hf) h1 (norm_nonneg _) (by positivity)

/-- Expansion of the φ functions. -/
theorem phiExact_hasExp (L : Mat ι) (k : ℕ) (c : ℝ) : HasExp L (fun h => phiExact L h k c) fun n => c ^ n * ((n + k).factorial : ℝ)⁻¹ := by
  intro n
  have h1 : (fun h : ℝ => phiMat (k + n) (((c * h : ℝ) : ℂ) • L)) =O[𝓝 0] fun _ => (1 : ℝ) := by
    refine IsBigO.of_bound (max 1 ‖(1 : Mat ι)‖ * ∑' j : ℕ, (|c| * ‖L‖) ^ j / (j.factorial : ℝ)) ?_
    filter_upwards [Metric.ball_mem_nhds (0 : ℝ) one_pos] with h hh
    rw [norm_one (α := ℝ), mul_one]
    refine norm_phiMat_le _ _ _ ?_
    rw [norm_smul, Complex.norm_real, Real.norm_eq_abs, abs_mul]
    rw [mem_ball_zero_iff, Real.norm_eq_abs] at hh
    refine mul_le_mul_of_nonneg_right ?_ (norm_nonneg _)
    exact mul_le_of_le_one_right (abs_nonneg _) hh.le
  have h2 : (fun h : ℝ => (h ^ n) • ((c ^ n) • (L ^ n * phiMat (k + n) (((c * h : ℝ) : ℂ) • L)))) =O[𝓝 0] fun h : ℝ => h ^ n := by
    have h3 : (fun h : ℝ => (c ^ n) • (L ^ n * phiMat (k + n) (((c * h : ℝ) : ℂ) • L))) =O[𝓝 0] fun _ => (1 : ℝ) := by
      refine IsBigO.const_smul_left ?_ (c ^ n)
      simpa using (isBigO_const_const (L ^ n) (one_ne_zero' ℝ) (𝓝 (0 : ℝ))).mul h1
    simpa using (isBigO_refl (fun h : ℝ => h ^ n) (𝓝 0)).smul h3
  refine h2.congr_left fun h => ?_
  show _ = phiMat k (((c * h : ℝ) : ℂ) • L) - _
  rw [phiMat_expand k n]
  have h4 : ∑ j ∈ range n, ((j + k).factorial : ℂ)⁻¹ • (((c * h : ℝ) : ℂ) • L) ^ j =
      ∑ j ∈ range n, (c ^ j * ((j + k).factorial : ℝ)⁻¹ * h ^ j) • L ^ j := by
    refine sum_congr rfl fun j _ => ?_
    rw [← Complex.coe_smul, smul_pow, smul_smul]
    congr 1
    push_cast
    ring
  rw [h4, add_sub_cancel_left, smul_pow, ← Complex.ofReal_pow, Complex.coe_smul, smul_mul_assoc, smul_smul, mul_pow, mul_comm, Complex.coe_smul]

theorem expm_hasExp (L : Mat ι) (c : ℝ) : HasExp L (fun h => expm L (c * h)) fun n => c ^ n * (n.factorial : ℝ)⁻¹ :=
  (phiExact_hasExp L 0 c).congr (fun h => by rw [phiExact, phiMat_zero]; rfl) fun k => rfl

end Verif
