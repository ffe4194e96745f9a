import Verif.Spec.Phi
import Verif.Lemmas.Expm
import Mathlib.Analysis.Normed.Algebra.MatrixExponential
import Mathlib.Analysis.SpecialFunctions.Exponential

/-!
# The φ functions
-/

set_option linter.unusedSectionVars false

namespace Verif

open Matrix

section algebra

variable {𝔸 : Type} [NormedRing 𝔸] [NormedAlgebra ℂ 𝔸] [CompleteSpace 𝔸]

/-- `φ_k` on a Banach algebra. -/
noncomputable def phiA (k : ℕ) (a : 𝔸) : 𝔸 := ∑' j : ℕ, ((j + k).factorial : ℂ)⁻¹ • a ^ j

theorem phiA_norm_summable (k : ℕ) (a : 𝔸) : Summable fun j : ℕ => ‖((j + k).factorial : ℂ)⁻¹ • a ^ j‖ := by
  refine Summable.of_nonneg_of_le (fun _ => norm_nonneg _) (fun j => ?_)
    (NormedSpace.norm_expSeries_summable' (𝕂 := ℂ) a)
  rw [norm_smul, norm_smul]
  refine mul_le_mul_of_nonneg_right ?_ (norm_nonneg _)
  rw [norm_inv, norm_inv, Complex.norm_natCast, Complex.norm_natCast]
  refine inv_anti₀ (by exact_mod_cast Nat.factorial_pos j) ?_
  exact_mod_cast Nat.factorial_le (Nat.le_add_right j k)

theorem phiA_summable (k : ℕ) (a : 𝔸) : Summable fun j : ℕ => ((j + k).factorial : ℂ)⁻¹ • a ^ j :=
  (phiA_norm_summable k a).of_norm

theorem phiA_zero (a : 𝔸) : phiA 0 a = NormedSpace.exp a := by
  rw [NormedSpace.exp_eq_tsum ℂ]; rfl

theorem phiA_succ (k : ℕ) (a : 𝔸) : phiA k a = (k.factorial : ℂ)⁻¹ • 1 + a * phiA (k + 1) a := by
  unfold phiA
  rw [(phiA_summable k a).tsum_eq_zero_add, ← (phiA_summable (k + 1) a).tsum_mul_left]
  congr 1
  · simp
  · refine tsum_congr fun j => ?_
    rw [mul_smul_comm, ← pow_succ']
    congr 4; ring

theorem phiA_at_zero (k : ℕ) : phiA k (0 : 𝔸) = (k.factorial : ℂ)⁻¹ • 1 := by
  rw [phiA_succ, zero_mul, add_zero]

end algebra

theorem phi_eq_phiA (k : ℕ) (z : ℂ) : phi k z = phiA k z := by
  unfold phi phiA
  refine tsum_congr fun j => ?_
  rw [smul_eq_mul, div_eq_mul_inv, mul_comm]

theorem phi_summable (k : ℕ) (z : ℂ) : Summable fun j : ℕ => z ^ j / ((j + k).factorial : ℂ) := by
  refine (phiA_summable k z).congr fun j => ?_
  rw [smul_eq_mul, div_eq_mul_inv, mul_comm]

theorem phi_zero (z : ℂ) : phi 0 z = Complex.exp z := by
  rw [phi_eq_phiA, phiA_zero, Complex.exp_eq_exp_ℂ]

/-- The recurrence `φ_k(z) = 1/k! + z φ_{k+1}(z)`. -/
theorem phi_succ (k : ℕ) (z : ℂ) : phi k z = (k.factorial : ℂ)⁻¹ + z * phi (k + 1) z := by
  rw [phi_eq_phiA, phiA_succ, ← phi_eq_phiA]; simp

theorem phi_at_zero (k : ℕ) : phi k 0 = (k.factorial : ℂ)⁻¹ := by
  rw [phi_succ]; simp

theorem phiDiv_succ (k : ℕ) {z : ℂ} (hz : z ≠ 0) : phiDiv k z = (k.factorial : ℂ)⁻¹ + z * phiDiv (k + 1) z := by
  unfold phiDiv
  have hf : (k.factorial : ℂ) ≠ 0 := by exact_mod_cast (Nat.factorial_pos k).ne'
  rw [Finset.sum_range_succ]
  field_simp
  ring

theorem phi_eq_phiDiv (k : ℕ) {z : ℂ} (hz : z ≠ 0) : phi k z = phiDiv k z := by
  induction k with
  | zero => rw [phi_zero]; simp [phiDiv]
  | succ k ih =>
    have h1 := phi_succ k z
    have h2 := phiDiv_succ k hz
    rw [ih] at h1
    exact mul_left_cancel₀ hz (add_left_cancel (h1.symm.trans h2))

variable {ι : Type} [Fintype ι] [DecidableEq ι]

section

open scoped Matrix.Norms.Operator

theorem phiMat_eq_phiA (k : ℕ) (A : Mat ι) : phiMat k A = phiA k A := rfl

theorem phiMat_summable (k : ℕ) (A : Mat ι) : Summable fun j : ℕ => ((j + k).factorial : ℂ)⁻¹ • A ^ j :=
  phiA_summable k A

theorem phiMat_zero (A : Mat ι) : phiMat 0 A = NormedSpace.exp A := phiA_zero A

theorem phiMat_succ (k : ℕ) (A : Mat ι) : phiMat k A = (k.factorial : ℂ)⁻¹ • 1 + A * phiMat (k + 1) A := phiA_succ k A

theorem phiMat_at_zero (k : ℕ) : phiMat k (0 : Mat ι) = (k.factorial : ℂ)⁻¹ • 1 := phiA_at_zero k

end

theorem phiMat_diagonal (k : ℕ) (d : Vec ι) : phiMat k (Matrix.diagonal d) = Matrix.diagonal fun i => phi k (d i) := by
  unfold phiMat
  refine HasSum.tsum_eq ?_
  have h : HasSum (fun j : ℕ => fun i => d i ^ j / ((j + k).factorial : ℂ)) fun i => phi k (d i) :=
    Pi.hasSum.mpr fun i => (phi_summable k (d i)).hasSum
  have := h.matrix_diagonal
  refine this.congr_fun ?_
  intro j
  rw [Matrix.diagonal_pow]
  ext a b
  by_cases hab : a = b
  · subst hab; simp [div_eq_mul_inv, mul_comm]
  · simp [hab]

theorem phiMat_conj (k : ℕ) (S Sinv A : Mat ι) (hS : S * Sinv = 1) :
    phiMat k (S * A * Sinv) = S * phiMat k A * Sinv := by
  have hS' : Sinv * S = 1 := mul_eq_one_comm.mp hS
  have hp : ∀ j : ℕ, (S * A * Sinv) ^ j = S * A ^ j * Sinv := by
    intro j
    induction j with
    | zero => simp [hS]
    | succ j ih =>
      rw [pow_succ, ih, pow_succ]
      calc S * A ^ j * Sinv * (S * A * Sinv) = S * A ^ j * (Sinv * S) * A * Sinv := by noncomm_ring
        _ = _ := by rw [hS']; noncomm_ring
  unfold phiMat
  rw [← (phiMat_summable k A).tsum_mul_left S, ← ((phiMat_summable k A).mul_left S).tsum_mul_right Sinv]
  refine tsum_congr fun j => ?_
  rw [hp]; simp

end Verif
