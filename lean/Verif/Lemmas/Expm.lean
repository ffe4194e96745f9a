import Verif.Spec.Methods
import Verif.Model.Method

/-!
# Matrix exponentials
-/

set_option linter.unusedSectionVars false

namespace Verif

open Matrix

variable {ι : Type} [Fintype ι] [DecidableEq ι]

@[simp] theorem expm_zero (L : Mat ι) : expm L 0 = 1 := by
  simp [expm]

theorem expm_diagonal (L : Vec ι) (θ : ℝ) :
    expm (Matrix.diagonal L) θ = Matrix.diagonal (fun i => Complex.exp (θ * L i)) := by
  unfold expm
  rw [← Matrix.diagonal_smul, Matrix.exp_diagonal]
  congr 1
  funext i
  rw [Pi.coe_exp, Complex.exp_eq_exp_ℂ]
  simp

theorem expm_add (L : Mat ι) (s t : ℝ) : expm L (s + t) = expm L s * expm L t := by
  unfold expm
  rw [Complex.ofReal_add, add_smul]
  exact Matrix.exp_add_of_commute _ _ ((Commute.refl L).smul_left _ |>.smul_right _)

theorem bc_apply (x : ℂ) (i : ι) : (bc x : Vec ι) i = x := rfl
theorem npExp_apply (z : Vec ι) (i : ι) : npExp z i = Complex.exp (z i) := rfl

theorem bc_mul (x : ℂ) (w : Vec ι) : bc x * w = x • w := by
  funext i; simp [bc]

theorem mulVec_half (A : Mat ι) (w : Vec ι) (c : ℂ) : A *ᵥ (w / bc c) = c⁻¹ • (A *ᵥ w) := by
  rw [← mulVec_smul]
  congr 1
  funext i; simp [bc]; ring

end Verif
