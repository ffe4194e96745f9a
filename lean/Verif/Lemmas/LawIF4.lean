import Verif.Lemmas.StagesCS

/-!
# IF4 implements the Lawson transform of the classical fourth order method
-/

set_option linter.unusedSectionVars false

namespace Verif

open Matrix

variable {ι : Type} [Fintype ι] [DecidableEq ι]

theorem lawson_rk4_fsal (L : Mat ι) (h : ℝ) : IsFSAL (lawson rk4 L h) 4 where
  s_eq := rfl
  first := by simp [lawson, rk4]
  Eout := by simp [lawson, rk4]
  B j hj := by
    interval_cases j <;> simp [lawson, rk4]
  Blast := by simp [lawson, rk4]

/-- Diagonal IF4 is Lawson-RK4. -/
noncomputable def IF4.lawDiagonal (L : Vec ι) (nl : NlFunc ι) :
    LawfulCSStrategy (IF4.diagonal L nl) nl (fun _ => True) (lawson rk4 (Matrix.diagonal L)) where
  coefs h := ⟨npExp (bc h * L), npExp (bc h * L / 2)⟩
  cost := 4
  first h := (lawson_rk4_fsal _ h).first
  pos h := by simp [lawson, rk4]
  coeffs_ok h s _ := rfl
  coeffs_err h s hc := absurd trivial hc
  n1_ok u s n hn := by simp [IF4.diagonal, PyM.bind_apply, CSMethod.call, hn]
  n1_err u s e hn := by simp [IF4.diagonal, PyM.bind_apply, CSMethod.call, hn]
  stages u h s hc := by
    refine cs_stages4 (lawson_rk4_fsal _ h) _ _ _ _ ?_ ?_ ?_ ?_ s ((IF4.diagonal L nl).updateStages u h) rfl
    all_goals
      intros
      funext i
      simp [lawson, rk4, expm_diagonal, hc, mulVec_diagonal, smul_mulVec, npExp_apply, bc_apply]
      ring_nf

theorem exp_smul_eq (L : Mat ι) (h : ℝ) : NormedSpace.exp ((h : ℂ) • L) = expm L h := rfl

theorem exp_smul_smul_eq (L : Mat ι) (c h : ℝ) {c' : ℂ} (hc : c' = (c : ℂ)) :
    NormedSpace.exp (c' • ((h : ℂ) • L)) = expm L (c * h) := by
  rw [expm, smul_smul, hc, Complex.ofReal_mul]

theorem vdiv2 (w : Vec ι) : w / 2 = (1 / 2 : ℂ) • w := by funext i; simp; ring
theorem vdiv3 (w : Vec ι) : w / 3 = (1 / 3 : ℂ) • w := by funext i; simp; ring
theorem vdiv6 (w : Vec ι) : w / 6 = (1 / 6 : ℂ) • w := by funext i; simp; ring

/-- Full-matrix IF4 is Lawson-RK4. -/
noncomputable def IF4.lawNonDiagonal (L : Mat ι) (nl : NlFunc ι) :
    LawfulCSStrategy (IF4.nonDiagonal L nl) nl (fun _ => True) (lawson rk4 L) where
  coefs h := ⟨expm L h, expm L (h / 2)⟩
  cost := 4
  first h := (lawson_rk4_fsal _ h).first
  pos h := by simp [lawson, rk4]
  coeffs_ok h s _ := by
    simp only [IF4.nonDiagonal, PyM.bind_modify_apply, PyM.modify_apply, exp_smul_eq]
    rw [exp_smul_smul_eq L (1 / 2) h (by simp)]
    rw [show (1 / 2 : ℝ) * h = h / 2 by ring]
  coeffs_err h s hc := absurd trivial hc
  n1_ok u s n hn := by simp [IF4.nonDiagonal, PyM.bind_apply, CSMethod.call, hn]
  n1_err u s e hn := by simp [IF4.nonDiagonal, PyM.bind_apply, CSMethod.call, hn]
  stages u h s hc := by
    refine cs_stages4 (lawson_rk4_fsal _ h) _ _ _ _ ?_ ?_ ?_ ?_ s ((IF4.nonDiagonal L nl).updateStages u h) rfl
    all_goals
      intros
      simp only [hc, vdiv2, vdiv3, vdiv6, mulVec_smul, bc_mul]
      simp only [lawson, rk4, smul_mulVec, show (1 / 2 : ℝ) * h = h / 2 by ring, show (1 - 1 / 2 : ℝ) * h = h / 2 by ring,
        one_mul, sub_self, sub_zero, zero_mul, expm_zero, one_mulVec, mul_zero, Complex.ofReal_zero, zero_smul,
        zero_mulVec, add_zero, zero_add]
      push_cast
      module

end Verif
