import Verif.Lemmas.BuildAS
import Verif.Lemmas.LawIF4

/-!
# IF34 implements the Lawson transform of the classical fourth order method
-/

set_option linter.unusedSectionVars false

namespace Verif

open Matrix

variable {ι : Type} [Fintype ι] [DecidableEq ι]

/-- Diagonal IF34 is Lawson-RK4. -/
noncomputable def IF34.rawDiagonal (L : Vec ι) (nl : NlFunc ι) :
    FsalAS (IF34.diagonal L nl) nl (fun _ => True) (lawson rk4 (Matrix.diagonal L)) false id id :=
  FsalAS.mk (fun _ => rfl) (fun h => ⟨npExp (bc h * L), npExp (bc h * L / 2)⟩) 4 (fun h => (lawson_rk4_fsal _ h).first) (fun h => by simp [lawson, rk4])
    (fun h s _ => rfl) (fun h s hc => absurd trivial hc)
    (fun u s n hn => by simp [IF34.diagonal, PyM.bind_apply, ASMethod.call, hn])
    (fun u s e hn => by simp [IF34.diagonal, PyM.bind_apply, ASMethod.call, hn])
    (fun u h s => rfl)
    (fun u h s hc => by
      refine as_stages4 (v := u) (lawson_rk4_fsal _ h)
        (s.coef.EL2 * u + bc h * s.coef.EL2 * s.NL1 / 2)
        (fun a => s.coef.EL2 * u + bc h * a / 2)
        (fun _ b => s.coef.EL * u + bc h * s.coef.EL2 * b)
        (fun a b c => s.coef.EL * u + bc h * (s.coef.EL * s.NL1 / 6 + s.coef.EL2 * a / 3 + s.coef.EL2 * b / 3 + c / 6))
        (fun _ _ c d => bc h * (c - d) / 6)
        ?_ ?_ ?_ ?_ ?_ s ((IF34.diagonal L nl).updateStages u h false) rfl
      all_goals
        intros
        funext i
        simp [lawson, rk4, expm_diagonal, hc, mulVec_diagonal, smul_mulVec, npExp_apply, bc_apply]
        ring_nf)

/-- Diagonalized IF34 is Lawson-RK4 in the eigenbasis. -/
noncomputable def IF34.rawDiagonalized (eig : Vec ι) (S Sinv : Mat ι) (hS : S * Sinv = 1) (nl : NlFunc ι) :
    FsalAS (IF34.diagonalized eig S Sinv nl) nl (fun _ => True) (lawson rk4 (Matrix.diagonal eig)) true (fun w => S *ᵥ w) (fun w => Sinv *ᵥ w) :=
  FsalAS.mk (fun u => by simp [hS]) (fun h => ⟨npExp (bc h * eig), npExp (bc h * eig / 2)⟩) 4 (fun h => (lawson_rk4_fsal _ h).first) (fun h => by simp [lawson, rk4])
    (fun h s _ => rfl) (fun h s hc => absurd trivial hc)
    (fun u s n hn => by simp [IF34.diagonalized, PyM.bind_apply, ASMethod.call, hn])
    (fun u s e hn => by simp [IF34.diagonalized, PyM.bind_apply, ASMethod.call, hn])
    (fun u h s => rfl)
    (fun u h s hc => by
      refine as_stages4 (v := s.v) (lawson_rk4_fsal _ h)
        (s.coef.EL2 * s.v + bc h * s.coef.EL2 * s.NL1 / 2)
        (fun a => s.coef.EL2 * s.v + bc h * a / 2)
        (fun _ b => s.coef.EL * s.v + bc h * s.coef.EL2 * b)
        (fun a b c => s.coef.EL * s.v + bc h * (s.coef.EL * s.NL1 / 6 + s.coef.EL2 * a / 3 + s.coef.EL2 * b / 3 + c / 6))
        (fun _ _ c d => bc h * (c - d) / 6)
        ?_ ?_ ?_ ?_ ?_ s ((IF34.diagonalized eig S Sinv nl).updateStages u h false) rfl
      all_goals
        intros
        funext i
        simp [lawson, rk4, expm_diagonal, hc, mulVec_diagonal, smul_mulVec, npExp_apply, bc_apply]
        ring_nf)

/-- Full-matrix IF34 is Lawson-RK4. -/
noncomputable def IF34.rawNonDiagonal (L : Mat ι) (nl : NlFunc ι) :
    FsalAS (IF34.nonDiagonal L nl) nl (fun _ => True) (lawson rk4 L) false id id :=
  FsalAS.mk (fun _ => rfl) (fun h => ⟨expm L h, expm L (h / 2)⟩) 4 (fun h => (lawson_rk4_fsal _ h).first) (fun h => by simp [lawson, rk4])
    (fun h s _ => by
      simp only [IF34.nonDiagonal, PyM.bind_modify_apply, PyM.modify_apply, exp_smul_eq]
      rw [exp_smul_smul_eq L (1 / 2) h (by simp), show (1 / 2 : ℝ) * h = h / 2 by ring]) (fun h s hc => absurd trivial hc)
    (fun u s n hn => by simp [IF34.nonDiagonal, PyM.bind_apply, ASMethod.call, hn])
    (fun u s e hn => by simp [IF34.nonDiagonal, PyM.bind_apply, ASMethod.call, hn])
    (fun u h s => rfl)
    (fun u h s hc => by
      refine as_stages4 (v := u) (lawson_rk4_fsal _ h)
        (s.coef.EL2 *ᵥ u + bc h * (s.coef.EL2 *ᵥ (s.NL1 / 2)))
        (fun a => s.coef.EL2 *ᵥ u + bc h * a / 2)
        (fun _ b => s.coef.EL *ᵥ u + bc h * (s.coef.EL2 *ᵥ b))
        (fun a b c => s.coef.EL *ᵥ u + bc h * (s.coef.EL *ᵥ (s.NL1 / 6) + s.coef.EL2 *ᵥ (a / 3) + s.coef.EL2 *ᵥ (b / 3) + c / 6))
        (fun _ _ c d => bc h * (c - d) / 6)
        ?_ ?_ ?_ ?_ ?_ s ((IF34.nonDiagonal L nl).updateStages u h false) rfl
      all_goals
        intros
        simp only [hc, vdiv2, vdiv3, vdiv6, mulVec_smul, bc_mul]
        simp only [lawson, rk4, smul_mulVec, show (1 / 2 : ℝ) * h = h / 2 by ring,
          show (1 - 1 / 2 : ℝ) * h = h / 2 by ring,
          one_mul, sub_self, sub_zero, zero_mul, expm_zero, one_mulVec, mul_zero, Complex.ofReal_zero, zero_smul,
          zero_mulVec, add_zero, zero_add]
        push_cast
        module)

end Verif
