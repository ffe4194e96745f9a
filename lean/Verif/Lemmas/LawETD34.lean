import Verif.Lemmas.BuildAS
import Verif.Lemmas.LawETD4
import Verif.Model.ETD34

/-!
# ETD34 implements Krogstad's method with approximated φ functions
-/

set_option linter.unusedSectionVars false

namespace Verif

open Matrix

variable {ι : Type} [Fintype ι] [DecidableEq ι]

/-- Diagonal coefficients of ETD34. -/
noncomputable def ETD34.coefD (cfg : ETDConfig ℝ) (L : Vec ι) (h : ℝ) : Etd34Coef (Vec ι) :=
  let p (k : ℕ) (c : ℝ) (i : ι) : ℂ := h * cfg.phiM k c (h * L i)
  { EL := fun i => Complex.exp (h * L i)
    EL2 := fun i => Complex.exp (h * L i / 2)
    a21 := fun i => 1 / 2 * p 1 (1 / 2) i
    a31 := fun i => 1 / 2 * p 1 (1 / 2) i - p 2 (1 / 2) i
    a32 := fun i => p 2 (1 / 2) i
    a41 := fun i => p 1 1 i - 2 * p 2 1 i
    a43 := fun i => 2 * p 2 1 i
    a51 := fun i => p 1 1 i - 3 * p 2 1 i + 4 * p 3 1 i
    a52 := fun i => 2 * p 2 1 i - 4 * p 3 1 i
    a54 := fun i => -p 2 1 i + 4 * p 3 1 i }

theorem ETD34.coeffsDiagonal_eq (cfg : ETDConfig ℝ) (L : Vec ι) (h : ℝ) (s : ASMethod (Etd34Coef (Vec ι)) ι) :
    ETD34.coeffsDiagonal cfg h (bc h * L) s = (.ok (), { s with coef := ETD34.coefD cfg L h }) := by
  unfold ETD34.coeffsDiagonal
  simp only [PyM.bind_modify_apply, PyM.modify_apply, ETD34.assign]
  congr 2
  unfold ETD34.coefD
  congr 1
  all_goals
    funext i
    simp only [setMask, Pi.mul_apply, Pi.sub_apply, Pi.add_apply, Pi.neg_apply, bc_apply]
    by_cases hz : ‖(h : ℂ) * L i‖ < cfg.modecutoff
    · simp only [hz, if_true, mean_psi1 cfg (1 / 2) _ half_mul _ hz, mean_psi2 cfg (1 / 2) _ half_mul _ hz,
        mean_psi1 cfg 1 _ one_mul' _ hz, mean_psi2 cfg 1 _ one_mul' _ hz, mean_psi3 cfg 1 _ one_mul' _ hz] <;> ring
    · simp only [hz, if_false, not_false_eq_true, if_true,
        big_psi1 cfg (1 / 2) _ _ (half_mul _) hz, big_psi2 cfg (1 / 2) _ _ (half_mul _) hz,
        big_psi1 cfg 1 _ _ (one_mul' _) hz, big_psi2 cfg 1 _ _ (one_mul' _) hz, big_psi3 cfg 1 _ _ (one_mul' _) hz] <;> ring

/-- Diagonal ETD34 is Krogstad's method. -/
noncomputable def ETD34.rawDiagonal (cfg : ETDConfig ℝ) (L : Vec ι) (nl : NlFunc ι) :
    FsalAS (ETD34.diagonal cfg L nl) nl (fun _ => True) (fun h => krogstad (cfg.phiD L h) (Matrix.diagonal L) h) false id id :=
  FsalAS.mk (fun _ => rfl) (fun h => ETD34.coefD cfg L h) 4 (fun h => rfl) (fun h => by simp [krogstad])
    (fun h s _ => ETD34.coeffsDiagonal_eq cfg L h s) (fun h s hc => absurd trivial hc)
    (fun u s n hn => by simp [ETD34.diagonal, PyM.bind_apply, ASMethod.call, hn])
    (fun u s e hn => by simp [ETD34.diagonal, PyM.bind_apply, ASMethod.call, hn])
    (fun u h s => rfl)
    (fun u h s hc => by
      refine as_stages4 (v := u) (krogstad_fsal _ _ h)
        (s.coef.EL2 * u + s.coef.a21 * s.NL1)
        (fun a => s.coef.EL2 * u + s.coef.a31 * s.NL1 + s.coef.a32 * a)
        (fun _ b => s.coef.EL * u + s.coef.a41 * s.NL1 + s.coef.a43 * b)
        (fun a b c => s.coef.EL * u + s.coef.a51 * s.NL1 + s.coef.a52 * (a + b) + s.coef.a54 * c)
        (fun _ _ c d => s.coef.a54 * (c - d))
        ?_ ?_ ?_ ?_ ?_ s ((ETD34.diagonal cfg L nl).updateStages u h false) rfl
      all_goals
        intros
        funext i
        simp [krogstad, phiDiag, ETD34.coefD, ETDConfig.phiM, expm_diagonal, hc, mulVec_diagonal, smul_mulVec, sub_mulVec,
          add_mulVec, neg_mulVec]
        ring_nf)

/-- Diagonalized ETD34 is Krogstad's method in the eigenbasis. -/
noncomputable def ETD34.rawDiagonalized (cfg : ETDConfig ℝ) (eig : Vec ι) (S Sinv : Mat ι) (hS : S * Sinv = 1) (nl : NlFunc ι) :
    FsalAS (ETD34.diagonalized cfg eig S Sinv nl) nl (fun _ => True) (fun h => krogstad (cfg.phiD eig h) (Matrix.diagonal eig) h) true (fun w => S *ᵥ w) (fun w => Sinv *ᵥ w) :=
  FsalAS.mk (fun u => by simp [hS]) (fun h => ETD34.coefD cfg eig h) 4 (fun h => rfl) (fun h => by simp [krogstad])
    (fun h s _ => ETD34.coeffsDiagonal_eq cfg eig h s) (fun h s hc => absurd trivial hc)
    (fun u s n hn => by simp [ETD34.diagonalized, PyM.bind_apply, ASMethod.call, hn])
    (fun u s e hn => by simp [ETD34.diagonalized, PyM.bind_apply, ASMethod.call, hn])
    (fun u h s => rfl)
    (fun u h s hc => by
      refine as_stages4 (v := s.v) (krogstad_fsal _ _ h)
        (s.coef.EL2 * s.v + s.coef.a21 * s.NL1)
        (fun a => s.coef.EL2 * s.v + s.coef.a31 * s.NL1 + s.coef.a32 * a)
        (fun _ b => s.coef.EL * s.v + s.coef.a41 * s.NL1 + s.coef.a43 * b)
        (fun a b c => s.coef.EL * s.v + s.coef.a51 * s.NL1 + s.coef.a52 * (a + b) + s.coef.a54 * c)
        (fun _ _ c d => s.coef.a54 * (c - d))
        ?_ ?_ ?_ ?_ ?_ s ((ETD34.diagonalized cfg eig S Sinv nl).updateStages u h false) rfl
      all_goals
        intros
        funext i
        simp [krogstad, phiDiag, ETD34.coefD, ETDConfig.phiM, expm_diagonal, hc, mulVec_diagonal, smul_mulVec, sub_mulVec,
          add_mulVec, neg_mulVec]
        ring_nf)

/-- Full-matrix coefficients of ETD34. -/
noncomputable def ETD34.coefN (cfg : ETDConfig ℝ) (L : Mat ι) (h : ℝ) : Etd34Coef (Mat ι) :=
  let p (k : ℕ) (c : ℝ) : Mat ι := cfg.phiF L h k c
  { EL := expm L h
    EL2 := expm L (h / 2)
    a21 := (1 / 2 * h : ℂ) • p 1 (1 / 2)
    a31 := (1 / 2 * h : ℂ) • (p 1 (1 / 2) - (2 : ℂ) • p 2 (1 / 2))
    a32 := (1 / 2 * h : ℂ) • ((2 : ℂ) • p 2 (1 / 2))
    a41 := (h : ℂ) • (p 1 1 - (2 : ℂ) • p 2 1)
    a43 := (h : ℂ) • ((2 : ℂ) • p 2 1)
    a51 := (h : ℂ) • (p 1 1 - (3 / 2 : ℂ) • (2 : ℂ) • p 2 1 + (2 / 3 : ℂ) • (6 : ℂ) • p 3 1)
    a52 := (h : ℂ) • ((2 : ℂ) • p 2 1 - (2 / 3 : ℂ) • (6 : ℂ) • p 3 1)
    a54 := (h : ℂ) • (-(1 / 2 : ℂ) • (2 : ℂ) • p 2 1 + (2 / 3 : ℂ) • (6 : ℂ) • p 3 1) }

/-- The accumulators after `n` rounds. -/
noncomputable def ETD34.accAt (cfg : ETDConfig ℝ) (z : Mat ι) (n : ℕ) : ETD34.Acc ι :=
  ⟨contourSum cfg psi1 (1 / 2) z n, contourSum cfg psi2 (1 / 2) z n,
   contourSum cfg psi1 1 z n, contourSum cfg psi2 1 z n, contourSum cfg psi3 1 z n⟩

theorem ETD34.loop_eq {σ : Type} (cfg : ETDConfig ℝ) (z : Mat ι) (s : σ) :
    ((∀ m, m < cfg.npts → IsUnit (cfg.point m • (1 : Mat ι) - z).det ∧
        IsUnit (cfg.point m • (1 : Mat ι) - (1 / 2 : ℂ) • z).det) →
      (List.range cfg.npts).foldlM (ETD34.loopBody cfg z) ⟨0, 0, 0, 0, 0⟩ s = (.ok (ETD34.accAt cfg z cfg.npts), s)) ∧
    ((∃ m, m < cfg.npts ∧ ¬ (IsUnit (cfg.point m • (1 : Mat ι) - z).det ∧
        IsUnit (cfg.point m • (1 : Mat ι) - (1 / 2 : ℂ) • z).det)) →
      (List.range cfg.npts).foldlM (ETD34.loopBody cfg z) ⟨0, 0, 0, 0, 0⟩ s = (.error .linAlgError, s)) := by
  have h0 : ETD34.accAt cfg z 0 = ⟨0, 0, 0, 0, 0⟩ := by simp [ETD34.accAt, contourSum]
  rw [← h0]
  refine foldlM_range _ (ETD34.accAt cfg z) _ _ s ?_ ?_ _
  · rintro m ⟨h1, h2⟩
    unfold ETD34.loopBody
    rw [PyM.bind_ok (npInv_ok h1 s), PyM.bind_ok (npInv_ok h2 s)]
    simp only [PyM.pure_apply, ETD34.accAt, contourSum_succ, one_smul]
  · intro m a h
    unfold ETD34.loopBody
    by_cases h1 : IsUnit (cfg.point m • (1 : Mat ι) - z).det
    · rw [PyM.bind_ok (npInv_ok h1 s), PyM.bind_error (npInv_err (fun h2 => h ⟨h1, h2⟩) s)]
    · rw [PyM.bind_error (npInv_err h1 s)]

theorem ETD34.contourOk_iff (cfg : ETDConfig ℝ) (L : Mat ι) (h : ℝ) :
    ContourOk cfg.contour_radius cfg.npts L [1 / 2, 1] h ↔
      ∀ m, m < cfg.npts → IsUnit (cfg.point m • (1 : Mat ι) - (h : ℂ) • L).det ∧
        IsUnit (cfg.point m • (1 : Mat ι) - (1 / 2 : ℂ) • ((h : ℂ) • L)).det := by
  rw [cfg.contourOk_iff]
  refine forall_congr' fun m => forall_congr' fun _ => ⟨fun H => ?_, fun H c hc => ?_⟩
  · have a := H (1 / 2) (by simp)
    have b := H 1 (by simp)
    rw [Complex.ofReal_one, one_smul] at b
    push_cast at a
    exact ⟨b, a⟩
  · simp only [List.mem_cons, List.not_mem_nil, or_false] at hc
    rcases hc with rfl | rfl
    · push_cast; exact H.2
    · rw [Complex.ofReal_one, one_smul]; exact H.1

theorem ETD34.coeffsN_ok (cfg : ETDConfig ℝ) (L : Mat ι) (nl : NlFunc ι) (h : ℝ) (s : ASMethod (Etd34Coef (Mat ι)) ι)
    (hc : ContourOk cfg.contour_radius cfg.npts L [1 / 2, 1] h) :
    (ETD34.nonDiagonal cfg L nl).updateCoeffs h s = (.ok (), { s with coef := ETD34.coefN cfg L h }) := by
    simp only [ETD34.nonDiagonal, ETD34.coeffsNonDiagonal, PyM.bind_modify_apply]
    rw [PyM.bind_ok ((ETD34.loop_eq cfg _ _).1 ((ETD34.contourOk_iff cfg L h).1 hc))]
    simp only [PyM.modify_apply, ETD34.coefN, ETD34.accAt, exp_smul_eq,
      exp_smul_smul_eq L (1 / 2) h (show (1 / 2 : ℂ) = ((1 / 2 : ℝ) : ℂ) by simp), show (1 / 2 : ℝ) * h = h / 2 by ring,
      contourSum_eq cfg 1 1 psi1_eq' (show (1 / 2 : ℂ) = ((1 / 2 : ℝ) : ℂ) by simp),
      contourSum_eq cfg 2 2 psi2_eq (show (1 / 2 : ℂ) = ((1 / 2 : ℝ) : ℂ) by simp),
      contourSum_eq cfg 1 1 psi1_eq' (show (1 : ℂ) = ((1 : ℝ) : ℂ) by simp),
      contourSum_eq cfg 2 2 psi2_eq (show (1 : ℂ) = ((1 : ℝ) : ℂ) by simp),
      contourSum_eq cfg 6 3 psi3_eq (show (1 : ℂ) = ((1 : ℝ) : ℂ) by simp), one_smul]

theorem ETD34.coeffsN_err (cfg : ETDConfig ℝ) (L : Mat ι) (nl : NlFunc ι) (h : ℝ) (s : ASMethod (Etd34Coef (Mat ι)) ι)
    (hc : ¬ ContourOk cfg.contour_radius cfg.npts L [1 / 2, 1] h) :
    ∃ c, (ETD34.nonDiagonal cfg L nl).updateCoeffs h s = (.error .linAlgError, { s with coef := c }) := by
    rw [ETD34.contourOk_iff] at hc
    push Not at hc
    obtain ⟨m, hm, h1⟩ := hc
    refine ⟨{ s.coef with EL := NormedSpace.exp ((h : ℂ) • L), EL2 := NormedSpace.exp ((1 / 2 : ℂ) • ((h : ℂ) • L)) }, ?_⟩
    simp only [ETD34.nonDiagonal, ETD34.coeffsNonDiagonal, PyM.bind_modify_apply]
    rw [PyM.bind_error ((ETD34.loop_eq cfg _ _).2 ⟨m, hm, fun ⟨a, b⟩ => h1 a b⟩)]

/-- Full-matrix ETD34 is Krogstad's method. -/
noncomputable def ETD34.rawNonDiagonal (cfg : ETDConfig ℝ) (L : Mat ι) (nl : NlFunc ι) :
    FsalAS (ETD34.nonDiagonal cfg L nl) nl (ContourOk cfg.contour_radius cfg.npts L [1 / 2, 1]) (fun h => krogstad (cfg.phiF L h) L h) false id id :=
  FsalAS.mk (fun _ => rfl) (fun h => ETD34.coefN cfg L h) 4 (fun h => rfl) (fun h => by simp [krogstad])
    (ETD34.coeffsN_ok cfg L nl) (ETD34.coeffsN_err cfg L nl)
    (fun u s n hn => by simp [ETD34.nonDiagonal, PyM.bind_apply, ASMethod.call, hn])
    (fun u s e hn => by simp [ETD34.nonDiagonal, PyM.bind_apply, ASMethod.call, hn])
    (fun u h s => rfl)
    (fun u h s hc => by
      refine as_stages4 (v := u) (krogstad_fsal _ _ h)
        (s.coef.EL2 *ᵥ u + s.coef.a21 *ᵥ s.NL1)
        (fun a => s.coef.EL2 *ᵥ u + s.coef.a31 *ᵥ s.NL1 + s.coef.a32 *ᵥ a)
        (fun _ b => s.coef.EL *ᵥ u + s.coef.a41 *ᵥ s.NL1 + s.coef.a43 *ᵥ b)
        (fun a b c => s.coef.EL *ᵥ u + s.coef.a51 *ᵥ s.NL1 + s.coef.a52 *ᵥ (a + b) + s.coef.a54 *ᵥ c)
        (fun _ _ c d => s.coef.a54 *ᵥ (c - d))
        ?_ ?_ ?_ ?_ ?_ s ((ETD34.nonDiagonal cfg L nl).updateStages u h false) rfl
      all_goals
        intros
        simp only [hc, ETD34.coefN, krogstad, smul_mulVec, sub_mulVec, add_mulVec, neg_mulVec, zero_mulVec, smul_zero,
          mulVec_add, mulVec_sub, neg_smul]
        module)

end Verif
