import Verif.Lemmas.LawETD4

/-!
# ETD5 implements the fifth order method with approximated φ functions
-/

set_option linter.unusedSectionVars false

namespace Verif

open Matrix

variable {ι : Type} [Fintype ι] [DecidableEq ι]

theorem three_halves (w : Vec ι) : 3 * w / 2 = (3 / 2 : ℂ) • w := by funext i; simp; ring

theorem etd5_fsal (φ : ℕ → ℝ → Mat ι) (L : Mat ι) (h : ℝ) : IsFSAL (etd5Method true φ L h) 6 where
  s_eq := rfl
  first := rfl
  Eout := rfl
  B j hj := rfl
  Blast := by simp [etd5Method]

/-- Diagonal coefficients of ETD5. -/
noncomputable def ETD5.coefD (cfg : ETDConfig ℝ) (L : Vec ι) (h : ℝ) : Etd5Coef (Vec ι) :=
  let p1 (c : ℝ) (i : ι) : ℂ := h * cfg.phiM 1 c (h * L i)
  let p2 (c : ℝ) (i : ι) : ℂ := h * (2 * cfg.phiM 2 c (h * L i))
  let p3 (c : ℝ) (i : ι) : ℂ := h * (6 * cfg.phiM 3 c (h * L i))
  { EL14 := fun i => Complex.exp (h * L i / 4)
    EL12 := fun i => Complex.exp (h * L i / 2)
    EL34 := fun i => Complex.exp (3 * (h * L i) / 4)
    EL := fun i => Complex.exp (h * L i)
    a21 := fun i => p1 (1 / 4) i / 4
    a31 := fun i => (p1 (1 / 4) i - p2 (1 / 4) i / 2) / 4
    a32 := fun i => p2 (1 / 4) i / 8
    a41 := fun i => (p1 (1 / 2) i - p2 (1 / 2) i) / 2
    a43 := fun i => p2 (1 / 2) i / 2
    a51 := fun i => 3 * (p1 (3 / 4) i - 3 * p2 (3 / 4) i / 4) / 4
    a52 := fun i => -3 * p1 (3 / 4) i / 8
    a54 := fun i => 9 * p2 (3 / 4) i / 16
    a61 := fun i => (-77 * p1 1 i + 59 * p2 1 i) / 42
    a62 := fun i => 8 * p1 1 i / 7
    a63 := fun i => (111 * p1 1 i - 87 * p2 1 i) / 28
    a65 := fun i => (-47 * p1 1 i + 143 * p2 1 i) / 84
    b1 := fun i => 7 * (257 * p1 1 i - 497 * p2 1 i + 270 * p3 1 i) / 2700
    b3 := fun i => (1097 * p1 1 i - 467 * p2 1 i - 150 * p3 1 i) / 1350
    b4 := fun i => 2 * (-49 * p1 1 i + 199 * p2 1 i - 135 * p3 1 i) / 225
    b5 := fun i => (-313 * p1 1 i + 883 * p2 1 i - 90 * p3 1 i) / 1350
    b6 := fun i => (509 * p1 1 i - 2129 * p2 1 i + 1830 * p3 1 i) / 2700 }

theorem ETD5.coeffsDiagonal_eq (cfg : ETDConfig ℝ) (L : Vec ι) (h : ℝ) (s : CSMethod (Etd5Coef (Vec ι)) ι) :
    ETD5.coeffsDiagonal cfg h (bc h * L) s = (.ok (), { s with coef := ETD5.coefD cfg L h }) := by
  unfold ETD5.coeffsDiagonal
  simp only [PyM.bind_modify_apply, PyM.modify_apply, ETD5.assign]
  congr 2
  unfold ETD5.coefD
  congr 1
  all_goals
    funext i
    simp only [setMask, Pi.mul_apply, Pi.sub_apply, Pi.add_apply, Pi.neg_apply, Pi.div_apply, Pi.ofNat_apply, bc_apply]
    by_cases hz : ‖(h : ℂ) * L i‖ < cfg.modecutoff
    · simp only [hz, if_true, mean_psi1 cfg (1 / 4) _ quarter_mul _ hz, mean_psi2 cfg (1 / 4) _ quarter_mul _ hz,
        mean_psi1 cfg (1 / 2) _ half_mul _ hz, mean_psi2 cfg (1 / 2) _ half_mul _ hz,
        mean_psi1 cfg (3 / 4) _ three_quarter_mul _ hz, mean_psi2 cfg (3 / 4) _ three_quarter_mul _ hz,
        mean_psi1 cfg 1 _ one_mul' _ hz, mean_psi2 cfg 1 _ one_mul' _ hz, mean_psi3 cfg 1 _ one_mul' _ hz]
    · simp only [hz, if_false, not_false_eq_true, if_true,
        big_psi1 cfg (1 / 4) _ _ (quarter_mul _) hz, big_psi2 cfg (1 / 4) _ _ (quarter_mul _) hz,
        big_psi1 cfg (1 / 2) _ _ (half_mul _) hz, big_psi2 cfg (1 / 2) _ _ (half_mul _) hz,
        big_psi1 cfg (3 / 4) _ _ (three_quarter_mul _) hz, big_psi2 cfg (3 / 4) _ _ (three_quarter_mul _) hz,
        big_psi1 cfg 1 _ _ (one_mul' _) hz, big_psi2 cfg 1 _ _ (one_mul' _) hz,
        big_psi3 cfg 1 _ _ (one_mul' _) hz]

/-- Diagonal ETD5 is the fifth order method. -/
noncomputable def ETD5.lawDiagonal (cfg : ETDConfig ℝ) (L : Vec ι) (nl : NlFunc ι) :
    LawfulCSStrategy (ETD5.diagonal cfg L nl) nl (fun _ => True)
      (fun h => etd5Method true (cfg.phiD L h) (Matrix.diagonal L) h) where
  coefs h := ETD5.coefD cfg L h
  cost := 6
  first h := rfl
  pos h := by simp [etd5Method]
  coeffs_ok h s _ := ETD5.coeffsDiagonal_eq cfg L h s
  coeffs_err h s hc := absurd trivial hc
  n1_ok u s n hn := by simp [ETD5.diagonal, PyM.bind_apply, CSMethod.call, hn]
  n1_err u s e hn := by simp [ETD5.diagonal, PyM.bind_apply, CSMethod.call, hn]
  stages u h s hc := by
    refine cs_stages6 (etd5_fsal _ _ h) _ _ _ _ _ _ ?_ ?_ ?_ ?_ ?_ ?_ s
      ((ETD5.diagonal cfg L nl).updateStages u h) rfl
    all_goals
      intros
      funext i
      simp [etd5Method, phiDiag, ETD5.coefD, ETDConfig.phiM, expm_diagonal, hc, mulVec_diagonal, smul_mulVec, sub_mulVec,
        add_mulVec, neg_mulVec]
      ring_nf

/-- Full-matrix coefficients of ETD5. -/
noncomputable def ETD5.coefN (cfg : ETDConfig ℝ) (L : Mat ι) (h : ℝ) : Etd5Coef (Mat ι) :=
  let p1 (c : ℝ) : Mat ι := cfg.phiF L h 1 c
  let p2 (c : ℝ) : Mat ι := (2 : ℂ) • cfg.phiF L h 2 c
  let p3 (c : ℝ) : Mat ι := (6 : ℂ) • cfg.phiF L h 3 c
  { EL14 := expm L (h / 4)
    EL12 := expm L (h / 2)
    EL34 := expm L (3 * h / 4)
    EL := expm L h
    a21 := (h / 4 : ℂ) • p1 (1 / 4)
    a31 := (h / 4 : ℂ) • (p1 (1 / 4) - (1 / 2 : ℂ) • p2 (1 / 4))
    a32 := (h / 8 : ℂ) • p2 (1 / 4)
    a41 := (h / 2 : ℂ) • (p1 (1 / 2) - p2 (1 / 2))
    a43 := (h / 2 : ℂ) • p2 (1 / 2)
    a51 := (h * 3 / 4 : ℂ) • (p1 (3 / 4) - (3 / 4 : ℂ) • p2 (3 / 4))
    a52 := (-3 * h / 8 : ℂ) • p1 (3 / 4)
    a54 := (h * 9 / 16 : ℂ) • p2 (3 / 4)
    a61 := (h / 42 : ℂ) • (-(77 : ℂ) • p1 1 + (59 : ℂ) • p2 1)
    a62 := (h * 8 / 7 : ℂ) • p1 1
    a63 := (h / 28 : ℂ) • ((111 : ℂ) • p1 1 - (87 : ℂ) • p2 1)
    a65 := (h / 84 : ℂ) • (-(47 : ℂ) • p1 1 + (143 : ℂ) • p2 1)
    b1 := (h * 7 / 2700 : ℂ) • ((257 : ℂ) • p1 1 - (497 : ℂ) • p2 1 + (270 : ℂ) • p3 1)
    b3 := (h / 1350 : ℂ) • ((1097 : ℂ) • p1 1 - (467 : ℂ) • p2 1 - (150 : ℂ) • p3 1)
    b4 := (h * 2 / 225 : ℂ) • (-(49 : ℂ) • p1 1 + (199 : ℂ) • p2 1 - (135 : ℂ) • p3 1)
    b5 := (h / 1350 : ℂ) • (-(313 : ℂ) • p1 1 + (883 : ℂ) • p2 1 - (90 : ℂ) • p3 1)
    b6 := (h / 2700 : ℂ) • ((509 : ℂ) • p1 1 - (2129 : ℂ) • p2 1 + (1830 : ℂ) • p3 1) }

/-- The accumulators after `n` rounds. -/
noncomputable def ETD5.accAt (cfg : ETDConfig ℝ) (z : Mat ι) (n : ℕ) : ETD5.Acc ι :=
  ⟨contourSum cfg psi1 (1 / 4) z n, contourSum cfg psi2 (1 / 4) z n,
   contourSum cfg psi1 (1 / 2) z n, contourSum cfg psi2 (1 / 2) z n,
   contourSum cfg psi1 (3 / 4) z n, contourSum cfg psi2 (3 / 4) z n,
   contourSum cfg psi1 1 z n, contourSum cfg psi2 1 z n, contourSum cfg psi3 1 z n⟩

/-- All inverses of one round exist. -/
def ETD5.roundOk (cfg : ETDConfig ℝ) (z : Mat ι) (m : ℕ) : Prop :=
  IsUnit (cfg.point m • (1 : Mat ι) - (1 / 4 : ℂ) • z).det ∧ IsUnit (cfg.point m • (1 : Mat ι) - (1 / 2 : ℂ) • z).det ∧
  IsUnit (cfg.point m • (1 : Mat ι) - (3 / 4 : ℂ) • z).det ∧ IsUnit (cfg.point m • (1 : Mat ι) - z).det

theorem ETD5.loop_eq {σ : Type} (cfg : ETDConfig ℝ) (z : Mat ι) (s : σ) :
    ((∀ m, m < cfg.npts → ETD5.roundOk cfg z m) →
      (List.range cfg.npts).foldlM (ETD5.loopBody cfg z) ⟨0, 0, 0, 0, 0, 0, 0, 0, 0⟩ s =
        (.ok (ETD5.accAt cfg z cfg.npts), s)) ∧
    ((∃ m, m < cfg.npts ∧ ¬ ETD5.roundOk cfg z m) →
      (List.range cfg.npts).foldlM (ETD5.loopBody cfg z) ⟨0, 0, 0, 0, 0, 0, 0, 0, 0⟩ s = (.error .linAlgError, s)) := by
  have h0 : ETD5.accAt cfg z 0 = ⟨0, 0, 0, 0, 0, 0, 0, 0, 0⟩ := by simp [ETD5.accAt, contourSum]
  rw [← h0]
  refine foldlM_range _ (ETD5.accAt cfg z) _ _ s ?_ ?_ _
  · rintro m ⟨h1, h2, h3, h4⟩
    unfold ETD5.loopBody
    rw [PyM.bind_ok (npInv_ok h1 s), PyM.bind_ok (npInv_ok h2 s), PyM.bind_ok (npInv_ok h3 s),
      PyM.bind_ok (npInv_ok h4 s)]
    simp only [PyM.pure_apply, ETD5.accAt, contourSum_succ, one_smul]
  · intro m a h
    unfold ETD5.loopBody
    by_cases h1 : IsUnit (cfg.point m • (1 : Mat ι) - (1 / 4 : ℂ) • z).det
    · rw [PyM.bind_ok (npInv_ok h1 s)]
      by_cases h2 : IsUnit (cfg.point m • (1 : Mat ι) - (1 / 2 : ℂ) • z).det
      · rw [PyM.bind_ok (npInv_ok h2 s)]
        by_cases h3 : IsUnit (cfg.point m • (1 : Mat ι) - (3 / 4 : ℂ) • z).det
        · rw [PyM.bind_ok (npInv_ok h3 s), PyM.bind_error (npInv_err (fun h4 => h ⟨h1, h2, h3, h4⟩) s)]
        · rw [PyM.bind_error (npInv_err h3 s)]
      · rw [PyM.bind_error (npInv_err h2 s)]
    · rw [PyM.bind_error (npInv_err h1 s)]

theorem ETD5.contourOk_iff (cfg : ETDConfig ℝ) (L : Mat ι) (h : ℝ) :
    ContourOk cfg.contour_radius cfg.npts L [1 / 4, 1 / 2, 3 / 4, 1] h ↔
      ∀ m, m < cfg.npts → ETD5.roundOk cfg ((h : ℂ) • L) m := by
  rw [cfg.contourOk_iff]
  refine forall_congr' fun m => forall_congr' fun _ => ⟨fun H => ?_, fun H c hc => ?_⟩
  · have a1 := H (1 / 4) (by simp)
    have a2 := H (1 / 2) (by simp)
    have a3 := H (3 / 4) (by simp)
    have b := H 1 (by simp)
    rw [Complex.ofReal_one, one_smul] at b
    push_cast at a1 a2 a3
    exact ⟨a1, a2, a3, b⟩
  · simp only [List.mem_cons, List.not_mem_nil, or_false] at hc
    obtain ⟨a1, a2, a3, b⟩ := H
    rcases hc with rfl | rfl | rfl | rfl
    · push_cast; exact a1
    · push_cast; exact a2
    · push_cast; exact a3
    · rw [Complex.ofReal_one, one_smul]; exact b

/-- Full-matrix ETD5 is the fifth order method; the coefficients can be computed when the contour avoids the
spectrum. -/
noncomputable def ETD5.lawNonDiagonal (cfg : ETDConfig ℝ) (L : Mat ι) (nl : NlFunc ι) :
    LawfulCSStrategy (ETD5.nonDiagonal cfg L nl) nl (ContourOk cfg.contour_radius cfg.npts L [1 / 4, 1 / 2, 3 / 4, 1])
      (fun h => etd5Method true (cfg.phiF L h) L h) where
  coefs h := ETD5.coefN cfg L h
  cost := 6
  first h := rfl
  pos h := by simp [etd5Method]
  coeffs_ok h s hc := by
    simp only [ETD5.nonDiagonal, ETD5.coeffsNonDiagonal, PyM.bind_modify_apply]
    rw [PyM.bind_ok ((ETD5.loop_eq cfg _ _).1 ((ETD5.contourOk_iff cfg L h).1 hc))]
    simp only [PyM.modify_apply, ETD5.coefN, ETD5.accAt, exp_smul_eq,
      exp_smul_smul_eq L (1 / 4) h (show (1 / 4 : ℂ) = ((1 / 4 : ℝ) : ℂ) by push_cast; ring), show (1 / 4 : ℝ) * h = h / 4 by ring,
      exp_smul_smul_eq L (1 / 2) h (show (1 / 2 : ℂ) = ((1 / 2 : ℝ) : ℂ) by push_cast; ring), show (1 / 2 : ℝ) * h = h / 2 by ring,
      exp_smul_smul_eq L (3 / 4) h (show (3 / 4 : ℂ) = ((3 / 4 : ℝ) : ℂ) by push_cast; ring), show (3 / 4 : ℝ) * h = 3 * h / 4 by ring,
      contourSum_eq cfg 1 1 psi1_eq' (show (1 / 4 : ℂ) = ((1 / 4 : ℝ) : ℂ) by push_cast; ring),
      contourSum_eq cfg 2 2 psi2_eq (show (1 / 4 : ℂ) = ((1 / 4 : ℝ) : ℂ) by push_cast; ring),
      contourSum_eq cfg 1 1 psi1_eq' (show (1 / 2 : ℂ) = ((1 / 2 : ℝ) : ℂ) by push_cast; ring),
      contourSum_eq cfg 2 2 psi2_eq (show (1 / 2 : ℂ) = ((1 / 2 : ℝ) : ℂ) by push_cast; ring),
      contourSum_eq cfg 1 1 psi1_eq' (show (3 / 4 : ℂ) = ((3 / 4 : ℝ) : ℂ) by push_cast; ring),
      contourSum_eq cfg 2 2 psi2_eq (show (3 / 4 : ℂ) = ((3 / 4 : ℝ) : ℂ) by push_cast; ring),
      contourSum_eq cfg 1 1 psi1_eq' (show (1 : ℂ) = ((1 : ℝ) : ℂ) by push_cast; ring),
      contourSum_eq cfg 2 2 psi2_eq (show (1 : ℂ) = ((1 : ℝ) : ℂ) by push_cast; ring),
      contourSum_eq cfg 6 3 psi3_eq (show (1 : ℂ) = ((1 : ℝ) : ℂ) by push_cast; ring), one_smul]
  coeffs_err h s hc := by
    rw [ETD5.contourOk_iff] at hc
    push Not at hc
    obtain ⟨m, hm, h1⟩ := hc
    refine ⟨{ s.coef with EL14 := NormedSpace.exp ((1 / 4 : ℂ) • ((h : ℂ) • L)),
                          EL12 := NormedSpace.exp ((1 / 2 : ℂ) • ((h : ℂ) • L)),
                          EL34 := NormedSpace.exp ((3 / 4 : ℂ) • ((h : ℂ) • L)),
                          EL := NormedSpace.exp ((h : ℂ) • L) }, ?_⟩
    simp only [ETD5.nonDiagonal, ETD5.coeffsNonDiagonal, PyM.bind_modify_apply]
    rw [PyM.bind_error ((ETD5.loop_eq cfg _ _).2 ⟨m, hm, h1⟩)]
  n1_ok u s n hn := by simp [ETD5.nonDiagonal, PyM.bind_apply, CSMethod.call, hn]
  n1_err u s e hn := by simp [ETD5.nonDiagonal, PyM.bind_apply, CSMethod.call, hn]
  stages u h s hc := by
    refine cs_stages6 (etd5_fsal _ _ h) _ _ _ _ _ _ ?_ ?_ ?_ ?_ ?_ ?_ s
      ((ETD5.nonDiagonal cfg L nl).updateStages u h) rfl
    all_goals
      intros
      simp only [hc, ETD5.coefN, etd5Method, smul_mulVec, sub_mulVec, add_mulVec, neg_mulVec, zero_mulVec, smul_zero,
        mulVec_sub, mulVec_smul, three_halves, neg_smul]
      module

end Verif
