import Verif.Lemmas.ETDCoef

/-!
# ETD4 implements Krogstad's method with approximated φ functions
-/

set_option linter.unusedSectionVars false

namespace Verif

open Matrix

variable {ι : Type} [Fintype ι] [DecidableEq ι]

theorem krogstad_fsal (φ : ℕ → ℝ → Mat ι) (L : Mat ι) (h : ℝ) : IsFSAL (krogstad φ L h) 4 where
  s_eq := rfl
  first := rfl
  Eout := rfl
  B j hj := by interval_cases j <;> rfl
  Blast := by simp [krogstad]

/-- `φ` approximation of one mode for the configuration. -/
noncomputable abbrev ETDConfig.phiM (cfg : ETDConfig ℝ) (k : ℕ) (c : ℝ) (z : ℂ) : ℂ :=
  phiMode cfg.modecutoff cfg.contour_radius cfg.npts k c z

noncomputable abbrev ETDConfig.phiD (cfg : ETDConfig ℝ) (L : Vec ι) (h : ℝ) : ℕ → ℝ → Mat ι :=
  phiDiag cfg.modecutoff cfg.contour_radius cfg.npts L h

noncomputable abbrev ETDConfig.phiF (cfg : ETDConfig ℝ) (L : Mat ι) (h : ℝ) : ℕ → ℝ → Mat ι :=
  phiFull cfg.contour_radius cfg.npts L h

/-- Diagonal coefficients of ETD4. -/
noncomputable def ETD4.coefD (cfg : ETDConfig ℝ) (L : Vec ι) (h : ℝ) : Etd4Coef (Vec ι) :=
  let p (k : ℕ) (c : ℝ) (i : ι) : ℂ := h * cfg.phiM k c (h * L i)
  { EL := fun i => Complex.exp (h * L i)
    EL2 := fun i => Complex.exp (h * L i / 2)
    a21 := fun i => 1 / 2 * p 1 (1 / 2) i
    a31 := fun i => 1 / 2 * p 1 (1 / 2) i - p 2 (1 / 2) i
    a32 := fun i => p 2 (1 / 2) i
    a41 := fun i => p 1 1 i - 2 * p 2 1 i
    a43 := fun i => 2 * p 2 1 i
    b1 := fun i => p 1 1 i - 3 * p 2 1 i + 4 * p 3 1 i
    b2 := fun i => 2 * p 2 1 i - 4 * p 3 1 i
    b4 := fun i => -p 2 1 i + 4 * p 3 1 i }

theorem mean_psi1 (cfg : ETDConfig ℝ) (c : ℝ) (g : ℂ → ℂ) (hg : ∀ w, g w = c * w) (z : ℂ) (hz : ‖z‖ < cfg.modecutoff) :
    cfg.mean (fun w => psi1 (g w)) z = cfg.phiM 1 c z := by
  simp only [psi1_eq, hg, ETDConfig.mean_eq, ETDConfig.phiM, phiMode, if_pos hz]

theorem mean_psi2 (cfg : ETDConfig ℝ) (c : ℝ) (g : ℂ → ℂ) (hg : ∀ w, g w = c * w) (z : ℂ) (hz : ‖z‖ < cfg.modecutoff) :
    cfg.mean (fun w => psi2 (g w)) z = 2 * cfg.phiM 2 c z := by
  simp only [psi2_eq, hg, ETDConfig.mean_eq, contourMean_mul, ETDConfig.phiM, phiMode, if_pos hz]

theorem mean_psi3 (cfg : ETDConfig ℝ) (c : ℝ) (g : ℂ → ℂ) (hg : ∀ w, g w = c * w) (z : ℂ) (hz : ‖z‖ < cfg.modecutoff) :
    cfg.mean (fun w => psi3 (g w)) z = 6 * cfg.phiM 3 c z := by
  simp only [psi3_eq, hg, ETDConfig.mean_eq, contourMean_mul, ETDConfig.phiM, phiMode, if_pos hz]

theorem big_psi1 (cfg : ETDConfig ℝ) (c : ℝ) (z z' : ℂ) (hg : z' = c * z) (hz : ¬ ‖z‖ < cfg.modecutoff) :
    psi1 z' = cfg.phiM 1 c z := by
  simp only [psi1_eq, hg, ETDConfig.phiM, phiMode, if_neg hz]

theorem big_psi2 (cfg : ETDConfig ℝ) (c : ℝ) (z z' : ℂ) (hg : z' = c * z) (hz : ¬ ‖z‖ < cfg.modecutoff) :
    psi2 z' = 2 * cfg.phiM 2 c z := by
  simp only [psi2_eq, hg, ETDConfig.phiM, phiMode, if_neg hz]

theorem big_psi3 (cfg : ETDConfig ℝ) (c : ℝ) (z z' : ℂ) (hg : z' = c * z) (hz : ¬ ‖z‖ < cfg.modecutoff) :
    psi3 z' = 6 * cfg.phiM 3 c z := by
  simp only [psi3_eq, hg, ETDConfig.phiM, phiMode, if_neg hz]

theorem half_mul (z : ℂ) : z / 2 = ((1 / 2 : ℝ) : ℂ) * z := by push_cast; ring
theorem quarter_mul (z : ℂ) : z / 4 = ((1 / 4 : ℝ) : ℂ) * z := by push_cast; ring
theorem three_quarter_mul (z : ℂ) : 3 * z / 4 = ((3 / 4 : ℝ) : ℂ) * z := by push_cast; ring
theorem one_mul' (z : ℂ) : z = ((1 : ℝ) : ℂ) * z := by push_cast; ring

theorem ETD4.coeffsDiagonal_eq (cfg : ETDConfig ℝ) (L : Vec ι) (h : ℝ) (s : CSMethod (Etd4Coef (Vec ι)) ι) :
    ETD4.coeffsDiagonal cfg h (bc h * L) s = (.ok (), { s with coef := ETD4.coefD cfg L h }) := by
  unfold ETD4.coeffsDiagonal
  simp only [PyM.bind_modify_apply, PyM.modify_apply, ETD4.assign]
  congr 2
  unfold ETD4.coefD
  congr 1
  all_goals
    funext i
    simp only [setMask, Pi.mul_apply, Pi.sub_apply, Pi.add_apply, Pi.neg_apply, bc_apply]
    by_cases hz : ‖(h : ℂ) * L i‖ < cfg.modecutoff
    · simp only [hz, if_true, mean_psi1 cfg (1 / 2) _ half_mul _ hz, mean_psi2 cfg (1 / 2) _ half_mul _ hz,
        mean_psi1 cfg 1 _ one_mul' _ hz, mean_psi2 cfg 1 _ one_mul' _ hz, mean_psi3 cfg 1 _ one_mul' _ hz] <;> ring
    · simp only [hz, if_false, not_false_eq_true, if_true,
        big_psi1 cfg (1 / 2) _ _ (half_mul _) hz, big_psi2 cfg (1 / 2) _ _ (half_mul _) hz,
        big_psi1 cfg 1 _ _ (one_mul' _) hz, big_psi2 cfg 1 _ _ (one_mul' _) hz, big_psi3 cfg 1 _ _ (one_mul' _) hz] <;> ring

/-- Diagonal ETD4 is Krogstad's method. -/
noncomputable def ETD4.lawDiagonal (cfg : ETDConfig ℝ) (L : Vec ι) (nl : NlFunc ι) :
    LawfulCSStrategy (ETD4.diagonal cfg L nl) nl (fun _ => True)
      (fun h => krogstad (cfg.phiD L h) (Matrix.diagonal L) h) where
  coefs h := ETD4.coefD cfg L h
  cost := 4
  first h := rfl
  pos h := by simp [krogstad]
  coeffs_ok h s _ := ETD4.coeffsDiagonal_eq cfg L h s
  coeffs_err h s hc := absurd trivial hc
  n1_ok u s n hn := by simp [ETD4.diagonal, PyM.bind_apply, CSMethod.call, hn]
  n1_err u s e hn := by simp [ETD4.diagonal, PyM.bind_apply, CSMethod.call, hn]
  stages u h s hc := by
    refine cs_stages4 (krogstad_fsal _ _ h) _ _ _ _ ?_ ?_ ?_ ?_ s ((ETD4.diagonal cfg L nl).updateStages u h) rfl
    all_goals
      intros
      funext i
      simp [krogstad, phiDiag, ETD4.coefD, ETDConfig.phiM, expm_diagonal, hc, mulVec_diagonal, smul_mulVec, sub_mulVec,
        add_mulVec]
      ring_nf

/-- Full-matrix coefficients of ETD4. -/
noncomputable def ETD4.coefN (cfg : ETDConfig ℝ) (L : Mat ι) (h : ℝ) : Etd4Coef (Mat ι) :=
  let p (k : ℕ) (c : ℝ) : Mat ι := cfg.phiF L h k c
  { EL := expm L h
    EL2 := expm L (h / 2)
    a21 := (1 / 2 * h : ℂ) • p 1 (1 / 2)
    a31 := (1 / 2 * h : ℂ) • (p 1 (1 / 2) - (2 : ℂ) • p 2 (1 / 2))
    a32 := (1 / 2 * h : ℂ) • ((2 : ℂ) • p 2 (1 / 2))
    a41 := (h : ℂ) • (p 1 1 - (2 : ℂ) • p 2 1)
    a43 := (h : ℂ) • ((2 : ℂ) • p 2 1)
    b1 := (h : ℂ) • (p 1 1 - (3 / 2 : ℂ) • (2 : ℂ) • p 2 1 + (2 / 3 : ℂ) • (6 : ℂ) • p 3 1)
    b2 := (h : ℂ) • ((2 : ℂ) • p 2 1 - (2 / 3 : ℂ) • (6 : ℂ) • p 3 1)
    b4 := (h : ℂ) • (-(1 / 2 : ℂ) • (2 : ℂ) • p 2 1 + (2 / 3 : ℂ) • (6 : ℂ) • p 3 1) }

/-- The accumulators after `n` rounds. -/
noncomputable def ETD4.accAt (cfg : ETDConfig ℝ) (z : Mat ι) (n : ℕ) : ETD4.Acc ι :=
  ⟨contourSum cfg psi1 (1 / 2) z n, contourSum cfg psi2 (1 / 2) z n,
   contourSum cfg psi1 1 z n, contourSum cfg psi2 1 z n, contourSum cfg psi3 1 z n⟩

theorem ETD4.loop_eq {σ : Type} (cfg : ETDConfig ℝ) (z : Mat ι) (s : σ) :
    ((∀ m, m < cfg.npts → IsUnit (cfg.point m • (1 : Mat ι) - z).det ∧
        IsUnit (cfg.point m • (1 : Mat ι) - (1 / 2 : ℂ) • z).det) →
      (List.range cfg.npts).foldlM (ETD4.loopBody cfg z) ⟨0, 0, 0, 0, 0⟩ s = (.ok (ETD4.accAt cfg z cfg.npts), s)) ∧
    ((∃ m, m < cfg.npts ∧ ¬ (IsUnit (cfg.point m • (1 : Mat ι) - z).det ∧
        IsUnit (cfg.point m • (1 : Mat ι) - (1 / 2 : ℂ) • z).det)) →
      (List.range cfg.npts).foldlM (ETD4.loopBody cfg z) ⟨0, 0, 0, 0, 0⟩ s = (.error .linAlgError, s)) := by
  have h0 : ETD4.accAt cfg z 0 = ⟨0, 0, 0, 0, 0⟩ := by simp [ETD4.accAt, contourSum]
  rw [← h0]
  refine foldlM_range _ (ETD4.accAt cfg z) _ _ s ?_ ?_ _
  · rintro m ⟨h1, h2⟩
    unfold ETD4.loopBody
    rw [PyM.bind_ok (npInv_ok h1 s), PyM.bind_ok (npInv_ok h2 s)]
    simp only [PyM.pure_apply, ETD4.accAt, contourSum_succ, one_smul]
  · intro m a h
    unfold ETD4.loopBody
    by_cases h1 : IsUnit (cfg.point m • (1 : Mat ι) - z).det
    · rw [PyM.bind_ok (npInv_ok h1 s), PyM.bind_error (npInv_err (fun h2 => h ⟨h1, h2⟩) s)]
    · rw [PyM.bind_error (npInv_err h1 s)]

theorem ETDConfig.contourOk_iff (cfg : ETDConfig ℝ) (L : Mat ι) (h : ℝ) (cs : List ℝ) :
    ContourOk cfg.contour_radius cfg.npts L cs h ↔
      ∀ m, m < cfg.npts → ∀ c ∈ cs, IsUnit (cfg.point m • (1 : Mat ι) - (c : ℂ) • ((h : ℂ) • L)).det := by
  unfold ContourOk
  refine forall_congr' fun m => forall_congr' fun hm => forall_congr' fun c => forall_congr' fun _ => ?_
  rw [cfg.point_eq hm, smul_smul, Complex.ofReal_mul]

theorem ETD4.contourOk_iff (cfg : ETDConfig ℝ) (L : Mat ι) (h : ℝ) :
    ContourOk cfg.contour_radius cfg.npts L [1 / 2, 1] h ↔
      ∀ m, m < cfg.npts → IsUnit (cfg.point m • (1 : Mat ι) - (h : ℂ) • L).det ∧
        IsUnit (cfg.point m • (1 : Mat ι) - (1 / 2 : ℂ) • ((h : ℂ) • L)).det := by
  rw [cfg.contourOk_iff]
  refine forall_congr' fun m => forall_congr' fun _ => ⟨fun H => ?_, fun H c hc => ?_⟩
  · have a := H (1 / 2) (by simp)
    have b := H 1 (by simp)
    rw [Complex.ofReal_one, one_smul] at b
    push_cast at a
    exact ⟨b, a⟩
  · simp only [List.mem_cons, List.not_mem_nil, or_false] at hc
    rcases hc with rfl | rfl
    · push_cast; exact H.2
    · rw [Complex.ofReal_one, one_smul]; exact H.1

/-- Full-matrix ETD4 is Krogstad's method; the coefficients can be computed when the contour avoids the spectrum. -/
noncomputable def ETD4.lawNonDiagonal (cfg : ETDConfig ℝ) (L : Mat ι) (nl : NlFunc ι) :
    LawfulCSStrategy (ETD4.nonDiagonal cfg L nl) nl (ContourOk cfg.contour_radius cfg.npts L [1 / 2, 1])
      (fun h => krogstad (cfg.phiF L h) L h) where
  coefs h := ETD4.coefN cfg L h
  cost := 4
  first h := rfl
  pos h := by simp [krogstad]
  coeffs_ok h s hc := by
    simp only [ETD4.nonDiagonal, ETD4.coeffsNonDiagonal, PyM.bind_modify_apply]
    rw [PyM.bind_ok ((ETD4.loop_eq cfg _ _).1 ((ETD4.contourOk_iff cfg L h).1 hc))]
    simp only [PyM.modify_apply, ETD4.coefN, ETD4.accAt, exp_smul_eq,
      exp_smul_smul_eq L (1 / 2) h (show (1 / 2 : ℂ) = ((1 / 2 : ℝ) : ℂ) by simp), show (1 / 2 : ℝ) * h = h / 2 by ring,
      contourSum_eq cfg 1 1 psi1_eq' (show (1 / 2 : ℂ) = ((1 / 2 : ℝ) : ℂ) by simp),
      contourSum_eq cfg 2 2 psi2_eq (show (1 / 2 : ℂ) = ((1 / 2 : ℝ) : ℂ) by simp),
      contourSum_eq cfg 1 1 psi1_eq' (show (1 : ℂ) = ((1 : ℝ) : ℂ) by simp),
      contourSum_eq cfg 2 2 psi2_eq (show (1 : ℂ) = ((1 : ℝ) : ℂ) by simp),
      contourSum_eq cfg 6 3 psi3_eq (show (1 : ℂ) = ((1 : ℝ) : ℂ) by simp), one_smul]
  coeffs_err h s hc := by
    rw [ETD4.contourOk_iff] at hc
    push Not at hc
    obtain ⟨m, hm, h1⟩ := hc
    refine ⟨{ s.coef with EL := NormedSpace.exp ((h : ℂ) • L), EL2 := NormedSpace.exp ((1 / 2 : ℂ) • ((h : ℂ) • L)) }, ?_⟩
    simp only [ETD4.nonDiagonal, ETD4.coeffsNonDiagonal, PyM.bind_modify_apply]
    rw [PyM.bind_error ((ETD4.loop_eq cfg _ _).2 ⟨m, hm, fun ⟨a, b⟩ => h1 a b⟩)]
  n1_ok u s n hn := by simp [ETD4.nonDiagonal, PyM.bind_apply, CSMethod.call, hn]
  n1_err u s e hn := by simp [ETD4.nonDiagonal, PyM.bind_apply, CSMethod.call, hn]
  stages u h s hc := by
    refine cs_stages4 (krogstad_fsal _ _ h) _ _ _ _ ?_ ?_ ?_ ?_ s ((ETD4.nonDiagonal cfg L nl).updateStages u h) rfl
    all_goals
      intros
      simp only [hc, ETD4.coefN, krogstad, smul_mulVec, sub_mulVec, add_mulVec, neg_mulVec, zero_mulVec, smul_zero,
        mulVec_add, neg_smul]
      module

end Verif
