import Verif.Lemmas.FloatExact

/-!
# With exact operations the computed coefficients of matrices are the exact ones
-/

set_option linter.unusedSectionVars false
set_option linter.unusedSimpArgs false

namespace Verif

open Matrix

variable {ι : Type} [Fintype ι] [DecidableEq ι]

/-- A loop that raises in the first round in which `P` fails. -/
theorem exceptLoop {α : Type} (body : α → ℕ → Except PyErr α) (f : ℕ → α) (P : ℕ → Prop) (e : PyErr)
    (ok : ∀ m, P m → body (f m) m = .ok (f (m + 1))) (err : ∀ m a, ¬ P m → body a m = .error e) (n : ℕ) :
    ((∀ m, m < n → P m) → (List.range n).foldlM body (f 0) = .ok (f n)) ∧
    ((∃ m, m < n ∧ ¬ P m) → (List.range n).foldlM body (f 0) = .error e) := by
  induction n with
  | zero => exact ⟨fun _ => rfl, fun ⟨m, h1, _⟩ => by omega⟩
  | succ n ih =>
    rw [List.range_succ, List.foldlM_append]
    constructor
    · intro h
      rw [ih.1 fun m hm => h m (by omega)]
      change [n].foldlM body (f n) = _
      rw [List.foldlM_cons, ok n (h n (by omega))]
      rfl
    · rintro ⟨m, h1, h2⟩
      by_cases h : ∃ m, m < n ∧ ¬ P m
      · rw [ih.2 h]
        rfl
      · push Not at h
        rw [ih.1 h]
        change [n].foldlM body (f n) = _
        have : m = n := by
          by_contra hne
          exact h2 (h m (by omega))
        rw [List.foldlM_cons, err n _ (this ▸ h2)]
        rfl

/-- Entries as exact numbers. -/
noncomputable def Fl.ofMat (M : Mat ι) : ι → ι → Fl CArith.exact := fun i j => Fl.lit (M i j)

theorem Fl.mat_ofMat (M : Mat ι) : Fl.mat (Fl.ofMat M) = M := rfl

theorem Fl.zero_ofMat : (fun _ _ => 0 : ι → ι → Fl CArith.exact) = Fl.ofMat 0 := by
  funext i j
  change ((0 : ℕ) : ℂ) = 0
  simp

theorem Fl.val_zero : (0 : Fl CArith.exact).val = 0 := by
  change ((0 : ℕ) : ℂ) = 0
  simp

theorem Fl.shift_exact (cfg : ETDConfig ℝ) (k : ℕ) {y : ι → ι → Fl CArith.exact} {M : Mat ι} (hy : Fl.mat y = M) :
    Fl.shift (Fl.point cfg k) y = cfg.point k • (1 : Mat ι) - M := by
  subst hy
  funext i j
  simp only [Fl.shift, Fl.mat, Fl.val_sub, Fl.val_mul, Fl.point_exact, Matrix.sub_apply, Matrix.smul_apply, smul_eq_mul]
  by_cases h : i = j
  · subst h
    simp [Fl.val_one]
  · simp [h, Fl.val_zero]

theorem Fl.accum_exact (cfg : ETDConfig ℝ) (f' : Fl CArith.exact → Fl CArith.exact) (f : ℂ → ℂ) (hf : ∀ w, (f' w).val = f w.val) (k : ℕ)
    (M Q : Mat ι) :
    Fl.accum cfg (Fl.point cfg k) (f' (Fl.point cfg k)) Q (Fl.ofMat M) =
      Fl.ofMat (M + (cfg.point k * f (cfg.point k) / cfg.contour_points) • Q) := by
  funext i j
  change (Fl.accum cfg (Fl.point cfg k) (f' (Fl.point cfg k)) Q (Fl.ofMat M) i j).val = _
  simp only [Fl.accum, Fl.val_add, Fl.val_div, Fl.val_mul, Fl.point_exact, hf, Fl.val_lit, Fl.ofMat]
  change _ = M i j + (cfg.point k * f (cfg.point k) / cfg.contour_points) * Q i j
  ring

theorem LinAlg.inv_ok {M : Mat ι} (h : IsUnit M.det) : LinAlg.exact.inv M = .ok M⁻¹ := if_pos h
theorem LinAlg.inv_err {M : Mat ι} (h : ¬ IsUnit M.det) : LinAlg.exact.inv M = .error .linAlgError := if_neg h

theorem flZ_exact (L : Mat ι) (h : ℝ) : Fl.mat (flZ CArith.exact L h) = (h : ℂ) • L := rfl

theorem flZ_exact2 (L : Mat ι) (h : ℝ) : Fl.mat (fun i j => flZ CArith.exact L h i j / 2) = (1 / 2 : ℂ) • ((h : ℂ) • L) := by
  funext i j
  simp only [Fl.mat, Fl.val_div, Fl.val_num, Matrix.smul_apply, smul_eq_mul]
  change (h : ℂ) * L i j / 2 = _
  ring

theorem flZ_exact4 (L : Mat ι) (h : ℝ) : Fl.mat (fun i j => flZ CArith.exact L h i j / 4) = (1 / 4 : ℂ) • ((h : ℂ) • L) := by
  funext i j
  simp only [Fl.mat, Fl.val_div, Fl.val_num, Matrix.smul_apply, smul_eq_mul]
  change (h : ℂ) * L i j / 4 = _
  ring

theorem flZ_exact34 (L : Mat ι) (h : ℝ) : Fl.mat (fun i j => 3 * flZ CArith.exact L h i j / 4) = (3 / 4 : ℂ) • ((h : ℂ) • L) := by
  funext i j
  simp only [Fl.mat, Fl.val_div, Fl.val_mul, Fl.val_num, Matrix.smul_apply, smul_eq_mul]
  change 3 * ((h : ℂ) * L i j) / 4 = _
  ring

/-- The accumulators of ETD4 after `n` rounds. -/
noncomputable def Fl.acc4 (cfg : ETDConfig ℝ) (z : Mat ι) (n : ℕ) : Psis (ι → ι → Fl CArith.exact) where
  psi1_14 := Fl.ofMat 0
  psi2_14 := Fl.ofMat 0
  psi1_12 := Fl.ofMat (contourSum cfg Verif.psi1 (1 / 2) z n)
  psi2_12 := Fl.ofMat (contourSum cfg Verif.psi2 (1 / 2) z n)
  psi1_34 := Fl.ofMat 0
  psi2_34 := Fl.ofMat 0
  psi1_1 := Fl.ofMat (contourSum cfg Verif.psi1 1 z n)
  psi2_1 := Fl.ofMat (contourSum cfg Verif.psi2 1 z n)
  psi3_1 := Fl.ofMat (contourSum cfg Verif.psi3 1 z n)

/-- The accumulators of ETD5 after `n` rounds. -/
noncomputable def Fl.acc5 (cfg : ETDConfig ℝ) (z : Mat ι) (n : ℕ) : Psis (ι → ι → Fl CArith.exact) where
  psi1_14 := Fl.ofMat (contourSum cfg Verif.psi1 (1 / 4) z n)
  psi2_14 := Fl.ofMat (contourSum cfg Verif.psi2 (1 / 4) z n)
  psi1_12 := Fl.ofMat (contourSum cfg Verif.psi1 (1 / 2) z n)
  psi2_12 := Fl.ofMat (contourSum cfg Verif.psi2 (1 / 2) z n)
  psi1_34 := Fl.ofMat (contourSum cfg Verif.psi1 (3 / 4) z n)
  psi2_34 := Fl.ofMat (contourSum cfg Verif.psi2 (3 / 4) z n)
  psi1_1 := Fl.ofMat (contourSum cfg Verif.psi1 1 z n)
  psi2_1 := Fl.ofMat (contourSum cfg Verif.psi2 1 z n)
  psi3_1 := Fl.ofMat (contourSum cfg Verif.psi3 1 z n)

theorem Fl.acc4_zero (cfg : ETDConfig ℝ) (z : Mat ι) : Fl.acc4 cfg z 0 = Fl.zeros := by
  simp only [Fl.acc4, Fl.zeros, contourSum, Finset.range_zero, Finset.sum_empty, Fl.zero_ofMat]

theorem Fl.acc5_zero (cfg : ETDConfig ℝ) (z : Mat ι) : Fl.acc5 cfg z 0 = Fl.zeros := by
  simp only [Fl.acc5, Fl.zeros, contourSum, Finset.range_zero, Finset.sum_empty, Fl.zero_ofMat]

theorem Fl.round4_exact (cfg : ETDConfig ℝ) (L : Mat ι) (h : ℝ) :
    (ContourOk cfg.contour_radius cfg.npts L [1 / 2, 1] h →
      (List.range cfg.npts).foldlM (Fl.round4 LinAlg.exact cfg (flZ CArith.exact L h)) Fl.zeros =
        .ok (Fl.acc4 cfg ((h : ℂ) • L) cfg.npts)) ∧
    (¬ ContourOk cfg.contour_radius cfg.npts L [1 / 2, 1] h →
      (List.range cfg.npts).foldlM (Fl.round4 LinAlg.exact cfg (flZ CArith.exact L h)) Fl.zeros = .error .linAlgError) := by
  have key := exceptLoop (Fl.round4 LinAlg.exact cfg (flZ CArith.exact L h)) (Fl.acc4 cfg ((h : ℂ) • L))
    (fun m => IsUnit (cfg.point m • (1 : Mat ι) - (h : ℂ) • L).det ∧ IsUnit (cfg.point m • (1 : Mat ι) - (1 / 2 : ℂ) • ((h : ℂ) • L)).det)
    .linAlgError ?_ ?_ cfg.npts
  · rw [Fl.acc4_zero] at key
    rw [ETD4.contourOk_iff]
    exact ⟨key.1, fun hc => key.2 (by push Not at hc ⊢; exact hc)⟩
  · rintro m ⟨h1, h2⟩
    simp only [Fl.round4, Fl.shift_exact cfg m (flZ_exact L h), Fl.shift_exact cfg m (flZ_exact2 L h), LinAlg.inv_ok h1, LinAlg.inv_ok h2,
      Except.bind]
    simp only [Fl.acc4, contourSum_succ, one_smul, Fl.accum_exact cfg Fl.psi1 Verif.psi1 Fl.val_psi1,
      Fl.accum_exact cfg Fl.psi2 Verif.psi2 Fl.val_psi2, Fl.accum_exact cfg Fl.psi3 Verif.psi3 Fl.val_psi3]
  · intro m a hc
    by_cases h1 : IsUnit (cfg.point m • (1 : Mat ι) - (h : ℂ) • L).det
    · simp only [Fl.round4, Fl.shift_exact cfg m (flZ_exact L h), Fl.shift_exact cfg m (flZ_exact2 L h), LinAlg.inv_ok h1,
        LinAlg.inv_err (fun h2 => hc ⟨h1, h2⟩), Except.bind]
    · simp only [Fl.round4, Fl.shift_exact cfg m (flZ_exact L h), LinAlg.inv_err h1, Except.bind]

theorem Fl.round5_exact (cfg : ETDConfig ℝ) (L : Mat ι) (h : ℝ) :
    (ContourOk cfg.contour_radius cfg.npts L [1 / 4, 1 / 2, 3 / 4, 1] h →
      (List.range cfg.npts).foldlM (Fl.round5 LinAlg.exact cfg (flZ CArith.exact L h)) Fl.zeros =
        .ok (Fl.acc5 cfg ((h : ℂ) • L) cfg.npts)) ∧
    (¬ ContourOk cfg.contour_radius cfg.npts L [1 / 4, 1 / 2, 3 / 4, 1] h →
      (List.range cfg.npts).foldlM (Fl.round5 LinAlg.exact cfg (flZ CArith.exact L h)) Fl.zeros = .error .linAlgError) := by
  have key := exceptLoop (Fl.round5 LinAlg.exact cfg (flZ CArith.exact L h)) (Fl.acc5 cfg ((h : ℂ) • L))
    (fun m => ETD5.roundOk cfg ((h : ℂ) • L) m) .linAlgError ?_ ?_ cfg.npts
  · rw [Fl.acc5_zero] at key
    rw [ETD5.contourOk_iff]
    exact ⟨key.1, fun hc => key.2 (by push Not at hc; exact hc)⟩
  · rintro m ⟨h1, h2, h3, h4⟩
    simp only [Fl.round5, Fl.shift_exact cfg m (flZ_exact L h), Fl.shift_exact cfg m (flZ_exact2 L h), Fl.shift_exact cfg m (flZ_exact4 L h),
      Fl.shift_exact cfg m (flZ_exact34 L h), LinAlg.inv_ok h1, LinAlg.inv_ok h2, LinAlg.inv_ok h3, LinAlg.inv_ok h4, Except.bind]
    simp only [Fl.acc5, contourSum_succ, one_smul, Fl.accum_exact cfg Fl.psi1 Verif.psi1 Fl.val_psi1,
      Fl.accum_exact cfg Fl.psi2 Verif.psi2 Fl.val_psi2, Fl.accum_exact cfg Fl.psi3 Verif.psi3 Fl.val_psi3]
  · intro m a hc
    simp only [Fl.round5, Fl.shift_exact cfg m (flZ_exact L h), Fl.shift_exact cfg m (flZ_exact2 L h), Fl.shift_exact cfg m (flZ_exact4 L h),
      Fl.shift_exact cfg m (flZ_exact34 L h)]
    by_cases h1 : IsUnit (cfg.point m • (1 : Mat ι) - (1 / 4 : ℂ) • ((h : ℂ) • L)).det
    · by_cases h2 : IsUnit (cfg.point m • (1 : Mat ι) - (1 / 2 : ℂ) • ((h : ℂ) • L)).det
      · by_cases h3 : IsUnit (cfg.point m • (1 : Mat ι) - (3 / 4 : ℂ) • ((h : ℂ) • L)).det
        · simp only [LinAlg.inv_ok h1, LinAlg.inv_ok h2, LinAlg.inv_ok h3, LinAlg.inv_err (fun h4 => hc ⟨h1, h2, h3, h4⟩), Except.bind]
        · simp only [LinAlg.inv_ok h1, LinAlg.inv_ok h2, LinAlg.inv_err h3, Except.bind]
      · simp only [LinAlg.inv_ok h1, LinAlg.inv_err h2, Except.bind]
    · simp only [LinAlg.inv_err h1, Except.bind]

theorem flExpm2 (L : Mat ι) (h : ℝ) : LinAlg.exact.expm (Fl.mat fun i j => flZ CArith.exact L h i j / 2) = expm L (h / 2) := by
  change NormedSpace.exp (Fl.mat fun i j => flZ CArith.exact L h i j / 2) = _
  rw [flZ_exact2, exp_smul_smul_eq L (1 / 2) h (show (1 / 2 : ℂ) = ((1 / 2 : ℝ) : ℂ) by simp), show (1 / 2 : ℝ) * h = h / 2 by ring]

theorem flExpm4 (L : Mat ι) (h : ℝ) : LinAlg.exact.expm (Fl.mat fun i j => flZ CArith.exact L h i j / 4) = expm L (h / 4) := by
  change NormedSpace.exp (Fl.mat fun i j => flZ CArith.exact L h i j / 4) = _
  rw [flZ_exact4, exp_smul_smul_eq L (1 / 4) h (show (1 / 4 : ℂ) = ((1 / 4 : ℝ) : ℂ) by simp), show (1 / 4 : ℝ) * h = h / 4 by ring]

theorem flExpm34 (L : Mat ι) (h : ℝ) : LinAlg.exact.expm (Fl.mat fun i j => 3 * flZ CArith.exact L h i j / 4) = expm L (3 * h / 4) := by
  change NormedSpace.exp (Fl.mat fun i j => 3 * flZ CArith.exact L h i j / 4) = _
  rw [flZ_exact34, exp_smul_smul_eq L (3 / 4) h (show (3 / 4 : ℂ) = ((3 / 4 : ℝ) : ℂ) by simp), show (3 / 4 : ℝ) * h = 3 * h / 4 by ring]

theorem IF4.flCoefsMat_exact (L : Mat ι) (h : ℝ) : IF4.flCoefsMat CArith.exact LinAlg.exact L h = ⟨expm L h, expm L (h / 2)⟩ := by
  rw [IF4.flCoefsMat, flExpm2]
  rfl

theorem ETD4.flCoefsMat_exact (cfg : ETDConfig ℝ) (L : Mat ι) (h : ℝ) :
    (ContourOk cfg.contour_radius cfg.npts L [1 / 2, 1] h → ETD4.flCoefsMat CArith.exact LinAlg.exact cfg L h = .ok (ETD4.coefN cfg L h)) ∧
    (¬ ContourOk cfg.contour_radius cfg.npts L [1 / 2, 1] h →
      ETD4.flCoefsMat CArith.exact LinAlg.exact cfg L h = .error .linAlgError) := by
  refine ⟨fun hc => ?_, fun hc => by rw [ETD4.flCoefsMat, (Fl.round4_exact cfg L h).2 hc]; rfl⟩
  rw [ETD4.flCoefsMat, (Fl.round4_exact cfg L h).1 hc]
  change Except.ok _ = _
  congr 1
  unfold ETD4.flMatOf ETD4.coefN Fl.acc4
  simp only [contourSum_eq cfg 1 1 psi1_eq' (show (1 / 2 : ℂ) = ((1 / 2 : ℝ) : ℂ) by push_cast; ring),
      contourSum_eq cfg 2 2 psi2_eq (show (1 / 2 : ℂ) = ((1 / 2 : ℝ) : ℂ) by push_cast; ring),
      contourSum_eq cfg 1 1 psi1_eq' (show (1 : ℂ) = ((1 : ℝ) : ℂ) by simp),
      contourSum_eq cfg 2 2 psi2_eq (show (1 : ℂ) = ((1 : ℝ) : ℂ) by simp),
      contourSum_eq cfg 6 3 psi3_eq (show (1 : ℂ) = ((1 : ℝ) : ℂ) by simp)]
  congr 1
  all_goals first
    | rfl
    | exact flExpm2 L h
    | exact flExpm4 L h
    | exact flExpm34 L h
    | (funext i j
       simp only [Fl.mat, Fl.val_add, Fl.val_sub, Fl.val_mul, Fl.val_div, Fl.val_neg, Fl.val_lit, Fl.val_num, Fl.val_one, Fl.val_half, Fl.ofMat,
         Matrix.smul_apply, Matrix.sub_apply, Matrix.add_apply, Matrix.neg_apply, smul_eq_mul]
       try ring)

theorem ETD34.flCoefsMat_exact (cfg : ETDConfig ℝ) (L : Mat ι) (h : ℝ) :
    (ContourOk cfg.contour_radius cfg.npts L [1 / 2, 1] h → ETD34.flCoefsMat CArith.exact LinAlg.exact cfg L h = .ok (ETD34.coefN cfg L h)) ∧
    (¬ ContourOk cfg.contour_radius cfg.npts L [1 / 2, 1] h →
      ETD34.flCoefsMat CArith.exact LinAlg.exact cfg L h = .error .linAlgError) := by
  refine ⟨fun hc => ?_, fun hc => by rw [ETD34.flCoefsMat, (Fl.round4_exact cfg L h).2 hc]; rfl⟩
  rw [ETD34.flCoefsMat, (Fl.round4_exact cfg L h).1 hc]
  change Except.ok _ = _
  congr 1
  unfold ETD34.flMatOf ETD34.coefN Fl.acc4
  simp only [contourSum_eq cfg 1 1 psi1_eq' (show (1 / 2 : ℂ) = ((1 / 2 : ℝ) : ℂ) by push_cast; ring),
      contourSum_eq cfg 2 2 psi2_eq (show (1 / 2 : ℂ) = ((1 / 2 : ℝ) : ℂ) by push_cast; ring),
      contourSum_eq cfg 1 1 psi1_eq' (show (1 : ℂ) = ((1 : ℝ) : ℂ) by simp),
      contourSum_eq cfg 2 2 psi2_eq (show (1 : ℂ) = ((1 : ℝ) : ℂ) by simp),
      contourSum_eq cfg 6 3 psi3_eq (show (1 : ℂ) = ((1 : ℝ) : ℂ) by simp)]
  congr 1
  all_goals first
    | rfl
    | exact flExpm2 L h
    | exact flExpm4 L h
    | exact flExpm34 L h
    | (funext i j
       simp only [Fl.mat, Fl.val_add, Fl.val_sub, Fl.val_mul, Fl.val_div, Fl.val_neg, Fl.val_lit, Fl.val_num, Fl.val_one, Fl.val_half, Fl.ofMat,
         Matrix.smul_apply, Matrix.sub_apply, Matrix.add_apply, Matrix.neg_apply, smul_eq_mul]
       try ring)

theorem ETD5.flCoefsMat_exact (cfg : ETDConfig ℝ) (L : Mat ι) (h : ℝ) :
    (ContourOk cfg.contour_radius cfg.npts L [1 / 4, 1 / 2, 3 / 4, 1] h → ETD5.flCoefsMat CArith.exact LinAlg.exact cfg L h = .ok (ETD5.coefN cfg L h)) ∧
    (¬ ContourOk cfg.contour_radius cfg.npts L [1 / 4, 1 / 2, 3 / 4, 1] h →
      ETD5.flCoefsMat CArith.exact LinAlg.exact cfg L h = .error .linAlgError) := by
  refine ⟨fun hc => ?_, fun hc => by rw [ETD5.flCoefsMat, (Fl.round5_exact cfg L h).2 hc]; rfl⟩
  rw [ETD5.flCoefsMat, (Fl.round5_exact cfg L h).1 hc]
  change Except.ok _ = _
  congr 1
  unfold ETD5.flMatOf ETD5.coefN Fl.acc5
  simp only [contourSum_eq cfg 1 1 psi1_eq' (show (1 / 4 : ℂ) = ((1 / 4 : ℝ) : ℂ) by push_cast; ring),
      contourSum_eq cfg 2 2 psi2_eq (show (1 / 4 : ℂ) = ((1 / 4 : ℝ) : ℂ) by push_cast; ring),
      contourSum_eq cfg 1 1 psi1_eq' (show (1 / 2 : ℂ) = ((1 / 2 : ℝ) : ℂ) by push_cast; ring),
      contourSum_eq cfg 2 2 psi2_eq (show (1 / 2 : ℂ) = ((1 / 2 : ℝ) : ℂ) by push_cast; ring),
      contourSum_eq cfg 1 1 psi1_eq' (show (3 / 4 : ℂ) = ((3 / 4 : ℝ) : ℂ) by push_cast; ring),
      contourSum_eq cfg 2 2 psi2_eq (show (3 / 4 : ℂ) = ((3 / 4 : ℝ) : ℂ) by push_cast; ring),
      contourSum_eq cfg 1 1 psi1_eq' (show (1 : ℂ) = ((1 : ℝ) : ℂ) by simp),
      contourSum_eq cfg 2 2 psi2_eq (show (1 : ℂ) = ((1 : ℝ) : ℂ) by simp),
      contourSum_eq cfg 6 3 psi3_eq (show (1 : ℂ) = ((1 : ℝ) : ℂ) by simp)]
  congr 1
  all_goals first
    | rfl
    | exact flExpm2 L h
    | exact flExpm4 L h
    | exact flExpm34 L h
    | (funext i j
       simp only [Fl.mat, Fl.val_add, Fl.val_sub, Fl.val_mul, Fl.val_div, Fl.val_neg, Fl.val_lit, Fl.val_num, Fl.val_one, Fl.val_half, Fl.ofMat,
         Matrix.smul_apply, Matrix.sub_apply, Matrix.add_apply, Matrix.neg_apply, smul_eq_mul]
       try ring)

theorem ETD35.flCoefsMat_exact (cfg : ETDConfig ℝ) (L : Mat ι) (h : ℝ) :
    (ContourOk cfg.contour_radius cfg.npts L [1 / 4, 1 / 2, 3 / 4, 1] h → ETD35.flCoefsMat CArith.exact LinAlg.exact cfg L h = .ok (ETD35.coefN cfg L h)) ∧
    (¬ ContourOk cfg.contour_radius cfg.npts L [1 / 4, 1 / 2, 3 / 4, 1] h →
      ETD35.flCoefsMat CArith.exact LinAlg.exact cfg L h = .error .linAlgError) := by
  refine ⟨fun hc => ?_, fun hc => by rw [ETD35.flCoefsMat, (Fl.round5_exact cfg L h).2 hc]; rfl⟩
  rw [ETD35.flCoefsMat, (Fl.round5_exact cfg L h).1 hc]
  change Except.ok _ = _
  congr 1
  unfold ETD35.flMatOf ETD35.coefN Fl.acc5
  simp only [contourSum_eq cfg 1 1 psi1_eq' (show (1 / 4 : ℂ) = ((1 / 4 : ℝ) : ℂ) by push_cast; ring),
      contourSum_eq cfg 2 2 psi2_eq (show (1 / 4 : ℂ) = ((1 / 4 : ℝ) : ℂ) by push_cast; ring),
      contourSum_eq cfg 1 1 psi1_eq' (show (1 / 2 : ℂ) = ((1 / 2 : ℝ) : ℂ) by push_cast; ring),
      contourSum_eq cfg 2 2 psi2_eq (show (1 / 2 : ℂ) = ((1 / 2 : ℝ) : ℂ) by push_cast; ring),
      contourSum_eq cfg 1 1 psi1_eq' (show (3 / 4 : ℂ) = ((3 / 4 : ℝ) : ℂ) by push_cast; ring),
      contourSum_eq cfg 2 2 psi2_eq (show (3 / 4 : ℂ) = ((3 / 4 : ℝ) : ℂ) by push_cast; ring),
      contourSum_eq cfg 1 1 psi1_eq' (show (1 : ℂ) = ((1 : ℝ) : ℂ) by simp),
      contourSum_eq cfg 2 2 psi2_eq (show (1 : ℂ) = ((1 : ℝ) : ℂ) by simp),
      contourSum_eq cfg 6 3 psi3_eq (show (1 : ℂ) = ((1 : ℝ) : ℂ) by simp)]
  congr 1
  all_goals first
    | rfl
    | exact flExpm2 L h
    | exact flExpm4 L h
    | exact flExpm34 L h
    | (funext i j
       simp only [Fl.mat, Fl.val_add, Fl.val_sub, Fl.val_mul, Fl.val_div, Fl.val_neg, Fl.val_lit, Fl.val_num, Fl.val_one, Fl.val_half, Fl.ofMat,
         Matrix.smul_apply, Matrix.sub_apply, Matrix.add_apply, Matrix.neg_apply, smul_eq_mul]
       try ring)

end Verif
