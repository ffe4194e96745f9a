import Verif.Props.Settings
import Verif.Props.Forcing
import Verif.Lemmas.Witness
import Mathlib.Analysis.Real.Pi.Bounds

/-!
# Concrete cases of C65

One mode, linear operator zero, contours of two points `±iR`, whose coarse coefficients depend visibly on `R`.
-/

set_option linter.unusedSectionVars false

namespace Verif

open Matrix

/-- Settings with two contour points and radius `R`. -/
noncomputable def twoPoints (R : ℝ) : ETDConfig ℝ := ⟨1 / 100, 2, R⟩

theorem node_two (R : ℝ) : node R 2 0 = R * Complex.I ∧ node R 2 1 = -(R * Complex.I) := by
  unfold node
  constructor
  · rw [show 2 * (Real.pi : ℂ) * Complex.I * (((0 : ℕ) : ℂ) + 1 / 2) / ((2 : ℕ) : ℂ) = (Real.pi : ℂ) / 2 * Complex.I by
      push_cast; ring, Complex.exp_pi_div_two_mul_I]
  · rw [show 2 * (Real.pi : ℂ) * Complex.I * (((1 : ℕ) : ℂ) + 1 / 2) / ((2 : ℕ) : ℂ) =
      (Real.pi : ℂ) * Complex.I + (Real.pi : ℂ) / 2 * Complex.I by push_cast; ring, Complex.exp_add,
      Complex.exp_pi_mul_I, Complex.exp_pi_div_two_mul_I]
    ring

/-- The approximation of `φ_k(0)`. -/
theorem phi_twoPoints (R : ℝ) (h : ℝ) (k : ℕ) (c : ℝ) : (LinOp.diag (0 : Vec (Fin 1))).phi (twoPoints R) h k c =
    ((phiDiv k (c * (R * Complex.I)) + phiDiv k (c * -(R * Complex.I))) / 2) • (1 : Mat (Fin 1)) := by
  have : (LinOp.diag (0 : Vec (Fin 1))).phi (twoPoints R) h k c =
      Matrix.diagonal fun i => phiMode (1 / 100) R 2 k c (h * (0 : Vec (Fin 1)) i) := rfl
  rw [this, smul_one_eq_diagonal]
  congr 1
  funext i
  simp only [Pi.zero_apply, mul_zero, phiMode, norm_zero]
  rw [if_pos (by norm_num)]
  simp only [contourMean, Finset.sum_range_succ, Finset.sum_range_zero, zero_add, (node_two R).1, (node_two R).2]
  norm_num

theorem phi1_twoPoints {R : ℝ} (hR : R ≠ 0) (h : ℝ) :
    (LinOp.diag (0 : Vec (Fin 1))).phi (twoPoints R) h 1 1 = (Complex.sin R / R) • (1 : Mat (Fin 1)) := by
  rw [phi_twoPoints]
  congr 1
  have h1 : (R : ℂ) ≠ 0 := by exact_mod_cast hR
  simp only [phiDiv, Finset.sum_range_one, pow_zero, Nat.factorial_zero, Nat.cast_one, pow_one, Complex.ofReal_one, one_mul,
    Complex.sin, neg_mul]
  have hI : Complex.I ≠ 0 := Complex.I_ne_zero
  field_simp
  rw [Complex.I_sq]
  ring

/-- ETD4 on `u' = 1`. -/
theorem etd4_twoPoints {R : ℝ} (hR : R ≠ 0) {h : ℝ} (hh : 0 ≤ h) (u : Vec (Fin 1)) :
    ((CSSolver.etd4 (twoPoints R) (.diag (0 : Vec (Fin 1)))).step (total fun _ => 1) u h (CSSolver.new _)).1 =
      .ok (u + ((h : ℂ) * (Complex.sin R / R)) • (1 : Vec (Fin 1))) := by
  rw [(C25_forcing_approx (twoPoints R) (.diag (0 : Vec (Fin 1))) 1 u h hh).1 trivial, phi1_twoPoints hR]
  simp only [LinOp.mat, expm_zeroMat, one_mulVec, smul_smul, smul_mulVec]

/-- After a step of size 1 with radius `π` the radius is set to `π / 2`: the next step of size 1 returns its argument, as
with radius `π`, whereas a new solver with radius `π / 2` adds `2 / π`. -/
example : ∃ s' : CSSolver.State (.etd4 (twoPoints Real.pi) (.diag (0 : Vec (Fin 1)))),
    (CSSolver.etd4 (twoPoints Real.pi) (.diag (0 : Vec (Fin 1)))).step (total fun _ => 1) 0 1 (CSSolver.new _) = (.ok 0, s') ∧
    (((CSSolver.etd4 (twoPoints Real.pi) (.diag (0 : Vec (Fin 1)))).withEtd (twoPoints (Real.pi / 2))).step (total fun _ => 1) 0 1
      ((CSSolver.etd4 (twoPoints Real.pi) (.diag (0 : Vec (Fin 1)))).keep (twoPoints (Real.pi / 2)) s')).1 = .ok 0 ∧
    (((CSSolver.etd4 (twoPoints Real.pi) (.diag (0 : Vec (Fin 1)))).withEtd (twoPoints (Real.pi / 2))).step (total fun _ => 1) 0 1
      (CSSolver.new _)).1 = .ok fun _ => (2 / Real.pi : ℂ) := by
  have hpi := Real.pi_ne_zero
  have h1 := etd4_twoPoints hpi zero_le_one 0
  rw [Complex.sin_pi] at h1
  simp only [zero_div, mul_zero, zero_smul, add_zero] at h1
  refine ⟨_, Prod.ext h1 rfl, ?_, ?_⟩
  · rw [C65_ignored_cs (.etd4 (twoPoints Real.pi) (.diag (0 : Vec (Fin 1)))) (total fun _ => 1) 0 0 _ _ none (.new _ _) 1 (by simp)
      (Prod.ext h1 rfl)]
    exact h1
  · have h2 := etd4_twoPoints (R := Real.pi / 2) (by positivity) zero_le_one 0
    refine h2.trans ?_
    congr 1
    funext i
    have : Complex.sin ((Real.pi / 2 : ℝ) : ℂ) = 1 := by rw [← Complex.ofReal_sin, Real.sin_pi_div_two]; norm_num
    rw [this]
    push_cast
    simp

/-! ### ETD34 on `u' = u` -/

theorem phi_pi : (∀ h, (LinOp.diag (0 : Vec (Fin 1))).phi (twoPoints Real.pi) h 1 1 = (0 : ℂ) • (1 : Mat (Fin 1))) ∧
    (∀ h, (LinOp.diag (0 : Vec (Fin 1))).phi (twoPoints Real.pi) h 1 (1 / 2) = (2 / Real.pi : ℂ) • (1 : Mat (Fin 1))) ∧
    (∀ h, (LinOp.diag (0 : Vec (Fin 1))).phi (twoPoints Real.pi) h 2 1 = (2 / Real.pi ^ 2 : ℂ) • (1 : Mat (Fin 1))) ∧
    (∀ h, (LinOp.diag (0 : Vec (Fin 1))).phi (twoPoints Real.pi) h 2 (1 / 2) = (4 / Real.pi ^ 2 : ℂ) • (1 : Mat (Fin 1))) ∧
    (∀ h, (LinOp.diag (0 : Vec (Fin 1))).phi (twoPoints Real.pi) h 3 1 = (1 / Real.pi ^ 2 : ℂ) • (1 : Mat (Fin 1))) := by
  have hp : (Real.pi : ℂ) ≠ 0 := by exact_mod_cast Real.pi_ne_zero
  have hI : Complex.I ≠ 0 := Complex.I_ne_zero
  have e1 : Complex.exp (Real.pi * Complex.I) = -1 := Complex.exp_pi_mul_I
  have e2 : Complex.exp (-(Real.pi * Complex.I)) = -1 := by rw [Complex.exp_neg, e1]; norm_num
  have e3 : Complex.exp (((1 / 2 : ℝ) : ℂ) * (Real.pi * Complex.I)) = Complex.I := by
    refine Eq.trans ?_ Complex.exp_pi_div_two_mul_I; congr 1; push_cast; ring
  have e4 : Complex.exp (((1 / 2 : ℝ) : ℂ) * -(Real.pi * Complex.I)) = -Complex.I := by
    rw [mul_neg, Complex.exp_neg, e3, Complex.inv_I]
  have I2 : Complex.I ^ 2 = -1 := Complex.I_sq
  have I3 : Complex.I ^ 3 = -Complex.I := by rw [pow_succ, I2]; ring
  refine ⟨fun h => ?_, fun h => ?_, fun h => ?_, fun h => ?_, fun h => ?_⟩ <;> rw [phi_twoPoints] <;> congr 1 <;>
    simp only [phiDiv, Finset.sum_range_succ, Finset.sum_range_zero, Complex.ofReal_one, one_mul, e1, e2, e3, e4, pow_zero, pow_one,
      Nat.factorial, Nat.cast_one] <;> push_cast <;> field_simp <;> ring_nf <;>
    simp only [I2, I3] <;> ring_nf

/-- ETD34 with linear operator zero and radius `R`. -/
noncomputable def coarse (R : ℝ) : ASSolver (Fin 1) := .etd34 (twoPoints R) (.diag 0)

/-- A trial of size 1 with radius `π`. -/
theorem coarse_trial (u : Vec (Fin 1)) : (coarse Real.pi).oneTrial (fun x => .ok x) 1 u =
    .ok ((1 + 8 / Real.pi ^ 5 + 32 / Real.pi ^ 7 : ℂ) • u,
      (2 / Real.pi ^ 2 * (4 / Real.pi ^ 3 + 8 / Real.pi ^ 5 - 32 / Real.pi ^ 7) : ℂ) • u) := by
  have hc : (coarse Real.pi).CoefOk 1 := trivial
  have hp : (Real.pi : ℂ) ≠ 0 := by exact_mod_cast Real.pi_ne_zero
  obtain ⟨p1, p2, p3, p4, p5⟩ := phi_pi
  unfold ASSolver.oneTrial
  rw [if_pos hc]
  simp only [coarse, ASSolver.method, ASSolver.op, ASOp.inner, ASOp.emb, ASOp.prj, LinOp.mat, krogstad, expm_zeroMat, ERK.step,
    ERK.stages, ERK.arg, ERK.out, ERK.err, Finset.sum_range_succ, Finset.sum_range_zero, id, Except.map, smul_mulVec, one_mulVec,
    Function.update, p1, p2, p3, p4, p5, smul_smul, ← sub_smul, ← add_smul, ← neg_smul]
  simp
  constructor
  · funext i; simp; field_simp; ring
  · funext i; simp; field_simp; ring

/-- It is accepted. -/
theorem coarse_accept {u : Vec (Fin 1)} (hu : u 0 ≠ 0) : ∃ r, (coarse Real.pi).oneTrial (fun x => .ok x) 1 u = .ok r ∧
    r.1 0 ≠ 0 ∧ ∃ x, (coarse Real.pi).factor (fun x => .ok x) demoCfg r = .fin x ∧ 1 ≤ x := by
  refine ⟨_, coarse_trial u, ?_⟩
  have hp := Real.pi_gt_three
  set a : ℝ := 1 + 8 / Real.pi ^ 5 + 32 / Real.pi ^ 7 with ha
  set b : ℝ := 2 / Real.pi ^ 2 * (4 / Real.pi ^ 3 + 8 / Real.pi ^ 5 - 32 / Real.pi ^ 7) with hb
  have ha' : (1 + 8 / Real.pi ^ 5 + 32 / Real.pi ^ 7 : ℂ) = (a : ℂ) := by rw [ha]; push_cast; ring
  have hb' : (2 / Real.pi ^ 2 * (4 / Real.pi ^ 3 + 8 / Real.pi ^ 5 - 32 / Real.pi ^ 7) : ℂ) = (b : ℂ) := by
    rw [hb]; push_cast; ring
  rw [ha', hb']
  have hp0 : 0 < Real.pi := Real.pi_pos
  have ha1 : 1 ≤ a := by rw [ha]; have : 0 < 8 / Real.pi ^ 5 + 32 / Real.pi ^ 7 := by positivity
                         linarith
  have hq : 9 ≤ Real.pi ^ 2 := by nlinarith
  have hb0 : 0 < b := by
    rw [hb]
    have : 4 / Real.pi ^ 3 + 8 / Real.pi ^ 5 - 32 / Real.pi ^ 7 =
      (4 * Real.pi ^ 4 + 8 * Real.pi ^ 2 - 32) / Real.pi ^ 7 := by field_simp
    rw [this]
    have : 0 < 4 * Real.pi ^ 4 + 8 * Real.pi ^ 2 - 32 := by nlinarith
    positivity
  have hb1 : b ≤ 1 := by
    rw [hb]
    have : 2 / Real.pi ^ 2 * (4 / Real.pi ^ 3 + 8 / Real.pi ^ 5 - 32 / Real.pi ^ 7) =
      (8 * Real.pi ^ 4 + 16 * Real.pi ^ 2 - 64) / Real.pi ^ 9 := by field_simp; ring
    rw [this, div_le_one (by positivity)]
    have h9 : Real.pi ^ 9 = Real.pi ^ 4 * Real.pi ^ 4 * Real.pi := by ring
    have h4 : 81 ≤ Real.pi ^ 4 := by nlinarith
    have h42 : Real.pi ^ 2 ≤ Real.pi ^ 4 := by nlinarith
    rw [h9]
    nlinarith [mul_pos (pow_pos hp0 4) (pow_pos hp0 4), mul_le_mul h4 hp.le (by norm_num) (by positivity)]
  have hn : 0 < ‖u 0‖ := norm_pos_iff.mpr hu
  have h1 : ((a : ℂ) • u) 0 ≠ 0 := by
    simp only [Pi.smul_apply, smul_eq_mul, ne_eq, mul_eq_zero, Complex.ofReal_eq_zero, hu, or_false]; linarith
  have h2 : ((b : ℂ) • u) 0 ≠ 0 := by
    simp only [Pi.smul_apply, smul_eq_mul, ne_eq, mul_eq_zero, Complex.ofReal_eq_zero, hu, or_false]; linarith
  refine ⟨h1, _, factor_one 4 demoCfg (by norm_num [demoCfg]) (by norm_num [demoCfg]) _ _ h1 h2, ?_⟩
  have h3 : demoCfg.safety_f = 1 := rfl
  have h4 : demoCfg.epsilon = 1 := rfl
  rw [h3, h4, one_mul, one_mul]
  refine Real.one_le_rpow ?_ (by norm_num)
  simp only [Pi.smul_apply, smul_eq_mul, norm_mul, Complex.norm_real, Real.norm_eq_abs, abs_of_pos hb0,
    abs_of_pos (zero_lt_one.trans_le ha1)]
  rw [one_le_div (by positivity)]
  gcongr
  exact hb1.trans ha1

/-- After a step of size 1 with radius `π` other settings are assigned: the next step of size 1 is that of a new solver
with radius `π`. -/
example (c : ETDConfig ℝ) (u : Vec (Fin 1)) (hu : u 0 ≠ 0) : ∃ v hs, ∃ s' : (coarse Real.pi).State,
    (coarse Real.pi).step (fun x => .ok x) id demoCfg u 1 (coarse Real.pi).new = (.ok (v, 1, hs), s') ∧
    (((coarse Real.pi).withEtd c).step (fun x => .ok x) id demoCfg v 1 ((coarse Real.pi).keep c s')).1 =
      ((coarse Real.pi).step (fun x => .ok x) id demoCfg v 1 (coarse Real.pi).new).1 := by
  obtain ⟨r, hr, hv, x, hx, hx1⟩ := coarse_accept hu
  have hsh : ShrinksFrom id demoCfg 1 := shrinksFrom_id _ (by norm_num [demoCfg]) (by norm_num [demoCfg]) one_pos
  have h1 := StepSpec.det (((coarse Real.pi).stepSpec_iff (fun x => .ok x) id demoCfg u 1 zero_le_one _).mpr rfl)
    (.accept (Nat.zero_le _) (.zero 1) hr hx hx1)
  refine ⟨_, _, _, Prod.ext h1 rfl, ?_⟩
  have h2 := ((ASSolver.Continues.new (nl := fun x => .ok x) (coarse Real.pi) u).step (.inl hsh) (Prod.ext h1 rfl)).assign c
  have h3 : lastEffect (coarse Real.pi).etd none 1 1 = twoPoints Real.pi := by unfold lastEffect; rw [if_pos rfl]; rfl
  rw [h3] at h2
  obtain ⟨r', hr', -, hx'⟩ := coarse_accept hv
  exact C65_ignored_as _ _ _ _ _ 1 h2 id demoCfg zero_le_one hsh (.inr ⟨r', hr', hx'⟩)

end Verif
