import Verif.Lemmas.FloatSolve

/-!
# With exact operations the computed coefficients are the exact ones
-/

set_option linter.unusedSectionVars false
set_option linter.unusedSimpArgs false

namespace Verif

variable {ι : Type} [Fintype ι] [DecidableEq ι]

namespace Fl

variable (x y : Fl CArith.exact)

theorem val_add : (x + y).val = x.val + y.val := rfl
theorem val_sub : (x - y).val = x.val - y.val := rfl
theorem val_mul : (x * y).val = x.val * y.val := rfl
theorem val_div : (x / y).val = x.val / y.val := rfl
theorem val_neg : (-x).val = -x.val := rfl
theorem val_pow (n : ℕ) : (x ^ n).val = x.val ^ n := rfl
theorem val_exp : (exp x).val = Complex.exp x.val := rfl
theorem val_lit (z : ℂ) : (lit z : Fl CArith.exact).val = z := rfl
theorem val_num (n : ℕ) [n.AtLeastTwo] : (no_index (OfNat.ofNat n) : Fl CArith.exact).val = (OfNat.ofNat n : ℂ) := by
  change ((OfNat.ofNat n : ℕ) : ℂ) = _
  simp
theorem val_one : (1 : Fl CArith.exact).val = 1 := by
  change ((1 : ℕ) : ℂ) = _
  simp
theorem val_half : (half : Fl CArith.exact).val = 1 / 2 := rfl

theorem val_psi1 : (psi1 x).val = Verif.psi1 x.val := by
  simp only [psi1, Verif.psi1, val_div, val_sub, val_exp, val_one]

theorem val_psi2 : (psi2 x).val = Verif.psi2 x.val := by
  simp only [psi2, Verif.psi2, val_div, val_sub, val_exp, val_one, val_mul, val_num, val_pow]

theorem val_psi3 : (psi3 x).val = Verif.psi3 x.val := by
  simp only [psi3, Verif.psi3, val_div, val_sub, val_exp, val_one, val_mul, val_num, val_pow]

end Fl

theorem Fl.point_exact (cfg : ETDConfig ℝ) (k : ℕ) : (Fl.point cfg k : Fl CArith.exact).val = cfg.point k := by
  have h : CArith.exact.tau = 2 * Real.pi * Complex.I := rfl
  simp only [Fl.point, Fl.val_mul, Fl.val_div, Fl.val_exp, Fl.val_lit, ETDConfig.point, h]
  congr 4
  ring

theorem sum_range_map (f : ℕ → ℂ) (n : ℕ) : ((List.range n).map f).sum = ∑ k ∈ Finset.range n, f k := by
  induction n with
  | zero => rfl
  | succ n ih => rw [List.range_succ, List.map_append, List.sum_append, ih, Finset.sum_range_succ]; simp

theorem Fl.average_exact (cfg : ETDConfig ℝ) (h z : Fl CArith.exact) (f : Fl CArith.exact → Fl CArith.exact) (f' : ℂ → ℂ)
    (hf : ∀ w, (f w).val = f' w.val) : (Fl.average cfg h z f).val = h.val * cfg.mean f' z.val := by
  have e : (Fl.sum ((List.range cfg.npts).map fun k => f (z + Fl.point cfg k))).val =
      ∑ k ∈ Finset.range cfg.npts, f' (z.val + cfg.point k) := by
    rw [← sum_range_map]
    change List.sum _ = _
    congr 1
    refine List.map_congr_left fun k _ => ?_
    change (f (z + Fl.point cfg k)).val = _
    rw [hf, Fl.val_add, Fl.point_exact]
  rw [Fl.average, Fl.val_div, Fl.val_mul, e, Fl.val_lit, mul_div_assoc]
  rfl

/-- Nine equations. -/
def Psis.Vals (p : Psis (Fl CArith.exact)) (q : Psis ℂ) : Prop :=
  p.psi1_14.val = q.psi1_14 ∧ p.psi2_14.val = q.psi2_14 ∧ p.psi1_12.val = q.psi1_12 ∧ p.psi2_12.val = q.psi2_12 ∧
    p.psi1_34.val = q.psi1_34 ∧ p.psi2_34.val = q.psi2_34 ∧ p.psi1_1.val = q.psi1_1 ∧ p.psi2_1.val = q.psi2_1 ∧ p.psi3_1.val = q.psi3_1

/-- The values for one mode. -/
theorem Fl.psis_exact (cfg : ETDConfig ℝ) (h : ℝ) (z : Fl CArith.exact) :
    (Fl.psis cfg (Fl.averages cfg) (Fl.lit (h : ℂ)) z).Vals (Psis.ofPhi (fun k c => cfg.phiM k c z.val) h) ∧
    (Fl.psis cfg (Fl.averages35 cfg) (Fl.lit (h : ℂ)) z).Vals (Psis.ofPhi (fun k c => cfg.phiM k c z.val) h) := by
  by_cases hz : ‖z.val‖ < cfg.modecutoff
  · have e1 : Fl.psis cfg (Fl.averages cfg) (Fl.lit (h : ℂ)) z = Fl.averages cfg (Fl.lit (h : ℂ)) z := if_pos hz
    have e2 : Fl.psis cfg (Fl.averages35 cfg) (Fl.lit (h : ℂ)) z = Fl.averages35 cfg (Fl.lit (h : ℂ)) z := if_pos hz
    rw [e1, e2]
    have key : ∀ (c : ℝ) (m : Fl CArith.exact → Fl CArith.exact), (∀ w, (m w).val = c * w.val) →
        (Fl.average cfg (Fl.lit (h : ℂ)) z fun w => Fl.psi1 (m w)).val = h * cfg.phiM 1 c z.val ∧
        (Fl.average cfg (Fl.lit (h : ℂ)) z fun w => Fl.psi2 (m w)).val = h * (2 * cfg.phiM 2 c z.val) ∧
        (Fl.average cfg (Fl.lit (h : ℂ)) z fun w => Fl.psi3 (m w)).val = h * (6 * cfg.phiM 3 c z.val) := by
      intro c m hm
      refine ⟨?_, ?_, ?_⟩
      · rw [Fl.average_exact cfg _ z _ (fun w => Verif.psi1 ((c : ℂ) * w)) fun w => by rw [Fl.val_psi1, hm], mean_psi1 cfg c _ (fun _ => rfl) _ hz, Fl.val_lit]
      · rw [Fl.average_exact cfg _ z _ (fun w => Verif.psi2 ((c : ℂ) * w)) fun w => by rw [Fl.val_psi2, hm], mean_psi2 cfg c _ (fun _ => rfl) _ hz, Fl.val_lit]
      · rw [Fl.average_exact cfg _ z _ (fun w => Verif.psi3 ((c : ℂ) * w)) fun w => by rw [Fl.val_psi3, hm], mean_psi3 cfg c _ (fun _ => rfl) _ hz, Fl.val_lit]
    constructor
    · have k4 := key (1 / 4) (fun w => w / 4) fun w => by rw [Fl.val_div, Fl.val_num, quarter_mul]
      have k2 := key (1 / 2) (fun w => w / 2) fun w => by rw [Fl.val_div, Fl.val_num, half_mul]
      have k3 := key (3 / 4) (fun w => 3 * w / 4) fun w => by rw [Fl.val_div, Fl.val_mul, Fl.val_num, Fl.val_num, three_quarter_mul]
      have k1 := key 1 (fun w => w) fun w => by rw [← one_mul']
      exact ⟨k4.1, k4.2.1, k2.1, k2.2.1, k3.1, k3.2.1, k1.1, k1.2.1, k1.2.2⟩
    · have k4 := key (1 / 4) (fun w => Fl.lit (1 / 4) * w) fun w => by rw [Fl.val_mul, Fl.val_lit]; push_cast; ring
      have k2 := key (1 / 2) (fun w => Fl.lit (1 / 2) * w) fun w => by rw [Fl.val_mul, Fl.val_lit]; push_cast; ring
      have k3 := key (3 / 4) (fun w => Fl.lit (3 / 4) * w) fun w => by rw [Fl.val_mul, Fl.val_lit]; push_cast; ring
      have k1 := key 1 (fun w => 1 * w) fun w => by rw [Fl.val_mul, Fl.val_one]; push_cast; ring
      exact ⟨k4.1, k4.2.1, k2.1, k2.2.1, k3.1, k3.2.1, k1.1, k1.2.1, k1.2.2⟩
  · have e1 : Fl.psis cfg (Fl.averages cfg) (Fl.lit (h : ℂ)) z = Fl.direct (Fl.lit (h : ℂ)) z := if_neg hz
    have e2 : Fl.psis cfg (Fl.averages35 cfg) (Fl.lit (h : ℂ)) z = Fl.direct (Fl.lit (h : ℂ)) z := if_neg hz
    rw [e1, e2, and_self]
    have key : ∀ (c : ℝ) (y : Fl CArith.exact), y.val = c * z.val →
        (Fl.lit (h : ℂ) * Fl.psi1 y).val = h * cfg.phiM 1 c z.val ∧
        (Fl.lit (h : ℂ) * Fl.psi2 y).val = h * (2 * cfg.phiM 2 c z.val) ∧
        (Fl.lit (h : ℂ) * Fl.psi3 y).val = h * (6 * cfg.phiM 3 c z.val) := by
      intro c y hy
      refine ⟨?_, ?_, ?_⟩
      · rw [Fl.val_mul, Fl.val_psi1, Fl.val_lit, big_psi1 cfg c _ _ hy hz]
      · rw [Fl.val_mul, Fl.val_psi2, Fl.val_lit, big_psi2 cfg c _ _ hy hz]
      · rw [Fl.val_mul, Fl.val_psi3, Fl.val_lit, big_psi3 cfg c _ _ hy hz]
    have k4 := key (1 / 4) (z / 4) (by rw [Fl.val_div, Fl.val_num, quarter_mul])
    have k2 := key (1 / 2) (z / 2) (by rw [Fl.val_div, Fl.val_num, half_mul])
    have k3 := key (3 / 4) (3 * z / 4) (by rw [Fl.val_div, Fl.val_mul, Fl.val_num, Fl.val_num, three_quarter_mul])
    have k1 := key 1 z (by rw [← one_mul'])
    exact ⟨k4.1, k4.2.1, k2.1, k2.2.1, k3.1, k3.2.1, k1.1, k1.2.1, k1.2.2⟩

/-- The values of computed coefficients. -/
macro "vals" : tactic => `(tactic| simp only [Fl.val_add, Fl.val_sub, Fl.val_mul, Fl.val_div, Fl.val_neg, Fl.val_exp, Fl.val_lit,
  Fl.val_num, Fl.val_one, Fl.val_half])

theorem ETD4.flCoefs_exact (cfg : ETDConfig ℝ) (L : Vec ι) (h : ℝ) : ETD4.flCoefs CArith.exact cfg L h = ETD4.coefD cfg L h := by
  unfold ETD4.flCoefs ETD4.coefD
  dsimp only
  congr 1
  all_goals
    funext i
    obtain ⟨h1, h2, h3, h4, h5, h6, h7, h8, h9⟩ := (Fl.psis_exact cfg h (Fl.lit (h : ℂ) * Fl.lit (L i))).1
    simp only [Fl.etd4Of]
    try vals
    try simp only [h1, h2, h3, h4, h5, h6, h7, h8, h9, Psis.ofPhi]
    try vals
    try ring

theorem ETD34.flCoefs_exact (cfg : ETDConfig ℝ) (L : Vec ι) (h : ℝ) : ETD34.flCoefs CArith.exact cfg L h = ETD34.coefD cfg L h := by
  unfold ETD34.flCoefs ETD34.coefD
  dsimp only
  congr 1
  all_goals
    funext i
    obtain ⟨h1, h2, h3, h4, h5, h6, h7, h8, h9⟩ := (Fl.psis_exact cfg h (Fl.lit (h : ℂ) * Fl.lit (L i))).1
    simp only [Fl.etd34Of]
    try vals
    try simp only [h1, h2, h3, h4, h5, h6, h7, h8, h9, Psis.ofPhi]
    try vals
    try ring

theorem ETD5.flCoefs_exact (cfg : ETDConfig ℝ) (L : Vec ι) (h : ℝ) : ETD5.flCoefs CArith.exact cfg L h = ETD5.coefD cfg L h := by
  unfold ETD5.flCoefs ETD5.coefD
  dsimp only
  congr 1
  all_goals
    funext i
    obtain ⟨h1, h2, h3, h4, h5, h6, h7, h8, h9⟩ := (Fl.psis_exact cfg h (Fl.lit (h : ℂ) * Fl.lit (L i))).1
    simp only [Fl.etd5Of]
    try vals
    try simp only [h1, h2, h3, h4, h5, h6, h7, h8, h9, Psis.ofPhi]
    try vals
    try ring

theorem ETD35.flCoefs_exact (cfg : ETDConfig ℝ) (L : Vec ι) (h : ℝ) : ETD35.flCoefs CArith.exact cfg L h = ETD35.coefD cfg L h := by
  unfold ETD35.flCoefs ETD35.coefD
  dsimp only
  congr 1
  all_goals
    funext i
    obtain ⟨h1, h2, h3, h4, h5, h6, h7, h8, h9⟩ := (Fl.psis_exact cfg h (Fl.lit (h : ℂ) * Fl.lit (L i))).2
    simp only [Fl.etd35Of]
    try vals
    try simp only [h1, h2, h3, h4, h5, h6, h7, h8, h9, Psis.ofPhi]
    try vals
    try ring

theorem IF4.flCoefs_exact (L : Vec ι) (h : ℝ) :
    IF4.flCoefs CArith.exact L h = ⟨npExp (bc (h : ℂ) * L), npExp (bc (h : ℂ) * L / 2)⟩ := by
  unfold IF4.flCoefs
  congr 1

theorem IF45DP.flCoefs_exact (L : Vec ι) (h : ℝ) : IF45DP.flCoefs CArith.exact L h = IF45DP.coefs L h := by
  unfold IF45DP.flCoefs IF45DP.coefs
  congr 1

end Verif
