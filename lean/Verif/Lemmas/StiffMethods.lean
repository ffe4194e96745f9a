import Verif.Lemmas.StiffStep
import Verif.Lemmas.OneStep
import Verif.Props.Forcing

/-!
# The ETD methods on stiff problems: bounds of their coefficients and second order conditions
-/

set_option linter.unusedSectionVars false

namespace Verif

open Matrix Finset
open scoped Matrix.Norms.Operator

variable {ι : Type} [Fintype ι] [DecidableEq ι] {L : Vec ι} {ω : ℝ}

theorem bnd_add {X Y : Mat ι} {a b : ℝ} (hX : ‖X‖ ≤ a) (hY : ‖Y‖ ≤ b) : ‖X + Y‖ ≤ a + b := (norm_add_le _ _).trans (add_le_add hX hY)

theorem bnd_sub {X Y : Mat ι} {a b : ℝ} (hX : ‖X‖ ≤ a) (hY : ‖Y‖ ≤ b) : ‖X - Y‖ ≤ a + b := (norm_sub_le _ _).trans (add_le_add hX hY)

theorem bnd_neg {X : Mat ι} {a : ℝ} (hX : ‖X‖ ≤ a) : ‖-X‖ ≤ a := by rwa [norm_neg]

theorem bnd_smul {X : Mat ι} {a : ℝ} (k : ℂ) (hX : ‖X‖ ≤ a) : ‖k • X‖ ≤ ‖k‖ * a := by
  rw [norm_smul]; exact mul_le_mul_of_nonneg_left hX (norm_nonneg _)

theorem bnd_zero : ‖(0 : Mat ι)‖ ≤ 0 := by simp

/-- Bounds a linear combination of the matrices `φ k c`. -/
macro "bnd" h:term : tactic => `(tactic| repeat' first
  | with_reducible exact bnd_zero
  | with_reducible exact $h _ _ (by norm_num) (by norm_num)
  | with_reducible apply bnd_smul
  | with_reducible apply bnd_sub
  | with_reducible apply bnd_neg
  | with_reducible apply bnd_add)

theorem krogstad_bnd {φ : ℕ → ℝ → Mat ι} {p : ℝ} (hφ : ∀ k c, 0 < c → c ≤ 1 → ‖φ k c‖ ≤ p) (M : Mat ι) {h : ℝ} (h0 : 0 ≤ h) :
    (∀ i j, ‖(krogstad φ M h).A i j‖ ≤ 12 * p * h) ∧ ∀ j, ‖(krogstad φ M h).B j‖ ≤ 12 * p * h := by
  have p0 : 0 ≤ p := (norm_nonneg _).trans (hφ 0 1 one_pos le_rfl)
  constructor
  · intro i j
    simp only [krogstad]
    rw [norm_smul, Complex.norm_real, Real.norm_of_nonneg h0, mul_comm]
    refine mul_le_mul_of_nonneg_right ?_ h0
    split <;> refine le_trans (by bnd hφ) ?_ <;> norm_num <;> linarith
  · intro j
    simp only [krogstad]
    rw [norm_smul, Complex.norm_real, Real.norm_of_nonneg h0, mul_comm]
    refine mul_le_mul_of_nonneg_right ?_ h0
    split <;> refine le_trans (by bnd hφ) ?_ <;> norm_num <;> linarith

theorem etd5_bnd (b : Bool) {φ : ℕ → ℝ → Mat ι} {p : ℝ} (hφ : ∀ k c, 0 < c → c ≤ 1 → ‖φ k c‖ ≤ p) (M : Mat ι) {h : ℝ} (h0 : 0 ≤ h) :
    (∀ i j, ‖(etd5Method b φ M h).A i j‖ ≤ 12 * p * h) ∧ ∀ j, ‖(etd5Method b φ M h).B j‖ ≤ 12 * p * h := by
  have p0 : 0 ≤ p := (norm_nonneg _).trans (hφ 0 1 one_pos le_rfl)
  constructor
  · intro i j
    simp only [etd5Method]
    rw [norm_smul, Complex.norm_real, Real.norm_of_nonneg h0, mul_comm]
    refine mul_le_mul_of_nonneg_right ?_ h0
    split <;> (try split) <;> refine le_trans (by bnd hφ) ?_ <;> norm_num <;> linarith
  · intro j
    simp only [etd5Method]
    rw [norm_smul, Complex.norm_real, Real.norm_of_nonneg h0, mul_comm]
    refine mul_le_mul_of_nonneg_right ?_ h0
    split <;> refine le_trans (by bnd hφ) ?_ <;> norm_num <;> linarith

theorem krogstad_mom (φ : ℕ → ℝ → Mat ι) (M : Mat ι) (h : ℝ) :
    ∑ j ∈ range (krogstad φ M h).s, (((fun | 1 => 1 / 2 | 2 => 1 / 2 | 3 => 1 | 4 => 1 | _ => 0 : ℕ → ℝ) j : ℝ) : ℂ) • (krogstad φ M h).B j =
      (h : ℂ) • φ 2 1 := by
  simp only [krogstad, sum_range_succ, sum_range_zero]
  push_cast
  module

theorem etd5_mom (b : Bool) (φ : ℕ → ℝ → Mat ι) (M : Mat ι) (h : ℝ) :
    ∑ j ∈ range (etd5Method b φ M h).s,
      (((fun | 1 => 1 / 4 | 2 => 1 / 4 | 3 => 1 / 2 | 4 => 3 / 4 | 5 => 1 | 6 => 1 | _ => 0 : ℕ → ℝ) j : ℝ) : ℂ) • (etd5Method b φ M h).B j =
      (h : ℂ) • φ 2 1 := by
  cases b <;> simp only [etd5Method, sum_range_succ, sum_range_zero, if_true, if_false, Bool.false_eq_true] <;> push_cast <;> module

/-- The conditions for the approximate φ functions are the exact ones up to the error of the φ functions. -/
theorem stiffOk_of {M : ERK ι} {x : ℕ → ℝ} {φ : ℕ → ℝ → Mat ι} {h p ε : ℝ} (h0 : 0 ≤ h) (hε : 0 ≤ ε)
    (hφ : ∀ k c, 0 < c → c ≤ 1 → ‖φ k c - phiExact (Matrix.diagonal L) h k c‖ ≤ ε) (hr : RowSums M (Matrix.diagonal L) h φ x)
    (hx : ∀ i, 0 ≤ x i ∧ x i ≤ 1) (hm : ∑ j ∈ range M.s, (x j : ℂ) • M.B j = (h : ℂ) • φ 2 1)
    (hb : (∀ i j, ‖M.A i j‖ ≤ p * h) ∧ ∀ j, ‖M.B j‖ ≤ p * h) : M.StiffOk L x p ε h where
  x01 := hx
  E := hr.E
  A i _ j _ := hb.1 i j
  row i hi := by
    rw [hr.A i hi, ← smul_sub, norm_smul, Complex.norm_real, Real.norm_of_nonneg (mul_nonneg (hx i).1 h0)]
    rcases (hx i).1.eq_or_lt with h1 | h1
    · rw [← h1, zero_mul, zero_mul]; positivity
    · have := hφ 1 (x i) h1 (hx i).2
      calc _ ≤ (1 * h) * ε := mul_le_mul (mul_le_mul_of_nonneg_right (hx i).2 h0) this (norm_nonneg _) (by positivity)
        _ = _ := by ring
  Eout := hr.Eout
  B j _ := hb.2 j
  sum := by
    rw [hr.B, ← smul_sub, norm_smul, Complex.norm_real, Real.norm_of_nonneg h0, mul_comm]
    exact mul_le_mul_of_nonneg_right (hφ 1 1 one_pos le_rfl) h0
  mom := by
    rw [hm, ← smul_sub, norm_smul, Complex.norm_real, Real.norm_of_nonneg h0, mul_comm]
    exact mul_le_mul_of_nonneg_right (hφ 2 1 one_pos le_rfl) h0

/-- Error of the approximate φ functions of a diagonal operator, whatever the operator. -/
theorem phiDiag_close {cfg : ETDConfig ℝ} {R : ℝ} (hR : cfg.RadiusUpTo R) {N : ℕ} (hN : 0 < N) (h : ℝ) (k : ℕ) {c : ℝ} (c0 : 0 < c)
    (c1 : c ≤ 1) : ‖(LinOp.diag L).phi (cfg.withPoints N) h k c - phiExact (Matrix.diagonal L) h k c‖ ≤
      2 * Real.exp (3 * R) * (1 / 2) ^ N := by
  obtain ⟨r1, r2, r3⟩ := hR
  rw [phiExact_diag]
  show ‖(Matrix.diagonal fun i => phiMode cfg.modecutoff cfg.contour_radius (cfg.withPoints N).contour_points.toNat k c (h * L i)) - _‖ ≤ _
  rw [ETDConfig.withPoints_toNat, Matrix.diagonal_sub]
  refine norm_diagonal_le (by positivity) fun i => ?_
  have := C29_geometric hN r1 r2 k c c0 c1 (h * L i) (q := 1 / 2) (by norm_num) (by norm_num)
  have e : ((c * h : ℝ) : ℂ) * L i = c * (h * L i) := by push_cast; ring
  rw [e]
  refine this.trans ?_
  have h2 : Real.exp (cfg.modecutoff + cfg.contour_radius / (1 / 2)) ≤ Real.exp (3 * R) := Real.exp_le_exp.mpr (by linarith)
  have h3 : (1 / 2 : ℝ) ^ N / (1 - 1 / 2) = 2 * (1 / 2) ^ N := by ring
  rw [h3]
  have := mul_le_mul_of_nonneg_right h2 (show (0 : ℝ) ≤ 2 * (1 / 2) ^ N by positivity)
  linarith

/-- Bound of the coefficients of an ETD solver. -/
noncomputable def stiffBound (ω R : ℝ) : ℝ := 12 * (Real.exp ω + 2 * Real.exp (3 * R))

theorem stiffBound_nonneg (ω R : ℝ) : 0 ≤ stiffBound ω R := by unfold stiffBound; positivity

theorem phiDiag_bnd {cfg : ETDConfig ℝ} {R : ℝ} (hR : cfg.RadiusUpTo R) (hω : 0 ≤ ω) (hL : ∀ i, (L i).re ≤ ω) {N : ℕ} (hN : 0 < N)
    {h : ℝ} (h0 : 0 ≤ h) (h1 : h ≤ 1) (k : ℕ) (c : ℝ) (c0 : 0 < c) (c1 : c ≤ 1) :
    ‖(LinOp.diag L).phi (cfg.withPoints N) h k c‖ ≤ Real.exp ω + 2 * Real.exp (3 * R) := by
  have h2 := phiDiag_close (L := L) hR hN h k c0 c1
  have h3 := phiExact_diag_le hω hL (mul_nonneg c0.le h0) (mul_le_one₀ c1 h0 h1) k
  have h4 : (1 / 2 : ℝ) ^ N ≤ 1 := pow_le_one₀ (by norm_num) (by norm_num)
  have h5 := norm_add_le ((LinOp.diag L).phi (cfg.withPoints N) h k c - phiExact (Matrix.diagonal L) h k c)
    (phiExact (Matrix.diagonal L) h k c)
  rw [sub_add_cancel] at h5
  have h6 : 2 * Real.exp (3 * R) * (1 / 2) ^ N ≤ 2 * Real.exp (3 * R) := mul_le_of_le_one_right (by positivity) h4
  linarith

theorem krogstad_stiffOk {cfg : ETDConfig ℝ} {R : ℝ} (hR : cfg.RadiusUpTo R) (hω : 0 ≤ ω) (hL : ∀ i, (L i).re ≤ ω) {N : ℕ} (hN : 0 < N)
    {h : ℝ} (h0 : 0 ≤ h) (h1 : h ≤ 1) : ∃ x, (krogstad ((LinOp.diag L).phi (cfg.withPoints N) h) (Matrix.diagonal L) h).StiffOk L x
      (stiffBound ω R) (2 * Real.exp (3 * R) * (1 / 2) ^ N) h :=
  ⟨_, stiffOk_of h0 (by positivity) (fun k _ => phiDiag_close hR hN h k) (krogstad_rowSums _ _ _)
    (fun i => by split <;> norm_num) (krogstad_mom _ _ _) (krogstad_bnd (phiDiag_bnd hR hω hL hN h0 h1) _ h0)⟩

theorem etd5_stiffOk (b : Bool) {cfg : ETDConfig ℝ} {R : ℝ} (hR : cfg.RadiusUpTo R) (hω : 0 ≤ ω) (hL : ∀ i, (L i).re ≤ ω) {N : ℕ}
    (hN : 0 < N) {h : ℝ} (h0 : 0 ≤ h) (h1 : h ≤ 1) :
    ∃ x, (etd5Method b ((LinOp.diag L).phi (cfg.withPoints N) h) (Matrix.diagonal L) h).StiffOk L x
      (stiffBound ω R) (2 * Real.exp (3 * R) * (1 / 2) ^ N) h :=
  ⟨_, stiffOk_of h0 (by positivity) (fun k _ => phiDiag_close hR hN h k) (etd5_rowSums b _ _ _)
    (fun i => by split <;> norm_num) (etd5_mom b _ _ _) (etd5_bnd b (phiDiag_bnd hR hω hL hN h0 h1) _ h0)⟩

end Verif
