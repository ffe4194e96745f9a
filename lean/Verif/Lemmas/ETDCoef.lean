import Verif.Spec.Phi
import Verif.Lemmas.StagesCS
import Verif.Lemmas.LawIF4
import Verif.Model.ETD4
import Verif.Model.ETD5

/-!
# Coefficient computations of the ETD solvers
-/

set_option linter.unusedSectionVars false

namespace Verif

open Matrix

variable {ι : Type} [Fintype ι] [DecidableEq ι]

theorem psi1_eq (z : ℂ) : psi1 z = phiDiv 1 z := by
  simp [psi1, phiDiv]

theorem psi1_eq' (z : ℂ) : psi1 z = 1 * phiDiv 1 z := by rw [psi1_eq, one_mul]

theorem psi2_eq (z : ℂ) : psi2 z = 2 * phiDiv 2 z := by
  simp [psi2, phiDiv, Finset.sum_range_succ]; ring

theorem psi3_eq (z : ℂ) : psi3 z = 6 * phiDiv 3 z := by
  simp [psi3, phiDiv, Finset.sum_range_succ, Nat.factorial]; ring

theorem ETDConfig.point_eq (cfg : ETDConfig ℝ) {m : ℕ} (hm : m < cfg.npts) :
    cfg.point m = node cfg.contour_radius cfg.npts m := by
  have : (cfg.contour_points : ℂ) = (cfg.npts : ℂ) := by
    have : 0 ≤ cfg.contour_points := by unfold ETDConfig.npts at hm; omega
    unfold ETDConfig.npts
    exact_mod_cast (Int.toNat_of_nonneg this).symm
  rw [ETDConfig.point, node, this]
  ring_nf

theorem ETDConfig.mean_eq (cfg : ETDConfig ℝ) (f : ℂ → ℂ) (z : ℂ) :
    cfg.mean f z = contourMean cfg.contour_radius cfg.npts f z := by
  unfold ETDConfig.mean contourMean
  rcases Nat.eq_zero_or_pos cfg.npts with h0 | h0
  · rw [h0]; simp
  · congr 1
    · exact Finset.sum_congr rfl fun m hm => by rw [cfg.point_eq (Finset.mem_range.mp hm)]
    · have : 0 ≤ cfg.contour_points := by unfold ETDConfig.npts at h0; omega
      unfold ETDConfig.npts
      exact_mod_cast (Int.toNat_of_nonneg this).symm

theorem contourMean_mul (R : ℝ) (N : ℕ) (a : ℂ) (f : ℂ → ℂ) (z : ℂ) :
    contourMean R N (fun w => a * f w) z = a * contourMean R N f z := by
  unfold contourMean
  rw [← Finset.mul_sum, mul_div_assoc]

/-- A fold over `range' k n` whose body does not change the state. -/
theorem foldlM_range' {σ α : Type} (body : α → ℕ → PyM σ α) (f : ℕ → α) (P : ℕ → Prop) (e : PyErr) (s : σ)
    (ok : ∀ m, P m → body (f m) m s = (.ok (f (m + 1)), s)) (err : ∀ m a, ¬ P m → body a m s = (.error e, s))
    (n k : ℕ) :
    ((∀ m, k ≤ m → m < k + n → P m) → (List.range' k n).foldlM body (f k) s = (.ok (f (k + n)), s)) ∧
    ((∃ m, k ≤ m ∧ m < k + n ∧ ¬ P m) → (List.range' k n).foldlM body (f k) s = (.error e, s)) := by
  induction n generalizing k with
  | zero => exact ⟨fun _ => rfl, fun ⟨m, h1, h2, _⟩ => by omega⟩
  | succ n ih =>
    rw [List.range'_succ, List.foldlM_cons]
    constructor
    · intro h
      rw [PyM.bind_ok (ok k (h k le_rfl (by omega)))]
      rw [(ih (k + 1)).1 fun m h1 h2 => h m (by omega) (by omega)]
      congr 3; omega
    · rintro ⟨m, h1, h2, h3⟩
      by_cases hk : P k
      · rw [PyM.bind_ok (ok k hk)]
        refine (ih (k + 1)).2 ⟨m, ?_, by omega, h3⟩
        rcases eq_or_lt_of_le h1 with rfl | h
        · exact absurd hk h3
        · exact h
      · rw [PyM.bind_error (err k _ hk)]

theorem foldlM_range {σ α : Type} (body : α → ℕ → PyM σ α) (f : ℕ → α) (P : ℕ → Prop) (e : PyErr) (s : σ)
    (ok : ∀ m, P m → body (f m) m s = (.ok (f (m + 1)), s)) (err : ∀ m a, ¬ P m → body a m s = (.error e, s))
    (n : ℕ) :
    ((∀ m, m < n → P m) → (List.range n).foldlM body (f 0) s = (.ok (f n), s)) ∧
    ((∃ m, m < n ∧ ¬ P m) → (List.range n).foldlM body (f 0) s = (.error e, s)) := by
  have := foldlM_range' body f P e s ok err n 0
  rw [← List.range_eq_range'] at this
  simpa using this

theorem npInv_ok {σ : Type} {M : Mat ι} (h : IsUnit M.det) (s : σ) : npInv M s = (.ok M⁻¹, s) := by
  unfold npInv; rw [if_pos h]; rfl

theorem npInv_err {σ : Type} {M : Mat ι} (h : ¬ IsUnit M.det) (s : σ) : npInv M s = (.error .linAlgError, s) := by
  unfold npInv; rw [if_neg h]; rfl

/-- Partial sums of the contour approximation as the loop computes them. -/
noncomputable def contourSum (cfg : ETDConfig ℝ) (f : ℂ → ℂ) (c : ℂ) (z : Mat ι) (n : ℕ) : Mat ι :=
  ∑ m ∈ Finset.range n, (cfg.point m * f (cfg.point m) / cfg.contour_points) • (cfg.point m • (1 : Mat ι) - c • z)⁻¹

theorem contourSum_succ (cfg : ETDConfig ℝ) (f : ℂ → ℂ) (c : ℂ) (z : Mat ι) (n : ℕ) :
    contourSum cfg f c z (n + 1) = contourSum cfg f c z n +
      (cfg.point n * f (cfg.point n) / cfg.contour_points) • (cfg.point n • (1 : Mat ι) - c • z)⁻¹ :=
  Finset.sum_range_succ _ _

theorem contourSum_eq (cfg : ETDConfig ℝ) {f : ℂ → ℂ} (a : ℂ) (k : ℕ) (hf : ∀ w, f w = a * phiDiv k w) {c : ℂ} {c' : ℝ}
    (hc : c = (c' : ℂ)) (L : Mat ι) (h : ℝ) :
    contourSum cfg f c ((h : ℂ) • L) cfg.npts = a • phiFull cfg.contour_radius cfg.npts L h k c' := by
  unfold contourSum phiFull
  rw [Finset.smul_sum]
  refine Finset.sum_congr rfl fun m hm => ?_
  have hm' := Finset.mem_range.mp hm
  have : (cfg.contour_points : ℂ) = (cfg.npts : ℂ) := by
    have : 0 ≤ cfg.contour_points := by unfold ETDConfig.npts at hm'; omega
    unfold ETDConfig.npts
    exact_mod_cast (Int.toNat_of_nonneg this).symm
  rw [cfg.point_eq hm', hf, this, smul_smul, smul_smul, hc, Complex.ofReal_mul]
  congr 1
  ring

end Verif
