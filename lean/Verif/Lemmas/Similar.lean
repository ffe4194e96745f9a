import Verif.Lemmas.Stages
import Verif.Lemmas.PhiFun

/-!
# Exponential Runge–Kutta steps under a change of coordinates
-/

set_option linter.unusedSectionVars false

namespace Verif

open Matrix

variable {ι : Type} [Fintype ι] [DecidableEq ι]

theorem expm_conj (S Sinv D : Mat ι) (hS : S * Sinv = 1) (θ : ℝ) :
    expm (S * D * Sinv) θ = S * expm D θ * Sinv := by
  have hu : IsUnit S := IsUnit.of_mul_eq_one Sinv hS
  have hi : S⁻¹ = Sinv := Matrix.inv_eq_right_inv hS
  unfold expm
  rw [← hi, ← Matrix.exp_conj _ _ hu]
  congr 1
  simp

namespace ERK

/-- The method in other coordinates. -/
def sim (S Sinv : Mat ι) (M : ERK ι) : ERK ι where
  s := M.s
  E := fun i => S * M.E i * Sinv
  A := fun i j => S * M.A i j * Sinv
  Eout := S * M.Eout * Sinv
  B := fun j => S * M.B j * Sinv
  R := fun j => S * M.R j * Sinv

theorem sim_mulVec (S Sinv A : Mat ι) (hS : S * Sinv = 1) (v : Vec ι) :
    (S * A * Sinv) *ᵥ (S *ᵥ v) = S *ᵥ (A *ᵥ v) := by
  have hS' : Sinv * S = 1 := mul_eq_one_comm.mp hS
  rw [mulVec_mulVec, Matrix.mul_assoc, hS', Matrix.mul_one, mulVec_mulVec]

theorem sim_step (S Sinv : Mat ι) (hS : S * Sinv = 1) (M : ERK ι) (nl : NlFunc ι) (u : Vec ι) :
    (M.sim S Sinv).step nl u =
      (M.step (fun w => (nl (S *ᵥ w)).map fun x => Sinv *ᵥ x) (Sinv *ᵥ u)).map fun r => (S *ᵥ r.1, S *ᵥ r.2) := by
  have hS' : Sinv * S = 1 := mul_eq_one_comm.mp hS
  have harg : ∀ (N : ℕ → Vec ι) (i : ℕ),
      (M.sim S Sinv).arg u (fun i => S *ᵥ N i) i = S *ᵥ M.arg (Sinv *ᵥ u) N i := by
    intro N i
    simp only [arg, sim, sim_mulVec S Sinv _ hS]
    rw [mulVec_add, Matrix.mulVec_sum, mulVec_mulVec, mulVec_mulVec]
  have key : ∀ k, (M.sim S Sinv).stages nl u k =
      (M.stages (fun w => (nl (S *ᵥ w)).map fun x => Sinv *ᵥ x) (Sinv *ᵥ u) k).map fun N i => S *ᵥ N i := by
    intro k
    induction k with
    | zero =>
      simp only [stages, Except.map]
      congr 1; funext i; simp
    | succ k ih =>
      simp only [stages, ih]
      cases M.stages (fun w => (nl (S *ᵥ w)).map fun x => Sinv *ᵥ x) (Sinv *ᵥ u) k with
      | error e => rfl
      | ok N =>
        simp only [Except.map, harg]
        cases nl (S *ᵥ M.arg (Sinv *ᵥ u) N k) with
        | error e => rfl
        | ok n =>
          simp only
          congr 1
          funext i
          by_cases hi : i = k
          · subst hi; simp [hS]
          · simp [hi]
  unfold step
  rw [show (M.sim S Sinv).s = M.s from rfl, key M.s]
  cases M.stages (fun w => (nl (S *ᵥ w)).map fun x => Sinv *ᵥ x) (Sinv *ᵥ u) M.s with
  | error e => rfl
  | ok N =>
    simp only [Except.map]
    congr 2
    · simp only [out, sim, sim_mulVec S Sinv _ hS]
      rw [mulVec_add, Matrix.mulVec_sum, mulVec_mulVec, mulVec_mulVec]
    · simp only [err, sim, sim_mulVec S Sinv _ hS]
      rw [Matrix.mulVec_sum]

end ERK

theorem sim_one (S Sinv : Mat ι) (hS : S * Sinv = 1) : S * 1 * Sinv = 1 := by rw [Matrix.mul_one, hS]

theorem lawson_sim (T : Tableau) (S Sinv D : Mat ι) (hS : S * Sinv = 1) (h : ℝ) :
    lawson T (S * D * Sinv) h = (lawson T D h).sim S Sinv := by
  unfold lawson ERK.sim
  simp only [expm_conj S Sinv D hS]
  congr 1 <;> (repeat first | (funext i) | simp)

theorem krogstad_sim (φ φ' : ℕ → ℝ → Mat ι) (S Sinv D : Mat ι) (hS : S * Sinv = 1) (h : ℝ)
    (hφ : ∀ k c, φ' k c = S * φ k c * Sinv) :
    krogstad φ' (S * D * Sinv) h = (krogstad φ D h).sim S Sinv := by
  unfold krogstad ERK.sim
  simp only [expm_conj S Sinv D hS, hφ]
  congr 1
  · funext i; split <;> simp [hS]
  · funext i j
    split <;> simp [mul_sub, sub_mul, mul_add, add_mul]
  · funext j
    split <;> simp [mul_sub, sub_mul, mul_add, add_mul]
  · funext j
    split <;> simp [mul_add, add_mul]

theorem etd5_sim (fsal : Bool) (φ φ' : ℕ → ℝ → Mat ι) (S Sinv D : Mat ι) (hS : S * Sinv = 1) (h : ℝ)
    (hφ : ∀ k c, φ' k c = S * φ k c * Sinv) :
    etd5Method fsal φ' (S * D * Sinv) h = (etd5Method fsal φ D h).sim S Sinv := by
  unfold etd5Method ERK.sim
  simp only [expm_conj S Sinv D hS, hφ]
  congr 1
  · funext i; split <;> simp [hS]
  · funext i j
    split <;> try (simp [mul_sub, sub_mul, mul_add, add_mul]; done)
    split <;> simp [mul_sub, sub_mul, mul_add, add_mul]
  · funext j
    split <;> simp [mul_sub, sub_mul, mul_add, add_mul]
  · funext j
    split <;> simp [mul_sub, sub_mul, mul_add, add_mul]

end Verif
