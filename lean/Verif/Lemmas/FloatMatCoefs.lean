import Verif.Lemmas.FloatMatLoop
import Verif.Lemmas.FloatCoefs
import Verif.Lemmas.LawETD34
import Verif.Lemmas.LawETD35
import Verif.Lemmas.LawETD5

/-!
# Rounding errors of the coefficients for matrices
-/

set_option linter.unusedSectionVars false
set_option linter.unusedSimpArgs false
set_option linter.unusedTactic false
set_option linter.unreachableTactic false

namespace Verif

open Asymptotics Filter Matrix
open scoped Matrix.Norms.Operator

variable {ι : Type} [Fintype ι] [DecidableEq ι]
variable {T : Type} {l : Filter T} {A : T → CArith} {B : T → LinAlg ι} {ρ g : T → ℝ} {N : T → ℕ} {h : T → ℝ}

/-- `expm` of a fraction of `h L`. -/
theorem expm_near (hF : Fine l A ρ g) (hB : FineMat l B ρ) (L : Mat ι) {y' : ∀ t, ι → ι → Fl (A t)} {θ : T → ℝ}
    (hy : ∀ i j, FlNear l A g (fun t => y' t i j) (fun t => (θ t : ℂ) * L i j)) :
    (fun t => (B t).expm (Fl.mat (y' t)) - expm L (θ t)) =O[l] g :=
  (MatNear.expm hB hF.nonneg hF.le hF.one (MatNear.of_entries (X := fun t => (θ t : ℂ) • L) fun i j => by simpa using hy i j)).err

theorem Psis.entry_psi1_14 {α : Type} (p : Psis (ι → ι → α)) (i j : ι) : p.psi1_14 i j = (p.entry i j).psi1_14 := rfl
theorem Psis.entry_psi2_14 {α : Type} (p : Psis (ι → ι → α)) (i j : ι) : p.psi2_14 i j = (p.entry i j).psi2_14 := rfl
theorem Psis.entry_psi1_12 {α : Type} (p : Psis (ι → ι → α)) (i j : ι) : p.psi1_12 i j = (p.entry i j).psi1_12 := rfl
theorem Psis.entry_psi2_12 {α : Type} (p : Psis (ι → ι → α)) (i j : ι) : p.psi2_12 i j = (p.entry i j).psi2_12 := rfl
theorem Psis.entry_psi1_34 {α : Type} (p : Psis (ι → ι → α)) (i j : ι) : p.psi1_34 i j = (p.entry i j).psi1_34 := rfl
theorem Psis.entry_psi2_34 {α : Type} (p : Psis (ι → ι → α)) (i j : ι) : p.psi2_34 i j = (p.entry i j).psi2_34 := rfl
theorem Psis.entry_psi1_1 {α : Type} (p : Psis (ι → ι → α)) (i j : ι) : p.psi1_1 i j = (p.entry i j).psi1_1 := rfl
theorem Psis.entry_psi2_1 {α : Type} (p : Psis (ι → ι → α)) (i j : ι) : p.psi2_1 i j = (p.entry i j).psi2_1 := rfl
theorem Psis.entry_psi3_1 {α : Type} (p : Psis (ι → ι → α)) (i j : ι) : p.psi3_1 i j = (p.entry i j).psi3_1 := rfl

theorem IF4.flMat_near (hF : Fine l A ρ g) (hB : FineMat l B ρ) (hh : (fun t => (h t : ℂ)) =O[l] (1 : T → ℝ)) (L : Mat ι)
    {L' : T → Mat ι} (hL' : ∀ i j, (fun t => L' t i j - L i j) =O[l] g) :
    ∃ C : ℝ, ∀ᶠ t in l, CoefNear (IF4.rProgNonDiagonal (ι := ι)).stages (C * ‖g t‖) ⟨expm L (h t), expm L (h t / 2)⟩
      (IF4.flCoefsMat (A t) (B t) (L' t) (h t)) := by
  have hz := flZ_near hF hh hL'
  have e1 := expm_near hF hB L (θ := h) hz
  have e2 := expm_near hF hB L (y' := fun t i j => flZ (A t) (L' t) (h t) i j / 2) (θ := fun t => h t / 2)
    fun i j => ((hz i j).div_num hF 2).congr_eq (Eventually.of_forall fun t => by push_cast; ring)
  refine CoefNear.of_isBigO _ (fun t => (⟨expm L (h t), expm L (h t / 2)⟩ : IFCoef (Mat ι))) (fun t => IF4.flCoefsMat (A t) (B t) (L' t) (h t)) ?_ ?_
  all_goals coef_list IF4.rProgNonDiagonal
  all_goals first
    | exact e1
    | exact e2

theorem IF34.flMat_near (hF : Fine l A ρ g) (hB : FineMat l B ρ) (hh : (fun t => (h t : ℂ)) =O[l] (1 : T → ℝ)) (L : Mat ι)
    {L' : T → Mat ι} (hL' : ∀ i j, (fun t => L' t i j - L i j) =O[l] g) :
    ∃ C : ℝ, ∀ᶠ t in l, CoefNear (IF34.rProgNonDiagonal (ι := ι)).stages (C * ‖g t‖) ⟨expm L (h t), expm L (h t / 2)⟩
      (IF4.flCoefsMat (A t) (B t) (L' t) (h t)) := by
  have hz := flZ_near hF hh hL'
  have e1 := expm_near hF hB L (θ := h) hz
  have e2 := expm_near hF hB L (y' := fun t i j => flZ (A t) (L' t) (h t) i j / 2) (θ := fun t => h t / 2)
    fun i j => ((hz i j).div_num hF 2).congr_eq (Eventually.of_forall fun t => by push_cast; ring)
  refine CoefNear.of_isBigO _ (fun t => (⟨expm L (h t), expm L (h t / 2)⟩ : IFCoef (Mat ι))) (fun t => IF4.flCoefsMat (A t) (B t) (L' t) (h t)) ?_ ?_
  all_goals coef_list IF34.rProgNonDiagonal
  all_goals first
    | exact e1
    | exact e2

theorem ETD4.flMat_near (hF : Fine l A ρ g) (hB : FineMat l B ρ) (cfg : ETDConfig ℝ) (hh : (fun t => (h t : ℂ)) =O[l] (1 : T → ℝ)) (L : Mat ι)
    {L' : T → Mat ι} (hL' : ∀ i j, (fun t => L' t i j - L i j) =O[l] g)
    {P : ∀ t, Psis (ι → ι → Fl (A t))} (hp : ∀ i j, NearPsis l A g (fun t => (P t).entry i j)
      (fun t => Psis.ofPhi4 fun k c => (cfg.withPoints (N t)).phiF L (h t) k c i j)) :
    ∃ C : ℝ, ∀ᶠ t in l, CoefNear (ETD4.rProgNonDiagonal (ι := ι)).stages (C * ‖g t‖) (ETD4.coefN (cfg.withPoints (N t)) L (h t))
      (ETD4.flMatOf (A t) (B t) (L' t) (h t) (P t)) := by
  have hz := flZ_near hF hh hL'
  have hl := FlNear.lit (A := A) hF hh
  have e1 := expm_near hF hB L (θ := h) hz
  have e2 := expm_near hF hB L (y' := fun t i j => flZ (A t) (L' t) (h t) i j / 2) (θ := fun t => h t / 2)
    fun i j => ((hz i j).div_num hF 2).congr_eq (Eventually.of_forall fun t => by push_cast; ring)
  refine CoefNear.of_isBigO _ (fun t => ETD4.coefN (cfg.withPoints (N t)) L (h t)) (fun t => ETD4.flMatOf (A t) (B t) (L' t) (h t) (P t)) ?_ ?_
  all_goals coef_list ETD4.rProgNonDiagonal
  all_goals first
    | exact e1
    | exact e2
    | (refine isBigO_mat.2 fun i j => ?_
       have q := hp i j
       simp only [Matrix.sub_apply, ETD4.flMatOf, ETD4.coefN, Fl.mat, Fl.half, Psis.entry_psi1_14, Psis.entry_psi2_14, Psis.entry_psi1_12, Psis.entry_psi2_12, Psis.entry_psi1_34, Psis.entry_psi2_34, Psis.entry_psi1_1, Psis.entry_psi2_1, Psis.entry_psi3_1]
       apply FlNear.err
       apply FlNear.congr_eq
       · near hF hl trivial q
       · exact Eventually.of_forall fun t => by
           simp only [Psis.ofPhi4, Matrix.smul_apply, Matrix.sub_apply, Matrix.add_apply, Matrix.neg_apply, smul_eq_mul]
           try ring)

theorem ETD34.flMat_near (hF : Fine l A ρ g) (hB : FineMat l B ρ) (cfg : ETDConfig ℝ) (hh : (fun t => (h t : ℂ)) =O[l] (1 : T → ℝ)) (L : Mat ι)
    {L' : T → Mat ι} (hL' : ∀ i j, (fun t => L' t i j - L i j) =O[l] g)
    {P : ∀ t, Psis (ι → ι → Fl (A t))} (hp : ∀ i j, NearPsis l A g (fun t => (P t).entry i j)
      (fun t => Psis.ofPhi4 fun k c => (cfg.withPoints (N t)).phiF L (h t) k c i j)) :
    ∃ C : ℝ, ∀ᶠ t in l, CoefNear (ETD34.rProgNonDiagonal (ι := ι)).stages (C * ‖g t‖) (ETD34.coefN (cfg.withPoints (N t)) L (h t))
      (ETD34.flMatOf (A t) (B t) (L' t) (h t) (P t)) := by
  have hz := flZ_near hF hh hL'
  have hl := FlNear.lit (A := A) hF hh
  have e1 := expm_near hF hB L (θ := h) hz
  have e2 := expm_near hF hB L (y' := fun t i j => flZ (A t) (L' t) (h t) i j / 2) (θ := fun t => h t / 2)
    fun i j => ((hz i j).div_num hF 2).congr_eq (Eventually.of_forall fun t => by push_cast; ring)
  refine CoefNear.of_isBigO _ (fun t => ETD34.coefN (cfg.withPoints (N t)) L (h t)) (fun t => ETD34.flMatOf (A t) (B t) (L' t) (h t) (P t)) ?_ ?_
  all_goals coef_list ETD34.rProgNonDiagonal
  all_goals first
    | exact e1
    | exact e2
    | (refine isBigO_mat.2 fun i j => ?_
       have q := hp i j
       simp only [Matrix.sub_apply, ETD34.flMatOf, ETD34.coefN, Fl.mat, Fl.half, Psis.entry_psi1_14, Psis.entry_psi2_14, Psis.entry_psi1_12, Psis.entry_psi2_12, Psis.entry_psi1_34, Psis.entry_psi2_34, Psis.entry_psi1_1, Psis.entry_psi2_1, Psis.entry_psi3_1]
       apply FlNear.err
       apply FlNear.congr_eq
       · near hF hl trivial q
       · exact Eventually.of_forall fun t => by
           simp only [Psis.ofPhi4, Matrix.smul_apply, Matrix.sub_apply, Matrix.add_apply, Matrix.neg_apply, smul_eq_mul]
           try ring)

theorem ETD5.flMat_near (hF : Fine l A ρ g) (hB : FineMat l B ρ) (cfg : ETDConfig ℝ) (hh : (fun t => (h t : ℂ)) =O[l] (1 : T → ℝ)) (L : Mat ι)
    {L' : T → Mat ι} (hL' : ∀ i j, (fun t => L' t i j - L i j) =O[l] g)
    {P : ∀ t, Psis (ι → ι → Fl (A t))} (hp : ∀ i j, NearPsis l A g (fun t => (P t).entry i j)
      (fun t => Psis.ofPhi5 fun k c => (cfg.withPoints (N t)).phiF L (h t) k c i j)) :
    ∃ C : ℝ, ∀ᶠ t in l, CoefNear (ETD5.rProgNonDiagonal (ι := ι)).stages (C * ‖g t‖) (ETD5.coefN (cfg.withPoints (N t)) L (h t))
      (ETD5.flMatOf (A t) (B t) (L' t) (h t) (P t)) := by
  have hz := flZ_near hF hh hL'
  have hl := FlNear.lit (A := A) hF hh
  have e1 := expm_near hF hB L (θ := h) hz
  have e2 := expm_near hF hB L (y' := fun t i j => flZ (A t) (L' t) (h t) i j / 2) (θ := fun t => h t / 2)
    fun i j => ((hz i j).div_num hF 2).congr_eq (Eventually.of_forall fun t => by push_cast; ring)
  have e3 := expm_near hF hB L (y' := fun t i j => flZ (A t) (L' t) (h t) i j / 4) (θ := fun t => h t / 4)
    fun i j => ((hz i j).div_num hF 4).congr_eq (Eventually.of_forall fun t => by push_cast; ring)
  have e4 := expm_near hF hB L (y' := fun t i j => 3 * flZ (A t) (L' t) (h t) i j / 4) (θ := fun t => 3 * h t / 4)
    fun i j => (((FlNear.num hF 3).mul hF (hz i j)).div_num hF 4).congr_eq (Eventually.of_forall fun t => by push_cast; ring)
  refine CoefNear.of_isBigO _ (fun t => ETD5.coefN (cfg.withPoints (N t)) L (h t)) (fun t => ETD5.flMatOf (A t) (B t) (L' t) (h t) (P t)) ?_ ?_
  all_goals coef_list ETD5.rProgNonDiagonal
  all_goals first
    | exact e1
    | exact e2
    | exact e3
    | exact e4
    | (refine isBigO_mat.2 fun i j => ?_
       have q := hp i j
       simp only [Matrix.sub_apply, ETD5.flMatOf, ETD5.coefN, Fl.mat, Fl.half, Psis.entry_psi1_14, Psis.entry_psi2_14, Psis.entry_psi1_12, Psis.entry_psi2_12, Psis.entry_psi1_34, Psis.entry_psi2_34, Psis.entry_psi1_1, Psis.entry_psi2_1, Psis.entry_psi3_1]
       apply FlNear.err
       apply FlNear.congr_eq
       · near hF hl trivial q
       · exact Eventually.of_forall fun t => by
           simp only [Psis.ofPhi5, Matrix.smul_apply, Matrix.sub_apply, Matrix.add_apply, Matrix.neg_apply, smul_eq_mul]
           try ring)

theorem ETD35.flMat_near (hF : Fine l A ρ g) (hB : FineMat l B ρ) (cfg : ETDConfig ℝ) (hh : (fun t => (h t : ℂ)) =O[l] (1 : T → ℝ)) (L : Mat ι)
    {L' : T → Mat ι} (hL' : ∀ i j, (fun t => L' t i j - L i j) =O[l] g)
    {P : ∀ t, Psis (ι → ι → Fl (A t))} (hp : ∀ i j, NearPsis l A g (fun t => (P t).entry i j)
      (fun t => Psis.ofPhi5 fun k c => (cfg.withPoints (N t)).phiF L (h t) k c i j)) :
    ∃ C : ℝ, ∀ᶠ t in l, CoefNear (ETD35.rProgNonDiagonal (ι := ι)).stages (C * ‖g t‖) (ETD35.coefN (cfg.withPoints (N t)) L (h t))
      (ETD35.flMatOf (A t) (B t) (L' t) (h t) (P t)) := by
  have hz := flZ_near hF hh hL'
  have hl := FlNear.lit (A := A) hF hh
  have e1 := expm_near hF hB L (θ := h) hz
  have e2 := expm_near hF hB L (y' := fun t i j => flZ (A t) (L' t) (h t) i j / 2) (θ := fun t => h t / 2)
    fun i j => ((hz i j).div_num hF 2).congr_eq (Eventually.of_forall fun t => by push_cast; ring)
  have e3 := expm_near hF hB L (y' := fun t i j => flZ (A t) (L' t) (h t) i j / 4) (θ := fun t => h t / 4)
    fun i j => ((hz i j).div_num hF 4).congr_eq (Eventually.of_forall fun t => by push_cast; ring)
  have e4 := expm_near hF hB L (y' := fun t i j => 3 * flZ (A t) (L' t) (h t) i j / 4) (θ := fun t => 3 * h t / 4)
    fun i j => (((FlNear.num hF 3).mul hF (hz i j)).div_num hF 4).congr_eq (Eventually.of_forall fun t => by push_cast; ring)
  refine CoefNear.of_isBigO _ (fun t => ETD35.coefN (cfg.withPoints (N t)) L (h t)) (fun t => ETD35.flMatOf (A t) (B t) (L' t) (h t) (P t)) ?_ ?_
  all_goals coef_list ETD35.rProgNonDiagonal
  all_goals first
    | exact e1
    | exact e2
    | exact e3
    | exact e4
    | (refine isBigO_mat.2 fun i j => ?_
       have q := hp i j
       simp only [Matrix.sub_apply, ETD35.flMatOf, ETD35.coefN, Fl.mat, Fl.half, Psis.entry_psi1_14, Psis.entry_psi2_14, Psis.entry_psi1_12, Psis.entry_psi2_12, Psis.entry_psi1_34, Psis.entry_psi2_34, Psis.entry_psi1_1, Psis.entry_psi2_1, Psis.entry_psi3_1]
       apply FlNear.err
       apply FlNear.congr_eq
       · near hF hl trivial q
       · exact Eventually.of_forall fun t => by
           simp only [Psis.ofPhi5, Matrix.smul_apply, Matrix.sub_apply, Matrix.add_apply, Matrix.neg_apply, smul_eq_mul]
           try ring)

end Verif
