import Verif.Lemmas.RoundedStep
import Verif.Lemmas.OneStep

/-!
# The coefficients are bounded for small steps, whatever the number of contour points
-/

set_option linter.unusedSectionVars false
set_option linter.unusedSimpArgs false

namespace Verif

open Matrix
open scoped Matrix.Norms.Operator

variable {ι : Type} [Fintype ι] [DecidableEq ι]

/-- A family is bounded on a set of parameters. -/
def Bdd {τ V : Type} [Norm V] (T : Set τ) (X : τ → V) : Prop := ∃ B : ℝ, ∀ t ∈ T, ‖X t‖ ≤ B

namespace Bdd

variable {τ V : Type} {T : Set τ}

theorem nonneg [SeminormedAddGroup V] {X : τ → V} (h : Bdd T X) : ∃ B : ℝ, 0 ≤ B ∧ ∀ t ∈ T, ‖X t‖ ≤ B := by
  obtain ⟨B, hB⟩ := h
  exact ⟨max B 0, le_max_right _ _, fun t ht => (hB t ht).trans (le_max_left _ _)⟩

theorem const [Norm V] (v : V) : Bdd T fun _ => v := ⟨‖v‖, fun _ _ => le_rfl⟩

theorem add [SeminormedAddGroup V] {X Y : τ → V} (hX : Bdd T X) (hY : Bdd T Y) : Bdd T fun t => X t + Y t := by
  obtain ⟨B, hB⟩ := hX
  obtain ⟨C, hC⟩ := hY
  exact ⟨B + C, fun t ht => (norm_add_le _ _).trans (add_le_add (hB t ht) (hC t ht))⟩

theorem sub [SeminormedAddGroup V] {X Y : τ → V} (hX : Bdd T X) (hY : Bdd T Y) : Bdd T fun t => X t - Y t := by
  obtain ⟨B, hB⟩ := hX
  obtain ⟨C, hC⟩ := hY
  exact ⟨B + C, fun t ht => (norm_sub_le _ _).trans (add_le_add (hB t ht) (hC t ht))⟩

theorem neg [SeminormedAddGroup V] {X : τ → V} (hX : Bdd T X) : Bdd T fun t => -X t := by
  obtain ⟨B, hB⟩ := hX
  exact ⟨B, fun t ht => by rw [norm_neg]; exact hB t ht⟩

theorem mul [NormedDivisionRing V] {X Y : τ → V} (hX : Bdd T X) (hY : Bdd T Y) : Bdd T fun t => X t * Y t := by
  obtain ⟨B, hB0, hB⟩ := hX.nonneg
  obtain ⟨C, hC⟩ := hY
  exact ⟨B * C, fun t ht => (norm_mul_le _ _).trans (mul_le_mul (hB t ht) (hC t ht) (norm_nonneg _) hB0)⟩

theorem div_const [NormedDivisionRing V] {X : τ → V} (hX : Bdd T X) (v : V) : Bdd T fun t => X t / v := by
  simp only [div_eq_mul_inv]
  exact hX.mul (const _)

theorem smul {X : τ → ℂ} {Y : τ → Mat ι} (hX : Bdd T X) (hY : Bdd T Y) : Bdd T fun t => X t • Y t := by
  obtain ⟨B, hB0, hB⟩ := hX.nonneg
  obtain ⟨C, hC⟩ := hY
  exact ⟨B * C, fun t ht => (norm_smul_le _ _).trans (mul_le_mul (hB t ht) (hC t ht) (norm_nonneg _) hB0)⟩

theorem cexp {X : τ → ℂ} (hX : Bdd T X) : Bdd T fun t => Complex.exp (X t) := by
  obtain ⟨B, hB⟩ := hX
  exact ⟨Real.exp B, fun t ht => (Complex.norm_exp_le_exp_norm _).trans (Real.exp_le_exp.2 (hB t ht))⟩

theorem expm (L : Mat ι) {X : τ → ℝ} (hX : Bdd T X) : Bdd T fun t => Verif.expm L (X t) := by
  obtain ⟨B, hB⟩ := hX
  exact ⟨Real.exp (B * ‖L‖), fun t ht => (expm_norm_le _ _).trans
    (Real.exp_le_exp.2 (mul_le_mul_of_nonneg_right (hB t ht) (norm_nonneg _)))⟩

theorem ofReal {X : τ → ℝ} (hX : Bdd T X) : Bdd T fun t => (X t : ℂ) := by
  obtain ⟨B, hB⟩ := hX
  exact ⟨B, fun t ht => by rw [Complex.norm_real]; exact hB t ht⟩

/-- Entry by entry. -/
theorem vec {X : τ → Vec ι} (hX : ∀ i, Bdd T fun t => X t i) : Bdd T X := by
  choose B hB0 hB using fun i => (hX i).nonneg
  refine ⟨∑ i, B i, fun t ht => ?_⟩
  rw [pi_norm_le_iff_of_nonneg (Finset.sum_nonneg fun i _ => hB0 i)]
  exact fun i => (hB i t ht).trans (Finset.single_le_sum (f := B) (fun i _ => hB0 i) (Finset.mem_univ i))

/-- Finitely many families are bounded by one number. -/
theorem list {Coef : Type} [Norm V] (ps : List (Coef → V)) (c : τ → Coef) (hp : ∀ p ∈ ps, Bdd T fun t => p (c t)) :
    ∃ B : ℝ, ∀ t ∈ T, ∀ p ∈ ps, ‖p (c t)‖ ≤ B := by
  induction ps with
  | nil => exact ⟨0, by simp⟩
  | cons p ps ih =>
    obtain ⟨B, hB⟩ := hp p List.mem_cons_self
    obtain ⟨C, hC⟩ := ih fun q hq => hp q (List.mem_cons_of_mem _ hq)
    refine ⟨max B C, fun t ht q hq => ?_⟩
    rcases List.mem_cons.1 hq with rfl | hq
    · exact (hB t ht).trans (le_max_left _ _)
    · exact (hC t ht q hq).trans (le_max_right _ _)

end Bdd

/-- The coefficients in the assignments, each bounded, are bounded by one number. -/
theorem CoefBdd.of_bdd {Coef τ : Type} {T : Set τ} (is : List (RInstr Coef ι)) (c : τ → Coef)
    (hv : ∀ p ∈ is.flatMap RInstr.vecs, Bdd T fun t => p (c t)) (hm : ∀ p ∈ is.flatMap RInstr.mats, Bdd T fun t => p (c t)) :
    ∃ B : ℝ, 1 ≤ B ∧ ∀ t ∈ T, CoefBdd is B (c t) := by
  obtain ⟨B, hB⟩ := Bdd.list _ c hv
  obtain ⟨C, hC⟩ := Bdd.list _ c hm
  refine ⟨max 1 (max B C), le_max_left _ _, fun t ht i hi => ⟨fun p hp => ?_, fun p hp => ?_⟩⟩
  · exact (hB t ht p (List.mem_flatMap.2 ⟨i, hi, hp⟩)).trans ((le_max_left _ _).trans (le_max_right _ _))
  · exact (hC t ht p (List.mem_flatMap.2 ⟨i, hi, hp⟩)).trans ((le_max_right _ _).trans (le_max_right _ _))

/-- The parameters: the number of contour points and the step size. -/
def smallSteps (η : ℝ) : Set (ℕ × ℝ) := {t | 0 < t.1 ∧ 0 ≤ t.2 ∧ t.2 ≤ η}

theorem bdd_size (η : ℝ) : Bdd (smallSteps η) fun t => t.2 :=
  ⟨η, fun t ht => by rw [Real.norm_of_nonneg ht.2.1]; exact ht.2.2⟩

theorem bdd_phiD (cfg : ETDConfig ℝ) (L : Vec ι) (hL : (LinOp.diag L).GoodContour cfg) : ∃ η : ℝ, 0 < η ∧ η ≤ 1 ∧
    ∀ c : ℝ, 0 < c → c ≤ 1 → ∀ k i, Bdd (smallSteps η) fun t => (cfg.withPoints t.1).phiM k c (t.2 * L i) := by
  obtain ⟨K, η, hK, hη, h1⟩ := LinOp.phi_close cfg (.diag L) hL
  refine ⟨min η 1, lt_min hη one_pos, min_le_right _ _, fun c c0 c1 k i => ⟨K + Real.exp ‖Matrix.diagonal L‖, fun t ht => ?_⟩⟩
  have h2 := (h1 t.1 t.2 ht.1 ht.2.1 (ht.2.2.trans (min_le_left _ _)) c c0 c1).2 k
  have h3 := phiExact_norm_le (Matrix.diagonal L) ht.2.1 (ht.2.2.trans (min_le_right _ _)) k c0 c1
  have h4 : K * (1 / 2 : ℝ) ^ t.1 ≤ K := mul_le_of_le_one_right hK (pow_le_one₀ (by norm_num) (by norm_num))
  have h5 : ‖(LinOp.diag L).phi (cfg.withPoints t.1) t.2 k c‖ ≤ K + Real.exp ‖Matrix.diagonal L‖ := by
    have := norm_le_norm_sub_add ((LinOp.diag L).phi (cfg.withPoints t.1) t.2 k c) (phiExact (LinOp.diag L).mat t.2 k c)
    exact this.trans (add_le_add (h2.trans h4) h3)
  refine le_trans ?_ h5
  change _ ≤ ‖Matrix.diagonal fun i => (cfg.withPoints t.1).phiM k c (t.2 * L i)‖
  rw [Matrix.linfty_opNorm_diagonal]
  exact norm_le_pi_norm (fun i => (cfg.withPoints t.1).phiM k c (t.2 * L i)) i

theorem bdd_phiF (cfg : ETDConfig ℝ) (L : Mat ι) (hL : (LinOp.full L).GoodContour cfg) : ∃ η : ℝ, 0 < η ∧ η ≤ 1 ∧
    ∀ c : ℝ, 0 < c → c ≤ 1 → ∀ k, Bdd (smallSteps η) fun t => (cfg.withPoints t.1).phiF L t.2 k c := by
  obtain ⟨K, η, hK, hη, h1⟩ := LinOp.phi_close cfg (.full L) hL
  refine ⟨min η 1, lt_min hη one_pos, min_le_right _ _, fun c c0 c1 k => ⟨K + Real.exp ‖L‖, fun t ht => ?_⟩⟩
  have h2 := (h1 t.1 t.2 ht.1 ht.2.1 (ht.2.2.trans (min_le_left _ _)) c c0 c1).2 k
  have h3 := phiExact_norm_le L ht.2.1 (ht.2.2.trans (min_le_right _ _)) k c0 c1
  have h4 : K * (1 / 2 : ℝ) ^ t.1 ≤ K := mul_le_of_le_one_right hK (pow_le_one₀ (by norm_num) (by norm_num))
  have := norm_le_norm_sub_add ((LinOp.full L).phi (cfg.withPoints t.1) t.2 k c) (phiExact (LinOp.full L).mat t.2 k c)
  exact this.trans (add_le_add (h2.trans h4) h3)

namespace Exp
variable {Coef : Type} (e f : Exp Coef ι)
theorem vecs_add : (e + f).vecs = e.vecs ++ f.vecs := rfl
theorem vecs_sub : (e - f).vecs = e.vecs ++ f.vecs := rfl
theorem vecs_mul : (e * f).vecs = e.vecs ++ f.vecs := rfl
theorem vecs_neg : (-e).vecs = e.vecs := rfl
theorem mats_add : (e + f).mats = e.mats ++ f.mats := rfl
theorem mats_sub : (e - f).mats = e.mats ++ f.mats := rfl
theorem mats_mul : (e * f).mats = e.mats ++ f.mats := rfl
theorem mats_neg : (-e).mats = e.mats := rfl
end Exp

/-- Splits a bound for a family into bounds for its parts; `h` bounds the `φ` functions. -/
macro "bdd" h:term : tactic => `(tactic| with_reducible_and_instances repeat' first
  | exact Bdd.const _
  | exact bdd_size _
  | apply Bdd.ofReal
  | apply Bdd.cexp
  | apply Bdd.expm
  | apply Bdd.add
  | apply Bdd.sub
  | apply Bdd.neg
  | apply Bdd.smul
  | apply Bdd.div_const
  | apply Bdd.mul
  | (exact $h _ (by norm_num) (by norm_num) _ _)
  | (exact $h _ (by norm_num) (by norm_num) _))

/-- Lists the coefficients that occur in a program. -/
macro "coef_list" p:ident : tactic => `(tactic| (
  simp only [$p:ident, List.flatMap_cons, List.flatMap_nil, RInstr.vecs, RInstr.mats, Exp.vecs_add, Exp.vecs_sub, Exp.vecs_mul,
    Exp.vecs_neg, Exp.mats_add, Exp.mats_sub, Exp.mats_mul, Exp.mats_neg, Exp.vecs, Exp.mats, List.nil_append, List.append_nil,
    List.cons_append, List.forall_mem_cons, List.not_mem_nil, false_imp_iff, implies_true, and_true]
  repeat' apply And.intro))

theorem IF4.bddDiagonal (L : Vec ι) : ∃ B : ℝ, 1 ≤ B ∧ ∀ t ∈ smallSteps 1,
    CoefBdd (IF4.rProgDiagonal (ι := ι)).stages B ⟨npExp (bc t.2 * L), npExp (bc t.2 * L / 2)⟩ := by
  refine CoefBdd.of_bdd _ (fun t : ℕ × ℝ => (⟨npExp (bc t.2 * L), npExp (bc t.2 * L / 2)⟩ : IFCoef (Vec ι))) ?_ ?_
  all_goals coef_list IF4.rProgDiagonal
  all_goals
    refine Bdd.vec fun i => ?_
    simp only [npExp_apply, Pi.mul_apply, Pi.div_apply, bc_apply, Pi.ofNat_apply]
    bdd True.intro

theorem IF4.bddNonDiagonal (L : Mat ι) : ∃ B : ℝ, 1 ≤ B ∧ ∀ t ∈ smallSteps 1,
    CoefBdd (IF4.rProgNonDiagonal (ι := ι)).stages B ⟨expm L t.2, expm L (t.2 / 2)⟩ := by
  refine CoefBdd.of_bdd _ (fun t : ℕ × ℝ => (⟨expm L t.2, expm L (t.2 / 2)⟩ : IFCoef (Mat ι))) ?_ ?_
  all_goals coef_list IF4.rProgNonDiagonal
  all_goals
    bdd True.intro

theorem ETD4.bddDiagonal (cfg : ETDConfig ℝ) (L : Vec ι) (hL : (LinOp.diag L).GoodContour cfg) : ∃ η : ℝ, 0 < η ∧ η ≤ 1 ∧ ∃ B : ℝ, 1 ≤ B ∧ ∀ t ∈ smallSteps η,
    CoefBdd (ETD4.rProgDiagonal (ι := ι)).stages B (ETD4.coefD (cfg.withPoints t.1) L t.2) := by
  obtain ⟨η, h0, h1, hφ⟩ := bdd_phiD cfg L hL
  refine ⟨η, h0, h1, ?_⟩
  refine CoefBdd.of_bdd _ (fun t : ℕ × ℝ => (ETD4.coefD (cfg.withPoints t.1) L t.2)) ?_ ?_
  all_goals coef_list ETD4.rProgDiagonal
  all_goals
    refine Bdd.vec fun i => ?_
    simp only [ETD4.coefD, npExp_apply, Pi.mul_apply, Pi.div_apply, bc_apply, Pi.ofNat_apply]
    bdd hφ

theorem ETD4.bddNonDiagonal (cfg : ETDConfig ℝ) (L : Mat ι) (hL : (LinOp.full L).GoodContour cfg) : ∃ η : ℝ, 0 < η ∧ η ≤ 1 ∧ ∃ B : ℝ, 1 ≤ B ∧ ∀ t ∈ smallSteps η,
    CoefBdd (ETD4.rProgNonDiagonal (ι := ι)).stages B (ETD4.coefN (cfg.withPoints t.1) L t.2) := by
  obtain ⟨η, h0, h1, hφ⟩ := bdd_phiF cfg L hL
  refine ⟨η, h0, h1, ?_⟩
  refine CoefBdd.of_bdd _ (fun t : ℕ × ℝ => (ETD4.coefN (cfg.withPoints t.1) L t.2)) ?_ ?_
  all_goals coef_list ETD4.rProgNonDiagonal
  all_goals
    simp only [ETD4.coefN]
    bdd hφ

theorem ETD5.bddDiagonal (cfg : ETDConfig ℝ) (L : Vec ι) (hL : (LinOp.diag L).GoodContour cfg) : ∃ η : ℝ, 0 < η ∧ η ≤ 1 ∧ ∃ B : ℝ, 1 ≤ B ∧ ∀ t ∈ smallSteps η,
    CoefBdd (ETD5.rProgDiagonal (ι := ι)).stages B (ETD5.coefD (cfg.withPoints t.1) L t.2) := by
  obtain ⟨η, h0, h1, hφ⟩ := bdd_phiD cfg L hL
  refine ⟨η, h0, h1, ?_⟩
  refine CoefBdd.of_bdd _ (fun t : ℕ × ℝ => (ETD5.coefD (cfg.withPoints t.1) L t.2)) ?_ ?_
  all_goals coef_list ETD5.rProgDiagonal
  all_goals
    refine Bdd.vec fun i => ?_
    simp only [ETD5.coefD, npExp_apply, Pi.mul_apply, Pi.div_apply, bc_apply, Pi.ofNat_apply]
    bdd hφ

theorem ETD5.bddNonDiagonal (cfg : ETDConfig ℝ) (L : Mat ι) (hL : (LinOp.full L).GoodContour cfg) : ∃ η : ℝ, 0 < η ∧ η ≤ 1 ∧ ∃ B : ℝ, 1 ≤ B ∧ ∀ t ∈ smallSteps η,
    CoefBdd (ETD5.rProgNonDiagonal (ι := ι)).stages B (ETD5.coefN (cfg.withPoints t.1) L t.2) := by
  obtain ⟨η, h0, h1, hφ⟩ := bdd_phiF cfg L hL
  refine ⟨η, h0, h1, ?_⟩
  refine CoefBdd.of_bdd _ (fun t : ℕ × ℝ => (ETD5.coefN (cfg.withPoints t.1) L t.2)) ?_ ?_
  all_goals coef_list ETD5.rProgNonDiagonal
  all_goals
    simp only [ETD5.coefN]
    bdd hφ

theorem IF34.bddDiagonal (L : Vec ι) : ∃ B : ℝ, 1 ≤ B ∧ ∀ t ∈ smallSteps 1,
    CoefBdd (IF34.rProgDiagonal (ι := ι)).stages B ⟨npExp (bc t.2 * L), npExp (bc t.2 * L / 2)⟩ := by
  refine CoefBdd.of_bdd _ (fun t : ℕ × ℝ => (⟨npExp (bc t.2 * L), npExp (bc t.2 * L / 2)⟩ : IFCoef (Vec ι))) ?_ ?_
  all_goals coef_list IF34.rProgDiagonal
  all_goals
    refine Bdd.vec fun i => ?_
    simp only [npExp_apply, Pi.mul_apply, Pi.div_apply, bc_apply, Pi.ofNat_apply]
    bdd True.intro

theorem IF34.bddNonDiagonal (L : Mat ι) : ∃ B : ℝ, 1 ≤ B ∧ ∀ t ∈ smallSteps 1,
    CoefBdd (IF34.rProgNonDiagonal (ι := ι)).stages B ⟨expm L t.2, expm L (t.2 / 2)⟩ := by
  refine CoefBdd.of_bdd _ (fun t : ℕ × ℝ => (⟨expm L t.2, expm L (t.2 / 2)⟩ : IFCoef (Mat ι))) ?_ ?_
  all_goals coef_list IF34.rProgNonDiagonal
  all_goals
    bdd True.intro

theorem IF34.bddDiagonalized (L : Vec ι) (S Sinv : Mat ι) : ∃ B : ℝ, 1 ≤ B ∧ ∀ t ∈ smallSteps 1,
    CoefBdd (IF34.rProgDiagonalized S Sinv).stages B ⟨npExp (bc t.2 * L), npExp (bc t.2 * L / 2)⟩ := by
  refine CoefBdd.of_bdd _ (fun t : ℕ × ℝ => (⟨npExp (bc t.2 * L), npExp (bc t.2 * L / 2)⟩ : IFCoef (Vec ι))) ?_ ?_
  all_goals coef_list IF34.rProgDiagonalized
  all_goals
    refine Bdd.vec fun i => ?_
    simp only [npExp_apply, Pi.mul_apply, Pi.div_apply, bc_apply, Pi.ofNat_apply]
    bdd True.intro

theorem ETD34.bddDiagonal (cfg : ETDConfig ℝ) (L : Vec ι) (hL : (LinOp.diag L).GoodContour cfg) : ∃ η : ℝ, 0 < η ∧ η ≤ 1 ∧ ∃ B : ℝ, 1 ≤ B ∧ ∀ t ∈ smallSteps η,
    CoefBdd (ETD34.rProgDiagonal (ι := ι)).stages B (ETD34.coefD (cfg.withPoints t.1) L t.2) := by
  obtain ⟨η, h0, h1, hφ⟩ := bdd_phiD cfg L hL
  refine ⟨η, h0, h1, ?_⟩
  refine CoefBdd.of_bdd _ (fun t : ℕ × ℝ => (ETD34.coefD (cfg.withPoints t.1) L t.2)) ?_ ?_
  all_goals coef_list ETD34.rProgDiagonal
  all_goals
    refine Bdd.vec fun i => ?_
    simp only [ETD34.coefD, npExp_apply, Pi.mul_apply, Pi.div_apply, bc_apply, Pi.ofNat_apply]
    bdd hφ

theorem ETD34.bddNonDiagonal (cfg : ETDConfig ℝ) (L : Mat ι) (hL : (LinOp.full L).GoodContour cfg) : ∃ η : ℝ, 0 < η ∧ η ≤ 1 ∧ ∃ B : ℝ, 1 ≤ B ∧ ∀ t ∈ smallSteps η,
    CoefBdd (ETD34.rProgNonDiagonal (ι := ι)).stages B (ETD34.coefN (cfg.withPoints t.1) L t.2) := by
  obtain ⟨η, h0, h1, hφ⟩ := bdd_phiF cfg L hL
  refine ⟨η, h0, h1, ?_⟩
  refine CoefBdd.of_bdd _ (fun t : ℕ × ℝ => (ETD34.coefN (cfg.withPoints t.1) L t.2)) ?_ ?_
  all_goals coef_list ETD34.rProgNonDiagonal
  all_goals
    simp only [ETD34.coefN]
    bdd hφ

theorem ETD34.bddDiagonalized (cfg : ETDConfig ℝ) (L : Vec ι) (S Sinv : Mat ι) (hL : (LinOp.diag L).GoodContour cfg) : ∃ η : ℝ, 0 < η ∧ η ≤ 1 ∧ ∃ B : ℝ, 1 ≤ B ∧ ∀ t ∈ smallSteps η,
    CoefBdd (ETD34.rProgDiagonalized S Sinv).stages B (ETD34.coefD (cfg.withPoints t.1) L t.2) := by
  obtain ⟨η, h0, h1, hφ⟩ := bdd_phiD cfg L hL
  refine ⟨η, h0, h1, ?_⟩
  refine CoefBdd.of_bdd _ (fun t : ℕ × ℝ => (ETD34.coefD (cfg.withPoints t.1) L t.2)) ?_ ?_
  all_goals coef_list ETD34.rProgDiagonalized
  all_goals
    refine Bdd.vec fun i => ?_
    simp only [ETD34.coefD, npExp_apply, Pi.mul_apply, Pi.div_apply, bc_apply, Pi.ofNat_apply]
    bdd hφ

theorem ETD35.bddDiagonal (cfg : ETDConfig ℝ) (L : Vec ι) (hL : (LinOp.diag L).GoodContour cfg) : ∃ η : ℝ, 0 < η ∧ η ≤ 1 ∧ ∃ B : ℝ, 1 ≤ B ∧ ∀ t ∈ smallSteps η,
    CoefBdd (ETD35.rProgDiagonal (ι := ι)).stages B (ETD35.coefD (cfg.withPoints t.1) L t.2) := by
  obtain ⟨η, h0, h1, hφ⟩ := bdd_phiD cfg L hL
  refine ⟨η, h0, h1, ?_⟩
  refine CoefBdd.of_bdd _ (fun t : ℕ × ℝ => (ETD35.coefD (cfg.withPoints t.1) L t.2)) ?_ ?_
  all_goals coef_list ETD35.rProgDiagonal
  all_goals
    refine Bdd.vec fun i => ?_
    simp only [ETD35.coefD, npExp_apply, Pi.mul_apply, Pi.div_apply, bc_apply, Pi.ofNat_apply]
    bdd hφ

theorem ETD35.bddNonDiagonal (cfg : ETDConfig ℝ) (L : Mat ι) (hL : (LinOp.full L).GoodContour cfg) : ∃ η : ℝ, 0 < η ∧ η ≤ 1 ∧ ∃ B : ℝ, 1 ≤ B ∧ ∀ t ∈ smallSteps η,
    CoefBdd (ETD35.rProgNonDiagonal (ι := ι)).stages B (ETD35.coefN (cfg.withPoints t.1) L t.2) := by
  obtain ⟨η, h0, h1, hφ⟩ := bdd_phiF cfg L hL
  refine ⟨η, h0, h1, ?_⟩
  refine CoefBdd.of_bdd _ (fun t : ℕ × ℝ => (ETD35.coefN (cfg.withPoints t.1) L t.2)) ?_ ?_
  all_goals coef_list ETD35.rProgNonDiagonal
  all_goals
    simp only [ETD35.coefN]
    bdd hφ

theorem ETD35.bddDiagonalized (cfg : ETDConfig ℝ) (L : Vec ι) (S Sinv : Mat ι) (hL : (LinOp.diag L).GoodContour cfg) : ∃ η : ℝ, 0 < η ∧ η ≤ 1 ∧ ∃ B : ℝ, 1 ≤ B ∧ ∀ t ∈ smallSteps η,
    CoefBdd (ETD35.rProgDiagonalized S Sinv).stages B (ETD35.coefD (cfg.withPoints t.1) L t.2) := by
  obtain ⟨η, h0, h1, hφ⟩ := bdd_phiD cfg L hL
  refine ⟨η, h0, h1, ?_⟩
  refine CoefBdd.of_bdd _ (fun t : ℕ × ℝ => (ETD35.coefD (cfg.withPoints t.1) L t.2)) ?_ ?_
  all_goals coef_list ETD35.rProgDiagonalized
  all_goals
    refine Bdd.vec fun i => ?_
    simp only [ETD35.coefD, npExp_apply, Pi.mul_apply, Pi.div_apply, bc_apply, Pi.ofNat_apply]
    bdd hφ

theorem IF45DP.bdd (L : Vec ι) : ∃ B : ℝ, 1 ≤ B ∧ ∀ t ∈ smallSteps 1, CoefBdd (IF45DP.rProg (ι := ι)).stages B (IF45DP.coefs L t.2) := by
  refine CoefBdd.of_bdd _ (fun t : ℕ × ℝ => IF45DP.coefs L t.2) ?_ ?_
  all_goals coef_list IF45DP.rProg
  all_goals
    refine Bdd.vec fun i => ?_
    simp only [IF45DP.coefs, npExp_apply, Pi.mul_apply, Pi.div_apply, Pi.neg_apply, bc_apply, Pi.ofNat_apply]
    bdd True.intro

end Verif
