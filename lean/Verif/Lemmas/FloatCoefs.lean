import Verif.Lemmas.FloatBranch
import Verif.Lemmas.RoundedCoefs
import Mathlib.Analysis.Asymptotics.Lemmas

/-!
# Rounding errors of the coefficients
-/

set_option linter.unusedSectionVars false
set_option linter.unusedSimpArgs false

namespace Verif

open Asymptotics Filter Matrix
open scoped Matrix.Norms.Operator

variable {ι : Type} [Fintype ι] [DecidableEq ι]
variable {T : Type} {l : Filter T} {A : T → CArith} {ρ g : T → ℝ} {N : T → ℕ} {h : T → ℝ}

/-- Coefficients that occur in a program, each within `O(g)`, are within one multiple of `g`. -/
theorem CoefNear.of_isBigO {Coef : Type} (is : List (RInstr Coef ι)) (c c' : T → Coef)
    (hv : ∀ p ∈ is.flatMap RInstr.vecs, (fun t => p (c' t) - p (c t)) =O[l] g)
    (hm : ∀ p ∈ is.flatMap RInstr.mats, (fun t => p (c' t) - p (c t)) =O[l] g) :
    ∃ C : ℝ, ∀ᶠ t in l, CoefNear is (C * ‖g t‖) (c t) (c' t) := by
  have key : ∀ {V : Type} [NormedAddCommGroup V] (ps : List (Coef → V)), (∀ p ∈ ps, (fun t => p (c' t) - p (c t)) =O[l] g) →
      ∃ C : ℝ, ∀ᶠ t in l, ∀ p ∈ ps, ‖p (c' t) - p (c t)‖ ≤ C * ‖g t‖ := by
    intro V _ ps
    induction ps with
    | nil => exact fun _ => ⟨0, by simp⟩
    | cons p ps ih =>
      intro hp
      obtain ⟨C, hC⟩ := ih fun q hq => hp q (List.mem_cons_of_mem _ hq)
      obtain ⟨D, hD⟩ := (hp p List.mem_cons_self).bound
      refine ⟨max C D, ?_⟩
      filter_upwards [hC, hD] with t h1 h2 q hq
      rcases List.mem_cons.1 hq with rfl | hq
      · exact h2.trans (mul_le_mul_of_nonneg_right (le_max_right _ _) (norm_nonneg _))
      · exact (h1 q hq).trans (mul_le_mul_of_nonneg_right (le_max_left _ _) (norm_nonneg _))
  obtain ⟨C, hC⟩ := key _ hv
  obtain ⟨D, hD⟩ := key _ hm
  refine ⟨max C D, ?_⟩
  filter_upwards [hC, hD] with t h1 h2 i hi
  exact ⟨fun p hp => (h1 p (List.mem_flatMap.2 ⟨i, hi, hp⟩)).trans (mul_le_mul_of_nonneg_right (le_max_left _ _) (norm_nonneg _)),
    fun p hp => (h2 p (List.mem_flatMap.2 ⟨i, hi, hp⟩)).trans (mul_le_mul_of_nonneg_right (le_max_right _ _) (norm_nonneg _))⟩

/-- Splits an expression into its parts; `hf` says that operations are accurate, `hh`, `hz`, `hp` that `h`, the mode and the
`ψ` values are. -/
macro "near" hf:term:max hh:term:max hz:term:max hp:term:max : tactic => `(tactic| with_reducible_and_instances repeat' first
  | exact FlNear.num $hf _
  | exact FlNear.num_one $hf
  | exact $hh
  | exact $hz
  | exact ($hp).psi1_14
  | exact ($hp).psi2_14
  | exact ($hp).psi1_12
  | exact ($hp).psi2_12
  | exact ($hp).psi1_34
  | exact ($hp).psi2_34
  | exact ($hp).psi1_1
  | exact ($hp).psi2_1
  | exact ($hp).psi3_1
  | exact FlNear.lit $hf (isBigO_const_const (1 / 2 : ℂ) (one_ne_zero (α := ℝ)) _)
  | apply FlNear.div_num $hf
  | apply FlNear.neg
  | apply FlNear.exp $hf
  | apply FlNear.add $hf
  | apply FlNear.sub $hf
  | apply FlNear.mul $hf)

theorem ETD4.flCoefs_near (hF : Fine l A ρ (gap N ρ)) (cfg : ETDConfig ℝ) (L : Vec ι) (L' : T → Vec ι)
    (hz : ∀ i, FlNear l A (gap N ρ) (fun t => Fl.lit (h t : ℂ) * Fl.lit (L' t i)) (fun t => h t * L i))
    (hp : ∀ i, NearPsis l A (gap N ρ) (fun t => Fl.psis (cfg.withPoints (N t)) (Fl.averages (cfg.withPoints (N t))) (Fl.lit (h t : ℂ))
      (Fl.lit (h t : ℂ) * Fl.lit (L' t i))) (fun t => Psis.ofPhi (fun k c => (cfg.withPoints (N t)).phiM k c (h t * L i)) (h t))) :
    ∃ C : ℝ, ∀ᶠ t in l, CoefNear (ETD4.rProgDiagonal (ι := ι)).stages (C * ‖gap N ρ t‖) (ETD4.coefD (cfg.withPoints (N t)) L (h t))
      (ETD4.flCoefs (A t) (cfg.withPoints (N t)) (L' t) (h t)) := by
  refine CoefNear.of_isBigO _ (fun t => ETD4.coefD (cfg.withPoints (N t)) L (h t))
    (fun t => ETD4.flCoefs (A t) (cfg.withPoints (N t)) (L' t) (h t)) ?_ ?_
  all_goals coef_list ETD4.rProgDiagonal
  all_goals
    refine isBigO_pi.2 fun i => ?_
    simp only [Pi.sub_apply, ETD4.flCoefs, ETD4.coefD, Fl.etd4Of, Fl.half]
    apply FlNear.err
    apply FlNear.congr_eq
    · near hF trivial (hz i) (hp i)
    · exact Eventually.of_forall fun t => by simp only [Psis.ofPhi]; try ring_nf

theorem ETD5.flCoefs_near (hF : Fine l A ρ (gap N ρ)) (cfg : ETDConfig ℝ) (L : Vec ι) (L' : T → Vec ι)
    (hz : ∀ i, FlNear l A (gap N ρ) (fun t => Fl.lit (h t : ℂ) * Fl.lit (L' t i)) (fun t => h t * L i))
    (hp : ∀ i, NearPsis l A (gap N ρ) (fun t => Fl.psis (cfg.withPoints (N t)) (Fl.averages (cfg.withPoints (N t))) (Fl.lit (h t : ℂ))
      (Fl.lit (h t : ℂ) * Fl.lit (L' t i))) (fun t => Psis.ofPhi (fun k c => (cfg.withPoints (N t)).phiM k c (h t * L i)) (h t))) :
    ∃ C : ℝ, ∀ᶠ t in l, CoefNear (ETD5.rProgDiagonal (ι := ι)).stages (C * ‖gap N ρ t‖) (ETD5.coefD (cfg.withPoints (N t)) L (h t))
      (ETD5.flCoefs (A t) (cfg.withPoints (N t)) (L' t) (h t)) := by
  refine CoefNear.of_isBigO _ (fun t => ETD5.coefD (cfg.withPoints (N t)) L (h t))
    (fun t => ETD5.flCoefs (A t) (cfg.withPoints (N t)) (L' t) (h t)) ?_ ?_
  all_goals coef_list ETD5.rProgDiagonal
  all_goals
    refine isBigO_pi.2 fun i => ?_
    simp only [Pi.sub_apply, ETD5.flCoefs, ETD5.coefD, Fl.etd5Of, Fl.half]
    apply FlNear.err
    apply FlNear.congr_eq
    · near hF trivial (hz i) (hp i)
    · exact Eventually.of_forall fun t => by simp only [Psis.ofPhi]; try ring_nf

theorem ETD34.flCoefs_near (hF : Fine l A ρ (gap N ρ)) (cfg : ETDConfig ℝ) (L : Vec ι) (L' : T → Vec ι)
    (hz : ∀ i, FlNear l A (gap N ρ) (fun t => Fl.lit (h t : ℂ) * Fl.lit (L' t i)) (fun t => h t * L i))
    (hp : ∀ i, NearPsis l A (gap N ρ) (fun t => Fl.psis (cfg.withPoints (N t)) (Fl.averages (cfg.withPoints (N t))) (Fl.lit (h t : ℂ))
      (Fl.lit (h t : ℂ) * Fl.lit (L' t i))) (fun t => Psis.ofPhi (fun k c => (cfg.withPoints (N t)).phiM k c (h t * L i)) (h t))) :
    ∃ C : ℝ, ∀ᶠ t in l, CoefNear (ETD34.rProgDiagonal (ι := ι)).stages (C * ‖gap N ρ t‖) (ETD34.coefD (cfg.withPoints (N t)) L (h t))
      (ETD34.flCoefs (A t) (cfg.withPoints (N t)) (L' t) (h t)) := by
  refine CoefNear.of_isBigO _ (fun t => ETD34.coefD (cfg.withPoints (N t)) L (h t))
    (fun t => ETD34.flCoefs (A t) (cfg.withPoints (N t)) (L' t) (h t)) ?_ ?_
  all_goals coef_list ETD34.rProgDiagonal
  all_goals
    refine isBigO_pi.2 fun i => ?_
    simp only [Pi.sub_apply, ETD34.flCoefs, ETD34.coefD, Fl.etd34Of, Fl.half]
    apply FlNear.err
    apply FlNear.congr_eq
    · near hF trivial (hz i) (hp i)
    · exact Eventually.of_forall fun t => by simp only [Psis.ofPhi]; try ring_nf

theorem ETD34.flCoefs_near_eig (hF : Fine l A ρ (gap N ρ)) (cfg : ETDConfig ℝ) (L : Vec ι) (L' : T → Vec ι) (S Sinv : Mat ι)
    (hz : ∀ i, FlNear l A (gap N ρ) (fun t => Fl.lit (h t : ℂ) * Fl.lit (L' t i)) (fun t => h t * L i))
    (hp : ∀ i, NearPsis l A (gap N ρ) (fun t => Fl.psis (cfg.withPoints (N t)) (Fl.averages (cfg.withPoints (N t))) (Fl.lit (h t : ℂ))
      (Fl.lit (h t : ℂ) * Fl.lit (L' t i))) (fun t => Psis.ofPhi (fun k c => (cfg.withPoints (N t)).phiM k c (h t * L i)) (h t))) :
    ∃ C : ℝ, ∀ᶠ t in l, CoefNear (ETD34.rProgDiagonalized S Sinv).stages (C * ‖gap N ρ t‖) (ETD34.coefD (cfg.withPoints (N t)) L (h t))
      (ETD34.flCoefs (A t) (cfg.withPoints (N t)) (L' t) (h t)) := by
  refine CoefNear.of_isBigO _ (fun t => ETD34.coefD (cfg.withPoints (N t)) L (h t))
    (fun t => ETD34.flCoefs (A t) (cfg.withPoints (N t)) (L' t) (h t)) ?_ ?_
  all_goals coef_list ETD34.rProgDiagonalized
  all_goals
    refine isBigO_pi.2 fun i => ?_
    simp only [Pi.sub_apply, ETD34.flCoefs, ETD34.coefD, Fl.etd34Of, Fl.half]
    apply FlNear.err
    apply FlNear.congr_eq
    · near hF trivial (hz i) (hp i)
    · exact Eventually.of_forall fun t => by simp only [Psis.ofPhi]; try ring_nf

theorem ETD35.flCoefs_near (hF : Fine l A ρ (gap N ρ)) (cfg : ETDConfig ℝ) (L : Vec ι) (L' : T → Vec ι)
    (hz : ∀ i, FlNear l A (gap N ρ) (fun t => Fl.lit (h t : ℂ) * Fl.lit (L' t i)) (fun t => h t * L i))
    (hp : ∀ i, NearPsis l A (gap N ρ) (fun t => Fl.psis (cfg.withPoints (N t)) (Fl.averages35 (cfg.withPoints (N t))) (Fl.lit (h t : ℂ))
      (Fl.lit (h t : ℂ) * Fl.lit (L' t i))) (fun t => Psis.ofPhi (fun k c => (cfg.withPoints (N t)).phiM k c (h t * L i)) (h t))) :
    ∃ C : ℝ, ∀ᶠ t in l, CoefNear (ETD35.rProgDiagonal (ι := ι)).stages (C * ‖gap N ρ t‖) (ETD35.coefD (cfg.withPoints (N t)) L (h t))
      (ETD35.flCoefs (A t) (cfg.withPoints (N t)) (L' t) (h t)) := by
  refine CoefNear.of_isBigO _ (fun t => ETD35.coefD (cfg.withPoints (N t)) L (h t))
    (fun t => ETD35.flCoefs (A t) (cfg.withPoints (N t)) (L' t) (h t)) ?_ ?_
  all_goals coef_list ETD35.rProgDiagonal
  all_goals
    refine isBigO_pi.2 fun i => ?_
    simp only [Pi.sub_apply, ETD35.flCoefs, ETD35.coefD, Fl.etd35Of, Fl.half]
    apply FlNear.err
    apply FlNear.congr_eq
    · near hF trivial (hz i) (hp i)
    · exact Eventually.of_forall fun t => by simp only [Psis.ofPhi]; try ring_nf

theorem ETD35.flCoefs_near_eig (hF : Fine l A ρ (gap N ρ)) (cfg : ETDConfig ℝ) (L : Vec ι) (L' : T → Vec ι) (S Sinv : Mat ι)
    (hz : ∀ i, FlNear l A (gap N ρ) (fun t => Fl.lit (h t : ℂ) * Fl.lit (L' t i)) (fun t => h t * L i))
    (hp : ∀ i, NearPsis l A (gap N ρ) (fun t => Fl.psis (cfg.withPoints (N t)) (Fl.averages35 (cfg.withPoints (N t))) (Fl.lit (h t : ℂ))
      (Fl.lit (h t : ℂ) * Fl.lit (L' t i))) (fun t => Psis.ofPhi (fun k c => (cfg.withPoints (N t)).phiM k c (h t * L i)) (h t))) :
    ∃ C : ℝ, ∀ᶠ t in l, CoefNear (ETD35.rProgDiagonalized S Sinv).stages (C * ‖gap N ρ t‖) (ETD35.coefD (cfg.withPoints (N t)) L (h t))
      (ETD35.flCoefs (A t) (cfg.withPoints (N t)) (L' t) (h t)) := by
  refine CoefNear.of_isBigO _ (fun t => ETD35.coefD (cfg.withPoints (N t)) L (h t))
    (fun t => ETD35.flCoefs (A t) (cfg.withPoints (N t)) (L' t) (h t)) ?_ ?_
  all_goals coef_list ETD35.rProgDiagonalized
  all_goals
    refine isBigO_pi.2 fun i => ?_
    simp only [Pi.sub_apply, ETD35.flCoefs, ETD35.coefD, Fl.etd35Of, Fl.half]
    apply FlNear.err
    apply FlNear.congr_eq
    · near hF trivial (hz i) (hp i)
    · exact Eventually.of_forall fun t => by simp only [Psis.ofPhi]; try ring_nf

theorem IF4.flCoefs_near (hF : Fine l A ρ g) (L : Vec ι) (L' : T → Vec ι)
    (hz : ∀ i, FlNear l A g (fun t => Fl.lit (h t : ℂ) * Fl.lit (L' t i)) (fun t => h t * L i)) :
    ∃ C : ℝ, ∀ᶠ t in l, CoefNear (IF4.rProgDiagonal (ι := ι)).stages (C * ‖g t‖) ⟨npExp (bc (h t) * L), npExp (bc (h t) * L / 2)⟩
      (IF4.flCoefs (A t) (L' t) (h t)) := by
  refine CoefNear.of_isBigO _ (fun t => (⟨npExp (bc (h t) * L), npExp (bc (h t) * L / 2)⟩ : IFCoef (Vec ι)))
    (fun t => IF4.flCoefs (A t) (L' t) (h t)) ?_ ?_
  all_goals coef_list IF4.rProgDiagonal
  all_goals
    refine isBigO_pi.2 fun i => ?_
    simp only [Pi.sub_apply, IF4.flCoefs, npExp_apply, Pi.mul_apply, Pi.div_apply, bc_apply, Pi.ofNat_apply]
    apply FlNear.err
    apply FlNear.congr_eq
    · near hF trivial (hz i) trivial
    · exact Eventually.of_forall fun t => by try ring_nf

theorem IF34.flCoefs_near (hF : Fine l A ρ g) (L : Vec ι) (L' : T → Vec ι)
    (hz : ∀ i, FlNear l A g (fun t => Fl.lit (h t : ℂ) * Fl.lit (L' t i)) (fun t => h t * L i)) :
    ∃ C : ℝ, ∀ᶠ t in l, CoefNear (IF34.rProgDiagonal (ι := ι)).stages (C * ‖g t‖) ⟨npExp (bc (h t) * L), npExp (bc (h t) * L / 2)⟩
      (IF4.flCoefs (A t) (L' t) (h t)) := by
  refine CoefNear.of_isBigO _ (fun t => (⟨npExp (bc (h t) * L), npExp (bc (h t) * L / 2)⟩ : IFCoef (Vec ι)))
    (fun t => IF4.flCoefs (A t) (L' t) (h t)) ?_ ?_
  all_goals coef_list IF34.rProgDiagonal
  all_goals
    refine isBigO_pi.2 fun i => ?_
    simp only [Pi.sub_apply, IF4.flCoefs, npExp_apply, Pi.mul_apply, Pi.div_apply, bc_apply, Pi.ofNat_apply]
    apply FlNear.err
    apply FlNear.congr_eq
    · near hF trivial (hz i) trivial
    · exact Eventually.of_forall fun t => by try ring_nf

theorem IF34.flCoefs_near_eig (hF : Fine l A ρ g) (L : Vec ι) (L' : T → Vec ι) (S Sinv : Mat ι)
    (hz : ∀ i, FlNear l A g (fun t => Fl.lit (h t : ℂ) * Fl.lit (L' t i)) (fun t => h t * L i)) :
    ∃ C : ℝ, ∀ᶠ t in l, CoefNear (IF34.rProgDiagonalized S Sinv).stages (C * ‖g t‖) ⟨npExp (bc (h t) * L), npExp (bc (h t) * L / 2)⟩
      (IF4.flCoefs (A t) (L' t) (h t)) := by
  refine CoefNear.of_isBigO _ (fun t => (⟨npExp (bc (h t) * L), npExp (bc (h t) * L / 2)⟩ : IFCoef (Vec ι)))
    (fun t => IF4.flCoefs (A t) (L' t) (h t)) ?_ ?_
  all_goals coef_list IF34.rProgDiagonalized
  all_goals
    refine isBigO_pi.2 fun i => ?_
    simp only [Pi.sub_apply, IF4.flCoefs, npExp_apply, Pi.mul_apply, Pi.div_apply, bc_apply, Pi.ofNat_apply]
    apply FlNear.err
    apply FlNear.congr_eq
    · near hF trivial (hz i) trivial
    · exact Eventually.of_forall fun t => by try ring_nf

theorem IF45DP.flCoefs_near (hF : Fine l A ρ g) (L : Vec ι) (L' : T → Vec ι) (hh : FlNear l A g (fun t => Fl.lit (h t : ℂ)) (fun t => (h t : ℂ)))
    (hz : ∀ i, FlNear l A g (fun t => Fl.lit (h t : ℂ) * Fl.lit (L' t i)) (fun t => h t * L i)) :
    ∃ C : ℝ, ∀ᶠ t in l, CoefNear (IF45DP.rProg (ι := ι)).stages (C * ‖g t‖) (IF45DP.coefs L (h t)) (IF45DP.flCoefs (A t) (L' t) (h t)) := by
  refine CoefNear.of_isBigO _ (fun t => IF45DP.coefs L (h t)) (fun t => IF45DP.flCoefs (A t) (L' t) (h t)) ?_ ?_
  all_goals coef_list IF45DP.rProg
  all_goals
    refine isBigO_pi.2 fun i => ?_
    simp only [Pi.sub_apply, IF45DP.flCoefs, IF45DP.coefs, npExp_apply, Pi.mul_apply, Pi.div_apply, Pi.neg_apply, bc_apply, Pi.ofNat_apply]
    apply FlNear.err
    apply FlNear.congr_eq
    · near hF hh (hz i) trivial
    · exact Eventually.of_forall fun t => by try ring_nf

end Verif
