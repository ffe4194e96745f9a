import Verif.Spec.Trees
import Mathlib.Tactic.NormNum
import Mathlib.Tactic.IntervalCases
import Mathlib.Tactic.FieldSimp

/-!
# The order conditions of the classical tableaux

The values of the inner sums below are checked by the kernel; they were computed with exact fractions.
-/

set_option linter.unusedSectionVars false
set_option linter.unusedSimpArgs false
set_option linter.unnecessarySeqFocus false

namespace Verif

namespace RTree

/-- `∑_j a_ij Φ_j(c)` -/
noncomputable def inner (T : Tableau) (c : RTree) (i : ℕ) : ℝ := ∑ j ∈ Finset.range T.s, T.a i j * c.weight T.a T.s j

theorem weight_leaf (T : Tableau) (i : ℕ) : weight T.a T.s leaf i = 1 := rfl

theorem weight_graft (T : Tableau) (t c : RTree) (i : ℕ) :
    weight T.a T.s (graft t c) i = weight T.a T.s t i * inner T c i := rfl

theorem order_pos (t : RTree) : 0 < t.order := by
  induction t with
  | leaf => exact Nat.one_pos
  | graft t c h1 _ => exact Nat.add_pos_left h1 _

theorem of_order_1 {P : RTree → Prop} (h0 : P .leaf) (t : RTree) (h : t.order = 1) : P t := by
  rcases t with _ | ⟨t, c⟩
  · exact h0
  · have := order_pos t; have := order_pos c; simp only [order] at h; omega

theorem of_order_2 {P : RTree → Prop} (h0 : P (.graft .leaf .leaf)) (t : RTree) (h : t.order = 2) : P t := by
  rcases t with _ | ⟨t, c⟩
  · simp [order] at h
  · simp only [order] at h
    have hp1 := order_pos t
    have hp2 := order_pos c
    obtain ⟨ht, hc⟩ : t.order = 1 ∧ c.order = 1 := by omega
    · exact of_order_1 (P := fun t => P (.graft t c)) (of_order_1 (P := fun c => P (.graft .leaf c)) h0 c hc) t ht

theorem of_order_3 {P : RTree → Prop} (h0 : P (.graft .leaf (.graft .leaf .leaf))) (h1 : P (.graft (.graft .leaf .leaf) .leaf)) (t : RTree) (h : t.order = 3) : P t := by
  rcases t with _ | ⟨t, c⟩
  · simp [order] at h
  · simp only [order] at h
    have hp1 := order_pos t
    have hp2 := order_pos c
    obtain ⟨ht, hc⟩ | ⟨ht, hc⟩ : t.order = 1 ∧ c.order = 2 ∨ t.order = 2 ∧ c.order = 1 := by omega
    · exact of_order_1 (P := fun t => P (.graft t c)) (of_order_2 (P := fun c => P (.graft .leaf c)) h0 c hc) t ht
    · exact of_order_2 (P := fun t => P (.graft t c)) (of_order_1 (P := fun c => P (.graft (.graft .leaf .leaf) c)) h1 c hc) t ht

theorem of_order_4 {P : RTree → Prop} (h0 : P (.graft .leaf (.graft .leaf (.graft .leaf .leaf)))) (h1 : P (.graft .leaf (.graft (.graft .leaf .leaf) .leaf))) (h2 : P (.graft (.graft .leaf .leaf) (.graft .leaf .leaf))) (h3 : P (.graft (.graft .leaf (.graft .leaf .leaf)) .leaf)) (h4 : P (.graft (.graft (.graft .leaf .leaf) .leaf) .leaf)) (t : RTree) (h : t.order = 4) : P t := by
  rcases t with _ | ⟨t, c⟩
  · simp [order] at h
  · simp only [order] at h
    have hp1 := order_pos t
    have hp2 := order_pos c
    obtain ⟨ht, hc⟩ | ⟨ht, hc⟩ | ⟨ht, hc⟩ : t.order = 1 ∧ c.order = 3 ∨ t.order = 2 ∧ c.order = 2 ∨ t.order = 3 ∧ c.order = 1 := by omega
    · exact of_order_1 (P := fun t => P (.graft t c)) (of_order_3 (P := fun c => P (.graft .leaf c)) h0 h1 c hc) t ht
    · exact of_order_2 (P := fun t => P (.graft t c)) (of_order_2 (P := fun c => P (.graft (.graft .leaf .leaf) c)) h2 c hc) t ht
    · exact of_order_3 (P := fun t => P (.graft t c)) (of_order_1 (P := fun c => P (.graft (.graft .leaf (.graft .leaf .leaf)) c)) h3 c hc) (of_order_1 (P := fun c => P (.graft (.graft (.graft .leaf .leaf) .leaf) c)) h4 c hc) t ht

theorem of_order_5 {P : RTree → Prop} (h0 : P (.graft .leaf (.graft .leaf (.graft .leaf (.graft .leaf .leaf))))) (h1 : P (.graft .leaf (.graft .leaf (.graft (.graft .leaf .leaf) .leaf)))) (h2 : P (.graft .leaf (.graft (.graft .leaf .leaf) (.graft .leaf .leaf)))) (h3 : P (.graft .leaf (.graft (.graft .leaf (.graft .leaf .leaf)) .leaf))) (h4 : P (.graft .leaf (.graft (.graft (.graft .leaf .leaf) .leaf) .leaf))) (h5 : P (.graft (.graft .leaf .leaf) (.graft .leaf (.graft .leaf .leaf)))) (h6 : P (.graft (.graft .leaf .leaf) (.graft (.graft .leaf .leaf) .leaf))) (h7 : P (.graft (.graft .leaf (.graft .leaf .leaf)) (.graft .leaf .leaf))) (h8 : P (.graft (.graft (.graft .leaf .leaf) .leaf) (.graft .leaf .leaf))) (h9 : P (.graft (.graft .leaf (.graft .leaf (.graft .leaf .leaf))) .leaf)) (h10 : P (.graft (.graft .leaf (.graft (.graft .leaf .leaf) .leaf)) .leaf)) (h11 : P (.graft (.graft (.graft .leaf .leaf) (.graft .leaf .leaf)) .leaf)) (h12 : P (.graft (.graft (.graft .leaf (.graft .leaf .leaf)) .leaf) .leaf)) (h13 : P (.graft (.graft (.graft (.graft .leaf .leaf) .leaf) .leaf) .leaf)) (t : RTree) (h : t.order = 5) : P t := by
  rcases t with _ | ⟨t, c⟩
  · simp [order] at h
  · simp only [order] at h
    have hp1 := order_pos t
    have hp2 := order_pos c
    obtain ⟨ht, hc⟩ | ⟨ht, hc⟩ | ⟨ht, hc⟩ | ⟨ht, hc⟩ : t.order = 1 ∧ c.order = 4 ∨ t.order = 2 ∧ c.order = 3 ∨ t.order = 3 ∧ c.order = 2 ∨ t.order = 4 ∧ c.order = 1 := by omega
    · exact of_order_1 (P := fun t => P (.graft t c)) (of_order_4 (P := fun c => P (.graft .leaf c)) h0 h1 h2 h3 h4 c hc) t ht
    · exact of_order_2 (P := fun t => P (.graft t c)) (of_order_3 (P := fun c => P (.graft (.graft .leaf .leaf) c)) h5 h6 c hc) t ht
    · exact of_order_3 (P := fun t => P (.graft t c)) (of_order_2 (P := fun c => P (.graft (.graft .leaf (.graft .leaf .leaf)) c)) h7 c hc) (of_order_2 (P := fun c => P (.graft (.graft (.graft .leaf .leaf) .leaf) c)) h8 c hc) t ht
    · exact of_order_4 (P := fun t => P (.graft t c)) (of_order_1 (P := fun c => P (.graft (.graft .leaf (.graft .leaf (.graft .leaf .leaf))) c)) h9 c hc) (of_order_1 (P := fun c => P (.graft (.graft .leaf (.graft (.graft .leaf .leaf) .leaf)) c)) h10 c hc) (of_order_1 (P := fun c => P (.graft (.graft (.graft .leaf .leaf) (.graft .leaf .leaf)) c)) h11 c hc) (of_order_1 (P := fun c => P (.graft (.graft (.graft .leaf (.graft .leaf .leaf)) .leaf) c)) h12 c hc) (of_order_1 (P := fun c => P (.graft (.graft (.graft (.graft .leaf .leaf) .leaf) .leaf) c)) h13 c hc) t ht

end RTree

/-- The classical fifth order method that ETD5 and ETD35 reduce to. -/
noncomputable def butcher5 : Tableau where
  s := 7
  c := fun
    | 1 => 1 / 4
    | 2 => 1 / 4
    | 3 => 1 / 2
    | 4 => 3 / 4
    | 5 => 1
    | 6 => 1
    | _ => 0
  a := fun
    | 1, 0 => 1 / 4
    | 2, 0 => 1 / 8
    | 2, 1 => 1 / 8
    | 3, 2 => 1 / 2
    | 4, 0 => 3 / 16
    | 4, 1 => -3 / 8
    | 4, 2 => 3 / 8
    | 4, 3 => 9 / 16
    | 5, 0 => -3 / 7
    | 5, 1 => 8 / 7
    | 5, 2 => 6 / 7
    | 5, 3 => -12 / 7
    | 5, 4 => 8 / 7
    | 6, 0 => 7 / 90
    | 6, 2 => 16 / 45
    | 6, 3 => 2 / 15
    | 6, 4 => 16 / 45
    | 6, 5 => 7 / 90
    | _, _ => 0
  b := fun
    | 0 => 7 / 90
    | 2 => 16 / 45
    | 3 => 2 / 15
    | 4 => 16 / 45
    | 5 => 7 / 90
    | _ => 0
  r := fun
    | 0 => -(16 / 45)
    | 2 => 64 / 45
    | 3 => -(32 / 15)
    | 4 => 64 / 45
    | 5 => -(16 / 45)
    | _ => 0

theorem rk4_inner0 : RTree.inner rk4 .leaf 0 = 0 ∧ RTree.inner rk4 .leaf 1 = (1 / 2) ∧ RTree.inner rk4 .leaf 2 = (1 / 2) ∧ RTree.inner rk4 .leaf 3 = 1 ∧ RTree.inner rk4 .leaf 4 = 1 := by
  refine ⟨?_, ?_, ?_, ?_, ?_⟩ <;>
    rw [RTree.inner] <;> simp only [show rk4.s = 5 from rfl, Finset.sum_range_succ, Finset.sum_range_zero] <;>
    simp only [← show rk4.s = 5 from rfl, RTree.weight_graft, RTree.weight_leaf] <;>
    norm_num [rk4]

theorem rk4_inner1 : RTree.inner rk4 (.graft .leaf .leaf) 0 = 0 ∧ RTree.inner rk4 (.graft .leaf .leaf) 1 = 0 ∧ RTree.inner rk4 (.graft .leaf .leaf) 2 = (1 / 4) ∧ RTree.inner rk4 (.graft .leaf .leaf) 3 = (1 / 2) ∧ RTree.inner rk4 (.graft .leaf .leaf) 4 = (1 / 2) := by
  obtain ⟨e0_0, e0_1, e0_2, e0_3, e0_4⟩ := rk4_inner0
  refine ⟨?_, ?_, ?_, ?_, ?_⟩ <;>
    rw [RTree.inner] <;> simp only [show rk4.s = 5 from rfl, Finset.sum_range_succ, Finset.sum_range_zero] <;>
    simp only [← show rk4.s = 5 from rfl, RTree.weight_graft, RTree.weight_leaf, e0_0, e0_1, e0_2, e0_3, e0_4] <;>
    norm_num [rk4]

theorem rk4_inner2 : RTree.inner rk4 (.graft .leaf (.graft .leaf .leaf)) 0 = 0 ∧ RTree.inner rk4 (.graft .leaf (.graft .leaf .leaf)) 1 = 0 ∧ RTree.inner rk4 (.graft .leaf (.graft .leaf .leaf)) 2 = 0 ∧ RTree.inner rk4 (.graft .leaf (.graft .leaf .leaf)) 3 = (1 / 4) ∧ RTree.inner rk4 (.graft .leaf (.graft .leaf .leaf)) 4 = (1 / 6) := by
  obtain ⟨e1_0, e1_1, e1_2, e1_3, e1_4⟩ := rk4_inner1
  refine ⟨?_, ?_, ?_, ?_, ?_⟩ <;>
    rw [RTree.inner] <;> simp only [show rk4.s = 5 from rfl, Finset.sum_range_succ, Finset.sum_range_zero] <;>
    simp only [← show rk4.s = 5 from rfl, RTree.weight_graft, RTree.weight_leaf, e1_0, e1_1, e1_2, e1_3, e1_4] <;>
    norm_num [rk4]

theorem rk4_inner3 : RTree.inner rk4 (.graft (.graft .leaf .leaf) .leaf) 0 = 0 ∧ RTree.inner rk4 (.graft (.graft .leaf .leaf) .leaf) 1 = 0 ∧ RTree.inner rk4 (.graft (.graft .leaf .leaf) .leaf) 2 = (1 / 8) ∧ RTree.inner rk4 (.graft (.graft .leaf .leaf) .leaf) 3 = (1 / 4) ∧ RTree.inner rk4 (.graft (.graft .leaf .leaf) .leaf) 4 = (1 / 3) := by
  obtain ⟨e0_0, e0_1, e0_2, e0_3, e0_4⟩ := rk4_inner0
  refine ⟨?_, ?_, ?_, ?_, ?_⟩ <;>
    rw [RTree.inner] <;> simp only [show rk4.s = 5 from rfl, Finset.sum_range_succ, Finset.sum_range_zero] <;>
    simp only [← show rk4.s = 5 from rfl, RTree.weight_graft, RTree.weight_leaf, e0_0, e0_1, e0_2, e0_3, e0_4] <;>
    norm_num [rk4]

theorem rk4_hasOrder : rk4.HasOrder 4 := by
  obtain ⟨e0_0, e0_1, e0_2, e0_3, e0_4⟩ := rk4_inner0
  obtain ⟨e1_0, e1_1, e1_2, e1_3, e1_4⟩ := rk4_inner1
  obtain ⟨e2_0, e2_1, e2_2, e2_3, e2_4⟩ := rk4_inner2
  obtain ⟨e3_0, e3_1, e3_2, e3_3, e3_4⟩ := rk4_inner3
  intro t ht
  have hp := t.order_pos
  obtain h | h | h | h : t.order = 1 ∨ t.order = 2 ∨ t.order = 3 ∨ t.order = 4 := by omega
  · refine RTree.of_order_1 (P := fun t => ∑ i ∈ Finset.range rk4.s, rk4.b i * t.weight rk4.a rk4.s i = t.invDensity) ?_ t h <;>
      simp only [show Finset.range rk4.s = Finset.range 5 from rfl, Finset.sum_range_succ, Finset.sum_range_zero, RTree.weight_graft, RTree.weight_leaf, RTree.invDensity, RTree.order, e0_0, e0_1, e0_2, e0_3, e0_4, e1_0, e1_1, e1_2, e1_3, e1_4, e2_0, e2_1, e2_2, e2_3, e2_4, e3_0, e3_1, e3_2, e3_3, e3_4] <;> norm_num [rk4]
  · refine RTree.of_order_2 (P := fun t => ∑ i ∈ Finset.range rk4.s, rk4.b i * t.weight rk4.a rk4.s i = t.invDensity) ?_ t h <;>
      simp only [show Finset.range rk4.s = Finset.range 5 from rfl, Finset.sum_range_succ, Finset.sum_range_zero, RTree.weight_graft, RTree.weight_leaf, RTree.invDensity, RTree.order, e0_0, e0_1, e0_2, e0_3, e0_4, e1_0, e1_1, e1_2, e1_3, e1_4, e2_0, e2_1, e2_2, e2_3, e2_4, e3_0, e3_1, e3_2, e3_3, e3_4] <;> norm_num [rk4]
  · refine RTree.of_order_3 (P := fun t => ∑ i ∈ Finset.range rk4.s, rk4.b i * t.weight rk4.a rk4.s i = t.invDensity) ?_ ?_ t h <;>
      simp only [show Finset.range rk4.s = Finset.range 5 from rfl, Finset.sum_range_succ, Finset.sum_range_zero, RTree.weight_graft, RTree.weight_leaf, RTree.invDensity, RTree.order, e0_0, e0_1, e0_2, e0_3, e0_4, e1_0, e1_1, e1_2, e1_3, e1_4, e2_0, e2_1, e2_2, e2_3, e2_4, e3_0, e3_1, e3_2, e3_3, e3_4] <;> norm_num [rk4]
  · refine RTree.of_order_4 (P := fun t => ∑ i ∈ Finset.range rk4.s, rk4.b i * t.weight rk4.a rk4.s i = t.invDensity) ?_ ?_ ?_ ?_ ?_ t h <;>
      simp only [show Finset.range rk4.s = Finset.range 5 from rfl, Finset.sum_range_succ, Finset.sum_range_zero, RTree.weight_graft, RTree.weight_leaf, RTree.invDensity, RTree.order, e0_0, e0_1, e0_2, e0_3, e0_4, e1_0, e1_1, e1_2, e1_3, e1_4, e2_0, e2_1, e2_2, e2_3, e2_4, e3_0, e3_1, e3_2, e3_3, e3_4] <;> norm_num [rk4]

theorem rk4_errOrder : rk4.ErrOrder 3 := by
  obtain ⟨e0_0, e0_1, e0_2, e0_3, e0_4⟩ := rk4_inner0
  obtain ⟨e1_0, e1_1, e1_2, e1_3, e1_4⟩ := rk4_inner1
  intro t ht
  have hp := t.order_pos
  obtain h | h | h : t.order = 1 ∨ t.order = 2 ∨ t.order = 3 := by omega
  · refine RTree.of_order_1 (P := fun t => ∑ i ∈ Finset.range rk4.s, rk4.r i * t.weight rk4.a rk4.s i = 0) ?_ t h <;>
      simp only [show Finset.range rk4.s = Finset.range 5 from rfl, Finset.sum_range_succ, Finset.sum_range_zero, RTree.weight_graft, RTree.weight_leaf, RTree.invDensity, RTree.order, e0_0, e0_1, e0_2, e0_3, e0_4, e1_0, e1_1, e1_2, e1_3, e1_4] <;> norm_num [rk4]
  · refine RTree.of_order_2 (P := fun t => ∑ i ∈ Finset.range rk4.s, rk4.r i * t.weight rk4.a rk4.s i = 0) ?_ t h <;>
      simp only [show Finset.range rk4.s = Finset.range 5 from rfl, Finset.sum_range_succ, Finset.sum_range_zero, RTree.weight_graft, RTree.weight_leaf, RTree.invDensity, RTree.order, e0_0, e0_1, e0_2, e0_3, e0_4, e1_0, e1_1, e1_2, e1_3, e1_4] <;> norm_num [rk4]
  · refine RTree.of_order_3 (P := fun t => ∑ i ∈ Finset.range rk4.s, rk4.r i * t.weight rk4.a rk4.s i = 0) ?_ ?_ t h <;>
      simp only [show Finset.range rk4.s = Finset.range 5 from rfl, Finset.sum_range_succ, Finset.sum_range_zero, RTree.weight_graft, RTree.weight_leaf, RTree.invDensity, RTree.order, e0_0, e0_1, e0_2, e0_3, e0_4, e1_0, e1_1, e1_2, e1_3, e1_4] <;> norm_num [rk4]

theorem dormandPrince_inner0 : RTree.inner dormandPrince .leaf 0 = 0 ∧ RTree.inner dormandPrince .leaf 1 = (1 / 5) ∧ RTree.inner dormandPrince .leaf 2 = (3 / 10) ∧ RTree.inner dormandPrince .leaf 3 = (4 / 5) ∧ RTree.inner dormandPrince .leaf 4 = (8 / 9) ∧ RTree.inner dormandPrince .leaf 5 = 1 ∧ RTree.inner dormandPrince .leaf 6 = 1 := by
  refine ⟨?_, ?_, ?_, ?_, ?_, ?_, ?_⟩ <;>
    rw [RTree.inner] <;> simp only [show dormandPrince.s = 7 from rfl, Finset.sum_range_succ, Finset.sum_range_zero] <;>
    simp only [← show dormandPrince.s = 7 from rfl, RTree.weight_graft, RTree.weight_leaf] <;>
    norm_num [dormandPrince]

theorem dormandPrince_inner1 : RTree.inner dormandPrince (.graft .leaf .leaf) 0 = 0 ∧ RTree.inner dormandPrince (.graft .leaf .leaf) 1 = 0 ∧ RTree.inner dormandPrince (.graft .leaf .leaf) 2 = (9 / 200) ∧ RTree.inner dormandPrince (.graft .leaf .leaf) 3 = (8 / 25) ∧ RTree.inner dormandPrince (.graft .leaf .leaf) 4 = (32 / 81) ∧ RTree.inner dormandPrince (.graft .leaf .leaf) 5 = (1 / 2) ∧ RTree.inner dormandPrince (.graft .leaf .leaf) 6 = (1 / 2) := by
  obtain ⟨e0_0, e0_1, e0_2, e0_3, e0_4, e0_5, e0_6⟩ := dormandPrince_inner0
  refine ⟨?_, ?_, ?_, ?_, ?_, ?_, ?_⟩ <;>
    rw [RTree.inner] <;> simp only [show dormandPrince.s = 7 from rfl, Finset.sum_range_succ, Finset.sum_range_zero] <;>
    simp only [← show dormandPrince.s = 7 from rfl, RTree.weight_graft, RTree.weight_leaf, e0_0, e0_1, e0_2, e0_3, e0_4, e0_5, e0_6] <;>
    norm_num [dormandPrince]

theorem dormandPrince_inner2 : RTree.inner dormandPrince (.graft .leaf (.graft .leaf .leaf)) 0 = 0 ∧ RTree.inner dormandPrince (.graft .leaf (.graft .leaf .leaf)) 1 = 0 ∧ RTree.inner dormandPrince (.graft .leaf (.graft .leaf .leaf)) 2 = 0 ∧ RTree.inner dormandPrince (.graft .leaf (.graft .leaf .leaf)) 3 = (4 / 25) ∧ RTree.inner dormandPrince (.graft .leaf (.graft .leaf .leaf)) 4 = (424 / 1215) ∧ RTree.inner dormandPrince (.graft .leaf (.graft .leaf .leaf)) 5 = (21 / 55) ∧ RTree.inner dormandPrince (.graft .leaf (.graft .leaf .leaf)) 6 = (1 / 6) := by
  obtain ⟨e1_0, e1_1, e1_2, e1_3, e1_4, e1_5, e1_6⟩ := dormandPrince_inner1
  refine ⟨?_, ?_, ?_, ?_, ?_, ?_, ?_⟩ <;>
    rw [RTree.inner] <;> simp only [show dormandPrince.s = 7 from rfl, Finset.sum_range_succ, Finset.sum_range_zero] <;>
    simp only [← show dormandPrince.s = 7 from rfl, RTree.weight_graft, RTree.weight_leaf, e1_0, e1_1, e1_2, e1_3, e1_4, e1_5, e1_6] <;>
    norm_num [dormandPrince]

theorem dormandPrince_inner3 : RTree.inner dormandPrince (.graft (.graft .leaf .leaf) .leaf) 0 = 0 ∧ RTree.inner dormandPrince (.graft (.graft .leaf .leaf) .leaf) 1 = 0 ∧ RTree.inner dormandPrince (.graft (.graft .leaf .leaf) .leaf) 2 = (9 / 1000) ∧ RTree.inner dormandPrince (.graft (.graft .leaf .leaf) .leaf) 3 = (64 / 375) ∧ RTree.inner dormandPrince (.graft (.graft .leaf .leaf) .leaf) 4 = (512 / 2187) ∧ RTree.inner dormandPrince (.graft (.graft .leaf .leaf) .leaf) 5 = (1 / 3) ∧ RTree.inner dormandPrince (.graft (.graft .leaf .leaf) .leaf) 6 = (1 / 3) := by
  obtain ⟨e0_0, e0_1, e0_2, e0_3, e0_4, e0_5, e0_6⟩ := dormandPrince_inner0
  refine ⟨?_, ?_, ?_, ?_, ?_, ?_, ?_⟩ <;>
    rw [RTree.inner] <;> simp only [show dormandPrince.s = 7 from rfl, Finset.sum_range_succ, Finset.sum_range_zero] <;>
    simp only [← show dormandPrince.s = 7 from rfl, RTree.weight_graft, RTree.weight_leaf, e0_0, e0_1, e0_2, e0_3, e0_4, e0_5, e0_6] <;>
    norm_num [dormandPrince]

theorem dormandPrince_inner4 : RTree.inner dormandPrince (.graft .leaf (.graft .leaf (.graft .leaf .leaf))) 0 = 0 ∧ RTree.inner dormandPrince (.graft .leaf (.graft .leaf (.graft .leaf .leaf))) 1 = 0 ∧ RTree.inner dormandPrince (.graft .leaf (.graft .leaf (.graft .leaf .leaf))) 2 = 0 ∧ RTree.inner dormandPrince (.graft .leaf (.graft .leaf (.graft .leaf .leaf))) 3 = 0 ∧ RTree.inner dormandPrince (.graft .leaf (.graft .leaf (.graft .leaf .leaf))) 4 = (-848 / 18225) ∧ RTree.inner dormandPrince (.graft .leaf (.graft .leaf (.graft .leaf .leaf))) 5 = (-14 / 275) ∧ RTree.inner dormandPrince (.graft .leaf (.graft .leaf (.graft .leaf .leaf))) 6 = (1 / 24) := by
  obtain ⟨e2_0, e2_1, e2_2, e2_3, e2_4, e2_5, e2_6⟩ := dormandPrince_inner2
  refine ⟨?_, ?_, ?_, ?_, ?_, ?_, ?_⟩ <;>
    rw [RTree.inner] <;> simp only [show dormandPrince.s = 7 from rfl, Finset.sum_range_succ, Finset.sum_range_zero] <;>
    simp only [← show dormandPrince.s = 7 from rfl, RTree.weight_graft, RTree.weight_leaf, e2_0, e2_1, e2_2, e2_3, e2_4, e2_5, e2_6] <;>
    norm_num [dormandPrince]

theorem dormandPrince_inner5 : RTree.inner dormandPrince (.graft .leaf (.graft (.graft .leaf .leaf) .leaf)) 0 = 0 ∧ RTree.inner dormandPrince (.graft .leaf (.graft (.graft .leaf .leaf) .leaf)) 1 = 0 ∧ RTree.inner dormandPrince (.graft .leaf (.graft (.graft .leaf .leaf) .leaf)) 2 = 0 ∧ RTree.inner dormandPrince (.graft .leaf (.graft (.graft .leaf .leaf) .leaf)) 3 = (4 / 125) ∧ RTree.inner dormandPrince (.graft .leaf (.graft (.graft .leaf .leaf) .leaf)) 4 = (424 / 10935) ∧ RTree.inner dormandPrince (.graft .leaf (.graft (.graft .leaf .leaf) .leaf)) 5 = (7 / 110) ∧ RTree.inner dormandPrince (.graft .leaf (.graft (.graft .leaf .leaf) .leaf)) 6 = (1 / 12) := by
  obtain ⟨e3_0, e3_1, e3_2, e3_3, e3_4, e3_5, e3_6⟩ := dormandPrince_inner3
  refine ⟨?_, ?_, ?_, ?_, ?_, ?_, ?_⟩ <;>
    rw [RTree.inner] <;> simp only [show dormandPrince.s = 7 from rfl, Finset.sum_range_succ, Finset.sum_range_zero] <;>
    simp only [← show dormandPrince.s = 7 from rfl, RTree.weight_graft, RTree.weight_leaf, e3_0, e3_1, e3_2, e3_3, e3_4, e3_5, e3_6] <;>
    norm_num [dormandPrince]

theorem dormandPrince_inner6 : RTree.inner dormandPrince (.graft (.graft .leaf .leaf) (.graft .leaf .leaf)) 0 = 0 ∧ RTree.inner dormandPrince (.graft (.graft .leaf .leaf) (.graft .leaf .leaf)) 1 = 0 ∧ RTree.inner dormandPrince (.graft (.graft .leaf .leaf) (.graft .leaf .leaf)) 2 = 0 ∧ RTree.inner dormandPrince (.graft (.graft .leaf .leaf) (.graft .leaf .leaf)) 3 = (6 / 125) ∧ RTree.inner dormandPrince (.graft (.graft .leaf .leaf) (.graft .leaf .leaf)) 4 = (212 / 3645) ∧ RTree.inner dormandPrince (.graft (.graft .leaf .leaf) (.graft .leaf .leaf)) 5 = (21 / 220) ∧ RTree.inner dormandPrince (.graft (.graft .leaf .leaf) (.graft .leaf .leaf)) 6 = (1 / 8) := by
  obtain ⟨e1_0, e1_1, e1_2, e1_3, e1_4, e1_5, e1_6⟩ := dormandPrince_inner1
  obtain ⟨e0_0, e0_1, e0_2, e0_3, e0_4, e0_5, e0_6⟩ := dormandPrince_inner0
  refine ⟨?_, ?_, ?_, ?_, ?_, ?_, ?_⟩ <;>
    rw [RTree.inner] <;> simp only [show dormandPrince.s = 7 from rfl, Finset.sum_range_succ, Finset.sum_range_zero] <;>
    simp only [← show dormandPrince.s = 7 from rfl, RTree.weight_graft, RTree.weight_leaf, e1_0, e1_1, e1_2, e1_3, e1_4, e1_5, e1_6, e0_0, e0_1, e0_2, e0_3, e0_4, e0_5, e0_6] <;>
    norm_num [dormandPrince]

theorem dormandPrince_inner7 : RTree.inner dormandPrince (.graft (.graft .leaf (.graft .leaf .leaf)) .leaf) 0 = 0 ∧ RTree.inner dormandPrince (.graft (.graft .leaf (.graft .leaf .leaf)) .leaf) 1 = 0 ∧ RTree.inner dormandPrince (.graft (.graft .leaf (.graft .leaf .leaf)) .leaf) 2 = 0 ∧ RTree.inner dormandPrince (.graft (.graft .leaf (.graft .leaf .leaf)) .leaf) 3 = (6 / 125) ∧ RTree.inner dormandPrince (.graft (.graft .leaf (.graft .leaf .leaf)) .leaf) 4 = (212 / 3645) ∧ RTree.inner dormandPrince (.graft (.graft .leaf (.graft .leaf .leaf)) .leaf) 5 = (21 / 220) ∧ RTree.inner dormandPrince (.graft (.graft .leaf (.graft .leaf .leaf)) .leaf) 6 = (1 / 8) := by
  obtain ⟨e1_0, e1_1, e1_2, e1_3, e1_4, e1_5, e1_6⟩ := dormandPrince_inner1
  obtain ⟨e0_0, e0_1, e0_2, e0_3, e0_4, e0_5, e0_6⟩ := dormandPrince_inner0
  refine ⟨?_, ?_, ?_, ?_, ?_, ?_, ?_⟩ <;>
    rw [RTree.inner] <;> simp only [show dormandPrince.s = 7 from rfl, Finset.sum_range_succ, Finset.sum_range_zero] <;>
    simp only [← show dormandPrince.s = 7 from rfl, RTree.weight_graft, RTree.weight_leaf, e1_0, e1_1, e1_2, e1_3, e1_4, e1_5, e1_6, e0_0, e0_1, e0_2, e0_3, e0_4, e0_5, e0_6] <;>
    norm_num [dormandPrince]

theorem dormandPrince_inner8 : RTree.inner dormandPrince (.graft (.graft (.graft .leaf .leaf) .leaf) .leaf) 0 = 0 ∧ RTree.inner dormandPrince (.graft (.graft (.graft .leaf .leaf) .leaf) .leaf) 1 = 0 ∧ RTree.inner dormandPrince (.graft (.graft (.graft .leaf .leaf) .leaf) .leaf) 2 = (9 / 5000) ∧ RTree.inner dormandPrince (.graft (.graft (.graft .leaf .leaf) .leaf) .leaf) 3 = (124 / 1875) ∧ RTree.inner dormandPrince (.graft (.graft (.graft .leaf .leaf) .leaf) .leaf) 4 = (1288 / 54675) ∧ RTree.inner dormandPrince (.graft (.graft (.graft .leaf .leaf) .leaf) .leaf) 5 = (173 / 1650) ∧ RTree.inner dormandPrince (.graft (.graft (.graft .leaf .leaf) .leaf) .leaf) 6 = (1 / 4) := by
  obtain ⟨e0_0, e0_1, e0_2, e0_3, e0_4, e0_5, e0_6⟩ := dormandPrince_inner0
  refine ⟨?_, ?_, ?_, ?_, ?_, ?_, ?_⟩ <;>
    rw [RTree.inner] <;> simp only [show dormandPrince.s = 7 from rfl, Finset.sum_range_succ, Finset.sum_range_zero] <;>
    simp only [← show dormandPrince.s = 7 from rfl, RTree.weight_graft, RTree.weight_leaf, e0_0, e0_1, e0_2, e0_3, e0_4, e0_5, e0_6] <;>
    norm_num [dormandPrince]

theorem dormandPrince_hasOrder : dormandPrince.HasOrder 5 := by
  obtain ⟨e0_0, e0_1, e0_2, e0_3, e0_4, e0_5, e0_6⟩ := dormandPrince_inner0
  obtain ⟨e1_0, e1_1, e1_2, e1_3, e1_4, e1_5, e1_6⟩ := dormandPrince_inner1
  obtain ⟨e2_0, e2_1, e2_2, e2_3, e2_4, e2_5, e2_6⟩ := dormandPrince_inner2
  obtain ⟨e3_0, e3_1, e3_2, e3_3, e3_4, e3_5, e3_6⟩ := dormandPrince_inner3
  obtain ⟨e4_0, e4_1, e4_2, e4_3, e4_4, e4_5, e4_6⟩ := dormandPrince_inner4
  obtain ⟨e5_0, e5_1, e5_2, e5_3, e5_4, e5_5, e5_6⟩ := dormandPrince_inner5
  obtain ⟨e6_0, e6_1, e6_2, e6_3, e6_4, e6_5, e6_6⟩ := dormandPrince_inner6
  obtain ⟨e7_0, e7_1, e7_2, e7_3, e7_4, e7_5, e7_6⟩ := dormandPrince_inner7
  obtain ⟨e8_0, e8_1, e8_2, e8_3, e8_4, e8_5, e8_6⟩ := dormandPrince_inner8
  intro t ht
  have hp := t.order_pos
  obtain h | h | h | h | h : t.order = 1 ∨ t.order = 2 ∨ t.order = 3 ∨ t.order = 4 ∨ t.order = 5 := by omega
  · refine RTree.of_order_1 (P := fun t => ∑ i ∈ Finset.range dormandPrince.s, dormandPrince.b i * t.weight dormandPrince.a dormandPrince.s i = t.invDensity) ?_ t h <;>
      simp only [show Finset.range dormandPrince.s = Finset.range 7 from rfl, Finset.sum_range_succ, Finset.sum_range_zero, RTree.weight_graft, RTree.weight_leaf, RTree.invDensity, RTree.order, e0_0, e0_1, e0_2, e0_3, e0_4, e0_5, e0_6, e1_0, e1_1, e1_2, e1_3, e1_4, e1_5, e1_6, e2_0, e2_1, e2_2, e2_3, e2_4, e2_5, e2_6, e3_0, e3_1, e3_2, e3_3, e3_4, e3_5, e3_6, e4_0, e4_1, e4_2, e4_3, e4_4, e4_5, e4_6, e5_0, e5_1, e5_2, e5_3, e5_4, e5_5, e5_6, e6_0, e6_1, e6_2, e6_3, e6_4, e6_5, e6_6, e7_0, e7_1, e7_2, e7_3, e7_4, e7_5, e7_6, e8_0, e8_1, e8_2, e8_3, e8_4, e8_5, e8_6] <;> norm_num [dormandPrince]
  · refine RTree.of_order_2 (P := fun t => ∑ i ∈ Finset.range dormandPrince.s, dormandPrince.b i * t.weight dormandPrince.a dormandPrince.s i = t.invDensity) ?_ t h <;>
      simp only [show Finset.range dormandPrince.s = Finset.range 7 from rfl, Finset.sum_range_succ, Finset.sum_range_zero, RTree.weight_graft, RTree.weight_leaf, RTree.invDensity, RTree.order, e0_0, e0_1, e0_2, e0_3, e0_4, e0_5, e0_6, e1_0, e1_1, e1_2, e1_3, e1_4, e1_5, e1_6, e2_0, e2_1, e2_2, e2_3, e2_4, e2_5, e2_6, e3_0, e3_1, e3_2, e3_3, e3_4, e3_5, e3_6, e4_0, e4_1, e4_2, e4_3, e4_4, e4_5, e4_6, e5_0, e5_1, e5_2, e5_3, e5_4, e5_5, e5_6, e6_0, e6_1, e6_2, e6_3, e6_4, e6_5, e6_6, e7_0, e7_1, e7_2, e7_3, e7_4, e7_5, e7_6, e8_0, e8_1, e8_2, e8_3, e8_4, e8_5, e8_6] <;> norm_num [dormandPrince]
  · refine RTree.of_order_3 (P := fun t => ∑ i ∈ Finset.range dormandPrince.s, dormandPrince.b i * t.weight dormandPrince.a dormandPrince.s i = t.invDensity) ?_ ?_ t h <;>
      simp only [show Finset.range dormandPrince.s = Finset.range 7 from rfl, Finset.sum_range_succ, Finset.sum_range_zero, RTree.weight_graft, RTree.weight_leaf, RTree.invDensity, RTree.order, e0_0, e0_1, e0_2, e0_3, e0_4, e0_5, e0_6, e1_0, e1_1, e1_2, e1_3, e1_4, e1_5, e1_6, e2_0, e2_1, e2_2, e2_3, e2_4, e2_5, e2_6, e3_0, e3_1, e3_2, e3_3, e3_4, e3_5, e3_6, e4_0, e4_1, e4_2, e4_3, e4_4, e4_5, e4_6, e5_0, e5_1, e5_2, e5_3, e5_4, e5_5, e5_6, e6_0, e6_1, e6_2, e6_3, e6_4, e6_5, e6_6, e7_0, e7_1, e7_2, e7_3, e7_4, e7_5, e7_6, e8_0, e8_1, e8_2, e8_3, e8_4, e8_5, e8_6] <;> norm_num [dormandPrince]
  · refine RTree.of_order_4 (P := fun t => ∑ i ∈ Finset.range dormandPrince.s, dormandPrince.b i * t.weight dormandPrince.a dormandPrince.s i = t.invDensity) ?_ ?_ ?_ ?_ ?_ t h <;>
      simp only [show Finset.range dormandPrince.s = Finset.range 7 from rfl, Finset.sum_range_succ, Finset.sum_range_zero, RTree.weight_graft, RTree.weight_leaf, RTree.invDensity, RTree.order, e0_0, e0_1, e0_2, e0_3, e0_4, e0_5, e0_6, e1_0, e1_1, e1_2, e1_3, e1_4, e1_5, e1_6, e2_0, e2_1, e2_2, e2_3, e2_4, e2_5, e2_6, e3_0, e3_1, e3_2, e3_3, e3_4, e3_5, e3_6, e4_0, e4_1, e4_2, e4_3, e4_4, e4_5, e4_6, e5_0, e5_1, e5_2, e5_3, e5_4, e5_5, e5_6, e6_0, e6_1, e6_2, e6_3, e6_4, e6_5, e6_6, e7_0, e7_1, e7_2, e7_3, e7_4, e7_5, e7_6, e8_0, e8_1, e8_2, e8_3, e8_4, e8_5, e8_6] <;> norm_num [dormandPrince]
  · refine RTree.of_order_5 (P := fun t => ∑ i ∈ Finset.range dormandPrince.s, dormandPrince.b i * t.weight dormandPrince.a dormandPrince.s i = t.invDensity) ?_ ?_ ?_ ?_ ?_ ?_ ?_ ?_ ?_ ?_ ?_ ?_ ?_ ?_ t h <;>
      simp only [show Finset.range dormandPrince.s = Finset.range 7 from rfl, Finset.sum_range_succ, Finset.sum_range_zero, RTree.weight_graft, RTree.weight_leaf, RTree.invDensity, RTree.order, e0_0, e0_1, e0_2, e0_3, e0_4, e0_5, e0_6, e1_0, e1_1, e1_2, e1_3, e1_4, e1_5, e1_6, e2_0, e2_1, e2_2, e2_3, e2_4, e2_5, e2_6, e3_0, e3_1, e3_2, e3_3, e3_4, e3_5, e3_6, e4_0, e4_1, e4_2, e4_3, e4_4, e4_5, e4_6, e5_0, e5_1, e5_2, e5_3, e5_4, e5_5, e5_6, e6_0, e6_1, e6_2, e6_3, e6_4, e6_5, e6_6, e7_0, e7_1, e7_2, e7_3, e7_4, e7_5, e7_6, e8_0, e8_1, e8_2, e8_3, e8_4, e8_5, e8_6] <;> norm_num [dormandPrince]

theorem dormandPrince_errOrder : dormandPrince.ErrOrder 4 := by
  obtain ⟨e0_0, e0_1, e0_2, e0_3, e0_4, e0_5, e0_6⟩ := dormandPrince_inner0
  obtain ⟨e1_0, e1_1, e1_2, e1_3, e1_4, e1_5, e1_6⟩ := dormandPrince_inner1
  obtain ⟨e2_0, e2_1, e2_2, e2_3, e2_4, e2_5, e2_6⟩ := dormandPrince_inner2
  obtain ⟨e3_0, e3_1, e3_2, e3_3, e3_4, e3_5, e3_6⟩ := dormandPrince_inner3
  intro t ht
  have hp := t.order_pos
  obtain h | h | h | h : t.order = 1 ∨ t.order = 2 ∨ t.order = 3 ∨ t.order = 4 := by omega
  · refine RTree.of_order_1 (P := fun t => ∑ i ∈ Finset.range dormandPrince.s, dormandPrince.r i * t.weight dormandPrince.a dormandPrince.s i = 0) ?_ t h <;>
      simp only [show Finset.range dormandPrince.s = Finset.range 7 from rfl, Finset.sum_range_succ, Finset.sum_range_zero, RTree.weight_graft, RTree.weight_leaf, RTree.invDensity, RTree.order, e0_0, e0_1, e0_2, e0_3, e0_4, e0_5, e0_6, e1_0, e1_1, e1_2, e1_3, e1_4, e1_5, e1_6, e2_0, e2_1, e2_2, e2_3, e2_4, e2_5, e2_6, e3_0, e3_1, e3_2, e3_3, e3_4, e3_5, e3_6] <;> norm_num [dormandPrince]
  · refine RTree.of_order_2 (P := fun t => ∑ i ∈ Finset.range dormandPrince.s, dormandPrince.r i * t.weight dormandPrince.a dormandPrince.s i = 0) ?_ t h <;>
      simp only [show Finset.range dormandPrince.s = Finset.range 7 from rfl, Finset.sum_range_succ, Finset.sum_range_zero, RTree.weight_graft, RTree.weight_leaf, RTree.invDensity, RTree.order, e0_0, e0_1, e0_2, e0_3, e0_4, e0_5, e0_6, e1_0, e1_1, e1_2, e1_3, e1_4, e1_5, e1_6, e2_0, e2_1, e2_2, e2_3, e2_4, e2_5, e2_6, e3_0, e3_1, e3_2, e3_3, e3_4, e3_5, e3_6] <;> norm_num [dormandPrince]
  · refine RTree.of_order_3 (P := fun t => ∑ i ∈ Finset.range dormandPrince.s, dormandPrince.r i * t.weight dormandPrince.a dormandPrince.s i = 0) ?_ ?_ t h <;>
      simp only [show Finset.range dormandPrince.s = Finset.range 7 from rfl, Finset.sum_range_succ, Finset.sum_range_zero, RTree.weight_graft, RTree.weight_leaf, RTree.invDensity, RTree.order, e0_0, e0_1, e0_2, e0_3, e0_4, e0_5, e0_6, e1_0, e1_1, e1_2, e1_3, e1_4, e1_5, e1_6, e2_0, e2_1, e2_2, e2_3, e2_4, e2_5, e2_6, e3_0, e3_1, e3_2, e3_3, e3_4, e3_5, e3_6] <;> norm_num [dormandPrince]
  · refine RTree.of_order_4 (P := fun t => ∑ i ∈ Finset.range dormandPrince.s, dormandPrince.r i * t.weight dormandPrince.a dormandPrince.s i = 0) ?_ ?_ ?_ ?_ ?_ t h <;>
      simp only [show Finset.range dormandPrince.s = Finset.range 7 from rfl, Finset.sum_range_succ, Finset.sum_range_zero, RTree.weight_graft, RTree.weight_leaf, RTree.invDensity, RTree.order, e0_0, e0_1, e0_2, e0_3, e0_4, e0_5, e0_6, e1_0, e1_1, e1_2, e1_3, e1_4, e1_5, e1_6, e2_0, e2_1, e2_2, e2_3, e2_4, e2_5, e2_6, e3_0, e3_1, e3_2, e3_3, e3_4, e3_5, e3_6] <;> norm_num [dormandPrince]

theorem butcher5_inner0 : RTree.inner butcher5 .leaf 0 = 0 ∧ RTree.inner butcher5 .leaf 1 = (1 / 4) ∧ RTree.inner butcher5 .leaf 2 = (1 / 4) ∧ RTree.inner butcher5 .leaf 3 = (1 / 2) ∧ RTree.inner butcher5 .leaf 4 = (3 / 4) ∧ RTree.inner butcher5 .leaf 5 = 1 ∧ RTree.inner butcher5 .leaf 6 = 1 := by
  refine ⟨?_, ?_, ?_, ?_, ?_, ?_, ?_⟩ <;>
    rw [RTree.inner] <;> simp only [show butcher5.s = 7 from rfl, Finset.sum_range_succ, Finset.sum_range_zero] <;>
    simp only [← show butcher5.s = 7 from rfl, RTree.weight_graft, RTree.weight_leaf] <;>
    norm_num [butcher5]

theorem butcher5_inner1 : RTree.inner butcher5 (.graft .leaf .leaf) 0 = 0 ∧ RTree.inner butcher5 (.graft .leaf .leaf) 1 = 0 ∧ RTree.inner butcher5 (.graft .leaf .leaf) 2 = (1 / 32) ∧ RTree.inner butcher5 (.graft .leaf .leaf) 3 = (1 / 8) ∧ RTree.inner butcher5 (.graft .leaf .leaf) 4 = (9 / 32) ∧ RTree.inner butcher5 (.graft .leaf .leaf) 5 = (1 / 2) ∧ RTree.inner butcher5 (.graft .leaf .leaf) 6 = (1 / 2) := by
  obtain ⟨e0_0, e0_1, e0_2, e0_3, e0_4, e0_5, e0_6⟩ := butcher5_inner0
  refine ⟨?_, ?_, ?_, ?_, ?_, ?_, ?_⟩ <;>
    rw [RTree.inner] <;> simp only [show butcher5.s = 7 from rfl, Finset.sum_range_succ, Finset.sum_range_zero] <;>
    simp only [← show butcher5.s = 7 from rfl, RTree.weight_graft, RTree.weight_leaf, e0_0, e0_1, e0_2, e0_3, e0_4, e0_5, e0_6] <;>
    norm_num [butcher5]

theorem butcher5_inner2 : RTree.inner butcher5 (.graft .leaf (.graft .leaf .leaf)) 0 = 0 ∧ RTree.inner butcher5 (.graft .leaf (.graft .leaf .leaf)) 1 = 0 ∧ RTree.inner butcher5 (.graft .leaf (.graft .leaf .leaf)) 2 = 0 ∧ RTree.inner butcher5 (.graft .leaf (.graft .leaf .leaf)) 3 = (1 / 64) ∧ RTree.inner butcher5 (.graft .leaf (.graft .leaf .leaf)) 4 = (21 / 256) ∧ RTree.inner butcher5 (.graft .leaf (.graft .leaf .leaf)) 5 = (15 / 112) ∧ RTree.inner butcher5 (.graft .leaf (.graft .leaf .leaf)) 6 = (1 / 6) := by
  obtain ⟨e1_0, e1_1, e1_2, e1_3, e1_4, e1_5, e1_6⟩ := butcher5_inner1
  refine ⟨?_, ?_, ?_, ?_, ?_, ?_, ?_⟩ <;>
    rw [RTree.inner] <;> simp only [show butcher5.s = 7 from rfl, Finset.sum_range_succ, Finset.sum_range_zero] <;>
    simp only [← show butcher5.s = 7 from rfl, RTree.weight_graft, RTree.weight_leaf, e1_0, e1_1, e1_2, e1_3, e1_4, e1_5, e1_6] <;>
    norm_num [butcher5]

theorem butcher5_inner3 : RTree.inner butcher5 (.graft (.graft .leaf .leaf) .leaf) 0 = 0 ∧ RTree.inner butcher5 (.graft (.graft .leaf .leaf) .leaf) 1 = 0 ∧ RTree.inner butcher5 (.graft (.graft .leaf .leaf) .leaf) 2 = (1 / 128) ∧ RTree.inner butcher5 (.graft (.graft .leaf .leaf) .leaf) 3 = (1 / 32) ∧ RTree.inner butcher5 (.graft (.graft .leaf .leaf) .leaf) 4 = (9 / 64) ∧ RTree.inner butcher5 (.graft (.graft .leaf .leaf) .leaf) 5 = (19 / 56) ∧ RTree.inner butcher5 (.graft (.graft .leaf .leaf) .leaf) 6 = (1 / 3) := by
  obtain ⟨e0_0, e0_1, e0_2, e0_3, e0_4, e0_5, e0_6⟩ := butcher5_inner0
  refine ⟨?_, ?_, ?_, ?_, ?_, ?_, ?_⟩ <;>
    rw [RTree.inner] <;> simp only [show butcher5.s = 7 from rfl, Finset.sum_range_succ, Finset.sum_range_zero] <;>
    simp only [← show butcher5.s = 7 from rfl, RTree.weight_graft, RTree.weight_leaf, e0_0, e0_1, e0_2, e0_3, e0_4, e0_5, e0_6] <;>
    norm_num [butcher5]

theorem butcher5_inner4 : RTree.inner butcher5 (.graft .leaf (.graft .leaf (.graft .leaf .leaf))) 0 = 0 ∧ RTree.inner butcher5 (.graft .leaf (.graft .leaf (.graft .leaf .leaf))) 1 = 0 ∧ RTree.inner butcher5 (.graft .leaf (.graft .leaf (.graft .leaf .leaf))) 2 = 0 ∧ RTree.inner butcher5 (.graft .leaf (.graft .leaf (.graft .leaf .leaf))) 3 = 0 ∧ RTree.inner butcher5 (.graft .leaf (.graft .leaf (.graft .leaf .leaf))) 4 = (9 / 1024) ∧ RTree.inner butcher5 (.graft .leaf (.graft .leaf (.graft .leaf .leaf))) 5 = (15 / 224) ∧ RTree.inner butcher5 (.graft .leaf (.graft .leaf (.graft .leaf .leaf))) 6 = (1 / 24) := by
  obtain ⟨e2_0, e2_1, e2_2, e2_3, e2_4, e2_5, e2_6⟩ := butcher5_inner2
  refine ⟨?_, ?_, ?_, ?_, ?_, ?_, ?_⟩ <;>
    rw [RTree.inner] <;> simp only [show butcher5.s = 7 from rfl, Finset.sum_range_succ, Finset.sum_range_zero] <;>
    simp only [← show butcher5.s = 7 from rfl, RTree.weight_graft, RTree.weight_leaf, e2_0, e2_1, e2_2, e2_3, e2_4, e2_5, e2_6] <;>
    norm_num [butcher5]

theorem butcher5_inner5 : RTree.inner butcher5 (.graft .leaf (.graft (.graft .leaf .leaf) .leaf)) 0 = 0 ∧ RTree.inner butcher5 (.graft .leaf (.graft (.graft .leaf .leaf) .leaf)) 1 = 0 ∧ RTree.inner butcher5 (.graft .leaf (.graft (.graft .leaf .leaf) .leaf)) 2 = 0 ∧ RTree.inner butcher5 (.graft .leaf (.graft (.graft .leaf .leaf) .leaf)) 3 = (1 / 256) ∧ RTree.inner butcher5 (.graft .leaf (.graft (.graft .leaf .leaf) .leaf)) 4 = (21 / 1024) ∧ RTree.inner butcher5 (.graft .leaf (.graft (.graft .leaf .leaf) .leaf)) 5 = (51 / 448) ∧ RTree.inner butcher5 (.graft .leaf (.graft (.graft .leaf .leaf) .leaf)) 6 = (1 / 12) := by
  obtain ⟨e3_0, e3_1, e3_2, e3_3, e3_4, e3_5, e3_6⟩ := butcher5_inner3
  refine ⟨?_, ?_, ?_, ?_, ?_, ?_, ?_⟩ <;>
    rw [RTree.inner] <;> simp only [show butcher5.s = 7 from rfl, Finset.sum_range_succ, Finset.sum_range_zero] <;>
    simp only [← show butcher5.s = 7 from rfl, RTree.weight_graft, RTree.weight_leaf, e3_0, e3_1, e3_2, e3_3, e3_4, e3_5, e3_6] <;>
    norm_num [butcher5]

theorem butcher5_inner6 : RTree.inner butcher5 (.graft (.graft .leaf .leaf) (.graft .leaf .leaf)) 0 = 0 ∧ RTree.inner butcher5 (.graft (.graft .leaf .leaf) (.graft .leaf .leaf)) 1 = 0 ∧ RTree.inner butcher5 (.graft (.graft .leaf .leaf) (.graft .leaf .leaf)) 2 = 0 ∧ RTree.inner butcher5 (.graft (.graft .leaf .leaf) (.graft .leaf .leaf)) 3 = (1 / 256) ∧ RTree.inner butcher5 (.graft (.graft .leaf .leaf) (.graft .leaf .leaf)) 4 = (39 / 1024) ∧ RTree.inner butcher5 (.graft (.graft .leaf .leaf) (.graft .leaf .leaf)) 5 = (9 / 64) ∧ RTree.inner butcher5 (.graft (.graft .leaf .leaf) (.graft .leaf .leaf)) 6 = (1 / 8) := by
  obtain ⟨e1_0, e1_1, e1_2, e1_3, e1_4, e1_5, e1_6⟩ := butcher5_inner1
  obtain ⟨e0_0, e0_1, e0_2, e0_3, e0_4, e0_5, e0_6⟩ := butcher5_inner0
  refine ⟨?_, ?_, ?_, ?_, ?_, ?_, ?_⟩ <;>
    rw [RTree.inner] <;> simp only [show butcher5.s = 7 from rfl, Finset.sum_range_succ, Finset.sum_range_zero] <;>
    simp only [← show butcher5.s = 7 from rfl, RTree.weight_graft, RTree.weight_leaf, e1_0, e1_1, e1_2, e1_3, e1_4, e1_5, e1_6, e0_0, e0_1, e0_2, e0_3, e0_4, e0_5, e0_6] <;>
    norm_num [butcher5]

theorem butcher5_inner7 : RTree.inner butcher5 (.graft (.graft .leaf (.graft .leaf .leaf)) .leaf) 0 = 0 ∧ RTree.inner butcher5 (.graft (.graft .leaf (.graft .leaf .leaf)) .leaf) 1 = 0 ∧ RTree.inner butcher5 (.graft (.graft .leaf (.graft .leaf .leaf)) .leaf) 2 = 0 ∧ RTree.inner butcher5 (.graft (.graft .leaf (.graft .leaf .leaf)) .leaf) 3 = (1 / 256) ∧ RTree.inner butcher5 (.graft (.graft .leaf (.graft .leaf .leaf)) .leaf) 4 = (39 / 1024) ∧ RTree.inner butcher5 (.graft (.graft .leaf (.graft .leaf .leaf)) .leaf) 5 = (9 / 64) ∧ RTree.inner butcher5 (.graft (.graft .leaf (.graft .leaf .leaf)) .leaf) 6 = (1 / 8) := by
  obtain ⟨e1_0, e1_1, e1_2, e1_3, e1_4, e1_5, e1_6⟩ := butcher5_inner1
  obtain ⟨e0_0, e0_1, e0_2, e0_3, e0_4, e0_5, e0_6⟩ := butcher5_inner0
  refine ⟨?_, ?_, ?_, ?_, ?_, ?_, ?_⟩ <;>
    rw [RTree.inner] <;> simp only [show butcher5.s = 7 from rfl, Finset.sum_range_succ, Finset.sum_range_zero] <;>
    simp only [← show butcher5.s = 7 from rfl, RTree.weight_graft, RTree.weight_leaf, e1_0, e1_1, e1_2, e1_3, e1_4, e1_5, e1_6, e0_0, e0_1, e0_2, e0_3, e0_4, e0_5, e0_6] <;>
    norm_num [butcher5]

theorem butcher5_inner8 : RTree.inner butcher5 (.graft (.graft (.graft .leaf .leaf) .leaf) .leaf) 0 = 0 ∧ RTree.inner butcher5 (.graft (.graft (.graft .leaf .leaf) .leaf) .leaf) 1 = 0 ∧ RTree.inner butcher5 (.graft (.graft (.graft .leaf .leaf) .leaf) .leaf) 2 = (1 / 512) ∧ RTree.inner butcher5 (.graft (.graft (.graft .leaf .leaf) .leaf) .leaf) 3 = (1 / 128) ∧ RTree.inner butcher5 (.graft (.graft (.graft .leaf .leaf) .leaf) .leaf) 4 = (9 / 128) ∧ RTree.inner butcher5 (.graft (.graft (.graft .leaf .leaf) .leaf) .leaf) 5 = (67 / 224) ∧ RTree.inner butcher5 (.graft (.graft (.graft .leaf .leaf) .leaf) .leaf) 6 = (1 / 4) := by
  obtain ⟨e0_0, e0_1, e0_2, e0_3, e0_4, e0_5, e0_6⟩ := butcher5_inner0
  refine ⟨?_, ?_, ?_, ?_, ?_, ?_, ?_⟩ <;>
    rw [RTree.inner] <;> simp only [show butcher5.s = 7 from rfl, Finset.sum_range_succ, Finset.sum_range_zero] <;>
    simp only [← show butcher5.s = 7 from rfl, RTree.weight_graft, RTree.weight_leaf, e0_0, e0_1, e0_2, e0_3, e0_4, e0_5, e0_6] <;>
    norm_num [butcher5]

theorem butcher5_hasOrder : butcher5.HasOrder 5 := by
  obtain ⟨e0_0, e0_1, e0_2, e0_3, e0_4, e0_5, e0_6⟩ := butcher5_inner0
  obtain ⟨e1_0, e1_1, e1_2, e1_3, e1_4, e1_5, e1_6⟩ := butcher5_inner1
  obtain ⟨e2_0, e2_1, e2_2, e2_3, e2_4, e2_5, e2_6⟩ := butcher5_inner2
  obtain ⟨e3_0, e3_1, e3_2, e3_3, e3_4, e3_5, e3_6⟩ := butcher5_inner3
  obtain ⟨e4_0, e4_1, e4_2, e4_3, e4_4, e4_5, e4_6⟩ := butcher5_inner4
  obtain ⟨e5_0, e5_1, e5_2, e5_3, e5_4, e5_5, e5_6⟩ := butcher5_inner5
  obtain ⟨e6_0, e6_1, e6_2, e6_3, e6_4, e6_5, e6_6⟩ := butcher5_inner6
  obtain ⟨e7_0, e7_1, e7_2, e7_3, e7_4, e7_5, e7_6⟩ := butcher5_inner7
  obtain ⟨e8_0, e8_1, e8_2, e8_3, e8_4, e8_5, e8_6⟩ := butcher5_inner8
  intro t ht
  have hp := t.order_pos
  obtain h | h | h | h | h : t.order = 1 ∨ t.order = 2 ∨ t.order = 3 ∨ t.order = 4 ∨ t.order = 5 := by omega
  · refine RTree.of_order_1 (P := fun t => ∑ i ∈ Finset.range butcher5.s, butcher5.b i * t.weight butcher5.a butcher5.s i = t.invDensity) ?_ t h <;>
      simp only [show Finset.range butcher5.s = Finset.range 7 from rfl, Finset.sum_range_succ, Finset.sum_range_zero, RTree.weight_graft, RTree.weight_leaf, RTree.invDensity, RTree.order, e0_0, e0_1, e0_2, e0_3, e0_4, e0_5, e0_6, e1_0, e1_1, e1_2, e1_3, e1_4, e1_5, e1_6, e2_0, e2_1, e2_2, e2_3, e2_4, e2_5, e2_6, e3_0, e3_1, e3_2, e3_3, e3_4, e3_5, e3_6, e4_0, e4_1, e4_2, e4_3, e4_4, e4_5, e4_6, e5_0, e5_1, e5_2, e5_3, e5_4, e5_5, e5_6, e6_0, e6_1, e6_2, e6_3, e6_4, e6_5, e6_6, e7_0, e7_1, e7_2, e7_3, e7_4, e7_5, e7_6, e8_0, e8_1, e8_2, e8_3, e8_4, e8_5, e8_6] <;> norm_num [butcher5]
  · refine RTree.of_order_2 (P := fun t => ∑ i ∈ Finset.range butcher5.s, butcher5.b i * t.weight butcher5.a butcher5.s i = t.invDensity) ?_ t h <;>
      simp only [show Finset.range butcher5.s = Finset.range 7 from rfl, Finset.sum_range_succ, Finset.sum_range_zero, RTree.weight_graft, RTree.weight_leaf, RTree.invDensity, RTree.order, e0_0, e0_1, e0_2, e0_3, e0_4, e0_5, e0_6, e1_0, e1_1, e1_2, e1_3, e1_4, e1_5, e1_6, e2_0, e2_1, e2_2, e2_3, e2_4, e2_5, e2_6, e3_0, e3_1, e3_2, e3_3, e3_4, e3_5, e3_6, e4_0, e4_1, e4_2, e4_3, e4_4, e4_5, e4_6, e5_0, e5_1, e5_2, e5_3, e5_4, e5_5, e5_6, e6_0, e6_1, e6_2, e6_3, e6_4, e6_5, e6_6, e7_0, e7_1, e7_2, e7_3, e7_4, e7_5, e7_6, e8_0, e8_1, e8_2, e8_3, e8_4, e8_5, e8_6] <;> norm_num [butcher5]
  · refine RTree.of_order_3 (P := fun t => ∑ i ∈ Finset.range butcher5.s, butcher5.b i * t.weight butcher5.a butcher5.s i = t.invDensity) ?_ ?_ t h <;>
      simp only [show Finset.range butcher5.s = Finset.range 7 from rfl, Finset.sum_range_succ, Finset.sum_range_zero, RTree.weight_graft, RTree.weight_leaf, RTree.invDensity, RTree.order, e0_0, e0_1, e0_2, e0_3, e0_4, e0_5, e0_6, e1_0, e1_1, e1_2, e1_3, e1_4, e1_5, e1_6, e2_0, e2_1, e2_2, e2_3, e2_4, e2_5, e2_6, e3_0, e3_1, e3_2, e3_3, e3_4, e3_5, e3_6, e4_0, e4_1, e4_2, e4_3, e4_4, e4_5, e4_6, e5_0, e5_1, e5_2, e5_3, e5_4, e5_5, e5_6, e6_0, e6_1, e6_2, e6_3, e6_4, e6_5, e6_6, e7_0, e7_1, e7_2, e7_3, e7_4, e7_5, e7_6, e8_0, e8_1, e8_2, e8_3, e8_4, e8_5, e8_6] <;> norm_num [butcher5]
  · refine RTree.of_order_4 (P := fun t => ∑ i ∈ Finset.range butcher5.s, butcher5.b i * t.weight butcher5.a butcher5.s i = t.invDensity) ?_ ?_ ?_ ?_ ?_ t h <;>
      simp only [show Finset.range butcher5.s = Finset.range 7 from rfl, Finset.sum_range_succ, Finset.sum_range_zero, RTree.weight_graft, RTree.weight_leaf, RTree.invDensity, RTree.order, e0_0, e0_1, e0_2, e0_3, e0_4, e0_5, e0_6, e1_0, e1_1, e1_2, e1_3, e1_4, e1_5, e1_6, e2_0, e2_1, e2_2, e2_3, e2_4, e2_5, e2_6, e3_0, e3_1, e3_2, e3_3, e3_4, e3_5, e3_6, e4_0, e4_1, e4_2, e4_3, e4_4, e4_5, e4_6, e5_0, e5_1, e5_2, e5_3, e5_4, e5_5, e5_6, e6_0, e6_1, e6_2, e6_3, e6_4, e6_5, e6_6, e7_0, e7_1, e7_2, e7_3, e7_4, e7_5, e7_6, e8_0, e8_1, e8_2, e8_3, e8_4, e8_5, e8_6] <;> norm_num [butcher5]
  · refine RTree.of_order_5 (P := fun t => ∑ i ∈ Finset.range butcher5.s, butcher5.b i * t.weight butcher5.a butcher5.s i = t.invDensity) ?_ ?_ ?_ ?_ ?_ ?_ ?_ ?_ ?_ ?_ ?_ ?_ ?_ ?_ t h <;>
      simp only [show Finset.range butcher5.s = Finset.range 7 from rfl, Finset.sum_range_succ, Finset.sum_range_zero, RTree.weight_graft, RTree.weight_leaf, RTree.invDensity, RTree.order, e0_0, e0_1, e0_2, e0_3, e0_4, e0_5, e0_6, e1_0, e1_1, e1_2, e1_3, e1_4, e1_5, e1_6, e2_0, e2_1, e2_2, e2_3, e2_4, e2_5, e2_6, e3_0, e3_1, e3_2, e3_3, e3_4, e3_5, e3_6, e4_0, e4_1, e4_2, e4_3, e4_4, e4_5, e4_6, e5_0, e5_1, e5_2, e5_3, e5_4, e5_5, e5_6, e6_0, e6_1, e6_2, e6_3, e6_4, e6_5, e6_6, e7_0, e7_1, e7_2, e7_3, e7_4, e7_5, e7_6, e8_0, e8_1, e8_2, e8_3, e8_4, e8_5, e8_6] <;> norm_num [butcher5]

theorem butcher5_errOrder : butcher5.ErrOrder 3 := by
  obtain ⟨e0_0, e0_1, e0_2, e0_3, e0_4, e0_5, e0_6⟩ := butcher5_inner0
  obtain ⟨e1_0, e1_1, e1_2, e1_3, e1_4, e1_5, e1_6⟩ := butcher5_inner1
  intro t ht
  have hp := t.order_pos
  obtain h | h | h : t.order = 1 ∨ t.order = 2 ∨ t.order = 3 := by omega
  · refine RTree.of_order_1 (P := fun t => ∑ i ∈ Finset.range butcher5.s, butcher5.r i * t.weight butcher5.a butcher5.s i = 0) ?_ t h <;>
      simp only [show Finset.range butcher5.s = Finset.range 7 from rfl, Finset.sum_range_succ, Finset.sum_range_zero, RTree.weight_graft, RTree.weight_leaf, RTree.invDensity, RTree.order, e0_0, e0_1, e0_2, e0_3, e0_4, e0_5, e0_6, e1_0, e1_1, e1_2, e1_3, e1_4, e1_5, e1_6] <;> norm_num [butcher5]
  · refine RTree.of_order_2 (P := fun t => ∑ i ∈ Finset.range butcher5.s, butcher5.r i * t.weight butcher5.a butcher5.s i = 0) ?_ t h <;>
      simp only [show Finset.range butcher5.s = Finset.range 7 from rfl, Finset.sum_range_succ, Finset.sum_range_zero, RTree.weight_graft, RTree.weight_leaf, RTree.invDensity, RTree.order, e0_0, e0_1, e0_2, e0_3, e0_4, e0_5, e0_6, e1_0, e1_1, e1_2, e1_3, e1_4, e1_5, e1_6] <;> norm_num [butcher5]
  · refine RTree.of_order_3 (P := fun t => ∑ i ∈ Finset.range butcher5.s, butcher5.r i * t.weight butcher5.a butcher5.s i = 0) ?_ ?_ t h <;>
      simp only [show Finset.range butcher5.s = Finset.range 7 from rfl, Finset.sum_range_succ, Finset.sum_range_zero, RTree.weight_graft, RTree.weight_leaf, RTree.invDensity, RTree.order, e0_0, e0_1, e0_2, e0_3, e0_4, e0_5, e0_6, e1_0, e1_1, e1_2, e1_3, e1_4, e1_5, e1_6] <;> norm_num [butcher5]

end Verif
