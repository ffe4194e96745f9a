import Verif.Spec.ETrees
import Mathlib.Data.Rat.Cast.Order
import Mathlib.Data.Rat.BigOperators
import Mathlib.Algebra.BigOperators.Fin
import Mathlib.Data.List.GetD
import Mathlib.Tactic.FieldSimp
import Mathlib.Tactic.NormNum

/-!
# Checking order conditions of rational tables

The stage coefficients of a tree, divided by the coefficient of the exact solution, depend only on finitely many rational vectors
for each order.  A finite check of these vectors therefore decides the conditions for all the infinitely many shapes of trees.
-/

set_option linter.unusedSectionVars false

namespace Verif

open Finset

/-- A table with rational entries. -/
structure QTab where
  s : ℕ
  c : ℕ → ℚ
  α : ℕ → ℕ → ℕ → ℚ
  β : ℕ → ℕ → ℚ
  ρ : ℕ → ℕ → ℚ

namespace QTab

/-- The table over the real numbers. -/
noncomputable def real (T : QTab) : ETableau where
  s := T.s
  c := fun i => T.c i
  α := fun i j k => T.α i j k
  β := fun j k => T.β j k
  ρ := fun j k => T.ρ j k

/-- Normalised coefficients of a tree whose children, of total order `q`, have the product `v`. -/
def node (T : QTab) (k q : ℕ) (v : List ℚ) : List ℚ :=
  (List.range T.s).map fun i => ((q + k + 1).factorial / q.factorial : ℚ) * ((List.range i).map fun j => T.α i j k * v.getD j 0).sum

/-- Normalised coefficient of such a tree in the new solution. -/
def weight (T : QTab) (w : ℕ → ℕ → ℚ) (k q : ℕ) (v : List ℚ) : ℚ :=
  ((q + k + 1).factorial / q.factorial : ℚ) * ((List.range T.s).map fun j => w j k * v.getD j 0).sum

/-- Pointwise product. -/
def times (T : QTab) (v w : List ℚ) : List ℚ := (List.range T.s).map fun i => v.getD i 0 * w.getD i 0

/-- `P n` contains the normalised coefficients of the trees of order `n < p`, and `Q q` those of the products of trees of total order
`q < p`. -/
def closed (T : QTab) (p : ℕ) (P Q : List (List (List ℚ))) : Bool :=
  (Q.getD 0 []).contains ((List.range T.s).map fun _ => 1) &&
  ((List.range p).all fun n => n == 0 || (P.getD n []).contains ((List.range T.s).map fun i => T.c i ^ n)) &&
  ((List.range p).all fun q => (List.range (p - 1 - q)).all fun k => (Q.getD q []).all fun v =>
    (P.getD (q + k + 1) []).contains (T.node k q v)) &&
  ((List.range p).all fun q => (List.range (p - q)).all fun n => (Q.getD q []).all fun v => (P.getD n []).all fun w =>
    (Q.getD (n + q) []).contains (T.times w v))

/-- The coefficients of the new solution are those of the exact solution, up to order `p`. -/
def fits (T : QTab) (p : ℕ) (Q : List (List (List ℚ))) : Bool :=
  (List.range p).all fun q => (List.range (p - q)).all fun k => (Q.getD q []).all fun v => T.weight T.β k q v == 1

/-- The coefficients of the error estimate vanish, up to order `p`. -/
def cancels (T : QTab) (p : ℕ) (Q : List (List (List ℚ))) : Bool :=
  (List.range p).all fun q => (List.range (p - q)).all fun k => (Q.getD q []).all fun v => T.weight T.ρ k q v == 0

variable {T : QTab} {p : ℕ} {P Q : List (List (List ℚ))}

theorem getD_range_map {α : Type} (g : ℕ → α) (d : α) {n i : ℕ} (h : i < n) : ((List.range n).map g).getD i d = g i := by
  rw [List.getD_eq_getElem _ _ (by simpa using h)]
  simp

theorem sum_range_map {R : Type} [AddCommMonoid R] (g : ℕ → R) (n : ℕ) : ((List.range n).map g).sum = ∑ i ∈ range n, g i := by
  induction n with
  | zero => simp
  | succ n ih => rw [List.range_succ, List.map_append, List.sum_append, ih, sum_range_succ]; simp

theorem node_getD (k q : ℕ) (v : List ℚ) {i : ℕ} (h : i < T.s) : (((T.node k q v).getD i 0 : ℚ) : ℝ) =
    ((q + k + 1).factorial / q.factorial : ℝ) * ∑ j ∈ range i, (T.α i j k : ℝ) * (v.getD j 0 : ℚ) := by
  rw [node, getD_range_map _ _ h, sum_range_map]
  push_cast
  rfl

theorem weight_eq (w : ℕ → ℕ → ℚ) (k q : ℕ) (v : List ℚ) : ((T.weight w k q v : ℚ) : ℝ) =
    ((q + k + 1).factorial / q.factorial : ℝ) * ∑ j ∈ range T.s, (w j k : ℝ) * (v.getD j 0 : ℚ) := by
  rw [weight, sum_range_map]
  push_cast
  rfl

theorem exact_pos (t : ETree) : 0 < t.exact := by
  induction t with
  | lu k => simp only [ETree.exact]; positivity
  | nd k m ch ih =>
    simp only [ETree.exact]
    have := prod_pos (s := univ) fun l (_ : l ∈ univ) => ih l
    positivity

/-- The closure conditions, spelled out. -/
theorem closed_iff : T.closed p P Q = true ↔
    ((List.range T.s).map fun _ => (1 : ℚ)) ∈ Q.getD 0 [] ∧
    (∀ n < p, n = 0 ∨ ((List.range T.s).map fun i => T.c i ^ n) ∈ P.getD n []) ∧
    (∀ q < p, ∀ k < p - 1 - q, ∀ v ∈ Q.getD q [], T.node k q v ∈ P.getD (q + k + 1) []) ∧
    (∀ q < p, ∀ n < p - q, ∀ v ∈ Q.getD q [], ∀ w ∈ P.getD n [], T.times w v ∈ Q.getD (n + q) []) := by
  simp only [closed, Bool.and_eq_true, List.all_eq_true, List.mem_range, List.contains_iff_mem, Bool.or_eq_true, beq_iff_eq, and_assoc]

/-- A product of children. -/
theorem prod_vec (hc : T.closed p P Q = true) {m : ℕ} (ch : Fin m → ETree)
    (ih : ∀ l, (ch l).order < p → ∃ v ∈ P.getD (ch l).order [], ∀ i < T.s, T.real.stage (ch l) i = (ch l).exact * (v.getD i 0 : ℚ))
    (h : ∑ l, (ch l).order < p) : ∃ v ∈ Q.getD (∑ l, (ch l).order) [],
      ∀ i < T.s, ∏ l, T.real.stage (ch l) i = (∏ l, (ch l).exact) * (v.getD i 0 : ℚ) := by
  obtain ⟨h1, -, -, h4⟩ := closed_iff.1 hc
  induction m with
  | zero =>
    refine ⟨_, by rw [Fin.sum_univ_zero]; exact h1, fun i hi => ?_⟩
    rw [getD_range_map _ _ hi]
    simp
  | succ m im =>
    rw [Fin.sum_univ_succ] at h ⊢
    obtain ⟨v, hv, hv'⟩ := im (fun l => ch l.succ) (fun l => ih l.succ) (by omega)
    obtain ⟨w, hw, hw'⟩ := ih 0 (by omega)
    refine ⟨T.times w v, h4 _ (by omega) _ (by omega) v hv w hw, fun i hi => ?_⟩
    rw [Fin.prod_univ_succ, Fin.prod_univ_succ, hv' i hi, hw' i hi, times, getD_range_map _ _ hi]
    push_cast
    ring

/-- The stage coefficients of every tree of low order occur in the table. -/
theorem stage_vec (hc : T.closed p P Q = true) (t : ETree) (ht : t.order < p) :
    ∃ v ∈ P.getD t.order [], ∀ i < T.s, T.real.stage t i = t.exact * (v.getD i 0 : ℚ) := by
  have hcl := closed_iff.1 hc
  obtain ⟨-, h2, h3, -⟩ := hcl
  induction t with
  | lu k =>
    simp only [ETree.order] at ht ⊢
    refine ⟨_, (h2 (k + 1) ht).resolve_left (by omega), fun i hi => ?_⟩
    rw [getD_range_map _ _ hi]
    simp only [ETableau.stage, ETree.exact, real]
    push_cast
    ring
  | nd k m ch ih =>
    simp only [ETree.order] at ht ⊢
    obtain ⟨v, hv, hv'⟩ := prod_vec hc ch ih (by omega)
    set q := ∑ l, (ch l).order with hq
    refine ⟨T.node k q v, ?_, fun i hi => ?_⟩
    · rw [show k + 1 + q = q + k + 1 by omega]
      exact h3 q (by omega) k (by omega) v hv
    · rw [node_getD k q v hi]
      simp only [ETableau.stage, ETree.exact, ← hq]
      have h0 := Nat.cast_ne_zero (R := ℝ).2 (Nat.factorial_ne_zero q)
      have h0' := Nat.cast_ne_zero (R := ℝ).2 (Nat.factorial_ne_zero (q + k + 1))
      have : ∀ j ∈ range i, T.real.α i j k * ((m.factorial : ℝ)⁻¹ * ∏ l, T.real.stage (ch l) j) =
          ((m.factorial : ℝ)⁻¹ * ∏ l, (ch l).exact) * ((T.α i j k : ℝ) * (v.getD j 0 : ℚ)) := by
        intro j hj
        rw [hv' j (by have := mem_range.1 hj; omega)]
        simp only [real]
        ring
      rw [sum_congr rfl this, ← mul_sum]
      field_simp

/-- Coefficients of a combination of stages. -/
theorem comb_vec (hc : T.closed p P Q = true) (w : ℕ → ℕ → ℚ) {k m : ℕ} (ch : Fin m → ETree) (h : ∑ l, (ch l).order < p) :
    ∃ v ∈ Q.getD (∑ l, (ch l).order) [],
      ∑ j ∈ range T.s, (w j k : ℝ) * ((m.factorial : ℝ)⁻¹ * ∏ l, T.real.stage (ch l) j) =
        (ETree.nd k m ch).exact * (T.weight w k (∑ l, (ch l).order) v : ℚ) := by
  obtain ⟨v, hv, hv'⟩ := prod_vec hc ch (fun l hl => stage_vec hc _ hl) h
  refine ⟨v, hv, ?_⟩
  set q := ∑ l, (ch l).order with hq
  rw [weight_eq]
  simp only [ETree.exact, ← hq]
  have h0 := Nat.cast_ne_zero (R := ℝ).2 (Nat.factorial_ne_zero q)
  have h0' := Nat.cast_ne_zero (R := ℝ).2 (Nat.factorial_ne_zero (q + k + 1))
  have : ∀ j ∈ range T.s, (w j k : ℝ) * ((m.factorial : ℝ)⁻¹ * ∏ l, T.real.stage (ch l) j) =
      ((m.factorial : ℝ)⁻¹ * ∏ l, (ch l).exact) * ((w j k : ℝ) * (v.getD j 0 : ℚ)) := by
    intro j hj
    rw [hv' j (mem_range.1 hj)]
    ring
  rw [sum_congr rfl this, ← mul_sum]
  field_simp

theorem hasOrder {p' : ℕ} (hc : T.closed p P Q = true) (hf : T.fits p' Q = true) (hp : p' ≤ p) : T.real.HasOrder p' := by
  intro t ht
  cases t with
  | lu k => rfl
  | nd k m ch =>
    simp only [ETree.order] at ht
    obtain ⟨v, hv, he⟩ := comb_vec (k := k) hc T.β ch (by omega)
    simp only [fits, List.all_eq_true, List.mem_range, beq_iff_eq] at hf
    rw [hf _ (by omega) k (by omega) v hv, Rat.cast_one, mul_one] at he
    exact he

theorem err_zero {p' : ℕ} (hc : T.closed p P Q = true) (hf : T.cancels p' Q = true) (hp : p' ≤ p) (t : ETree) (ht : t.order ≤ p') :
    T.real.err t = 0 := by
  cases t with
  | lu k => rfl
  | nd k m ch =>
    simp only [ETree.order] at ht
    obtain ⟨v, hv, he⟩ := comb_vec (k := k) hc T.ρ ch (by omega)
    simp only [cancels, List.all_eq_true, List.mem_range, beq_iff_eq] at hf
    rw [hf _ (by omega) k (by omega) v hv, Rat.cast_zero, mul_zero] at he
    exact he

end QTab

end Verif
