import Verif.Lemmas.BOrder
import Verif.Lemmas.BFlow
import Mathlib.Data.Fin.VecNotation
import Mathlib.Tactic.Module
import Mathlib.Analysis.Calculus.ContDiff.Basic

/-!
# Leading term of the local error of ETD5 and ETD35
-/

set_option linter.unusedSectionVars false

namespace Verif

open Matrix Finset Filter Topology Asymptotics
open scoped Matrix.Norms.Operator ContDiff

namespace QTab

variable (T : QTab)

/-- `v` are the normalised stage coefficients of `t`. -/
def Has (t : ETree) (v : List ℚ) : Prop := ∀ i < T.s, T.real.stage t i = t.exact * (v.getD i 0 : ℚ)

/-- `v` are the normalised products of stage coefficients of the children `ch`. -/
def HasProd {m : ℕ} (ch : Fin m → ETree) (v : List ℚ) : Prop :=
  ∀ i < T.s, ∏ l, T.real.stage (ch l) i = (∏ l, (ch l).exact) * (v.getD i 0 : ℚ)

variable {T}

theorem has_lu (k : ℕ) : T.Has (.lu k) ((List.range T.s).map fun i => T.c i ^ (k + 1)) := by
  intro i hi
  rw [getD_range_map _ _ hi]
  simp only [ETableau.stage, ETree.exact, real]
  push_cast
  ring

theorem has_nd {k m : ℕ} {ch : Fin m → ETree} {v : List ℚ} (h : T.HasProd ch v) :
    T.Has (.nd k m ch) (T.node k (∑ l, (ch l).order) v) := by
  intro i hi
  set q := ∑ l, (ch l).order with hq
  rw [node_getD k q v hi]
  simp only [ETableau.stage, ETree.exact, ← hq]
  have h0 := Nat.cast_ne_zero (R := ℝ).2 (Nat.factorial_ne_zero q)
  have h0' := Nat.cast_ne_zero (R := ℝ).2 (Nat.factorial_ne_zero (q + k + 1))
  have : ∀ j ∈ range i, T.real.α i j k * ((m.factorial : ℝ)⁻¹ * ∏ l, T.real.stage (ch l) j) =
      ((m.factorial : ℝ)⁻¹ * ∏ l, (ch l).exact) * ((T.α i j k : ℝ) * (v.getD j 0 : ℚ)) := by
    intro j hj
    rw [h j (by have := mem_range.1 hj; omega)]
    simp only [real]
    ring
  rw [sum_congr rfl this, ← mul_sum]
  field_simp

theorem hasProd_zero (ch : Fin 0 → ETree) : T.HasProd ch ((List.range T.s).map fun _ => 1) := by
  intro i hi
  rw [getD_range_map _ _ hi]
  simp

theorem hasProd_one {ch : Fin 1 → ETree} {v : List ℚ} (h : T.Has (ch 0) v) : T.HasProd ch v := by
  intro i hi
  simp only [Fin.prod_univ_one]
  exact h i hi

theorem hasProd_succ {m : ℕ} {ch : Fin (m + 1) → ETree} {v w : List ℚ} (hw : T.Has (ch 0) w) (hv : T.HasProd (fun l => ch l.succ) v) :
    T.HasProd ch (T.times w v) := by
  intro i hi
  rw [Fin.prod_univ_succ, Fin.prod_univ_succ, hv i hi, hw i hi, times, getD_range_map _ _ hi]
  push_cast
  ring

theorem out_eq {k m : ℕ} {ch : Fin m → ETree} {v : List ℚ} (h : T.HasProd ch v) :
    T.real.out (.nd k m ch) = (ETree.nd k m ch).exact * (T.weight T.β k (∑ l, (ch l).order) v : ℚ) := by
  set q := ∑ l, (ch l).order with hq
  rw [weight_eq]
  simp only [ETree.exact, ETableau.out, ← hq]
  have h0 := Nat.cast_ne_zero (R := ℝ).2 (Nat.factorial_ne_zero q)
  have h0' := Nat.cast_ne_zero (R := ℝ).2 (Nat.factorial_ne_zero (q + k + 1))
  have : ∀ j ∈ range T.s, (T.β j k : ℝ) * ((m.factorial : ℝ)⁻¹ * ∏ l, T.real.stage (ch l) j) =
      ((m.factorial : ℝ)⁻¹ * ∏ l, (ch l).exact) * ((T.β j k : ℝ) * (v.getD j 0 : ℚ)) := by
    intro j hj
    rw [h j (mem_range.1 hj)]
    ring
  show ∑ j ∈ range T.s, (T.β j k : ℝ) * _ = _
  rw [sum_congr rfl this, ← mul_sum]
  field_simp

end QTab

/-- The number of stages counts only through the weights. -/
theorem etd5_stage_eq (t : ETree) (i : ℕ) : (etd5Q true).real.stage t i = (etd5Q false).real.stage t i := by
  induction t generalizing i with
  | lu k => rfl
  | nd k m ch ih =>
    simp only [ETableau.stage, ih]
    rfl

theorem etd5_out_eq (fsal : Bool) (t : ETree) : (etd5Q fsal).real.out t = (etd5Q false).real.out t := by
  cases fsal
  · rfl
  cases t with
  | lu k => rfl
  | nd k m ch =>
    simp only [ETableau.out, etd5_stage_eq]
    show ∑ j ∈ range 7, _ = ∑ j ∈ range 6, _
    rw [sum_range_succ]
    have : (etd5Q true).real.β 6 k = 0 := by
      show ((etd5B 6 k : ℚ) : ℝ) = 0
      simp [etd5B]
    rw [this, zero_mul, add_zero]
    rfl

/-- Trees of order one. -/
def ETree.one : Bool → ETree
  | false => .lu 0
  | true => .nd 0 0 Fin.elim0

/-- Trees of order two. -/
def ETree.two : Fin 4 → ETree
  | 0 => .lu 1
  | 1 => .nd 1 0 Fin.elim0
  | 2 => .nd 0 1 fun _ => ETree.one false
  | 3 => .nd 0 1 fun _ => ETree.one true

/-- `L^k f^(m)(…)` with children of total order two. -/
def ETree.low (k : ℕ) : Fin 4 ⊕ Bool × Bool → ETree
  | .inl j => .nd k 1 fun _ => ETree.two j
  | .inr (a, b) => .nd k 2 ![ETree.one a, ETree.one b]

namespace ETree

theorem nd_zero (k : ℕ) (ch : Fin 0 → ETree) : nd k 0 ch = nd k 0 Fin.elim0 := by
  congr 1
  exact Subsingleton.elim _ _

theorem nd_one (k : ℕ) (ch : Fin 1 → ETree) : nd k 1 ch = nd k 1 fun _ => ch 0 := by
  congr 1
  funext l
  rw [Subsingleton.elim l 0]

theorem order_one_iff {t : ETree} (h : t.order = 1) : ∃ b, t = one b := by
  cases t with
  | lu k =>
    simp only [order] at h
    obtain rfl : k = 0 := by omega
    exact ⟨false, rfl⟩
  | nd k m ch =>
    simp only [order] at h
    have := card_le_sum_order ch
    obtain rfl : k = 0 := by omega
    obtain rfl : m = 0 := by omega
    exact ⟨true, nd_zero _ _⟩

theorem order_two_iff {t : ETree} (h : t.order = 2) : ∃ j, t = two j := by
  cases t with
  | lu k =>
    simp only [order] at h
    obtain rfl : k = 1 := by omega
    exact ⟨0, rfl⟩
  | nd k m ch =>
    simp only [order] at h
    have := card_le_sum_order ch
    rcases (by omega : m = 0 ∨ m = 1) with rfl | rfl
    · simp only [Fin.sum_univ_zero] at h
      obtain rfl : k = 1 := by omega
      exact ⟨1, nd_zero _ _⟩
    · simp only [Fin.sum_univ_one] at h this
      obtain rfl : k = 0 := by omega
      obtain ⟨b, hb⟩ := order_one_iff (t := ch 0) (by omega)
      rw [nd_one, hb]
      cases b
      · exact ⟨2, rfl⟩
      · exact ⟨3, rfl⟩

theorem low_iff {k m : ℕ} {ch : Fin m → ETree} (h : ∑ l, (ch l).order = 2) : ∃ i, nd k m ch = low k i := by
  have := card_le_sum_order ch
  rcases (by omega : m = 0 ∨ m = 1 ∨ m = 2) with rfl | rfl | rfl
  · simp at h
  · simp only [Fin.sum_univ_one] at h
    obtain ⟨j, hj⟩ := order_two_iff h
    exact ⟨.inl j, by rw [nd_one, hj]; rfl⟩
  · simp only [Fin.sum_univ_two] at h
    have h1 := (ch 0).order_pos
    have h2 := (ch 1).order_pos
    obtain ⟨a, ha⟩ := order_one_iff (t := ch 0) (by omega)
    obtain ⟨b, hb⟩ := order_one_iff (t := ch 1) (by omega)
    refine ⟨.inr (a, b), ?_⟩
    show _ = nd k 2 ![one a, one b]
    congr 1
    funext l
    fin_cases l
    · exact ha
    · exact hb

theorem one_order (b : Bool) : (one b).order = 1 := by cases b <;> simp [one, order]

theorem two_order (j : Fin 4) : (two j).order = 2 := by
  fin_cases j <;> simp [two, order, one_order]

theorem low_order (k : ℕ) (i) : (low k i).order = k + 3 := by
  rcases i with j | ⟨a, b⟩
  · simp [low, order, two_order]
  · simp [low, order, one_order]

end ETree

/-- Finite checks for the trees of order five. -/
def etd5Checks : Bool :=
  ((List.range 4).all fun n => (List.range (4 - n)).all fun q => (etd5P.getD (n + 1) []).all fun w => (etd5S.getD (q + 1) []).all fun v =>
    4 < (n + 1) + (q + 1) || (etd5Q false).weight etd5B (4 - ((n + 1) + (q + 1))) ((n + 1) + (q + 1)) ((etd5Q false).times w v) == 1) &&
  ((etd5Q false).weight etd5B 4 0 ((List.range 6).map fun _ => 1) == 1) &&
  ((etd5P.getD 1 []).all fun v => (etd5Q false).weight etd5B 3 1 v == 1) &&
  ((etd5P.getD 2 []).all fun v => (etd5Q false).weight etd5B 2 2 v == 1) &&
  ((etd5Q false).weight etd5B 1 3 ((List.range 6).map fun i => (etd5Q false).c i ^ 3) == 1) &&
  ((etd5S.getD 0 []).all fun v => (etd5Q false).weight etd5B 1 3 ((etd5Q false).node 2 0 v) == 1) &&
  ((etd5S.getD 1 []).all fun v => (etd5Q false).weight etd5B 1 3 ((etd5Q false).node 1 1 v) == 1) &&
  ((etd5Q false).weight etd5B 0 4 ((List.range 6).map fun i => (etd5Q false).c i ^ 4) == 1) &&
  ((etd5S.getD 0 []).all fun v => (etd5Q false).weight etd5B 0 4 ((etd5Q false).node 3 0 v) == 1) &&
  ((etd5S.getD 1 []).all fun v => (etd5Q false).weight etd5B 0 4 ((etd5Q false).node 2 1 v) == 1) &&
  ((etd5S.getD 3 []).all fun v => (etd5Q false).weight etd5B 0 4 ((etd5Q false).node 0 3 v) == 1)

theorem etd5Checks_true : etd5Checks = true := by decide +kernel

/-- The trees of order five whose coefficient is wrong. -/
def ETree.bad : Bool × (Fin 4 ⊕ Bool × Bool) → ETree
  | (false, i) => .nd 1 1 fun _ => ETree.low 0 i
  | (true, i) => .nd 0 1 fun _ => ETree.low 1 i

theorem etd5_bad {t : ETree} (ht : t.order = 5) (hd : (etd5Q false).real.out t ≠ t.exact) : ∃ i, t = ETree.bad i := by
  have hch := etd5Checks_true
  simp only [etd5Checks, Bool.and_eq_true, List.all_eq_true, List.mem_range, beq_iff_eq, Bool.or_eq_true, decide_eq_true_eq] at hch
  obtain ⟨⟨⟨⟨⟨⟨⟨⟨⟨⟨c1, c2⟩, c3⟩, c4⟩, c5⟩, c6⟩, c7⟩, c8⟩, c9⟩, c10⟩, c11⟩ := hch
  cases t with
  | lu k => exact absurd rfl hd
  | nd k m ch =>
    have key : ∀ v, (etd5Q false).HasProd ch v → (etd5Q false).weight etd5B k (∑ l, (ch l).order) v ≠ 1 := by
      intro v hv h1
      apply hd
      have := QTab.out_eq (k := k) hv
      rw [show (etd5Q false).β = etd5B from rfl, h1, Rat.cast_one, mul_one] at this
      exact this
    simp only [ETree.order] at ht
    have hcard := ETree.card_le_sum_order ch
    obtain rfl | rfl | ⟨m, rfl⟩ : m = 0 ∨ m = 1 ∨ ∃ m', m = m' + 2 := by
      rcases m with _ | _ | m
      · exact .inl rfl
      · exact .inr (.inl rfl)
      · exact .inr (.inr ⟨m, rfl⟩)
    · simp only [Fin.sum_univ_zero] at ht key
      obtain rfl : k = 4 := by omega
      exact absurd c2 (key _ (QTab.hasProd_zero ch))
    · simp only [Fin.sum_univ_one] at ht key hcard
      rw [ETree.nd_one]
      generalize ha : ch 0 = a at ht key hcard
      have key' : ∀ v, (etd5Q false).Has a v → (etd5Q false).weight etd5B k a.order v ≠ 1 :=
        fun v hv => key v (QTab.hasProd_one (by rw [ha]; exact hv))
      clear key hd
      rcases (by omega : k = 3 ∨ k = 2 ∨ k = 1 ∨ k = 0) with rfl | rfl | rfl | rfl
      · obtain ⟨v, hv, hv'⟩ := QTab.stage_vec etd5Q_closed a (by omega)
        rw [show a.order = 1 by omega] at hv key'
        exact absurd (c3 v hv) (key' v hv')
      · obtain ⟨v, hv, hv'⟩ := QTab.stage_vec etd5Q_closed a (by omega)
        rw [show a.order = 2 by omega] at hv key'
        exact absurd (c4 v hv) (key' v hv')
      · rw [show a.order = 3 by omega] at key'
        cases a with
        | lu k' =>
          simp only [ETree.order] at ht
          obtain rfl : k' = 2 := by omega
          exact absurd c5 (key' _ (QTab.has_lu 2))
        | nd k' m' ch' =>
          simp only [ETree.order] at ht
          obtain ⟨v, hv, hv'⟩ := QTab.prod_vec etd5Q_closed ch' (fun l hl => QTab.stage_vec etd5Q_closed _ hl) (by omega)
          have hn := key' _ (QTab.has_nd hv')
          rcases (by omega : k' = 2 ∨ k' = 1 ∨ k' = 0) with rfl | rfl | rfl
          · rw [show ∑ l, (ch' l).order = 0 by omega] at hv hn
            exact absurd (c6 v hv) hn
          · rw [show ∑ l, (ch' l).order = 1 by omega] at hv hn
            exact absurd (c7 v hv) hn
          · obtain ⟨i, hi⟩ := ETree.low_iff (k := 0) (ch := ch') (by omega)
            exact ⟨(false, i), by rw [hi]; rfl⟩
      · rw [show a.order = 4 by omega] at key'
        cases a with
        | lu k' =>
          simp only [ETree.order] at ht
          obtain rfl : k' = 3 := by omega
          exact absurd c8 (key' _ (QTab.has_lu 3))
        | nd k' m' ch' =>
          simp only [ETree.order] at ht
          obtain ⟨v, hv, hv'⟩ := QTab.prod_vec etd5Q_closed ch' (fun l hl => QTab.stage_vec etd5Q_closed _ hl) (by omega)
          have hn := key' _ (QTab.has_nd hv')
          rcases (by omega : k' = 3 ∨ k' = 2 ∨ k' = 1 ∨ k' = 0) with rfl | rfl | rfl | rfl
          · rw [show ∑ l, (ch' l).order = 0 by omega] at hv hn
            exact absurd (c9 v hv) hn
          · rw [show ∑ l, (ch' l).order = 1 by omega] at hv hn
            exact absurd (c10 v hv) hn
          · obtain ⟨i, hi⟩ := ETree.low_iff (k := 1) (ch := ch') (by omega)
            exact ⟨(true, i), by rw [hi]; rfl⟩
          · rw [show ∑ l, (ch' l).order = 3 by omega] at hv hn
            exact absurd (c11 v hv) hn
    · exfalso
      have hc2 := ETree.card_le_sum_order fun l => ch l.succ
      have h0 := (ch 0).order_pos
      rw [Fin.sum_univ_succ] at ht key
      obtain ⟨w, hw, hw'⟩ := QTab.stage_vec etd5Q_closed (ch 0) (by omega)
      obtain ⟨v, hv, hv'⟩ := QTab.prod_vec etd5Q_closed (fun l => ch l.succ) (fun l hl => QTab.stage_vec etd5Q_closed _ hl) (by omega)
      have hn := key _ (QTab.hasProd_succ hw' hv')
      generalize hq : ∑ l : Fin (m + 1), (ch l.succ).order = q at *
      generalize hp : (ch 0).order = p at *
      obtain ⟨p, rfl⟩ : ∃ p', p = p' + 1 := ⟨p - 1, by omega⟩
      obtain ⟨q, rfl⟩ : ∃ q', q = q' + 1 := ⟨q - 1, by omega⟩
      obtain rfl : k = 4 - ((p + 1) + (q + 1)) := by omega
      rcases c1 p (by omega) q (by omega) w hw v hv with h | h
      · omega
      · exact hn h

theorem one_has (b : Bool) : (etd5Q false).Has (ETree.one b) ((List.range 6).map fun i => (etd5Q false).c i ^ 1) := by
  cases b
  · exact QTab.has_lu 0
  · have := QTab.has_nd (k := 0) (QTab.hasProd_zero (T := etd5Q false) Fin.elim0)
    have e : (etd5Q false).node 0 (∑ l : Fin 0, (Fin.elim0 l : ETree).order) ((List.range (etd5Q false).s).map fun _ => 1) =
        (List.range 6).map fun i => (etd5Q false).c i ^ 1 := by
      decide +kernel
    rw [e] at this
    exact this

/-- Normalised coefficients of the children of `low`. -/
def lowVec : Fin 4 ⊕ Bool × Bool → List ℚ
  | .inl 2 => (etd5Q false).node 0 1 ((List.range 6).map fun i => (etd5Q false).c i ^ 1)
  | .inl 3 => (etd5Q false).node 0 1 ((List.range 6).map fun i => (etd5Q false).c i ^ 1)
  | _ => (List.range 6).map fun i => (etd5Q false).c i ^ 2

theorem low_has (k : ℕ) (i) : (etd5Q false).Has (ETree.low k i) ((etd5Q false).node k 2 (lowVec i)) := by
  rcases i with j | ⟨a, b⟩
  · have h : (etd5Q false).Has (ETree.two j) (lowVec (.inl j)) := by
      fin_cases j
      · exact QTab.has_lu 1
      · have := QTab.has_nd (k := 1) (QTab.hasProd_zero (T := etd5Q false) Fin.elim0)
        have e : (etd5Q false).node 1 (∑ l : Fin 0, (Fin.elim0 l : ETree).order) ((List.range (etd5Q false).s).map fun _ => 1) =
            (List.range 6).map fun i => (etd5Q false).c i ^ 2 := by
          decide +kernel
        rw [e] at this
        exact this
      · have := QTab.has_nd (k := 0) (QTab.hasProd_one (ch := fun _ => ETree.one false) (one_has false))
        rwa [Fin.sum_univ_one, ETree.one_order] at this
      · have := QTab.has_nd (k := 0) (QTab.hasProd_one (ch := fun _ => ETree.one true) (one_has true))
        rwa [Fin.sum_univ_one, ETree.one_order] at this
    have := QTab.has_nd (k := k) (QTab.hasProd_one (ch := fun _ => ETree.two j) h)
    rwa [Fin.sum_univ_one, ETree.two_order] at this
  · have h2 : (etd5Q false).HasProd (fun l : Fin 1 => (![ETree.one a, ETree.one b] : Fin 2 → ETree) l.succ) _ :=
      QTab.hasProd_one (one_has b)
    have h := QTab.hasProd_succ (ch := ![ETree.one a, ETree.one b]) (one_has a) h2
    have e : (etd5Q false).times ((List.range 6).map fun i => (etd5Q false).c i ^ 1) ((List.range 6).map fun i => (etd5Q false).c i ^ 1) =
        lowVec (.inr (a, b)) := by
      show _ = (List.range 6).map fun i => (etd5Q false).c i ^ 2
      decide +kernel
    rw [e] at h
    have := QTab.has_nd (k := k) h
    have e2 : ∑ l : Fin 2, ((![ETree.one a, ETree.one b] : Fin 2 → ETree) l).order = 2 := by
      simp [Fin.sum_univ_two, ETree.one_order]
    rwa [e2] at this

namespace ETree

theorem one_exact (b : Bool) : (one b).exact = 1 := by cases b <;> simp [one, exact]

theorem two_exact (j : Fin 4) : (two j).exact = 1 / 2 := by
  fin_cases j <;> simp [two, exact, one_order, one_exact]

theorem low_exact (k : ℕ) (i) : (low k i).exact = 1 / ((2 + k + 1).factorial : ℝ) := by
  rcases i with j | ⟨a, b⟩
  · simp only [low, exact, Fin.sum_univ_one, Fin.prod_univ_one, two_order, two_exact]
    norm_num [Nat.factorial]
  · simp only [low, exact, Fin.sum_univ_two, Fin.prod_univ_two, Matrix.cons_val_zero, Matrix.cons_val_one, one_order, one_exact]
    norm_num [Nat.factorial]

theorem bad_exact (x) : (bad x).exact = 1 / 120 := by
  rcases x with ⟨_ | _, i⟩ <;>
  · simp only [bad, exact, Fin.sum_univ_one, Fin.prod_univ_one, low_order, low_exact]
    norm_num [Nat.factorial]

theorem bad_order (x) : (bad x).order = 5 := by
  rcases x with ⟨_ | _, i⟩ <;> simp [bad, order, low_order]

theorem one_injective : Function.Injective one := by
  intro a b h
  cases a <;> cases b <;> simp [one] at h ⊢

theorem two_injective : Function.Injective two := by
  intro i j h
  fin_cases i <;> fin_cases j <;> first | rfl | (exfalso; simp [two, one] at h; done) | (exfalso; simp [two] at h; exact absurd (congrFun h 0) (by simp [one]))

theorem low_injective (k : ℕ) : Function.Injective (low k) := by
  rintro (i | ⟨a, b⟩) (j | ⟨c, d⟩) h
  · simp only [low, nd.injEq, heq_eq_eq, true_and] at h
    rw [two_injective (congrFun h 0)]
  · simp [low] at h
  · simp [low] at h
  · simp only [low, nd.injEq, heq_eq_eq, true_and] at h
    rw [one_injective (congrFun h 0), one_injective (congrFun h 1)]

theorem bad_injective : Function.Injective bad := by
  rintro ⟨_ | _, i⟩ ⟨_ | _, j⟩ h
  · simp only [bad, nd.injEq, heq_eq_eq, true_and] at h
    rw [low_injective 0 (congrFun h 0)]
  · simp [bad] at h
  · simp [bad] at h
  · simp only [bad, nd.injEq, heq_eq_eq, true_and] at h
    rw [low_injective 1 (congrFun h 0)]

end ETree

/-- Size of the wrong coefficients. -/
noncomputable def badC : Fin 4 ⊕ Bool × Bool → ℝ
  | .inl 2 => 1 / 11520
  | .inl 3 => 1 / 11520
  | _ => 1 / 34560

theorem bad_coef_false (i) : (etd5Q false).real.out (ETree.bad (false, i)) - (ETree.bad (false, i)).exact = -badC i := by
  have h := QTab.out_eq (T := etd5Q false) (k := 1) (QTab.hasProd_one (ch := fun _ => ETree.low 0 i) (low_has 0 i))
  rw [Fin.sum_univ_one, ETree.low_order] at h
  show (etd5Q false).real.out (.nd 1 1 fun _ => ETree.low 0 i) - _ = _
  rw [h]
  have hex := ETree.bad_exact (false, i)
  rw [show (ETree.nd 1 1 fun _ => ETree.low 0 i).exact = 1 / 120 from hex, hex]
  have h1 : ∀ v : List ℚ, ∀ r : ℚ, (etd5Q false).weight etd5B 1 3 v = r → ∀ c : ℝ, 1 / 120 * (r : ℝ) - 1 / 120 = -c →
      1 / 120 * (((etd5Q false).weight (etd5Q false).β 1 (0 + 3) v : ℚ) : ℝ) - 1 / 120 = -c := by
    intro v r hr c hc
    rw [← hc, ← hr]
    rfl
  rcases i with j | ⟨a, b⟩
  · fin_cases j
    · exact h1 _ (287 / 288) (by decide +kernel) _ (by simp only [badC]; norm_num)
    · exact h1 _ (287 / 288) (by decide +kernel) _ (by simp only [badC]; norm_num)
    · exact h1 _ (95 / 96) (by decide +kernel) _ (by show _ = -(1 / 11520 : ℝ); norm_num)
    · exact h1 _ (95 / 96) (by decide +kernel) _ (by show _ = -(1 / 11520 : ℝ); norm_num)
  · exact h1 _ (287 / 288) (by show (etd5Q false).weight etd5B 1 3 ((etd5Q false).node 0 2 (lowVec (.inl 0))) = _; decide +kernel) _
      (by simp only [badC]; norm_num)

theorem bad_coef_true (i) : (etd5Q false).real.out (ETree.bad (true, i)) - (ETree.bad (true, i)).exact = badC i := by
  have h := QTab.out_eq (T := etd5Q false) (k := 0) (QTab.hasProd_one (ch := fun _ => ETree.low 1 i) (low_has 1 i))
  rw [Fin.sum_univ_one, ETree.low_order] at h
  show (etd5Q false).real.out (.nd 0 1 fun _ => ETree.low 1 i) - _ = _
  rw [h]
  have hex := ETree.bad_exact (true, i)
  rw [show (ETree.nd 0 1 fun _ => ETree.low 1 i).exact = 1 / 120 from hex, hex]
  have h1 : ∀ v : List ℚ, ∀ r : ℚ, (etd5Q false).weight etd5B 0 4 v = r → ∀ c : ℝ, 1 / 120 * (r : ℝ) - 1 / 120 = c →
      1 / 120 * (((etd5Q false).weight (etd5Q false).β 0 (1 + 3) v : ℚ) : ℝ) - 1 / 120 = c := by
    intro v r hr c hc
    rw [← hc, ← hr]
    rfl
  rcases i with j | ⟨a, b⟩
  · fin_cases j
    · exact h1 _ (289 / 288) (by decide +kernel) _ (by simp only [badC]; norm_num)
    · exact h1 _ (289 / 288) (by decide +kernel) _ (by simp only [badC]; norm_num)
    · exact h1 _ (97 / 96) (by decide +kernel) _ (by show _ = (1 / 11520 : ℝ); norm_num)
    · exact h1 _ (97 / 96) (by decide +kernel) _ (by show _ = (1 / 11520 : ℝ); norm_num)
  · exact h1 _ (289 / 288) (by show (etd5Q false).weight etd5B 0 4 ((etd5Q false).node 1 2 (lowVec (.inl 0))) = _; decide +kernel) _
      (by simp only [badC]; norm_num)

section
variable {ι : Type} [Fintype ι] [DecidableEq ι] (L : Mat ι) (f : Vec ι → Vec ι) (u : Vec ι)

theorem val_one_sum : (ETree.one false).val L f u + (ETree.one true).val L f u = L *ᵥ u + f u := by
  simp only [ETree.one, ETree.val, zero_add, pow_one, pow_zero, one_mulVec, iteratedFDeriv_zero_apply]

theorem val_low (k : ℕ) (i) : (ETree.low k i).val L f u = L ^ k *ᵥ (ETree.low 0 i).val L f u := by
  rcases i with j | ⟨a, b⟩ <;> simp only [ETree.low, ETree.val, pow_zero, one_mulVec]

theorem val_low_two (j : Fin 4) : (ETree.low 0 (.inl j)).val L f u = fderiv ℝ f u ((ETree.two j).val L f u) := by
  simp only [ETree.low, ETree.val, pow_zero, one_mulVec, iteratedFDeriv_one_apply]

theorem val_low_one (a b : Bool) : (ETree.low 0 (.inr (a, b))).val L f u =
    fderiv ℝ (fderiv ℝ f) u ((ETree.one a).val L f u) ((ETree.one b).val L f u) := by
  simp only [ETree.low, ETree.val, pow_zero, one_mulVec, iteratedFDeriv_two_apply]
  rfl

/-- The sum of the wrong terms. -/
theorem bad_sum : ∑ x, ((etd5Q false).real.out (ETree.bad x) - (ETree.bad x).exact) • (ETree.bad x).val L f u = etd5Lead L f u := by
  set D := fderiv ℝ f u with hD
  set X := fun i => (ETree.low 0 i).val L f u with hX
  have hv : ∀ i, (ETree.bad (false, i)).val L f u = L *ᵥ D (X i) := by
    intro i
    simp only [ETree.bad, ETree.val, iteratedFDeriv_one_apply, pow_one]
    rfl
  have hv' : ∀ i, (ETree.bad (true, i)).val L f u = D (L *ᵥ X i) := by
    intro i
    simp only [ETree.bad, ETree.val, iteratedFDeriv_one_apply, pow_zero, one_mulVec]
    rw [val_low, pow_one]
  have hW : ∑ i, badC i • X i = (1 / 34560 : ℝ) • (fderiv ℝ (fderiv ℝ f) u (L *ᵥ u + f u) (L *ᵥ u + f u) + D (L *ᵥ (L *ᵥ u + f u)) +
      (3 : ℝ) • D (D (L *ᵥ u + f u))) := by
    rw [Fintype.sum_sum_type, Fin.sum_univ_four, Fintype.sum_prod_type, Fintype.sum_bool, Fintype.sum_bool, Fintype.sum_bool]
    simp only [hX, val_low_two, val_low_one, ← hD]
    rw [← val_one_sum L f u]
    have h2 : D ((ETree.two 2).val L f u) + D ((ETree.two 3).val L f u) =
        D (D ((ETree.one false).val L f u + (ETree.one true).val L f u)) := by
      simp only [ETree.two, ETree.val, pow_zero, one_mulVec, iteratedFDeriv_one_apply, map_add, ← hD]
    have h1 : D ((ETree.two 0).val L f u) + D ((ETree.two 1).val L f u) =
        D (L *ᵥ ((ETree.one false).val L f u + (ETree.one true).val L f u)) := by
      simp only [ETree.two, ETree.one, ETree.val, pow_zero, zero_add, one_mulVec, iteratedFDeriv_zero_apply, mulVec_add, map_add,
        pow_succ, mulVec_mulVec, one_mul]
    have hb : badC (.inl 0) = 1 / 34560 ∧ badC (.inl 1) = 1 / 34560 ∧ badC (.inl 2) = 1 / 11520 ∧ badC (.inl 3) = 1 / 11520 :=
      ⟨rfl, rfl, rfl, rfl⟩
    have hb' : ∀ a b, badC (.inr (a, b)) = 1 / 34560 := fun _ _ => rfl
    rw [← h1, ← h2, hb.1, hb.2.1, hb.2.2.1, hb.2.2.2]
    simp only [hb', map_add, _root_.add_apply]
    module
  rw [Fintype.sum_prod_type, Fintype.sum_bool]
  simp only [bad_coef_false, bad_coef_true, hv, hv', etd5Lead, ← hD]
  have e : ∀ w : Vec ι, (1 / 34560 : ℝ) • (D (L *ᵥ w) - L *ᵥ D w) = D (L *ᵥ ((1 / 34560 : ℝ) • w)) - L *ᵥ D ((1 / 34560 : ℝ) • w) := by
    intro w
    rw [mulVec_smul, map_smul, map_smul, mulVec_smul, smul_sub]
  rw [e, ← hW, mulVec_sum, map_sum, map_sum, mulVec_sum, ← sum_add_distrib, ← sum_sub_distrib]
  refine sum_congr rfl fun i _ => ?_
  rw [mulVec_smul, map_smul, map_smul, mulVec_smul]
  module

end

variable {ι : Type} [Fintype ι] [DecidableEq ι] {P : Type} {L : Mat ι} {f : Vec ι → Vec ι} {K : Set P} {y : P → ℝ → Vec ι} {δ : ℝ}
  {K0 : Set (Vec ι)}

/-- Local error of the fifth order method up to the fifth power of the step size. -/
theorem etd5_leading (fsal : Bool) (hf : ContDiff ℝ ∞ f) (hy : Flows L f K y δ K0) :
    (fun x : ℝ × P => ((etd5Method fsal (phiExact L x.1) L x.1).run f (y x.2 0)).1 - y x.2 x.1 - x.1 ^ 5 • etd5Lead L f (y x.2 0))
      =O[small K] fun x => x.1 ^ 6 := by
  classical
  have h1 := local_error hf hy (etd5_expands L fsal) 5
  have h2 := sum_filter_isBigO (L := L) (f := f) hf hy.compact hy.mem0 (ETree.trees 5) (fun t => (etd5Q fsal).real.out t - t.exact) 6
  refine (IsBigO.add h1 h2).congr_left fun x => ?_
  have h3 : ∑ t ∈ ETree.trees 5 with t.order < 6, (((etd5Q fsal).real.out t - t.exact) * x.1 ^ t.order) • t.val L f (y x.2 0) =
      x.1 ^ 5 • etd5Lead L f (y x.2 0) := by
    have hsub : (univ.image ETree.bad) ⊆ {t ∈ ETree.trees 5 | t.order < 6} := by
      intro t ht
      obtain ⟨i, -, rfl⟩ := mem_image.1 ht
      have := ETree.bad_order i
      exact mem_filter.2 ⟨ETree.mem_trees (by omega), by omega⟩
    rw [← sum_subset hsub, sum_image ETree.bad_injective.injOn, ← bad_sum, smul_sum]
    · refine sum_congr rfl fun i _ => ?_
      rw [ETree.bad_order, etd5_out_eq, smul_smul, mul_comm]
    · intro t ht hnot
      have : (etd5Q fsal).real.out t - t.exact = 0 := by
        rw [mem_filter] at ht
        rcases (by omega : t.order ≤ 4 ∨ t.order = 5) with h4 | h5
        · rw [etd5Q_hasOrder fsal t h4, sub_self]
        · by_contra hne
          rw [etd5_out_eq] at hne
          obtain ⟨i, rfl⟩ := etd5_bad h5 (fun h => hne (by rw [h, sub_self]))
          exact hnot (mem_image_of_mem _ (mem_univ _))
      rw [this, zero_mul, zero_smul]
  rw [← h3]
  abel

end Verif
