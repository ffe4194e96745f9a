import Verif.Lemmas.BSeries
import Mathlib.Analysis.Calculus.Deriv.Pow
import Mathlib.Analysis.Calculus.Deriv.Mul
import Mathlib.Analysis.Calculus.Deriv.Add
import Mathlib.Tactic.FieldSimp

/-!
# Expansion of the exact solution over trees
-/

set_option linter.unusedSectionVars false

namespace Verif

open Matrix Finset Filter Topology Asymptotics
open scoped Matrix.Norms.Operator ContDiff

namespace ETree

/-- One more factor `L` in front. -/
def lin : ETree → ETree
  | lu k => lu (k + 1)
  | nd k m ch => nd (k + 1) m ch

theorem lin_injective : Function.Injective lin := by
  intro t t' h
  cases t <;> cases t' <;> simp only [lin, lu.injEq, nd.injEq, reduceCtorEq, Nat.add_right_cancel_iff] at h
  · rw [h]
  · obtain ⟨rfl, rfl, h⟩ := h
    cases h
    rfl

theorem order_lin (t : ETree) : t.lin.order = t.order + 1 := by
  cases t
  · simp only [lin, order]
  · simp only [lin, order]
    omega

theorem exact_lin (t : ETree) : t.lin.exact * (t.order + 1 : ℕ) = t.exact := by
  cases t with
  | lu k =>
    simp only [lin, exact, order, Nat.factorial_succ (k + 1)]
    push_cast
    have := Nat.cast_ne_zero (R := ℝ).2 (Nat.factorial_ne_zero (k + 1))
    field_simp
  | nd k m ch =>
    simp only [lin, exact, order]
    set q := ∑ l, (ch l).order
    rw [show q + (k + 1) + 1 = (q + k + 1) + 1 by omega, Nat.factorial_succ (q + k + 1), show k + 1 + q + 1 = q + k + 1 + 1 by omega]
    push_cast
    have := Nat.cast_ne_zero (R := ℝ).2 (Nat.factorial_ne_zero (q + k + 1))
    have : (q : ℝ) + k + 1 + 1 ≠ 0 := by positivity
    field_simp

theorem exact_nd (m : ℕ) (ch : Fin m → ETree) :
    (nd 0 m ch).exact * ((∑ l, (ch l).order) + 1 : ℕ) = (m.factorial : ℝ)⁻¹ * ∏ l, (ch l).exact := by
  simp only [exact]
  set q := ∑ l, (ch l).order
  rw [show q + 0 + 1 = q + 1 by omega, Nat.factorial_succ q]
  push_cast
  have := Nat.cast_ne_zero (R := ℝ).2 (Nat.factorial_ne_zero q)
  have : (q : ℝ) + 1 ≠ 0 := by positivity
  field_simp

/-- The trees reached by one integration of `y' = L y + f(y)`. -/
noncomputable def next (S : Finset ETree) (n : ℕ) : Finset ETree := by
  classical
  exact {lu 0} ∪ (S.image lin ∪ ((range n).sigma fun m => Fintype.piFinset fun _ : Fin m => S).image
    fun x : (m : ℕ) × (Fin m → ETree) => nd 0 x.1 x.2)

theorem sum_next {M : Type} [AddCommMonoid M] (S : Finset ETree) (n : ℕ) (F : ETree → M) :
    ∑ t ∈ next S n, F t = F (lu 0) + (∑ t ∈ S, F t.lin +
      ∑ m ∈ range n, ∑ ch ∈ Fintype.piFinset fun _ : Fin m => S, F (nd 0 m ch)) := by
  classical
  rw [next, sum_union, sum_union, sum_image, sum_image, sum_sigma, sum_singleton]
  · rintro ⟨m, ch⟩ _ ⟨m', ch'⟩ _ h
    simp only [nd.injEq, true_and] at h
    obtain ⟨rfl, h⟩ := h
    cases h
    rfl
  · exact lin_injective.injOn
  · rw [Finset.disjoint_left]
    intro t h1 h2
    simp only [mem_image] at h1 h2
    obtain ⟨t', _, rfl⟩ := h1
    obtain ⟨_, _, h⟩ := h2
    cases t' <;> simp [lin] at h
  · rw [Finset.disjoint_left]
    intro t h1 h2
    simp only [mem_union, mem_image, mem_singleton] at h1 h2
    subst h1
    rcases h2 with ⟨t', _, h⟩ | ⟨_, _, h⟩
    · cases t' <;> simp [lin] at h
    · simp at h

theorem mem_next {t : ETree} {n : ℕ} (h : t.order < n + 2) : t ∈ next (trees n) (n + 1) := by
  classical
  rw [next]
  cases t with
  | lu k =>
    cases k with
    | zero => simp
    | succ k =>
      refine mem_union_right _ (mem_union_left _ (mem_image.2 ⟨lu k, mem_trees ?_, rfl⟩))
      simp only [order] at h ⊢
      omega
  | nd k m ch =>
    simp only [order] at h
    cases k with
    | zero =>
      have hc := card_le_sum_order ch
      refine mem_union_right _ (mem_union_right _ (mem_image.2 ⟨⟨m, ch⟩, ?_, rfl⟩))
      simp only [mem_sigma, mem_range, Fintype.mem_piFinset]
      refine ⟨by omega, fun l => mem_trees ?_⟩
      have := single_le_sum (f := fun l => (ch l).order) (fun _ _ => Nat.zero_le _) (mem_univ l)
      omega
    | succ k =>
      refine mem_union_right _ (mem_union_left _ (mem_image.2 ⟨nd k m ch, mem_trees ?_, rfl⟩))
      simp only [order]
      omega

end ETree

variable {ι : Type} [Fintype ι] [DecidableEq ι] {P : Type}

theorem val_lin (L : Mat ι) (f : Vec ι → Vec ι) (u : Vec ι) (t : ETree) : t.lin.val L f u = L *ᵥ t.val L f u := by
  cases t <;> simp only [ETree.lin, ETree.val, mulVec_mulVec, pow_succ']

/-- A function that vanishes at zero and has a small derivative is smaller by one power. -/
theorem integrate {V : Type} [NormedAddCommGroup V] [NormedSpace ℝ V] {K : Set P} {r r' : P → ℝ → V} {δ : ℝ} {n : ℕ} (hδ : 0 < δ)
    (h0 : ∀ q ∈ K, r q 0 = 0) (hr : ∀ q ∈ K, ∀ s, |s| < δ → HasDerivAt (r q) (r' q s) s)
    (hr' : (fun x : ℝ × P => r' x.2 x.1) =O[small K] fun x => x.1 ^ n) :
    (fun x : ℝ × P => r x.2 x.1) =O[small K] fun x => x.1 ^ (n + 1) := by
  obtain ⟨C, hC0, hC⟩ := hr'.exists_nonneg
  obtain ⟨δ', hδ', hC⟩ := eventually_small.1 hC.bound
  refine IsBigO.of_bound C (eventually_small.2 ⟨min δ δ', lt_min hδ hδ', fun h hh q hq => ?_⟩)
  have hh1 := lt_of_lt_of_le hh (min_le_left _ _)
  have hh2 := lt_of_lt_of_le hh (min_le_right _ _)
  have := (convex_closedBall (0 : ℝ) |h|).norm_image_sub_le_of_norm_hasDerivWithin_le (f := r q) (f' := r' q) (C := C * |h| ^ n)
    (x := 0) (y := h) (fun s hs => (hr q hq s ?_).hasDerivWithinAt) (fun s hs => ?_) ?_ ?_
  · rw [h0 q hq, sub_zero, sub_zero] at this
    simpa [pow_succ, mul_assoc] using this
  · rw [mem_closedBall_zero_iff, Real.norm_eq_abs] at hs
    exact hs.trans_lt hh1
  · rw [mem_closedBall_zero_iff, Real.norm_eq_abs] at hs
    have := hC s (hs.trans_lt hh2) q hq
    simp only [norm_pow, Real.norm_eq_abs] at this
    exact this.trans (mul_le_mul_of_nonneg_left (pow_le_pow_left₀ (abs_nonneg _) hs _) hC0)
  · simp
  · simp

variable {L : Mat ι} {f : Vec ι → Vec ι} {K : Set P} {y : P → ℝ → Vec ι} {δ : ℝ} {K0 : Set (Vec ι)}

theorem Flows.mem0 (hy : Flows L f K y δ K0) : ∀ q ∈ K, y q 0 ∈ K0 := fun q hq => hy.mem q hq 0 (by simpa using hy.pos)

theorem deriv_term (a : ℝ) (n : ℕ) (v : Vec ι) (s : ℝ) :
    HasDerivAt (fun s : ℝ => (a * s ^ (n + 1)) • v) ((a * (n + 1 : ℕ) * s ^ n) • v) s := by
  have := ((hasDerivAt_pow (n + 1) s).const_mul a).smul_const v
  simpa [mul_assoc] using this

/-- Expansion of the exact solution. -/
theorem flow_knows (hf : ContDiff ℝ ∞ f) (hy : Flows L f K y δ K0) (n : ℕ) :
    Knows L f K (fun q => y q 0) (ETree.trees n) ETree.exact (n + 1) fun x => y x.2 x.1 := by
  induction n with
  | zero =>
    have := integrate (K := K) (r := fun q s => y q s - y q 0) (r' := fun q s => L *ᵥ y q s + f (y q s)) (n := 0) hy.pos
      (fun q hq => sub_self _) (fun q hq s hs => (hy.deriv q hq s hs).sub_const _) (by
        obtain ⟨C, hC⟩ := (hy.compact.image ((Continuous.matrix_mulVec (continuous_const (y := L)) continuous_id).add
          hf.continuous)).isBounded.exists_norm_le
        refine IsBigO.of_bound C (eventually_small.2 ⟨δ, hy.pos, fun s hs q hq => ?_⟩)
        simpa using hC _ ⟨y q s, hy.mem q hq s hs, rfl⟩)
    refine IsBigO.congr_left this fun x => ?_
    simp [ETree.trees]
  | succ n ih =>
    have hcomp := ih.comp hf hy.compact hy.mem0 (by omega)
    have hlin : (fun x => L *ᵥ (y x.2 x.1 - (y x.2 0 + ∑ t ∈ ETree.trees n, (t.exact * x.1 ^ t.order) • t.val L f (y x.2 0))))
        =O[small K] fun x => x.1 ^ (n + 1) :=
      (mulVec_isBigO (isBigO_const_const L one_ne_zero _) ih).congr_right fun x => one_mul _
    have key := integrate (K := K) (n := n + 1)
      (r := fun q s => y q s - (y q 0 + ∑ t ∈ ETree.next (ETree.trees n) (n + 1), (t.exact * s ^ t.order) • t.val L f (y q 0)))
      (r' := fun q s => L *ᵥ y q s + f (y q s) - (0 + ((ETree.exact (.lu 0) * (0 + 1 : ℕ) * s ^ 0) • (ETree.lu 0).val L f (y q 0) +
        (∑ t ∈ ETree.trees n, (t.lin.exact * (t.order + 1 : ℕ) * s ^ t.order) • t.lin.val L f (y q 0) +
        ∑ m ∈ range (n + 1), ∑ ch ∈ Fintype.piFinset fun _ : Fin m => ETree.trees n,
          ((ETree.nd 0 m ch).exact * ((∑ l, (ch l).order) + 1 : ℕ) * s ^ (∑ l, (ch l).order)) • (ETree.nd 0 m ch).val L f (y q 0))))) hy.pos
      (fun q hq => by
        have : ∀ t : ETree, (0 : ℝ) ^ t.order = 0 := fun t => zero_pow (by have := t.order_pos; omega)
        simp [this])
      (fun q hq s hs => by
        refine (hy.deriv q hq s hs).sub ((hasDerivAt_const s (y q 0)).add ?_)
        simp only [ETree.sum_next, ETree.order_lin]
        refine HasDerivAt.add (deriv_term _ _ _ _) (HasDerivAt.add ?_ ?_)
        · exact HasDerivAt.fun_sum fun t _ => deriv_term _ _ _ _
        · refine HasDerivAt.fun_sum fun m _ => HasDerivAt.fun_sum fun ch _ => ?_
          have : (ETree.nd 0 m ch).order = (∑ l, (ch l).order) + 1 := by simp only [ETree.order]; omega
          simp only [this]
          exact deriv_term _ _ _ _)
      (by
        refine IsBigO.congr_left (hlin.add hcomp) fun x => ?_
        simp only [ETree.exact_lin, ETree.exact_nd, val_lin, mulVec_sub, mulVec_add, mulVec_sum, mulVec_smul]
        simp only [ETree.val, ETree.exact, pow_zero, one_mulVec, zero_add, pow_one, Nat.factorial_one, Nat.cast_one, inv_one, mul_one, one_smul]
        abel)
    have k2 : Knows L f K (fun q => y q 0) (ETree.next (ETree.trees n) (n + 1)) ETree.exact (n + 2) fun x => y x.2 x.1 := key
    exact k2.change hf hy.compact hy.mem0 (fun t ht => ETree.mem_next ht) (fun t ht => ETree.mem_trees (by omega)) fun _ _ => rfl

/-- Local error over trees. -/
theorem local_error (hf : ContDiff ℝ ∞ f) (hy : Flows L f K y δ K0) {M : ℝ → ERK ι} {T : ETableau}
    (hM : ERK.Expands M L T) (n : ℕ) :
    (fun x : ℝ × P => ((M x.1).run f (y x.2 0)).1 - y x.2 x.1 -
      ∑ t ∈ ETree.trees n, ((T.out t - t.exact) * x.1 ^ t.order) • t.val L f (y x.2 0)) =O[small K] fun x => x.1 ^ (n + 1) := by
  have h1 := ERK.run_knows hf hy.compact hy.mem0 hM n
  have h2 := flow_knows hf hy n
  refine IsBigO.congr_left (IsBigO.sub h1 h2) fun x => ?_
  simp only [sub_mul, sub_smul, sum_sub_distrib]
  abel

/-- A method that satisfies the order conditions has local error `O(h^(p+1))`, uniformly. -/
theorem local_order (hf : ContDiff ℝ ∞ f) (hy : Flows L f K y δ K0) {M : ℝ → ERK ι} {T : ETableau}
    (hM : ERK.Expands M L T) {p : ℕ} (hT : T.HasOrder p) :
    (fun x : ℝ × P => ((M x.1).run f (y x.2 0)).1 - y x.2 x.1) =O[small K] fun x => x.1 ^ (p + 1) := by
  have h1 := ERK.run_knows hf hy.compact hy.mem0 hM p
  have h2 := (flow_knows hf hy p).change hf hy.compact hy.mem0 (fun t ht => ETree.mem_trees (by omega))
    (fun t ht => ETree.mem_trees (n := p) (by omega)) (a' := T.out) fun t ht => (hT t (by omega)).symm
  refine IsBigO.congr_left (IsBigO.sub h1 h2) fun x => ?_
  abel

end Verif
