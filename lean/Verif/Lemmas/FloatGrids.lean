import Verif.Spec.FloatGrids
import Mathlib.Analysis.Asymptotics.Lemmas
import Mathlib.Analysis.SpecialFunctions.Trigonometric.Bounds
import Mathlib.Topology.Algebra.Order.Field

/-!
# First-order error analysis of expressions of real numbers

`Lim r f g`: the computed value `f` differs from `g` by a constant times the unit roundoff, for all sufficiently small unit roundoffs.
-/

set_option linter.unusedSectionVars false

namespace Verif

open Filter Asymptotics Topology

/-- A rounding, a summation and a bound for their errors. -/
structure Rounding where
  rnd : ℝ → ℝ
  sum : List ℝ → ℝ
  dot : List (ℝ × ℝ) → ℝ
  ρ : ℝ
  ok : RoundsTo rnd sum dot ρ

namespace Rounding

variable {T : Type} (r : T → Rounding)

/-- The unit roundoff. -/
abbrev unit (t : T) : ℝ := (r t).ρ

/-- Small unit roundoffs. -/
def fine : Filter T := comap (unit r) (𝓝 0)

theorem unit_tendsto : Tendsto (unit r) (fine r) (𝓝 0) := tendsto_comap

/-- The computed value `f` is `g`, which is bounded, up to a constant times the unit roundoff. -/
def Lim (f g : T → ℝ) : Prop := (fun t => f t - g t) =O[fine r] unit r ∧ g =O[fine r] (fun _ => (1 : ℝ))

variable {r} {f g f' g' : T → ℝ} {x : ℝ}

theorem unit_bounded : unit r =O[fine r] (fun _ => (1 : ℝ)) := (unit_tendsto r).isBigO_one ℝ

theorem Lim.const (x : ℝ) : Lim r (fun _ => x) (fun _ => x) := by
  refine ⟨?_, isBigO_const_const x one_ne_zero _⟩
  simp only [sub_self]
  exact isBigO_zero _ _

theorem Lim.bounded (h : Lim r f g) : f =O[fine r] (fun _ => (1 : ℝ)) :=
  ((h.1.trans unit_bounded).add h.2).congr_left fun t => by ring

theorem Lim.tendsto (h : Lim r f fun _ => x) : Tendsto f (fine r) (𝓝 x) := by
  have h1 : Tendsto (fun t => f t - x) (fine r) (𝓝 0) := h.1.trans_tendsto (unit_tendsto r)
  simpa using h1.add_const x

theorem Lim.congr (h : Lim r f g) (hy : ∀ t, g t = g' t) : Lim r f g' := funext hy ▸ h

theorem Lim.congr_left (h : Lim r f g) (hy : ∀ t, f t = f' t) : Lim r f' g := funext hy ▸ h

/-- A value that is close to a computed one. -/
theorem Lim.near (h : Lim r f g) {c : ℝ} (hc : ∀ t, |f' t - f t| ≤ c * ((r t).ρ * (1 + |f t|))) : Lim r f' g := by
  refine ⟨?_, h.2⟩
  have h1 : (fun t : T => f' t - f t) =O[fine r] unit r := by
    have h2 : (fun t : T => f' t - f t) =O[fine r] fun t => (r t).ρ * (1 + |f t|) := by
      refine IsBigO.of_bound c (Eventually.of_forall fun t => ?_)
      rw [Real.norm_eq_abs, Real.norm_of_nonneg (mul_nonneg (r t).ok.nonneg (by positivity))]
      exact hc t
    have h3 : (fun t => 1 + |f t|) =O[fine r] (fun _ => (1 : ℝ)) := (isBigO_refl _ _).add h.bounded.abs_left
    have h4 := (isBigO_refl (unit r) (fine r)).mul h3
    simp only [mul_one] at h4
    exact h2.trans h4
  refine (h1.add h.1).congr_left fun t => ?_
  ring

theorem Lim.round (h : Lim r f g) : Lim r (fun t => (r t).rnd (f t)) g :=
  h.near (c := 1) fun t => ((r t).ok.rnd _).trans (by nlinarith [(r t).ok.nonneg, mul_nonneg (r t).ok.nonneg (abs_nonneg (f t))])

theorem Lim.add (h : Lim r f g) (h' : Lim r f' g') : Lim r (fun t => f t + f' t) (fun t => g t + g' t) :=
  ⟨(h.1.add h'.1).congr_left fun t => by ring, h.2.add h'.2⟩

theorem Lim.sub (h : Lim r f g) (h' : Lim r f' g') : Lim r (fun t => f t - f' t) (fun t => g t - g' t) :=
  ⟨(h.1.sub h'.1).congr_left fun t => by ring, h.2.sub h'.2⟩

theorem Lim.neg (h : Lim r f g) : Lim r (fun t => - f t) (fun t => - g t) :=
  ⟨h.1.neg_left.congr_left fun t => by ring, h.2.neg_left⟩

theorem Lim.mul (h : Lim r f g) (h' : Lim r f' g') : Lim r (fun t => f t * f' t) (fun t => g t * g' t) := by
  have h1 : (fun t => f t * (f' t - g' t)) =O[fine r] unit r := (h.bounded.mul h'.1).congr_right fun t => one_mul _
  have h2 : (fun t => (f t - g t) * g' t) =O[fine r] unit r := (h.1.mul h'.2).congr_right fun t => mul_one _
  exact ⟨(h1.add h2).congr_left fun t => by ring, (h.2.mul h'.2).congr_right fun t => mul_one _⟩

theorem Lim.inv (h : Lim r f fun _ => x) (hx : x ≠ 0) : Lim r (fun t => (f t)⁻¹) fun _ => x⁻¹ := by
  have h0 := h.tendsto.inv₀ hx
  have h1 : (fun t => (f t)⁻¹) =O[fine r] (fun _ => (1 : ℝ)) := h0.isBigO_one ℝ
  have h2 : (fun t => (f t)⁻¹ * (x⁻¹ * (x - f t))) =O[fine r] unit r := by
    have h3 : (fun t => x⁻¹ * (x - f t)) =O[fine r] unit r :=
      IsBigO.const_mul_left (h.1.neg_left.congr_left fun t => by ring) _
    exact (h1.mul h3).congr_right fun t => one_mul _
  refine ⟨h2.congr' ?_ (EventuallyEq.refl _ _), isBigO_const_const _ one_ne_zero _⟩
  filter_upwards [h.tendsto.eventually_ne hx] with t ht
  field_simp

theorem Lim.div (h : Lim r f g) (h' : Lim r f' fun _ => x) (hx : x ≠ 0) : Lim r (fun t => f t / f' t) fun t => g t / x := by
  simp only [div_eq_mul_inv]
  exact h.mul (h'.inv hx)

/-- A function that does not increase distances. -/
theorem Lim.lipschitz (h : Lim r f g) {φ : ℝ → ℝ} (hφ : ∀ a b, |φ a - φ b| ≤ |a - b|) : Lim r (fun t => φ (f t)) fun t => φ (g t) := by
  refine ⟨IsBigO.trans (IsBigO.of_bound 1 (Eventually.of_forall fun t => ?_)) h.1, ?_⟩
  · rw [one_mul, Real.norm_eq_abs, Real.norm_eq_abs]
    exact hφ _ _
  · have h1 : (fun t => φ (g t) - φ 0) =O[fine r] (fun _ => (1 : ℝ)) :=
      IsBigO.trans (IsBigO.of_bound 1 (Eventually.of_forall fun t => by
        rw [one_mul, Real.norm_eq_abs, Real.norm_eq_abs]
        exact (hφ _ _).trans (le_of_eq (by rw [sub_zero])))) h.2
    exact (h1.add (isBigO_const_const (φ 0) one_ne_zero _)).congr_left fun t => by ring

theorem Lim.cos (h : Lim r f g) : Lim r (fun t => Real.cos (f t)) fun t => Real.cos (g t) := h.lipschitz Real.abs_cos_sub_cos_le

theorem Lim.finset_sum {n : ℕ} {F G : Fin n → T → ℝ} (h : ∀ k, Lim r (F k) (G k)) :
    Lim r (fun t => ∑ k, F k t) fun t => ∑ k, G k t := by
  constructor
  · refine (IsBigO.sum (s := Finset.univ) fun k _ => (h k).1).congr_left fun t => ?_
    rw [Finset.sum_apply, Finset.sum_sub_distrib]
  · refine (IsBigO.sum (s := Finset.univ) fun k _ => (h k).2).congr_left fun t => ?_
    rw [Finset.sum_apply]

theorem Lim.of_terms {n : ℕ} {f : T → ℝ} {F G : Fin n → T → ℝ} (h : ∀ k, Lim r (F k) (G k)) {c : ℝ}
    (hf : ∀ t : T, n * (r t).ρ ≤ 1 → |f t - ∑ k, F k t| ≤ c * (n * (r t).ρ * ∑ k, |F k t|)) : Lim r f fun t => ∑ k, G k t := by
  have h1 : (fun t : T => f t - ∑ k, F k t) =O[fine r] unit r := by
    have h2 : (fun t : T => ∑ k, |F k t|) =O[fine r] (fun _ => (1 : ℝ)) :=
      (IsBigO.sum (s := Finset.univ) fun k _ => (h k).bounded.abs_left).congr_left fun t => by rw [Finset.sum_apply]
    have h3 : (fun t : T => (n : ℝ) * ((r t).ρ * ∑ k, |F k t|)) =O[fine r] unit r :=
      IsBigO.const_mul_left (((isBigO_refl (unit r) (fine r)).mul h2).congr_right fun t => mul_one _) _
    refine IsBigO.trans (IsBigO.of_bound c ?_) h3
    have h4 : ∀ᶠ t : T in fine r, (n : ℝ) * (r t).ρ < 1 := by
      have : Tendsto (fun t : T => (n : ℝ) * (r t).ρ) (fine r) (𝓝 (n * 0)) := (unit_tendsto r).const_mul _
      rw [mul_zero] at this
      exact this.eventually (gt_mem_nhds one_pos)
    filter_upwards [h4] with t ht
    rw [Real.norm_eq_abs, Real.norm_of_nonneg (mul_nonneg (Nat.cast_nonneg n) (mul_nonneg (r t).ok.nonneg (Finset.sum_nonneg fun k _ => abs_nonneg _))),
      ← mul_assoc (n : ℝ)]
    exact hf t ht.le
  have h5 := Lim.finset_sum h
  exact ⟨(h1.add h5.1).congr_left fun t => by ring, h5.2⟩

theorem Lim.sum {n : ℕ} {F G : Fin n → T → ℝ} (h : ∀ k, Lim r (F k) (G k)) :
    Lim r (fun t => (r t).sum (List.ofFn fun k => F k t)) fun t => ∑ k, G k t := by
  refine Lim.of_terms h (c := 8) fun t ht => ?_
  have h5 := (r t).ok.sum (List.ofFn fun k => F k t) (by rw [List.length_ofFn]; exact ht)
  rwa [List.length_ofFn, List.sum_ofFn, List.map_ofFn, List.sum_ofFn] at h5

theorem Lim.dot {n : ℕ} {F G F' G' : Fin n → T → ℝ} (h : ∀ k, Lim r (F k) (G k)) (h' : ∀ k, Lim r (F' k) (G' k)) :
    Lim r (fun t => (r t).dot (List.ofFn fun k => (F k t, F' k t))) fun t => ∑ k, G k t * G' k t := by
  refine Lim.of_terms (fun k => (h k).mul (h' k)) (c := 20) fun t ht => ?_
  have h5 := (r t).ok.dot (List.ofFn fun k => (F k t, F' k t)) (by rw [List.length_ofFn]; exact ht)
  rwa [List.length_ofFn, List.map_ofFn, List.sum_ofFn, List.map_ofFn, List.sum_ofFn] at h5

/-- From `Lim` to a constant. -/
theorem Lim.bound {α : Type} [Finite α] {F G : α → T → ℝ} (h : ∀ a, Lim r (F a) (G a)) :
    ∃ K δ : ℝ, 0 ≤ K ∧ 0 < δ ∧ ∀ t : T, (r t).ρ ≤ δ → ∀ a, |F a t - G a t| ≤ K * (r t).ρ := by
  cases nonempty_fintype α
  choose c hc using fun a => (h a).1.bound
  have h1 : ∀ᶠ t in (fine r), ∀ a, ‖F a t - G a t‖ ≤ c a * ‖(r t).ρ‖ := eventually_all.2 hc
  unfold fine at h1
  rw [eventually_comap, Metric.eventually_nhds_iff] at h1
  obtain ⟨ε, hε, h2⟩ := h1
  refine ⟨∑ a, |c a|, ε / 2, Finset.sum_nonneg fun a _ => abs_nonneg _, by positivity, fun t ht a => ?_⟩
  have h0 := (r t).ok.nonneg
  have h3 := h2 (show dist (r t).ρ 0 < ε by rw [Real.dist_eq, sub_zero, abs_of_nonneg h0]; linarith) t rfl a
  rw [Real.norm_of_nonneg h0, Real.norm_eq_abs] at h3
  refine h3.trans (mul_le_mul_of_nonneg_right ((le_abs_self _).trans ?_) h0)
  exact Finset.single_le_sum (f := fun a => |c a|) (fun a _ => abs_nonneg _) (Finset.mem_univ a)

end Rounding

end Verif
