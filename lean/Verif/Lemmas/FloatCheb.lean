import Verif.Lemmas.FloatGrids
import Verif.Lemmas.FloatArith
import Verif.Lemmas.Cheb
import Mathlib.Analysis.SpecialFunctions.Exp

/-!
# Rounding errors of the Chebyshev grid, its matrix and of `dx_cheb`
-/

set_option linter.unusedSectionVars false

namespace Verif

namespace Rounding

variable {T : Type} {r : T → Rounding}

theorem lim_chebpts2 {n : ℕ} (hn : n ≠ 0) (j : Fin (n + 1)) : Lim r (fun t => flChebpts2 (r t).rnd n j) fun _ => chebpts2 n j := by
  have hn' : (n : ℝ) ≠ 0 := Nat.cast_ne_zero.2 hn
  unfold flChebpts2 chebpts2
  refine Lim.round (Lim.cos ?_)
  have hπ : Lim r (fun t => (r t).rnd Real.pi) fun _ => Real.pi := (Lim.const _).round
  split_ifs with h
  · exact (Lim.const 0).congr fun _ => by rw [h]; field_simp; ring
  · refine ((((Lim.const (j : ℝ)).mul ((((Lim.const 0).sub hπ.neg).round.div (Lim.const (n : ℝ)) hn').round)).round).add hπ.neg).round.congr fun _ => ?_
    ring

theorem lim_chebX {n : ℕ} (hn : n ≠ 0) (a b : ℝ) (j : Fin (n + 1)) : Lim r (fun t => flChebX (r t).rnd n a b j) fun _ => chebX n a b j := by
  unfold flChebX chebX
  exact ((Lim.const a).add (((((Lim.const b).sub (Lim.const a)).round.mul ((lim_chebpts2 hn j).add (Lim.const 1)).round).round.div (Lim.const 2)
    two_ne_zero).round)).round

theorem chebC_ne_zero {n : ℕ} (j : Fin (n + 1)) : chebC n j ≠ 0 := by
  unfold chebC
  split_ifs <;> simp

theorem lim_chebD0 {n : ℕ} {x' : T → Fin (n + 1) → ℝ} {x : Fin (n + 1) → ℝ} (hx : ∀ j, Lim r (fun t => x' t j) fun _ => x j)
    (hinj : Function.Injective x) (i j : Fin (n + 1)) : Lim r (fun t => flChebD0 (r t).rnd n (x' t) i j) fun _ => chebD0 n x i j := by
  unfold flChebD0 chebD0
  refine (((Lim.const _).mul ((Lim.const 1).div (Lim.const _) (chebC_ne_zero j)).round).round.div
    ((((hx i).sub (hx j)).round.add (Lim.const _)).round) ?_).round
  split_ifs with h
  · subst h
    simp
  · rw [add_zero]
    exact sub_ne_zero.2 fun h' => h (hinj h')

theorem lim_chebD {n : ℕ} {x' : T → Fin (n + 1) → ℝ} {x : Fin (n + 1) → ℝ} (hx : ∀ j, Lim r (fun t => x' t j) fun _ => x j)
    (hinj : Function.Injective x) (i j : Fin (n + 1)) : Lim r (fun t => flChebD (r t).rnd (r t).sum n (x' t) i j) fun _ => chebD n x i j := by
  unfold flChebD chebD
  refine Lim.round ?_
  rw [Matrix.sub_apply, Matrix.diagonal_apply]
  split_ifs with h
  · exact (lim_chebD0 hx hinj i j).sub (Lim.sum fun k => lim_chebD0 hx hinj i k)
  · exact (lim_chebD0 hx hinj i j).sub (Lim.const 0)

/-- Computed matrices. -/
abbrev LimM (r : T → Rounding) {k l : ℕ} (A' A : T → Matrix (Fin k) (Fin l) ℝ) : Prop :=
  ∀ i j, Lim r (fun t => A' t i j) fun t => A t i j

theorem LimM.dot {k n l : ℕ} {A' A : T → Matrix (Fin k) (Fin n) ℝ} {B' B : T → Matrix (Fin n) (Fin l) ℝ}
    (hA : LimM r A' A) (hB : LimM r B' B) : LimM r (fun t => flMatDot (r t).dot (A' t) (B' t)) fun t => A t * B t :=
  fun i j => Lim.dot (fun k => hA i k) fun k => hB k j

theorem LimM.powLoop {k : ℕ} (n : ℕ) : ∀ {Z' Z : T → Matrix (Fin k) (Fin k) ℝ}
    {R' : T → Option (Matrix (Fin k) (Fin k) ℝ)} {R : T → Matrix (Fin k) (Fin k) ℝ}, LimM r Z' Z →
    ((∀ t, R' t = none) ∧ (∀ t, R t = 1) ∧ n ≠ 0 ∨ ∃ P : T → Matrix (Fin k) (Fin k) ℝ, (∀ t, R' t = some (P t)) ∧ LimM r P R) →
    ∃ P : T → Matrix (Fin k) (Fin k) ℝ, (∀ t, flPowLoop (r t).dot (Z' t) (R' t) n = some (P t)) ∧ LimM r P fun t => R t * Z t ^ n := by
  induction n using Nat.strong_induction_on with
  | _ n ih =>
    intro Z' Z R' R hZ hR
    rcases Nat.eq_zero_or_pos n with h0 | h0
    · subst h0
      rcases hR with ⟨-, -, h⟩ | ⟨P, h1, h2⟩
      · exact absurd rfl h
      · refine ⟨P, fun t => ?_, by simpa using h2⟩
        rw [flPowLoop.eq_def, if_pos rfl, h1]
    · have hn : n ≠ 0 := by omega
      have hsq : ∀ t, (Z t * Z t) ^ (n / 2) = Z t ^ (2 * (n / 2)) := fun t => by rw [pow_mul, sq]
      have hlt : n / 2 < n := by omega
      rcases Nat.mod_two_eq_zero_or_one n with hm | hm
      · have hR2 : (∀ t, R' t = none) ∧ (∀ t, R t = 1) ∧ n / 2 ≠ 0 ∨ ∃ P : T → Matrix (Fin k) (Fin k) ℝ, (∀ t, R' t = some (P t)) ∧ LimM r P R := by
          rcases hR with ⟨h1, h2, -⟩ | h
          · exact Or.inl ⟨h1, h2, by omega⟩
          · exact Or.inr h
        obtain ⟨P, h1, h2⟩ := ih (n / 2) hlt (hZ.dot hZ) hR2
        refine ⟨P, fun t => ?_, ?_⟩
        · rw [flPowLoop.eq_def, if_neg hn]
          simp only [hm, zero_ne_one, if_false]
          exact h1 t
        · simpa only [hsq, show 2 * (n / 2) = n by omega] using h2
      · have hR2 : ∃ P : T → Matrix (Fin k) (Fin k) ℝ,
            (∀ t, (some (match R' t with | none => Z' t | some q => flMatDot (r t).dot q (Z' t)) : Option (Matrix (Fin k) (Fin k) ℝ)) = some (P t)) ∧ LimM r P fun t => R t * Z t := by
          rcases hR with ⟨h1, h2, -⟩ | ⟨P, h1, h2⟩
          · exact ⟨Z', fun t => by rw [h1], by simpa only [h2, one_mul] using hZ⟩
          · exact ⟨_, fun t => by rw [h1], h2.dot hZ⟩
        obtain ⟨P, h1, h2⟩ := ih (n / 2) hlt (hZ.dot hZ) (Or.inr hR2)
        refine ⟨P, fun t => ?_, ?_⟩
        · rw [flPowLoop.eq_def, if_neg hn]
          simp only [hm, if_true]
          exact h1 t
        · simpa only [hsq, mul_assoc, ← pow_succ', show 2 * (n / 2) + 1 = n by omega] using h2

theorem LimM.pow {k n : ℕ} (hn : n ≠ 0) {D' D : T → Matrix (Fin k) (Fin k) ℝ} (hD : LimM r D' D) :
    LimM r (fun t => flMatPow (r t).dot (D' t) n) fun t => D t ^ n := by
  unfold flMatPow
  split_ifs with h1 h2 h3
  · simpa only [h1, pow_one] using hD
  · simpa only [h2, sq] using hD.dot hD
  · simpa only [h3, pow_succ, pow_zero, one_mul] using (hD.dot hD).dot hD
  · obtain ⟨P, e1, e2⟩ := LimM.powLoop (r := r) n (R' := fun _ => none) (R := fun _ => 1) hD (Or.inl ⟨fun _ => rfl, fun _ => rfl, hn⟩)
    simpa only [e1, Option.getD_some, one_mul] using e2

end Rounding

/-- NumPy's sums and inner products, by rounded additions in any order. -/
theorem RoundsTo.numpy {rnd : ℝ → ℝ} {ρ : ℝ} (hρ : 0 ≤ ρ) (hr : ∀ x, |rnd x - x| ≤ ρ * |x|) {sum : List ℂ → ℂ} (hs : ∀ l, SumsTo rnd l (sum l)) :
    RoundsTo rnd (realSum sum) (roundedDot rnd (realSum sum)) ρ := by
  have hsum : ∀ l : List ℝ, l.length * ρ ≤ 1 → |realSum sum l - l.sum| ≤ 8 * (l.length * ρ * (l.map abs).sum) := by
    intro l hl
    have h1 := SumsTo.error hr hρ (hs (l.map fun x : ℝ => (x : ℂ)))
    rw [List.length_map, List.map_map] at h1
    have h2 : (List.map (norm ∘ fun x : ℝ => (x : ℂ)) l) = l.map abs := List.map_congr_left fun x _ => by simp
    have h3 : (l.map fun x : ℝ => (x : ℂ)).sum = ((l.sum : ℝ) : ℂ) := by
      rw [← Complex.ofRealHom_eq_coe, map_list_sum]
      rfl
    rw [h2, h3] at h1
    have h4 : |realSum sum l - l.sum| ≤ ‖sum (l.map fun x : ℝ => (x : ℂ)) - ((l.sum : ℝ) : ℂ)‖ := by
      refine le_trans (le_of_eq ?_) (Complex.abs_re_le_norm _)
      rw [realSum, Complex.sub_re, Complex.ofReal_re]
    refine h4.trans (h1.trans ?_)
    have h5 : (1 + 2 * ρ) ^ l.length - 1 ≤ 8 * (l.length * ρ) := by
      have e1 : (1 + 2 * ρ) ^ l.length ≤ Real.exp (2 * (l.length * ρ)) := by
        calc (1 + 2 * ρ) ^ l.length ≤ Real.exp (2 * ρ) ^ l.length := by
              refine pow_le_pow_left₀ (by linarith) ?_ _
              linarith [Real.add_one_le_exp (2 * ρ)]
          _ = Real.exp (2 * (l.length * ρ)) := by rw [← Real.exp_nat_mul]; ring_nf
      set x := (l.length : ℝ) * ρ with hx
      have hx0 : 0 ≤ x := by positivity
      have e2 : Real.exp (2 * x) ≤ (1 - x) * 1 + x * Real.exp 2 := by
        have := convexOn_exp.2 (Set.mem_univ 0) (Set.mem_univ 2) (show 0 ≤ 1 - x by linarith) hx0 (by ring)
        simp only [smul_eq_mul, mul_zero, zero_add, Real.exp_zero] at this
        rwa [mul_comm x 2] at this
      have e3 : Real.exp 2 ≤ 9 := by
        have := Real.exp_one_lt_d9
        rw [show (2 : ℝ) = 1 + 1 by norm_num, Real.exp_add]
        nlinarith [Real.exp_pos 1]
      nlinarith
    calc ((1 + 2 * ρ) ^ l.length - 1) * (l.map abs).sum ≤ 8 * (l.length * ρ) * (l.map abs).sum :=
          mul_le_mul_of_nonneg_right h5 (List.sum_nonneg (by simp))
      _ = _ := by ring
  refine ⟨hρ, hr, hsum, fun l hl => ?_⟩
  have h1 := hsum (l.map fun p => rnd (p.1 * p.2)) (by rwa [List.length_map])
  rw [List.length_map, List.map_map] at h1
  have key : ∀ l : List (ℝ × ℝ), |(l.map fun p => rnd (p.1 * p.2)).sum - (l.map fun p => p.1 * p.2).sum| ≤ ρ * (l.map fun p => |p.1 * p.2|).sum ∧
      (l.map (abs ∘ fun p => rnd (p.1 * p.2))).sum ≤ (1 + ρ) * (l.map fun p => |p.1 * p.2|).sum := by
    intro l
    induction l with
    | nil => simp
    | cons p l ih =>
      simp only [List.map_cons, List.sum_cons, Function.comp_apply]
      have h2 := hr (p.1 * p.2)
      have h3 := abs_sub_abs_le_abs_sub (rnd (p.1 * p.2)) (p.1 * p.2)
      refine ⟨?_, by linarith [ih.2]⟩
      rw [add_sub_add_comm]
      exact (abs_add_le _ _).trans (by linarith [ih.1])
  obtain ⟨k1, k2⟩ := key l
  set S := (l.map fun p => |p.1 * p.2|).sum
  have hS : 0 ≤ S := List.sum_nonneg (by
    simp only [List.mem_map]
    rintro _ ⟨p, -, rfl⟩
    exact abs_nonneg _)
  rcases List.eq_nil_or_concat l with h0 | ⟨l', p, h0⟩
  · subst h0
    simpa [roundedDot] using h1
  · have hlen : (1 : ℝ) ≤ l.length := by
      rw [h0]
      simp
    have hρ1 : ρ ≤ 1 := by nlinarith
    have h2 : |roundedDot rnd (realSum sum) l - (l.map fun p => p.1 * p.2).sum| ≤
        |realSum sum (l.map fun p => rnd (p.1 * p.2)) - (l.map fun p => rnd (p.1 * p.2)).sum| +
          |(l.map fun p => rnd (p.1 * p.2)).sum - (l.map fun p => p.1 * p.2).sum| := abs_sub_le _ _ _
    have hlρ : 0 ≤ (l.length : ℝ) * ρ := by positivity
    have h3 := mul_le_mul_of_nonneg_left k2 hlρ
    have h4 : (l.length : ℝ) * ρ * ((1 + ρ) * S) ≤ l.length * ρ * (2 * S) :=
      mul_le_mul_of_nonneg_left (mul_le_mul_of_nonneg_right (by linarith) hS) hlρ
    have h5 : ρ * S ≤ l.length * ρ * S := mul_le_mul_of_nonneg_right (le_mul_of_one_le_left hρ hlen) hS
    nlinarith [mul_nonneg hlρ hS]

end Verif
