import Verif.Model.Models
import Mathlib.Analysis.Calculus.IteratedDeriv.Defs
import Mathlib.Analysis.Calculus.Deriv.Pow
import Mathlib.Tactic.FieldSimp
import Mathlib.Tactic.LinearCombination

/-!
# C51: the KdV solitons
-/

set_option linter.unusedSectionVars false

namespace Verif

/-- `tanh (a (y - c) / 2)` -/
noncomputable def solT (a c y : ℝ) : ℝ := Real.sinh (a * (y - c) / 2) / Real.cosh (a * (y - c) / 2)

theorem one_sub_solT_sq (a c y : ℝ) : 1 - solT a c y ^ 2 = 1 / Real.cosh (a * (y - c) / 2) ^ 2 := by
  have h := Real.cosh_sq (a * (y - c) / 2)
  have hc : Real.cosh (a * (y - c) / 2) ≠ 0 := (Real.cosh_pos _).ne'
  rw [solT]
  field_simp
  linear_combination h

theorem hasDerivAt_solT (a c y : ℝ) : HasDerivAt (solT a c) (a / 2 * (1 - solT a c y ^ 2)) y := by
  have hc : Real.cosh (a * (y - c) / 2) ≠ 0 := (Real.cosh_pos _).ne'
  have h0 : HasDerivAt (fun y => a * (y - c) / 2) (a / 2) y := by
    have := (((hasDerivAt_id y).sub_const c).const_mul a).div_const 2
    simpa using this
  have h1 := (h0.sinh).div (h0.cosh) hc
  refine h1.congr_deriv ?_
  have h := Real.cosh_sq (a * (y - c) / 2)
  rw [one_sub_solT_sq]
  field_simp
  linear_combination a * h

theorem kdvSoliton_eq (x a x0 t : ℝ) : kdvSoliton x a x0 t = a ^ 2 / 2 * (1 - solT a (x0 + a ^ 2 * t) x ^ 2) := by
  rw [one_sub_solT_sq, kdvSoliton]
  rw [show x - x0 - a ^ 2 * t = x - (x0 + a ^ 2 * t) by ring]
  norm_num
  ring

theorem hasDerivAt_sol0 (a c y : ℝ) : HasDerivAt (fun y => a ^ 2 / 2 * (1 - solT a c y ^ 2))
    (-(a ^ 3 / 2) * (solT a c y * (1 - solT a c y ^ 2))) y := by
  refine ((((hasDerivAt_solT a c y).pow 2).const_sub 1).const_mul (a ^ 2 / 2)).congr_deriv ?_
  push_cast; ring

theorem hasDerivAt_sol1 (a c y : ℝ) : HasDerivAt (fun y => -(a ^ 3 / 2) * (solT a c y * (1 - solT a c y ^ 2)))
    (-(a ^ 4 / 4) * ((1 - solT a c y ^ 2) * (1 - 3 * solT a c y ^ 2))) y := by
  have h := hasDerivAt_solT a c y
  refine ((h.mul ((h.pow 2).const_sub 1)).const_mul (-(a ^ 3 / 2))).congr_deriv ?_
  simp only [Pi.pow_apply]
  push_cast; ring

theorem hasDerivAt_sol2 (a c y : ℝ) : HasDerivAt (fun y => -(a ^ 4 / 4) * ((1 - solT a c y ^ 2) * (1 - 3 * solT a c y ^ 2)))
    (a ^ 5 / 2 * ((1 - solT a c y ^ 2) * (2 * solT a c y - 3 * solT a c y ^ 3))) y := by
  have h := hasDerivAt_solT a c y
  refine ((((h.pow 2).const_sub 1).mul (((h.pow 2).const_mul 3).const_sub 1)).const_mul (-(a ^ 4 / 4))).congr_deriv ?_
  simp only [Pi.pow_apply]
  push_cast; ring

/-- **C51.** `kdv_soliton` solves the KdV equation `u_t + 6 u u_x + u_xxx = 0` at every point and time, for every amplitude and
position. -/
theorem C51_pde (ampl x0 x t : ℝ) :
    deriv (fun s => kdvSoliton x ampl x0 s) t +
      6 * kdvSoliton x ampl x0 t * deriv (fun y => kdvSoliton y ampl x0 t) x +
      iteratedDeriv 3 (fun y => kdvSoliton y ampl x0 t) x = 0 := by
  set a := ampl
  set c := x0 + a ^ 2 * t with hcdef
  have e0 : (fun y => kdvSoliton y a x0 t) = fun y => a ^ 2 / 2 * (1 - solT a c y ^ 2) := by
    funext y; exact kdvSoliton_eq y a x0 t
  have d1 : deriv (fun y => kdvSoliton y a x0 t) = fun y => -(a ^ 3 / 2) * (solT a c y * (1 - solT a c y ^ 2)) := by
    rw [e0]; funext y; exact (hasDerivAt_sol0 a c y).deriv
  have d2 : deriv (deriv fun y => kdvSoliton y a x0 t) =
      fun y => -(a ^ 4 / 4) * ((1 - solT a c y ^ 2) * (1 - 3 * solT a c y ^ 2)) := by
    rw [d1]; funext y; exact (hasDerivAt_sol1 a c y).deriv
  have d3 : iteratedDeriv 3 (fun y => kdvSoliton y a x0 t) x =
      a ^ 5 / 2 * ((1 - solT a c x ^ 2) * (2 * solT a c x - 3 * solT a c x ^ 3)) := by
    rw [iteratedDeriv_succ, iteratedDeriv_succ, iteratedDeriv_one, d2]
    exact (hasDerivAt_sol2 a c x).deriv
  have dt : deriv (fun s => kdvSoliton x a x0 s) t = a ^ 5 / 2 * (solT a c x * (1 - solT a c x ^ 2)) := by
    have e : (fun s => kdvSoliton x a x0 s) = fun s => a ^ 2 / 2 * (1 - solT a c (x + a ^ 2 * t - a ^ 2 * s) ^ 2) := by
      funext s
      rw [kdvSoliton_eq, hcdef, solT, solT]
      congr 4 <;> congr 2 <;> ring
    have hin : HasDerivAt (fun s : ℝ => x + a ^ 2 * t - a ^ 2 * s) (-(a ^ 2)) t := by
      have := ((hasDerivAt_id t).const_mul (a ^ 2)).const_sub (x + a ^ 2 * t)
      simpa using this
    have hx : x + a ^ 2 * t - a ^ 2 * t = x := by ring
    have := HasDerivAt.comp t (hx.symm ▸ hasDerivAt_sol0 a c x) hin
    rw [e]
    refine this.deriv.trans ?_
    ring_nf
  rw [d3, dt, d1, kdvSoliton_eq x a x0 t, ← hcdef]
  ring

/-- With amplitude `2` the soliton at the origin is `2 / cosh²`, and it is not constant. -/
example : kdvSoliton 0 2 0 0 = 2 ∧ kdvSoliton 1 2 0 0 < 2 := by
  constructor
  · simp [kdvSoliton]; norm_num
  · rw [kdvSoliton, div_lt_iff₀ (by positivity)]
    have h := Real.one_lt_cosh.2 (one_ne_zero (α := ℝ))
    rw [show (2 * (1 - 0 - 2 ^ 2 * 0) / 2 : ℝ) = 1 by norm_num]
    nlinarith

/-- **C51.** It travels with speed `ampl²` without changing its shape, … -/
theorem C51_travels (ampl x0 x t s : ℝ) : kdvSoliton (x + ampl ^ 2 * s) ampl x0 (t + s) = kdvSoliton x ampl x0 t := by
  rw [kdvSoliton, kdvSoliton]
  congr 4
  ring

/-- **C51.** … has its maximum `ampl² / 2` at `x0 + ampl² t` only, and is positive elsewhere. -/
theorem C51_peak {ampl : ℝ} (ha : ampl ≠ 0) (x0 x t : ℝ) :
    0 < kdvSoliton x ampl x0 t ∧ kdvSoliton x ampl x0 t ≤ ampl ^ 2 / 2 ∧
    (kdvSoliton x ampl x0 t = ampl ^ 2 / 2 ↔ x = x0 + ampl ^ 2 * t) := by
  have hpos : 0 < ampl ^ 2 := by positivity
  have hcp := Real.cosh_pos (ampl * (x - x0 - ampl ^ 2 * t) / 2)
  have hc1 := Real.one_le_cosh (ampl * (x - x0 - ampl ^ 2 * t) / 2)
  refine ⟨by rw [kdvSoliton]; positivity, ?_, ?_⟩
  · rw [kdvSoliton, div_le_iff₀ (by positivity)]
    norm_num
    nlinarith [mul_le_mul_of_nonneg_left (one_le_pow₀ hc1 (n := 2)) hpos.le]
  · rw [kdvSoliton, div_eq_iff (by positivity)]
    constructor
    · intro h
      have h2 : Real.cosh (ampl * (x - x0 - ampl ^ 2 * t) / 2) ^ 2 = 1 := by
        have : ampl ^ 2 * (Real.cosh (ampl * (x - x0 - ampl ^ 2 * t) / 2) ^ 2 - 1) = 0 := by norm_num at h; linarith
        rcases mul_eq_zero.1 this with h | h
        · exact absurd h hpos.ne'
        · linarith
      by_contra hne
      have hz : ampl * (x - x0 - ampl ^ 2 * t) / 2 ≠ 0 := by
        apply div_ne_zero _ two_ne_zero
        apply mul_ne_zero ha
        intro h0; apply hne; linarith
      have := Real.one_lt_cosh.2 hz
      nlinarith
    · rintro rfl
      rw [show ampl * (x0 + ampl ^ 2 * t - x0 - ampl ^ 2 * t) / 2 = 0 by ring, Real.cosh_zero]
      norm_num
      ring

/-- **C51.** `kdv_multi_soliton` raises `ValueError` iff the lists differ in length, … -/
theorem C51_multi_error (x ampl x0 : List ℝ) (t : ℝ) :
    kdvMultiSoliton x ampl x0 t = .error .valueError ↔ ampl.length ≠ x0.length := by
  unfold kdvMultiSoliton
  split
  · next h => simp [Ne.symm h]
  · next h => simp only [reduceCtorEq, false_iff]; omega

/-- **C51.** … and otherwise returns, at each point, the sum of the single solitons. -/
theorem C51_multi_sum (x : List ℝ) (params : List (ℝ × ℝ)) (t : ℝ) :
    kdvMultiSoliton x (params.map Prod.fst) (params.map Prod.snd) t =
      .ok (x.map fun xi => (params.map fun p => kdvSoliton xi p.1 p.2 t).sum) := by
  unfold kdvMultiSoliton
  rw [if_neg (by simp)]
  congr 2
  funext xi
  congr 1
  rw [List.zipWith_map, List.zipWith_self]
  rfl

example : kdvMultiSoliton [0] [2, 4] [0, 0] 0 = .ok [10] := by
  have := C51_multi_sum [0] [(2, 0), (4, 0)] 0
  simp [kdvSoliton] at this
  rw [this]
  norm_num

/-- The soliton of amplitude parameter 2 has height 2 and moves at speed 4. -/
example (x t s : ℝ) : kdvSoliton (x + 4 * s) 2 0 (t + s) = kdvSoliton x 2 0 t ∧
    (kdvSoliton x 2 0 t = 2 ↔ x = 4 * t) ∧
    deriv (fun s => kdvSoliton x 2 0 s) t + 6 * kdvSoliton x 2 0 t * deriv (fun y => kdvSoliton y 2 0 t) x +
      iteratedDeriv 3 (fun y => kdvSoliton y 2 0 t) x = 0 := by
  refine ⟨?_, ?_, C51_pde 2 0 x t⟩
  · have := C51_travels 2 0 x t s
    norm_num at this
    exact this
  · have := (C51_peak (ampl := 2) two_ne_zero 0 x t).2.2
    norm_num at this
    exact this

/-- Two amplitudes for one position. -/
example : kdvMultiSoliton [0] [2, 4] [0] 0 = .error .valueError := (C51_multi_error _ _ _ _).2 (by simp)

end Verif
