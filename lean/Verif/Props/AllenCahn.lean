import Verif.Model.Models
import Verif.Props.Chebyshev

/-!
# C53: the Allen–Cahn operators
-/

set_option linter.unusedSectionVars false

namespace Verif

open Polynomial Finset

/-- A function on the `k + 2` points from its values at the interior points and at the two ends. -/
noncomputable def withEnds {k : ℕ} (lo hi : ℂ) (w : Fin k → ℂ) (i : Fin (k + 2)) : ℂ :=
  if h0 : i = 0 then lo else if h : i = Fin.last _ then hi else w ⟨i.val - 1, by
    have h1 := i.2
    have h2 : i.val ≠ k + 1 := fun h' => h (Fin.ext (by rw [h', Fin.val_last]))
    have h3 : i.val ≠ 0 := fun h' => h0 (Fin.ext h')
    omega⟩

theorem withEnds_interior {k : ℕ} (lo hi : ℂ) (w : Fin k → ℂ) (i : Fin k) : withEnds lo hi w (interior i) = w i := by
  have h1 : interior i ≠ 0 := by
    intro h; have := congrArg Fin.val h; simp [interior] at this
  have h2 : interior i ≠ Fin.last _ := by
    intro h; have := congrArg Fin.val h; simp [interior] at this; have := i.2; omega
  rw [withEnds, dif_neg h1, dif_neg h2]
  congr 1

theorem sum_withEnds {k : ℕ} (lo hi : ℂ) (w : Fin k → ℂ) (c : Fin (k + 2) → ℂ) :
    ∑ j, c j * withEnds lo hi w j = c 0 * lo + ∑ j, c (interior j) * w j + c (Fin.last _) * hi := by
  rw [Fin.sum_univ_castSucc, Fin.sum_univ_succ]
  have h0 : withEnds lo hi w (Fin.castSucc 0) = lo := by simp [withEnds]
  have h1 : withEnds lo hi w (Fin.last _) = hi := by
    have : (Fin.last (k + 1)) ≠ 0 := by
      intro h; have := congrArg Fin.val h; simp at this
    simp [withEnds, this]
  rw [h0, h1]
  congr 2
  refine sum_congr rfl fun j _ => ?_
  rw [show (j.succ.castSucc) = interior j from rfl, withEnds_interior]

/-- **C53.** With the Chebyshev grid and matrix of `construct_x_dx_cheb(n, a, b)`, the splitting of `allen_cahn_ops` represents
the equation for `v = w + x` exactly: at every interior point `L w + N(w) = ε (D² v) + v - v³`, where `v` is `w + x` inside and
`x`, that is `a` and `b`, at the ends.  (With `a = -1`, `b = 1` the end values are the stable states of the equation.) -/
theorem C53_splitting (k : ℕ) {a b : ℝ} (hab : a ≠ b) {x : Fin (k + 1 + 2) → ℝ}
    {D : Matrix (Fin (k + 1 + 2)) (Fin (k + 1 + 2)) ℝ}
    (hD : constructXDxCheb (.int ((k : ℤ) + 2)) a b = .ok ⟨k + 2, x, D⟩) (eps : ℝ) (w : Vec (Fin (k + 1))) :
    ∃ N, allenCahnNl x w = .ok N ∧ ∀ i, (∑ j, (allenCahnLin D eps i j : ℂ) * w j) + N i =
      eps * ∑ l, ((D * D) (interior i) l : ℂ) * withEnds a b (fun j => w j + x (interior j)) l
        + withEnds a b (fun j => w j + x (interior j)) (interior i)
        - withEnds a b (fun j => w j + x (interior j)) (interior i) ^ 3 := by
  refine ⟨_, rfl, fun i => ?_⟩
  obtain ⟨x', D', h1, h2, h3⟩ := C44_exact k hab
  rw [hD] at h1
  simp only [Except.ok.injEq, Sigma.mk.injEq, heq_eq_eq, true_and, Prod.mk.injEq] at h1
  obtain ⟨rfl, rfl⟩ := h1
  -- the grid at the two ends
  have hxe : x 0 = a ∧ x (Fin.last _) = b := by
    have hx : x = chebX (k + 2) a b := by
      simp only [constructXCheb, checkCheb_ok, bind, Except.bind, pure, Except.pure, Except.ok.injEq, Sigma.mk.injEq,
        heq_eq_eq, true_and] at h2
      exact h2.symm
    have hn : ((k + 2 : ℕ) : ℝ) ≠ 0 := by positivity
    subst hx
    constructor
    · rw [chebX, chebpts2_eq]; simp
    · rw [chebX, chebpts2_eq, Fin.val_last, mul_div_cancel₀ _ hn, Real.cos_pi]; ring
  -- the second derivative of `x` vanishes
  have hD1 : ∀ i, ∑ j, D i j * x j = 1 := by
    intro i
    have := h3 X (degree_X_le.trans (by norm_cast; omega)) i
    simpa using this
  have hD2 : ∀ i, ∑ l, (D * D) i l * x l = 0 := by
    intro i
    have hrow : ∑ j, D i j = 0 := C44_row_sums k hab hD i
    simp only [Matrix.mul_apply, sum_mul]
    rw [sum_comm]
    calc ∑ j, ∑ l, D i j * D j l * x l = ∑ j, D i j * ∑ l, D j l * x l := by
          refine sum_congr rfl fun j _ => ?_
          rw [mul_sum]; exact sum_congr rfl fun l _ => by ring
      _ = 0 := by simp only [hD1, mul_one, hrow]
  have hsplit : ∀ i, ∑ l, ((D * D) i l : ℂ) * withEnds a b (fun j => w j + x (interior j)) l =
      ∑ j, ((D * D) i (interior j) : ℂ) * w j := by
    intro i
    have hx : (∑ l, ((D * D) i l : ℂ) * withEnds a b (fun j => (x (interior j) : ℂ)) l) = 0 := by
      have he : ∀ l, withEnds (a : ℂ) b (fun j => (x (interior j) : ℂ)) l = (x l : ℂ) := by
        intro l
        unfold withEnds
        split
        · next h => rw [h, hxe.1]
        · split
          · next h => rw [h, hxe.2]
          · next h0 h1 =>
            have h3 : l.val ≠ 0 := fun h => h0 (Fin.ext h)
            refine congrArg (fun q => (x q : ℂ)) (Fin.ext ?_)
            simp only [interior, Fin.val_castSucc, Fin.val_succ]
            omega
      simp only [he]
      have := hD2 i
      exact_mod_cast this
    rw [sum_withEnds] at hx ⊢
    simp only [mul_add, sum_add_distrib]
    linear_combination hx
  rw [hsplit, withEnds_interior]
  simp only [allenCahnLin, Matrix.add_apply, Matrix.smul_apply, smul_eq_mul, Complex.ofReal_add, Complex.ofReal_mul, add_mul,
    sum_add_distrib]
  have h1s : ∑ j, (((1 : Matrix (Fin (k + 1 + 2)) (Fin (k + 1 + 2)) ℝ) (interior i) (interior j) : ℝ) : ℂ) * w j = w i := by
    rw [sum_eq_single i]
    · simp
    · intro j _ hj
      have : interior i ≠ interior j := by
        intro h; apply hj; apply Fin.ext
        have := congrArg Fin.val h
        simp [interior] at this
        omega
      rw [Matrix.one_apply_ne this]; simp
    · intro h; exact absurd (mem_univ i) h
  rw [h1s, mul_sum]
  simp only [mul_assoc]
  ring

/-- **C53.** In particular `w = 0`, that is `v = x`, `nl_func` is `x - x³` inside and the reaction term vanishes at the ends of
`[-1, 1]`; a state `v` with `v = x` at the ends is stationary for the split system iff `ε D² v + v - v³ = 0` inside. -/
theorem C53_stationary (k : ℕ) {a b : ℝ} (hab : a ≠ b) {x : Fin (k + 1 + 2) → ℝ}
    {D : Matrix (Fin (k + 1 + 2)) (Fin (k + 1 + 2)) ℝ}
    (hD : constructXDxCheb (.int ((k : ℤ) + 2)) a b = .ok ⟨k + 2, x, D⟩) (eps : ℝ) (w N : Vec (Fin (k + 1)))
    (hN : allenCahnNl x w = .ok N) :
    (∀ i, (∑ j, (allenCahnLin D eps i j : ℂ) * w j) + N i = 0) ↔
    ∀ i, eps * ∑ l, ((D * D) (interior i) l : ℂ) * withEnds a b (fun j => w j + x (interior j)) l
      = (w i + x (interior i)) ^ 3 - (w i + x (interior i)) := by
  obtain ⟨N', h1, h2⟩ := C53_splitting k hab hD eps w
  rw [hN] at h1
  cases h1
  refine forall_congr' fun i => ?_
  rw [h2 i, withEnds_interior]
  constructor <;> intro h <;> linear_combination h

/-- Three points on `[-1, 1]`: the zero array stands for `u = x` and is an equilibrium, because the values `u_0 = -1`, `u_1 = 0`,
`u_2 = 1` are an exact stationary solution on this grid. -/
example (eps : ℝ) : ∃ (x : Fin 3 → ℝ) (D : Matrix (Fin 3) (Fin 3) ℝ), constructXDxCheb (.int 2) (-1) 1 = .ok ⟨2, x, D⟩ ∧
    ∃ N, allenCahnNl (k := 1) x 0 = .ok N ∧ ∀ i, (∑ j, (allenCahnLin (k := 1) D eps i j : ℂ) * (0 : Vec (Fin 1)) j) + N i = 0 := by
  obtain ⟨x, D, h, hx, -⟩ := C44_exact 0 (a := -1) (b := 1) (by norm_num)
  obtain ⟨x', hx', hj⟩ := C43_points 0 (-1) 1
  rw [hx] at hx'
  simp only [Except.ok.injEq, Sigma.mk.injEq, heq_eq_eq, true_and] at hx'
  subst hx'
  have h1 : x 1 = 0 := by rw [hj]; norm_num
  obtain ⟨N, hN, hs⟩ := C53_splitting 0 (a := -1) (b := 1) (by norm_num) h eps 0
  refine ⟨x, D, h, N, hN, ?_⟩
  have := (C53_stationary 0 (a := -1) (b := 1) (by norm_num) h eps 0 N hN).2
  intro i
  fin_cases i
  simp only [allenCahnNl, Except.ok.injEq] at hN
  rw [← hN]
  have : interior (k := 1) 0 = 1 := rfl
  simp [this, h1]

/-- On `[-1, 1]` with three points the only interior value is the one at `0`, and `w = 0` gives a stationary state. -/
example : ∃ (x : Fin 3 → ℝ) (D : Matrix (Fin 3) (Fin 3) ℝ), constructXDxCheb (.int 2) (-1) 1 = .ok ⟨2, x, D⟩ ∧
    x 1 = 0 ∧ ∀ N, allenCahnNl (k := 1) x 0 = .ok N → N 0 = 0 := by
  obtain ⟨x, D, h, hx, -⟩ := C44_exact 0 (a := -1) (b := 1) (by norm_num)
  obtain ⟨x', hx', hj⟩ := C43_points 0 (-1) 1
  rw [hx] at hx'
  simp only [Except.ok.injEq, Sigma.mk.injEq, heq_eq_eq, true_and] at hx'
  subst hx'
  have h1 : x 1 = 0 := by rw [hj]; norm_num
  refine ⟨x, D, h, h1, fun N hN => ?_⟩
  simp only [allenCahnNl, Except.ok.injEq] at hN
  rw [← hN]
  have : interior (k := 1) 0 = 1 := rfl
  simp [this, h1]

end Verif
