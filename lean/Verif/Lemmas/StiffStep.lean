import Verif.Lemmas.StiffPhi
import Verif.Lemmas.Stability
import Verif.Spec.Stiff

/-!
# The error of a step, independently of the size of the linear operator
-/

set_option linter.unusedSectionVars false

namespace Verif

open Matrix Finset
open scoped Matrix.Norms.Operator

variable {ι : Type} [Fintype ι] [DecidableEq ι] {L : Vec ι} {f : Vec ι → Vec ι} {t0 t1 : ℝ} {Y : ℝ → Vec ι} {K ρ M0 M1 M2 ω : ℝ}

namespace Regular

/-- A function on an interval, seen from a point of it. -/
theorem shift {E : Type} [NormedAddCommGroup E] [NormedSpace ℝ E] {F : ℝ → E} {F' : E} {q s σ : ℝ} (hq : t0 ≤ q) (hσ : q + σ ≤ t1)
    (h : HasDerivWithinAt F F' (Set.Icc t0 t1) (q + s)) : HasDerivWithinAt (fun s => F (q + s)) F' (Set.Icc 0 σ) s := by
  have h1 : HasDerivWithinAt (fun s => q + s) 1 (Set.Icc 0 σ) s := (hasDerivAt_id' s).const_add q |>.hasDerivWithinAt
  have h2 := h.scomp s h1 fun x hx => ⟨by linarith [hx.1], by linarith [hx.2]⟩
  simpa [Function.comp_def] using h2

theorem mem {q s σ : ℝ} (hq : t0 ≤ q) (hσ : q + σ ≤ t1) (hs : s ∈ Set.Icc 0 σ) : q + s ∈ Set.Icc t0 t1 :=
  ⟨by linarith [hs.1], by linarith [hs.2]⟩

/-- The derivative of the nonlinear part along the solution. -/
def Deriv (f : Vec ι → Vec ι) (t0 t1 : ℝ) (Y : ℝ → Vec ι) (M1 M2 : ℝ) (g : ℝ → Vec ι) : Prop :=
  (∀ t ∈ Set.Icc t0 t1, HasDerivWithinAt (fun s => f (Y s)) (g t) (Set.Icc t0 t1) t ∧ ‖g t‖ ≤ M1) ∧
    ∀ s ∈ Set.Icc t0 t1, ∀ t ∈ Set.Icc t0 t1, ‖g s - g t‖ ≤ M2 * |s - t|

theorem diff_one {g : ℝ → Vec ι} (hg : Deriv f t0 t1 Y M1 M2 g) {q σ : ℝ} (h0 : 0 ≤ σ) (hq : t0 ≤ q) (hσ : q + σ ≤ t1) :
    ‖f (Y (q + σ)) - f (Y q)‖ ≤ M1 * σ := by
  have := (convex_Icc (0 : ℝ) σ).norm_image_sub_le_of_norm_hasDerivWithin_le (f := fun s => f (Y (q + s))) (f' := fun s => g (q + s))
    (C := M1) (fun s hs => shift hq hσ (hg.1 _ (mem hq hσ hs)).1) (fun s hs => (hg.1 _ (mem hq hσ hs)).2) ⟨le_rfl, h0⟩ ⟨h0, le_rfl⟩
  simpa [Real.norm_of_nonneg h0] using this

theorem diff_two {g : ℝ → Vec ι} (hg : Deriv f t0 t1 Y M1 M2 g) {q σ : ℝ} (h0 : 0 ≤ σ) (hq : t0 ≤ q) (hσ : q + σ ≤ t1) :
    ‖f (Y (q + σ)) - f (Y q) - (σ : ℂ) • g q‖ ≤ M2 * σ * σ := by
  have hq' : q ∈ Set.Icc t0 t1 := ⟨hq, by linarith⟩
  have hM : 0 ≤ M2 * |σ| ∨ σ = 0 := by
    rcases h0.eq_or_lt with h | h
    · exact .inr h.symm
    · left
      have := (norm_nonneg _).trans (hg.2 (q + σ) ⟨by linarith, hσ⟩ q hq')
      simpa using this
  have := (convex_Icc (0 : ℝ) σ).norm_image_sub_le_of_norm_hasDerivWithin_le (f := fun s => f (Y (q + s)) - s • g q)
    (f' := fun s => g (q + s) - (1 : ℝ) • g q) (C := M2 * σ)
    (fun s hs => (shift hq hσ (hg.1 _ (mem hq hσ hs)).1).sub ((hasDerivAt_id' s).smul_const (g q)).hasDerivWithinAt) (fun s hs => by
      rw [one_smul]
      refine (hg.2 _ (mem hq hσ hs) q hq').trans ?_
      rw [add_sub_cancel_left, abs_of_nonneg hs.1]
      rcases hM with h | h
      · rw [abs_of_nonneg h0] at h
        rcases h0.eq_or_lt with h' | h'
        · have : s = 0 := le_antisymm (by rw [h']; exact hs.2) hs.1
          rw [this, ← h']
        · exact mul_le_mul_of_nonneg_left hs.2 (nonneg_of_mul_nonneg_left h h')
      · have : s = 0 := le_antisymm (by rw [← h]; exact hs.2) hs.1
        rw [this, h]) ⟨le_rfl, h0⟩ ⟨h0, le_rfl⟩
  simp only [add_zero, zero_smul, sub_zero, Real.norm_of_nonneg h0] at this
  have e : f (Y (q + σ)) - f (Y q) - (σ : ℂ) • g q = f (Y (q + σ)) - σ • g q - f (Y q) := by
    rw [Complex.coe_smul]; abel
  rw [e]
  exact this

theorem entry (hY : ∀ t ∈ Set.Icc t0 t1, HasDerivWithinAt Y (Matrix.diagonal L *ᵥ Y t + f (Y t)) (Set.Icc t0 t1) t) {q s σ : ℝ}
    (hq : t0 ≤ q) (hσ : q + σ ≤ t1) (hs : s ∈ Set.Icc 0 σ) (i : ι) :
    HasDerivWithinAt (fun s => Y (q + s) i) (L i * Y (q + s) i + f (Y (q + s)) i) (Set.Icc 0 σ) s := by
  have := hasDerivWithinAt_pi.mp (shift hq hσ (hY _ (mem hq hσ hs))) i
  simpa [Matrix.mulVec_diagonal] using this

theorem exp_deriv (lam a : ℂ) (s : ℝ) : HasDerivAt (fun s : ℝ => Complex.exp (s * lam) * a) (lam * (Complex.exp (s * lam) * a)) s := by
  have h3 : HasDerivAt (fun s : ℝ => (s : ℂ) * lam) lam s := by simpa using ((hasDerivAt_id' s).ofReal_comp).mul_const lam
  refine (h3.cexp.mul_const a).congr_deriv ?_
  ring

/-- The solution after a time `c h`, to first order in the variation of the nonlinear part. -/
theorem dev_one (hω : 0 ≤ ω) (hL : ∀ i, (L i).re ≤ ω) (hY : Regular (Matrix.diagonal L) f t0 t1 Y K ρ M0 M1 M2) {g : ℝ → Vec ι}
    (hg : Deriv f t0 t1 Y M1 M2 g) {q c h : ℝ} (h0 : 0 ≤ c * h) (hq : t0 ≤ q) (h1 : q + c * h ≤ t1) :
    ‖Y (q + c * h) - (expm (Matrix.diagonal L) (c * h) *ᵥ Y q +
      (((c * h : ℝ) : ℂ) • phiExact (Matrix.diagonal L) h 1 c) *ᵥ f (Y q))‖ ≤ Real.exp (ω * (c * h)) * (M1 * (c * h)) * (c * h) := by
  have hM : 0 ≤ M1 := (norm_nonneg _).trans (hg.1 q ⟨hq, by linarith⟩).2
  refine (pi_norm_le_iff_of_nonneg (by positivity)).mpr fun i => ?_
  have := duhamel hω (hL i) (r := fun s : ℝ => Y (q + s) i - (Complex.exp (s * L i) * Y q i + (s * phi 1 (s * L i)) * f (Y q) i))
    (ρ := fun s => f (Y (q + s)) i - f (Y q) i) (D := M1 * (c * h)) h0 (by simp) (fun s hs => by
      refine ((entry hY.deriv hq h1 hs i).sub
        ((exp_deriv _ _ s).add ((phiOne_deriv (L i) s).mul_const (f (Y q) i))).hasDerivWithinAt).congr_deriv ?_
      ring) (fun s hs => by
      refine (norm_le_pi_norm (f (Y (q + s)) - f (Y q)) i).trans ((diff_one hg hs.1 hq (by linarith [hs.2])).trans ?_)
      exact mul_le_mul_of_nonneg_left hs.2 hM)
  rw [expm_diag, phiExact_diag, smul_diagonal']
  simp only [Pi.sub_apply, Pi.add_apply, Matrix.mulVec_diagonal]
  exact this

/-- The solution after a time `h`, to second order. -/
theorem dev_two (hω : 0 ≤ ω) (hL : ∀ i, (L i).re ≤ ω) (hY : Regular (Matrix.diagonal L) f t0 t1 Y K ρ M0 M1 M2) {g : ℝ → Vec ι}
    (hg : Deriv f t0 t1 Y M1 M2 g) {q h : ℝ} (hM : 0 ≤ M2) (h0 : 0 ≤ h) (hq : t0 ≤ q) (h1 : q + h ≤ t1) :
    ‖Y (q + h) - (expm (Matrix.diagonal L) h *ᵥ Y q + ((h : ℂ) • phiExact (Matrix.diagonal L) h 1 1) *ᵥ f (Y q) +
      ((h ^ 2 : ℂ) • phiExact (Matrix.diagonal L) h 2 1) *ᵥ g q)‖ ≤ Real.exp (ω * h) * (M2 * h * h) * h := by
  refine (pi_norm_le_iff_of_nonneg (by positivity)).mpr fun i => ?_
  have := duhamel hω (hL i) (r := fun s : ℝ => Y (q + s) i - (Complex.exp (s * L i) * Y q i + (s * phi 1 (s * L i)) * f (Y q) i +
      ((s : ℂ) ^ 2 * phi 2 (s * L i)) * g q i))
    (ρ := fun s => f (Y (q + s)) i - f (Y q) i - s * g q i) (D := M2 * h * h) h0 (by simp) (fun s hs => by
      refine ((entry hY.deriv hq h1 hs i).sub
        (((exp_deriv _ _ s).add ((phiOne_deriv (L i) s).mul_const (f (Y q) i))).add
          ((phiTwo_deriv (L i) s).mul_const (g q i))).hasDerivWithinAt).congr_deriv ?_
      ring) (fun s hs => by
      refine (norm_le_pi_norm (f (Y (q + s)) - f (Y q) - (s : ℂ) • g q) i).trans ((diff_two hg hs.1 hq (by linarith [hs.2])).trans ?_)
      have := hs.1
      have := hs.2
      gcongr)
  rw [expm_diag, phiExact_diag, phiExact_diag, smul_diagonal', smul_diagonal']
  simp only [Pi.sub_apply, Pi.add_apply, Matrix.mulVec_diagonal, one_mul]
  exact this

end Regular

/-- Conditions on the coefficients of a method for a step of length `h`, with abscissae `x`: bounds `c`, and the conditions of
second order up to `ε`. -/
structure ERK.StiffOk (M : ERK ι) (L : Vec ι) (x : ℕ → ℝ) (c ε h : ℝ) : Prop where
  x01 : ∀ i, 0 ≤ x i ∧ x i ≤ 1
  E : ∀ i < M.s, M.E i = expm (Matrix.diagonal L) (x i * h)
  A : ∀ i < M.s, ∀ j < i, ‖M.A i j‖ ≤ c * h
  row : ∀ i < M.s, ‖∑ j ∈ range i, M.A i j - ((x i * h : ℝ) : ℂ) • phiExact (Matrix.diagonal L) h 1 (x i)‖ ≤ ε * h
  Eout : M.Eout = expm (Matrix.diagonal L) h
  B : ∀ j < M.s, ‖M.B j‖ ≤ c * h
  sum : ‖∑ j ∈ range M.s, M.B j - (h : ℂ) • phiExact (Matrix.diagonal L) h 1 1‖ ≤ ε * h
  mom : ‖∑ j ∈ range M.s, (x j : ℂ) • M.B j - (h : ℂ) • phiExact (Matrix.diagonal L) h 2 1‖ ≤ ε * h

/-- Constant in the error of the first `n` stages. -/
noncomputable def stiffStage (e c K M0 M1 : ℝ) : ℕ → ℝ
  | 0 => 0
  | n + 1 => stiffStage e c K M0 M1 n + (e + n * (c * (K * stiffStage e c K M0 M1 n + M1)) + M0 + e * M1)

theorem stiffStage_nonneg {e c K M0 M1 : ℝ} (he : 0 ≤ e) (hc : 0 ≤ c) (hK : 0 ≤ K) (h0 : 0 ≤ M0) (h1 : 0 ≤ M1) (n : ℕ) :
    0 ≤ stiffStage e c K M0 M1 n := by
  induction n with
  | zero => exact le_rfl
  | succ n ih => rw [stiffStage]; positivity

theorem stage_error (hω : 0 ≤ ω) (hL : ∀ i, (L i).re ≤ ω) (hY : Regular (Matrix.diagonal L) f t0 t1 Y K ρ M0 M1 M2) {g : ℝ → Vec ι}
    (hg : Regular.Deriv f t0 t1 Y M1 M2 g) (hK : 0 ≤ K) {M : ERK ι} {x : ℕ → ℝ} {c ε h q : ℝ} (hM : M.StiffOk L x c ε h) (hc : 0 ≤ c)
    (hε : 0 ≤ ε) (h0 : 0 ≤ h) (h1 : h ≤ 1) (hq : t0 ≤ q) (hqh : q + h ≤ t1) (u : Vec ι) {n : ℕ} (hn : n ≤ M.s)
    (hρ : stiffStage (Real.exp ω) c K M0 M1 n * (‖u - Y q‖ + h ^ 2 + ε * h) ≤ ρ) :
    ∀ j < n, ‖M.values f u n j - f (Y (q + x j * h))‖ ≤
      K * (stiffStage (Real.exp ω) c K M0 M1 n * (‖u - Y q‖ + h ^ 2 + ε * h)) := by
  have hM1 : 0 ≤ M1 := (norm_nonneg _).trans (hg.1 q ⟨hq, by linarith⟩).2
  have hM0 : 0 ≤ M0 := (norm_nonneg _).trans (hY.value q ⟨hq, by linarith⟩)
  have he : 0 < Real.exp ω := Real.exp_pos _
  set d := ‖u - Y q‖ + h ^ 2 + ε * h with hd
  have hd0 : 0 ≤ d := by positivity
  have hxh : ∀ j, 0 ≤ x j * h ∧ x j * h ≤ h := fun j =>
    ⟨mul_nonneg (hM.x01 j).1 h0, mul_le_of_le_one_left h0 (hM.x01 j).2⟩
  induction n with
  | zero => intro j hj; omega
  | succ n ih =>
    have hX := stiffStage_nonneg he.le hc hK hM0 hM1 n
    set X := stiffStage (Real.exp ω) c K M0 M1 n with hXd
    have hmono : X * d ≤ stiffStage (Real.exp ω) c K M0 M1 (n + 1) * d := by
      refine mul_le_mul_of_nonneg_right ?_ hd0
      rw [stiffStage, ← hXd]
      have : 0 ≤ Real.exp ω + n * (c * (K * X + M1)) + M0 + Real.exp ω * M1 := by positivity
      linarith
    have ih := ih (by omega) (hmono.trans hρ)
    have hns : n < M.s := by omega
    intro j hj
    by_cases hjn : j = n
    · subst hjn
      have hval : M.values f u (j + 1) j = f (M.arg u (M.values f u j) j) := by simp [ERK.values]
      rw [hval]
      have harg : ‖M.arg u (M.values f u j) j - Y (q + x j * h)‖ ≤ stiffStage (Real.exp ω) c K M0 M1 (j + 1) * d := by
        have e1 : M.arg u (M.values f u j) j - Y (q + x j * h) = M.E j *ᵥ (u - Y q) +
            ∑ i ∈ range j, M.A j i *ᵥ (M.values f u j i - f (Y q)) +
            (∑ i ∈ range j, M.A j i - ((x j * h : ℝ) : ℂ) • phiExact (Matrix.diagonal L) h 1 (x j)) *ᵥ f (Y q) -
            (Y (q + x j * h) - (expm (Matrix.diagonal L) (x j * h) *ᵥ Y q +
              (((x j * h : ℝ) : ℂ) • phiExact (Matrix.diagonal L) h 1 (x j)) *ᵥ f (Y q))) := by
          rw [ERK.arg, hM.E j hns]
          simp only [mulVec_sub, sum_sub_distrib, sub_mulVec, Matrix.sum_mulVec]
          abel
        have b1 : ‖M.E j *ᵥ (u - Y q)‖ ≤ Real.exp ω * ‖u - Y q‖ := by
          refine ERK.norm_mulVec_le ?_ le_rfl
          rw [hM.E j hns]
          refine (expm_diag_le hL (hxh j).1).trans (Real.exp_le_exp.mpr ?_)
          exact mul_le_of_le_one_right hω ((hxh j).2.trans h1)
        have b2 : ‖∑ i ∈ range j, M.A j i *ᵥ (M.values f u j i - f (Y q))‖ ≤ j * (c * h * (K * (X * d) + M1 * h)) := by
          calc _ ≤ ∑ i ∈ range j, c * h * (K * (X * d) + M1 * h) := norm_sum_le_of_le _ fun i hi => by
                refine ERK.norm_mulVec_le (hM.A j hns i (mem_range.mp hi)) ?_
                have a1 := ih i (mem_range.mp hi)
                have a2 := Regular.diff_one hg (hxh i).1 hq (by linarith [(hxh i).2])
                have a3 : M1 * (x i * h) ≤ M1 * h := mul_le_mul_of_nonneg_left (hxh i).2 hM1
                have a4 := norm_add_le (M.values f u j i - f (Y (q + x i * h))) (f (Y (q + x i * h)) - f (Y q))
                rw [sub_add_sub_cancel] at a4
                linarith
            _ = _ := by rw [sum_const, card_range, nsmul_eq_mul]
        have b3 : ‖(∑ i ∈ range j, M.A j i - ((x j * h : ℝ) : ℂ) • phiExact (Matrix.diagonal L) h 1 (x j)) *ᵥ f (Y q)‖ ≤ ε * h * M0 :=
          ERK.norm_mulVec_le (hM.row j hns) (hY.value q ⟨hq, by linarith⟩)
        have b4 := Regular.dev_one hω hL hY hg (hxh j).1 hq (by linarith [(hxh j).2])
        have b5 : Real.exp (ω * (x j * h)) * (M1 * (x j * h)) * (x j * h) ≤ Real.exp ω * (M1 * h) * h := by
          have := (hxh j).1
          have := (hxh j).2
          have c1 : Real.exp (ω * (x j * h)) ≤ Real.exp ω :=
            Real.exp_le_exp.mpr (mul_le_of_le_one_right hω ((hxh j).2.trans h1))
          gcongr
        rw [e1]
        refine (norm_sub_le _ _).trans ?_
        have c1 := norm_add₃_le (a := M.E j *ᵥ (u - Y q)) (b := ∑ i ∈ range j, M.A j i *ᵥ (M.values f u j i - f (Y q)))
          (c := (∑ i ∈ range j, M.A j i - ((x j * h : ℝ) : ℂ) • phiExact (Matrix.diagonal L) h 1 (x j)) *ᵥ f (Y q))
        have d1 : ‖u - Y q‖ ≤ d := by rw [hd]; nlinarith [mul_nonneg hε h0, sq_nonneg h]
        have d2 : h * h ≤ d := by rw [hd]; nlinarith [mul_nonneg hε h0, norm_nonneg (u - Y q)]
        have d3 : ε * h ≤ d := by rw [hd]; nlinarith [norm_nonneg (u - Y q), sq_nonneg h]
        have d4 : h * d ≤ d := mul_le_of_le_one_left hd0 h1
        have g1 : Real.exp ω * ‖u - Y q‖ ≤ Real.exp ω * d := mul_le_mul_of_nonneg_left d1 he.le
        have g2 : j * (c * h * (K * (X * d) + M1 * h)) ≤ j * (c * (K * X + M1)) * d := by
          have : c * h * (K * (X * d) + M1 * h) = c * (K * X * (h * d) + M1 * (h * h)) := by ring
          have t2 : j * (c * (K * X + M1)) * d = j * (c * ((K * X + M1) * d)) := by ring
          rw [this, t2]
          refine mul_le_mul_of_nonneg_left ?_ (show (0 : ℝ) ≤ j from Nat.cast_nonneg j)
          refine mul_le_mul_of_nonneg_left ?_ hc
          have e1 : K * X * (h * d) ≤ K * X * d := mul_le_mul_of_nonneg_left d4 (by positivity)
          have e2 : M1 * (h * h) ≤ M1 * d := mul_le_mul_of_nonneg_left d2 hM1
          linarith
        have g3 : ε * h * M0 ≤ d * M0 := mul_le_mul_of_nonneg_right d3 hM0
        have g4 : Real.exp ω * (M1 * h) * h ≤ Real.exp ω * M1 * d := by
          have : Real.exp ω * (M1 * h) * h = Real.exp ω * M1 * (h * h) := by ring
          rw [this]
          exact mul_le_mul_of_nonneg_left d2 (by positivity)
        rw [stiffStage, ← hXd]
        have g5 : 0 ≤ X * d := by positivity
        have : (X + (Real.exp ω + ↑j * (c * (K * X + M1)) + M0 + Real.exp ω * M1)) * d =
          X * d + Real.exp ω * d + j * (c * (K * X + M1)) * d + d * M0 + Real.exp ω * M1 * d := by ring
        linarith
      refine (hY.lip (q + x j * h) ⟨by linarith [(hxh j).1], by linarith [(hxh j).2]⟩ _ (harg.trans hρ)).trans ?_
      exact mul_le_mul_of_nonneg_left harg hK
    · have hval : M.values f u (n + 1) j = M.values f u n j := by simp [ERK.values, Function.update_of_ne hjn]
      rw [hval]
      exact (ih j (by omega)).trans (mul_le_mul_of_nonneg_left hmono hK)

/-- Constant in the error of a step with `s` stages. -/
noncomputable def stiffConst (ω c K M0 M1 M2 : ℝ) (s : ℕ) : ℝ :=
  ω * Real.exp ω + s * (c * K * stiffStage (Real.exp ω) c K M0 M1 s) + s * (c * M2) + M0 + M1 + Real.exp ω * M2

theorem stiffConst_nonneg {c : ℝ} (hω : 0 ≤ ω) (hc : 0 ≤ c) (hK : 0 ≤ K) (h0 : 0 ≤ M0) (h1 : 0 ≤ M1) (h2 : 0 ≤ M2) (s : ℕ) :
    0 ≤ stiffConst ω c K M0 M1 M2 s := by
  have := stiffStage_nonneg (Real.exp_pos ω).le hc hK h0 h1 s
  unfold stiffConst
  positivity

/-- The error of a step from a point near the solution. -/
theorem step_error (hω : 0 ≤ ω) (hL : ∀ i, (L i).re ≤ ω) (hY : Regular (Matrix.diagonal L) f t0 t1 Y K ρ M0 M1 M2) (hK : 0 ≤ K)
    (hM2 : 0 ≤ M2) {M : ERK ι} {x : ℕ → ℝ} {c ε h q : ℝ} (hM : M.StiffOk L x c ε h) (hc : 0 ≤ c) (hε : 0 ≤ ε) (h0 : 0 ≤ h) (h1 : h ≤ 1)
    (hq : t0 ≤ q) (hqh : q + h ≤ t1) (u : Vec ι)
    (hρ : stiffStage (Real.exp ω) c K M0 M1 M.s * (‖u - Y q‖ + h ^ 2 + ε * h) ≤ ρ) :
    ‖(M.run f u).1 - Y (q + h)‖ ≤ (1 + stiffConst ω c K M0 M1 M2 M.s * h) * ‖u - Y q‖ +
      stiffConst ω c K M0 M1 M2 M.s * h * (h ^ 2 + ε) := by
  obtain ⟨g, hg⟩ := hY.smooth
  have hM1 : 0 ≤ M1 := (norm_nonneg _).trans (hg.1 q ⟨hq, by linarith⟩).2
  have hM0 : 0 ≤ M0 := (norm_nonneg _).trans (hY.value q ⟨hq, by linarith⟩)
  have he : 0 < Real.exp ω := Real.exp_pos _
  have hst := stage_error hω hL hY hg hK hM hc hε h0 h1 hq hqh u le_rfl hρ
  have hxh : ∀ j, 0 ≤ x j * h ∧ x j * h ≤ h := fun j =>
    ⟨mul_nonneg (hM.x01 j).1 h0, mul_le_of_le_one_left h0 (hM.x01 j).2⟩
  have hX := stiffStage_nonneg he.le hc hK hM0 hM1 M.s
  unfold stiffConst
  set X := stiffStage (Real.exp ω) c K M0 M1 M.s with hXd
  set d := ‖u - Y q‖ + h ^ 2 + ε * h with hd
  have hd0 : 0 ≤ d := by positivity
  have e1 : (M.run f u).1 - Y (q + h) = M.Eout *ᵥ (u - Y q) +
      ∑ j ∈ range M.s, M.B j *ᵥ (M.values f u M.s j - f (Y (q + x j * h))) +
      ∑ j ∈ range M.s, M.B j *ᵥ (f (Y (q + x j * h)) - f (Y q) - ((x j * h : ℝ) : ℂ) • g q) +
      (∑ j ∈ range M.s, M.B j - (h : ℂ) • phiExact (Matrix.diagonal L) h 1 1) *ᵥ f (Y q) +
      (∑ j ∈ range M.s, (x j : ℂ) • M.B j - (h : ℂ) • phiExact (Matrix.diagonal L) h 2 1) *ᵥ ((h : ℂ) • g q) -
      (Y (q + h) - (expm (Matrix.diagonal L) h *ᵥ Y q + ((h : ℂ) • phiExact (Matrix.diagonal L) h 1 1) *ᵥ f (Y q) +
        ((h ^ 2 : ℂ) • phiExact (Matrix.diagonal L) h 2 1) *ᵥ g q)) := by
    have a1 : ∑ j ∈ range M.s, M.B j *ᵥ (((x j * h : ℝ) : ℂ) • g q) = (∑ j ∈ range M.s, (x j : ℂ) • M.B j) *ᵥ ((h : ℂ) • g q) := by
      rw [Matrix.sum_mulVec]
      refine sum_congr rfl fun j _ => ?_
      rw [mulVec_smul, smul_mulVec, mulVec_smul, smul_smul, Complex.ofReal_mul]
    have a2 : ((h ^ 2 : ℂ) • phiExact (Matrix.diagonal L) h 2 1) *ᵥ g q =
        ((h : ℂ) • phiExact (Matrix.diagonal L) h 2 1) *ᵥ ((h : ℂ) • g q) := by
      rw [smul_mulVec, smul_mulVec, mulVec_smul, smul_smul, sq]
    rw [ERK.run, ERK.out, hM.Eout, a2]
    simp only [mulVec_sub, sum_sub_distrib, a1, sub_mulVec]
    simp only [Matrix.sum_mulVec]
    abel
  have b1 : ‖M.Eout *ᵥ (u - Y q)‖ ≤ (1 + ω * Real.exp ω * h) * ‖u - Y q‖ := by
    refine ERK.norm_mulVec_le ?_ le_rfl
    rw [hM.Eout]
    exact (expm_diag_le hL h0).trans (exp_le_one_add hω h0 h1)
  have b2 : ‖∑ j ∈ range M.s, M.B j *ᵥ (M.values f u M.s j - f (Y (q + x j * h)))‖ ≤ M.s * (c * h * (K * (X * d))) := by
    calc _ ≤ ∑ j ∈ range M.s, c * h * (K * (X * d)) := norm_sum_le_of_le _ fun j hj =>
          ERK.norm_mulVec_le (hM.B j (mem_range.mp hj)) (hst j (mem_range.mp hj))
      _ = _ := by rw [sum_const, card_range, nsmul_eq_mul]
  have b3 : ‖∑ j ∈ range M.s, M.B j *ᵥ (f (Y (q + x j * h)) - f (Y q) - ((x j * h : ℝ) : ℂ) • g q)‖ ≤ M.s * (c * h * (M2 * h * h)) := by
    calc _ ≤ ∑ j ∈ range M.s, c * h * (M2 * h * h) := norm_sum_le_of_le _ fun j hj => by
          refine ERK.norm_mulVec_le (hM.B j (mem_range.mp hj)) ((Regular.diff_two hg (hxh j).1 hq (by linarith [(hxh j).2])).trans ?_)
          have := (hxh j).1
          have := (hxh j).2
          gcongr
      _ = _ := by rw [sum_const, card_range, nsmul_eq_mul]
  have b4 : ‖(∑ j ∈ range M.s, M.B j - (h : ℂ) • phiExact (Matrix.diagonal L) h 1 1) *ᵥ f (Y q)‖ ≤ ε * h * M0 :=
    ERK.norm_mulVec_le hM.sum (hY.value q ⟨hq, by linarith⟩)
  have b5 : ‖(∑ j ∈ range M.s, (x j : ℂ) • M.B j - (h : ℂ) • phiExact (Matrix.diagonal L) h 2 1) *ᵥ ((h : ℂ) • g q)‖ ≤ ε * h * M1 := by
    refine ERK.norm_mulVec_le hM.mom ?_
    rw [norm_smul, Complex.norm_real, Real.norm_of_nonneg h0]
    exact (mul_le_of_le_one_left (norm_nonneg _) h1).trans (hg.1 q ⟨hq, by linarith⟩).2
  have b6 := Regular.dev_two hω hL hY hg hM2 h0 hq hqh
  have b7 : Real.exp (ω * h) * (M2 * h * h) * h ≤ Real.exp ω * (M2 * h * h) * h := by
    have c1 : Real.exp (ω * h) ≤ Real.exp ω := Real.exp_le_exp.mpr (mul_le_of_le_one_right hω h1)
    gcongr
  rw [e1]
  refine (norm_sub_le _ _).trans ?_
  have n1 := norm_add_le (M.Eout *ᵥ (u - Y q) + ∑ j ∈ range M.s, M.B j *ᵥ (M.values f u M.s j - f (Y (q + x j * h))) +
      ∑ j ∈ range M.s, M.B j *ᵥ (f (Y (q + x j * h)) - f (Y q) - ((x j * h : ℝ) : ℂ) • g q) +
      (∑ j ∈ range M.s, M.B j - (h : ℂ) • phiExact (Matrix.diagonal L) h 1 1) *ᵥ f (Y q))
      ((∑ j ∈ range M.s, (x j : ℂ) • M.B j - (h : ℂ) • phiExact (Matrix.diagonal L) h 2 1) *ᵥ ((h : ℂ) • g q))
  have n2 := norm_add_le (M.Eout *ᵥ (u - Y q) + ∑ j ∈ range M.s, M.B j *ᵥ (M.values f u M.s j - f (Y (q + x j * h))) +
      ∑ j ∈ range M.s, M.B j *ᵥ (f (Y (q + x j * h)) - f (Y q) - ((x j * h : ℝ) : ℂ) • g q))
      ((∑ j ∈ range M.s, M.B j - (h : ℂ) • phiExact (Matrix.diagonal L) h 1 1) *ᵥ f (Y q))
  have n3 := norm_add₃_le (a := M.Eout *ᵥ (u - Y q)) (b := ∑ j ∈ range M.s, M.B j *ᵥ (M.values f u M.s j - f (Y (q + x j * h))))
      (c := ∑ j ∈ range M.s, M.B j *ᵥ (f (Y (q + x j * h)) - f (Y q) - ((x j * h : ℝ) : ℂ) • g q))
  have hd1 : d ≤ ‖u - Y q‖ + h ^ 2 + ε := by
    have := mul_le_of_le_one_right hε h1
    rw [hd]; linarith
  have g1 : M.s * (c * h * (K * (X * d))) ≤ M.s * (c * K * X) * h * (‖u - Y q‖ + h ^ 2 + ε) := by
    have : M.s * (c * h * (K * (X * d))) = M.s * (c * K * X) * h * d := by ring
    rw [this]
    exact mul_le_mul_of_nonneg_left hd1 (by positivity)
  have p0 := norm_nonneg (u - Y q)
  have p1 : 0 ≤ (M.s * (c * M2) + M0 + M1 + Real.exp ω * M2) * h * ‖u - Y q‖ := by positivity
  have p2 : 0 ≤ (ω * Real.exp ω + M0 + M1) * h * h ^ 2 := by positivity
  have p3 : 0 ≤ (ω * Real.exp ω + M.s * (c * M2) + Real.exp ω * M2) * h * ε := by positivity
  nlinarith

end Verif
