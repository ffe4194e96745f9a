import Verif.Lemmas.StiffMethods

/-!
# Runs of ETD methods on stiff problems
-/

set_option linter.unusedSectionVars false

namespace Verif

open Matrix Finset
open scoped Matrix.Norms.Operator

/-- Discrete Gronwall inequality, with an estimate that is only available while the error is at most `θ`. -/
theorem gronwall_upTo {tm e : ℕ → ℝ} {C d θ : ℝ} {n : ℕ} (hd : 0 ≤ d)
    (hstep : ∀ k < n, 0 ≤ e k ∧
      (e k ≤ θ → e (k + 1) ≤ (1 + C * (tm (k + 1) - tm k)) * e k + C * (tm (k + 1) - tm k) * d))
    (hsmall : ∀ k ≤ n, Real.exp (C * (tm k - tm 0)) * (e 0 + d) ≤ θ) :
    ∀ k ≤ n, e k + d ≤ Real.exp (C * (tm k - tm 0)) * (e 0 + d) := by
  intro k
  induction k with
  | zero => intro _; simp
  | succ k ih =>
    intro hk
    have h1 := ih (by omega)
    obtain ⟨h3, h4⟩ := hstep k (by omega)
    have h5 := h4 (by have := hsmall k (by omega); linarith)
    have h6 : 1 + C * (tm (k + 1) - tm k) ≤ Real.exp (C * (tm (k + 1) - tm k)) := by
      have := Real.add_one_le_exp (C * (tm (k + 1) - tm k)); linarith
    calc e (k + 1) + d ≤ (1 + C * (tm (k + 1) - tm k)) * (e k + d) := by linarith
      _ ≤ Real.exp (C * (tm (k + 1) - tm k)) * (Real.exp (C * (tm k - tm 0)) * (e 0 + d)) :=
        mul_le_mul h6 h1 (by linarith) (Real.exp_pos _).le
      _ = Real.exp (C * (tm (k + 1) - tm 0)) * (e 0 + d) := by
        rw [← mul_assoc, ← Real.exp_add]; congr 2; ring

variable {ω R K ρ M0 M1 M2 : ℝ}

/-- One step, with constants that depend only on the bounds. -/
theorem stiff_one (hω : 0 ≤ ω) (hK : 0 ≤ K) (hρ : 0 < ρ) (h0 : 0 ≤ M0) (h1 : 0 ≤ M1) (h2 : 0 ≤ M2) :
    ∃ C η : ℝ, 0 ≤ C ∧ 0 < η ∧ η ≤ 1 ∧ ∀ (ι : Type) [Fintype ι] [DecidableEq ι] (L : Vec ι) (f : Vec ι → Vec ι) (t0 t1 : ℝ)
      (Y : ℝ → Vec ι), (∀ i, (L i).re ≤ ω) → Regular (Matrix.diagonal L) f t0 t1 Y K ρ M0 M1 M2 →
      ∀ (M : ERK ι) (x : ℕ → ℝ) (N : ℕ) (h q : ℝ) (u : Vec ι),
        M.StiffOk L x (stiffBound ω R) (2 * Real.exp (3 * R) * (1 / 2) ^ N) h → M.s < 8 → 0 < h → h ≤ η → t0 ≤ q → q + h ≤ t1 →
        ‖u - Y q‖ ≤ η →
        ‖(M.run f u).1 - Y (q + h)‖ ≤ (1 + C * h) * ‖u - Y q‖ + C * h * (h ^ 2 + (1 / 2) ^ N) := by
  have hB := stiffBound_nonneg ω R
  set X := ∑ s ∈ range 8, stiffStage (Real.exp ω) (stiffBound ω R) K M0 M1 s with hX
  set C := ∑ s ∈ range 8, stiffConst ω (stiffBound ω R) K M0 M1 M2 s with hC
  have hXs := fun s => stiffStage_nonneg (Real.exp_pos ω).le hB hK h0 h1 s
  have hCs := fun s => stiffConst_nonneg hω hB hK h0 h1 h2 s
  have X0 : 0 ≤ X := sum_nonneg fun s _ => hXs s
  have C0 : 0 ≤ C := sum_nonneg fun s _ => hCs s
  set e := 2 * Real.exp (3 * R) with he
  have e0 : 0 < e := by positivity
  set η := min 1 (ρ / (X * (2 + e) + 1)) with hη
  have D0 : 0 < X * (2 + e) + 1 := by positivity
  have η0 : 0 < η := lt_min one_pos (by positivity)
  have η1 : η ≤ 1 := min_le_left _ _
  have ηρ : (X * (2 + e)) * η ≤ ρ := by
    have a : η ≤ ρ / (X * (2 + e) + 1) := min_le_right _ _
    rw [le_div_iff₀ D0] at a
    linarith
  refine ⟨C * (1 + e), η, by positivity, η0, η1, fun ι _ _ L f t0 t1 Y hL hY M x N h q u hM hs hh0 hh1 hq hqh hu => ?_⟩
  have hp : (1 / 2 : ℝ) ^ N ≤ 1 := pow_le_one₀ (by norm_num) (by norm_num)
  have hp0 : 0 ≤ (1 / 2 : ℝ) ^ N := by positivity
  have hstage : stiffStage (Real.exp ω) (stiffBound ω R) K M0 M1 M.s ≤ X :=
    single_le_sum (f := fun s => stiffStage (Real.exp ω) (stiffBound ω R) K M0 M1 s) (fun s _ => hXs s) (mem_range.mpr hs)
  have hconst : stiffConst ω (stiffBound ω R) K M0 M1 M2 M.s ≤ C :=
    single_le_sum (f := fun s => stiffConst ω (stiffBound ω R) K M0 M1 M2 s) (fun s _ => hCs s) (mem_range.mpr hs)
  have hsmall : ‖u - Y q‖ + h ^ 2 + e * (1 / 2) ^ N * h ≤ (2 + e) * η := by
    have a1 : h ^ 2 ≤ η := by nlinarith
    have a2 : e * (1 / 2) ^ N * h ≤ e * η := by
      refine mul_le_mul (mul_le_of_le_one_right e0.le hp) hh1 hh0.le e0.le
    linarith
  have key := step_error hω hL hY hK h2 hM hB (by positivity) hh0.le (hh1.trans η1) hq hqh u (by
    calc _ ≤ X * ((2 + e) * η) := mul_le_mul hstage hsmall (by positivity) X0
      _ = X * (2 + e) * η := by ring
      _ ≤ ρ := ηρ)
  refine key.trans ?_
  have d0 := norm_nonneg (u - Y q)
  set c := stiffConst ω (stiffBound ω R) K M0 M1 M2 M.s
  have c0 : 0 ≤ c := hCs _
  have k1 : c * h * ‖u - Y q‖ ≤ C * (1 + e) * h * ‖u - Y q‖ := by
    refine mul_le_mul_of_nonneg_right (mul_le_mul_of_nonneg_right ?_ hh0.le) d0
    nlinarith
  have k2 : c * h * (h ^ 2 + e * (1 / 2) ^ N) ≤ C * h * ((1 + e) * (h ^ 2 + (1 / 2) ^ N)) := by
    refine mul_le_mul (mul_le_mul_of_nonneg_right hconst hh0.le) ?_ (by positivity) (by positivity)
    nlinarith [sq_nonneg h, mul_nonneg e0.le (sq_nonneg h)]
  nlinarith

/-- A sequence of steps. -/
theorem stiff_runs (hω : 0 ≤ ω) (hK : 0 ≤ K) (hρ : 0 < ρ) (h0 : 0 ≤ M0) (h1 : 0 ≤ M1) (h2 : 0 ≤ M2) (T : ℝ) :
    ∃ (C η : ℝ) (N0 : ℕ), 0 ≤ C ∧ 0 < η ∧ η ≤ 1 ∧ 0 < N0 ∧ ∀ (ι : Type) [Fintype ι] [DecidableEq ι] (L : Vec ι) (f : Vec ι → Vec ι) (t0 t1 : ℝ)
      (Y : ℝ → Vec ι), (∀ i, (L i).re ≤ ω) → t1 - t0 ≤ T → Regular (Matrix.diagonal L) f t0 t1 Y K ρ M0 M1 M2 →
      ∀ (me : ℝ → ERK ι) (N : ℕ), N0 ≤ N →
        (∀ h, 0 < h → h ≤ 1 → (me h).s < 8 ∧ ∃ x, (me h).StiffOk L x (stiffBound ω R) (2 * Real.exp (3 * R) * (1 / 2) ^ N) h) →
        ∀ (H : ℝ) (n : ℕ) (tm : ℕ → ℝ) (st : ℕ → Vec ι), 0 < H → H < η → tm 0 = t0 →
          (∀ k < n, tm k < tm (k + 1) ∧ tm (k + 1) ≤ t1 ∧ tm (k + 1) - tm k ≤ H ∧ st (k + 1) = ((me (tm (k + 1) - tm k)).run f (st k)).1) →
          ‖st 0 - Y t0‖ ≤ η → ∀ k ≤ n, ‖st k - Y (tm k)‖ ≤ C * (‖st 0 - Y t0‖ + H ^ 2 + (1 / 2) ^ N) := by
  obtain ⟨C, η, hC, hη, hη1, hstep⟩ := stiff_one (R := R) hω hK hρ h0 h1 h2
  set E := Real.exp (C * |T|) with hE
  have E0 : 0 < E := Real.exp_pos _
  have hθ : 0 < η / (3 * E) := by positivity
  obtain ⟨N0, hN0⟩ := exists_pow_lt_of_lt_one hθ (show (1 / 2 : ℝ) < 1 by norm_num)
  refine ⟨E, min η (η / (3 * E)), N0 + 1, E0.le, lt_min hη hθ, (min_le_left _ _).trans hη1, by omega,
    fun ι _ _ L f t0 t1 Y hL hT hY me N hN hme H n tm st H0 H1 htm hst hu => ?_⟩
  have hHη : H < η := H1.trans_le (min_le_left _ _)
  have hNE : (1 / 2 : ℝ) ^ N ≤ η / (3 * E) := (pow_le_pow_of_le_one (by norm_num) (by norm_num) (by omega)).trans hN0.le
  have hHp : H ^ 2 ≤ η / (3 * E) := by
    have : H ^ 2 ≤ H := pow_le_of_le_one H0.le (by linarith) (by norm_num)
    exact this.trans (H1.le.trans (min_le_right _ _))
  have hN0' : 0 ≤ (1 / 2 : ℝ) ^ N := by positivity
  have hmono : ∀ k ≤ n, t0 ≤ tm k := by
    intro k
    induction k with
    | zero => intro _; rw [htm]
    | succ k ih => intro hk; have := ih (by omega); have := (hst k (by omega)).1; linarith
  have hexp : ∀ k ≤ n, Real.exp (C * (tm k - tm 0)) ≤ E := by
    intro k hk
    refine Real.exp_le_exp.mpr (mul_le_mul_of_nonneg_left ?_ hC)
    cases k with
    | zero => simp
    | succ k => rw [htm]; linarith [(hst k (by omega)).2.1, le_abs_self T]
  have hsum : 0 ≤ ‖st 0 - Y (tm 0)‖ + (H ^ 2 + (1 / 2) ^ N) := by positivity
  have hEsum : E * (‖st 0 - Y (tm 0)‖ + (H ^ 2 + (1 / 2) ^ N)) ≤ η := by
    have : E * (3 * (η / (3 * E))) = η := by field_simp
    refine le_trans (mul_le_mul_of_nonneg_left ?_ E0.le) this.le
    rw [htm]; linarith [hu.trans (min_le_right _ _)]
  have key := gronwall_upTo (tm := tm) (e := fun k => ‖st k - Y (tm k)‖) (C := C) (d := H ^ 2 + (1 / 2) ^ N) (θ := η) (n := n)
    (by positivity) (by
    intro k hk
    obtain ⟨a1, a2, a3, a4⟩ := hst k hk
    refine ⟨norm_nonneg _, fun hek => ?_⟩
    have b0 : 0 < tm (k + 1) - tm k := by linarith
    have b1 : tm (k + 1) - tm k ≤ η := a3.trans hHη.le
    obtain ⟨s8, x, hx⟩ := hme _ b0 (b1.trans hη1)
    have b := hstep ι L f t0 t1 Y hL hY _ x N _ (tm k) (st k) hx s8 b0 b1 (hmono k hk.le) (by linarith) hek
    rw [add_sub_cancel, ← a4] at b
    refine b.trans ?_
    have c1 : (tm (k + 1) - tm k) ^ 2 ≤ H ^ 2 := pow_le_pow_left₀ b0.le a3 2
    have c2 : C * (tm (k + 1) - tm k) * ((tm (k + 1) - tm k) ^ 2 + (1 / 2) ^ N) ≤
        C * (tm (k + 1) - tm k) * (H ^ 2 + (1 / 2) ^ N) := mul_le_mul_of_nonneg_left (by linarith) (by positivity)
    linarith) (fun k hk => (mul_le_mul_of_nonneg_right (hexp k hk) hsum).trans hEsum)
  intro k hk
  have a1 := key k hk
  have a2 := mul_le_mul_of_nonneg_right (hexp k hk) hsum
  rw [htm] at a1 a2
  have : 0 ≤ H ^ 2 := sq_nonneg H
  calc ‖st k - Y (tm k)‖ ≤ E * (‖st 0 - Y t0‖ + (H ^ 2 + (1 / 2) ^ N)) := by linarith
    _ = _ := by ring

end Verif
