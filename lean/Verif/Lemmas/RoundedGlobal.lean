import Verif.Lemmas.RoundedSolver
import Verif.Props.Convergence
import Mathlib.Analysis.Calculus.MeanValue

/-!
# Accumulation of rounding errors along a run
-/

set_option linter.unusedSectionVars false

namespace Verif

open Matrix Finset
open scoped Matrix.Norms.Operator ContDiff

variable {ι : Type} [Fintype ι] [DecidableEq ι] {f : Vec ι → Vec ι}

/-- Discrete Gronwall lemma with a fixed contribution `g` of every step. -/
theorem gronwall_add {e hs : ℕ → ℝ} {C d g S : ℝ} {n : ℕ} (hC : 0 ≤ C) (hd : 0 ≤ d) (hg : 0 ≤ g) (he : ∀ k ≤ n, 0 ≤ e k)
    (h0 : ∀ k < n, 0 ≤ hs k) (hS : ∀ k ≤ n, ∑ j ∈ range k, hs j ≤ S)
    (hstep : ∀ k < n, e k ≤ 1 → e (k + 1) ≤ (1 + C * hs k) * e k + C * hs k * d + g)
    (hsmall : Real.exp (C * S) * (e 0 + d + n * g) ≤ 1) :
    ∀ k ≤ n, e k ≤ Real.exp (C * S) * (e 0 + d + n * g) := by
  have hle : ∀ k ≤ n, Real.exp (C * ∑ j ∈ range k, hs j) * (e 0 + d + k * g) ≤ Real.exp (C * S) * (e 0 + d + n * g) := by
    intro k hk
    have hk' : (k : ℝ) ≤ n := by exact_mod_cast hk
    have := he 0 (Nat.zero_le _)
    refine mul_le_mul (Real.exp_le_exp.mpr (mul_le_mul_of_nonneg_left (hS k hk) hC)) ?_ (by positivity) (Real.exp_pos _).le
    have := mul_le_mul_of_nonneg_right hk' hg
    linarith
  have main : ∀ k ≤ n, e k + d ≤ Real.exp (C * ∑ j ∈ range k, hs j) * (e 0 + d + k * g) := by
    intro k
    induction k with
    | zero => intro _; simp
    | succ k ih =>
      intro hk
      have h1 := ih (by omega)
      have h2 := hstep k (by omega) (by have := hle k (by omega); linarith)
      have h3 : 1 + C * hs k ≤ Real.exp (C * hs k) := by have := Real.add_one_le_exp (C * hs k); linarith
      have h4 : 1 ≤ Real.exp (C * ∑ j ∈ range (k + 1), hs j) := by
        refine Real.one_le_exp (mul_nonneg hC (sum_nonneg fun j hj => h0 j ?_))
        have := mem_range.mp hj; omega
      have h5 := he k (by omega)
      calc e (k + 1) + d ≤ (1 + C * hs k) * (e k + d) + g := by linarith
        _ ≤ Real.exp (C * hs k) * (Real.exp (C * ∑ j ∈ range k, hs j) * (e 0 + d + k * g)) + g :=
          add_le_add (mul_le_mul h3 h1 (by linarith) (Real.exp_pos _).le) le_rfl
        _ = Real.exp (C * ∑ j ∈ range (k + 1), hs j) * (e 0 + d + k * g) + g := by
          rw [← mul_assoc, ← Real.exp_add, sum_range_succ]; congr 3; ring
        _ ≤ Real.exp (C * ∑ j ∈ range (k + 1), hs j) * (e 0 + d + k * g) + Real.exp (C * ∑ j ∈ range (k + 1), hs j) * g := by
          have := mul_le_mul_of_nonneg_right h4 hg; linarith
        _ = Real.exp (C * ∑ j ∈ range (k + 1), hs j) * (e 0 + d + (k + 1 : ℕ) * g) := by push_cast; ring
  intro k hk
  have := main k hk
  have := hle k hk
  linarith

/-- One computed step of size `h` stays close to the solution. -/
def StepNear (Y : ℝ → Vec ι) (a tf : ℝ) (p : ℕ) (C η : ℝ) (N : ℕ) (ε : ℝ) (g : ℝ → Vec ι → Vec ι) : Prop :=
  ∀ h, 0 < h → h < η → ∀ q ∈ Set.Icc a tf, ∀ u, ‖u - Y q‖ ≤ 1 →
    ‖g h u - Y (q + h)‖ ≤ (1 + C * h) * ‖u - Y q‖ + C * h * (h ^ p + (1 / 2) ^ N) + C * ε

/-- A run of computed steps whose clock is rounded too. -/
theorem rounded_run {t0 tf a b C η Λ : ℝ} {Y : ℝ → Vec ι} {p : ℕ} (hp : p ≠ 0) (hC : 0 ≤ C) (hη : 0 < η) (hΛ : 0 ≤ Λ)
    (ha : a < t0) (ht : t0 ≤ tf) (hb : tf < b) (hY : ∀ s ∈ Set.Icc a b, ∀ t ∈ Set.Icc a b, ‖Y s - Y t‖ ≤ Λ * |s - t|) :
    ∃ (C' η' : ℝ) (N0 : ℕ), 0 ≤ C' ∧ 0 < η' ∧ η' ≤ η ∧ C' * (4 * η') ≤ 1 ∧ ∀ (N : ℕ) (ε : ℝ) (g : ℝ → Vec ι → Vec ι), N0 ≤ N → 0 ≤ ε →
      StepNear Y a tf p C η N ε g → ∀ (H : ℝ) (n : ℕ) (tm : ℕ → ℝ) (st : ℕ → Vec ι) (hs : ℕ → ℝ), 0 < H → H < η' → n * ε ≤ η' →
        tm 0 = t0 → (∀ k < n, tm k ≤ tf ∧ 0 < hs k ∧ hs k ≤ H ∧ |tm (k + 1) - (tm k + hs k)| ≤ ε * |tm k + hs k| ∧
          st (k + 1) = g (hs k) (st k)) →
        ‖st 0 - Y t0‖ ≤ η' → ∀ k ≤ n, tm k ∈ Set.Icc a b ∧ ‖st k - Y (tm k)‖ ≤ 1 ∧
          ‖st k - Y (tm k)‖ ≤ C' * (‖st 0 - Y t0‖ + H ^ p + (1 / 2) ^ N + n * ε) := by
  set T := |a| + |b| + 1 with hT
  have T0 : 0 < T := by positivity
  have hTb : ∀ t ∈ Set.Icc a b, |t| ≤ T := by
    intro t h
    rw [abs_le]
    constructor
    · linarith [h.1, neg_abs_le a, abs_nonneg b]
    · linarith [h.2, le_abs_self b, abs_nonneg a]
  set G := C + Λ * T with hG
  have G0 : 0 ≤ G := by positivity
  set E := Real.exp (C * (b - a)) with hE
  have E0 : 0 < E := Real.exp_pos _
  set C' := E * (1 + G) with hC'
  have C0 : 0 < C' := by positivity
  obtain ⟨N0, hN0⟩ := exists_pow_lt_of_lt_one (show 0 < 1 / (4 * C') by positivity) (show (1 / 2 : ℝ) < 1 by norm_num)
  set η' := min (min (min η 1) (1 / (4 * C'))) (min ((t0 - a) / T) (min ((b - tf) / 2) ((b - tf) / (2 * T)))) with hη'
  have e1 : η' ≤ η := (min_le_left _ _).trans ((min_le_left _ _).trans (min_le_left _ _))
  have e2 : η' ≤ 1 := (min_le_left _ _).trans ((min_le_left _ _).trans (min_le_right _ _))
  have e3 : η' ≤ 1 / (4 * C') := (min_le_left _ _).trans (min_le_right _ _)
  have e4 : η' * T ≤ t0 - a := (le_div_iff₀ T0).mp ((min_le_right _ _).trans (min_le_left _ _))
  have e5 : η' ≤ (b - tf) / 2 := (min_le_right _ _).trans ((min_le_right _ _).trans (min_le_left _ _))
  have e6 : η' * T ≤ (b - tf) / 2 := by
    have : η' ≤ (b - tf) / (2 * T) := (min_le_right _ _).trans ((min_le_right _ _).trans (min_le_right _ _))
    rw [le_div_iff₀ (by positivity)] at this
    linarith
  have hη0 : 0 < η' := lt_min (lt_min (lt_min hη one_pos) (by positivity))
    (lt_min (div_pos (by linarith) T0) (lt_min (by linarith) (div_pos (by linarith) (by positivity))))
  refine ⟨C', η', N0, C0.le, hη0, e1, ?_, fun N ε g hN hε hg H n tm st hs H0 H1 hnε htm hst h0 => ?_⟩
  · rw [le_div_iff₀ (by positivity)] at e3; linarith
  have hnT : ∀ k ≤ n, (k : ℝ) * ε * T ≤ η' * T := by
    intro k hk
    refine mul_le_mul_of_nonneg_right (le_trans ?_ hnε) T0.le
    exact mul_le_mul_of_nonneg_right (by exact_mod_cast hk) hε
  have hεT : 0 < n → ε * T ≤ η' * T := by
    intro h
    have := hnT 1 h
    simpa using this
  have clock : ∀ k ≤ n, t0 - k * ε * T ≤ tm k ∧ tm k ≤ b ∧ t0 + ∑ j ∈ range k, hs j ≤ tm k + k * ε * T := by
    intro k
    induction k with
    | zero => intro _; simp [htm]; linarith
    | succ k ih =>
      intro hk
      obtain ⟨i1, i2, i3⟩ := ih (by omega)
      obtain ⟨a1, a2, a3, a4, -⟩ := hst k (by omega)
      have b1 := hnT k (by omega)
      have b2 : tm k + hs k ∈ Set.Icc a b := ⟨by linarith, by linarith⟩
      have b3 := a4.trans (mul_le_mul_of_nonneg_left (hTb _ b2) hε)
      have b4 := hεT (by omega)
      rw [abs_le] at b3
      push_cast
      refine ⟨by linarith [b3.1], by linarith [b3.2], ?_⟩
      rw [sum_range_succ]
      linarith [b3.1]
  have hmem : ∀ k ≤ n, tm k ∈ Set.Icc a b := fun k hk =>
    ⟨by linarith [(clock k hk).1, hnT k hk], (clock k hk).2.1⟩
  have hHp : H ^ p ≤ η' := (pow_le_of_le_one H0.le (H1.le.trans e2) hp).trans H1.le
  have hHp0 : 0 ≤ H ^ p := by positivity
  have hN2 : (1 / 2 : ℝ) ^ N ≤ 1 / (4 * C') := (pow_le_pow_of_le_one (by norm_num) (by norm_num) hN).trans hN0.le
  have hN1 : 0 ≤ (1 / 2 : ℝ) ^ N := by positivity
  have hne : 0 ≤ (n : ℝ) * ε := by positivity
  have hn0 : 0 ≤ ‖st 0 - Y t0‖ := norm_nonneg _
  have hbound : E * (‖st 0 - Y (tm 0)‖ + (H ^ p + (1 / 2) ^ N) + n * (G * ε)) ≤
      C' * (‖st 0 - Y t0‖ + H ^ p + (1 / 2) ^ N + n * ε) := by
    rw [hC', mul_assoc, htm]
    refine mul_le_mul_of_nonneg_left ?_ E0.le
    have : 0 ≤ G * (‖st 0 - Y t0‖ + H ^ p + (1 / 2) ^ N) := by positivity
    linarith
  have hsmall : C' * (‖st 0 - Y t0‖ + H ^ p + (1 / 2) ^ N + n * ε) ≤ 1 := by
    have : C' * (4 * (1 / (4 * C'))) = 1 := by field_simp
    refine le_trans (mul_le_mul_of_nonneg_left ?_ C0.le) this.le
    linarith
  have key := gronwall_add (e := fun k => ‖st k - Y (tm k)‖) (hs := hs) (C := C) (d := H ^ p + (1 / 2) ^ N) (g := G * ε)
    (S := b - a) (n := n) hC (by positivity) (by positivity) (fun k _ => norm_nonneg _) (fun k hk => (hst k hk).2.1.le)
    (fun k hk => by linarith [(clock k hk).2.2, (hmem k hk).2, hnT k hk])
    (fun k hk hek => by
      obtain ⟨a1, a2, a3, a4, a5⟩ := hst k hk
      have b1 := hg (hs k) a2 (by linarith) (tm k) ⟨(hmem k hk.le).1, a1⟩ (st k) hek
      rw [← a5] at b1
      have b2 : tm k + hs k ∈ Set.Icc a b := ⟨by linarith [(hmem k hk.le).1], by linarith⟩
      have b3 := a4.trans (mul_le_mul_of_nonneg_left (hTb _ b2) hε)
      have b4 := hY _ b2 _ (hmem (k + 1) hk)
      rw [abs_sub_comm] at b4
      have b5 : ‖Y (tm k + hs k) - Y (tm (k + 1))‖ ≤ Λ * (ε * T) := b4.trans (mul_le_mul_of_nonneg_left b3 hΛ)
      have c1 : hs k ^ p ≤ H ^ p := pow_le_pow_left₀ a2.le a3 p
      have c2 : C * hs k * (hs k ^ p + (1 / 2) ^ N) ≤ C * hs k * (H ^ p + (1 / 2) ^ N) :=
        mul_le_mul_of_nonneg_left (by linarith) (by positivity)
      calc ‖st (k + 1) - Y (tm (k + 1))‖ ≤ ‖st (k + 1) - Y (tm k + hs k)‖ + ‖Y (tm k + hs k) - Y (tm (k + 1))‖ :=
            norm_sub_le_norm_sub_add_norm_sub _ _ _
        _ ≤ (1 + C * hs k) * ‖st k - Y (tm k)‖ + C * hs k * (H ^ p + (1 / 2) ^ N) + G * ε := by
          rw [hG]; linarith)
    (hbound.trans hsmall)
  intro k hk
  have := (key k hk).trans hbound
  exact ⟨hmem k hk, this.trans hsmall, this⟩

/-- The solution on a slightly larger interval. -/
theorem Solves.wider {L : Mat ι} {t0 tf : ℝ} {Y : ℝ → Vec ι} (hf : Continuous f) (h : Solves L f t0 tf Y) :
    ∃ a b Λ ρ : ℝ, a < t0 ∧ tf < b ∧ 0 ≤ Λ ∧ Solves L f a tf Y ∧ (∀ t ∈ Set.Icc a b, ‖Y t‖ ≤ ρ) ∧
      ∀ s ∈ Set.Icc a b, ∀ t ∈ Set.Icc a b, ‖Y s - Y t‖ ≤ Λ * |s - t| := by
  obtain ⟨δ, hδ, hd⟩ := h.deriv
  have hd' : ∀ t ∈ Set.Icc (t0 - δ / 2) (tf + δ / 2), HasDerivAt Y (L *ᵥ Y t + f (Y t)) t :=
    fun t ht => hd t (by linarith [ht.1]) (by linarith [ht.2])
  have hc : ContinuousOn Y (Set.Icc (t0 - δ / 2) (tf + δ / 2)) := fun t ht => (hd' t ht).continuousAt.continuousWithinAt
  obtain ⟨ρ, hρ⟩ := isCompact_Icc.exists_bound_of_continuousOn hc
  have hc' : ContinuousOn (fun t => L *ᵥ Y t + f (Y t)) (Set.Icc (t0 - δ / 2) (tf + δ / 2)) := by
    refine ContinuousOn.add ?_ (hf.comp_continuousOn hc)
    exact (Continuous.matrix_mulVec continuous_const continuous_id).comp_continuousOn hc
  obtain ⟨Λ, hΛ⟩ := isCompact_Icc.exists_bound_of_continuousOn hc'
  refine ⟨t0 - δ / 2, tf + δ / 2, max Λ 0, ρ, by linarith, by linarith, le_max_right _ _,
    ⟨δ / 2, by linarith, fun t h1 h2 => hd t (by linarith) (by linarith)⟩, hρ, fun s hs t ht => ?_⟩
  exact (convex_Icc _ _).norm_image_sub_le_of_norm_hasDerivWithin_le (fun x hx => (hd' x hx).hasDerivWithinAt)
    (fun x hx => (hΛ x hx).trans (le_max_left _ _)) ht hs

/-- Computed steps that stay close to the solution can be repeated. -/
theorem rounded_iter {t0 tf a b C η Λ : ℝ} {Y : ℝ → Vec ι} {p : ℕ} (hp : p ≠ 0) (hC : 0 ≤ C) (hη : 0 < η) (hΛ : 0 ≤ Λ)
    (ha : a < t0) (ht : t0 ≤ tf) (hb : tf < b) (hY : ∀ s ∈ Set.Icc a b, ∀ t ∈ Set.Icc a b, ‖Y s - Y t‖ ≤ Λ * |s - t|) :
    ∃ (C' η' : ℝ) (N0 : ℕ), 0 ≤ C' ∧ 0 < η' ∧ η' ≤ η ∧ ∀ (N : ℕ) (ε : ℝ) (Φ : ℝ → Vec ι → Except PyErr (Vec ι)), N0 ≤ N → 0 ≤ ε →
      (∀ h, 0 < h → h < η → ∀ q ∈ Set.Icc a tf, ∀ u, ‖u - Y q‖ ≤ 1 → ∃ v, Φ h u = .ok v ∧
        ‖v - Y (q + h)‖ ≤ (1 + C * h) * ‖u - Y q‖ + C * h * (h ^ p + (1 / 2) ^ N) + C * ε) →
      ∀ (H : ℝ) (n : ℕ) (tm : ℕ → ℝ) (u : Vec ι) (hs : ℕ → ℝ), 0 < H → H < η' → n * ε ≤ η' → tm 0 = t0 →
        (∀ k < n, tm k ≤ tf ∧ 0 < hs k ∧ hs k ≤ H ∧ |tm (k + 1) - (tm k + hs k)| ≤ ε * |tm k + hs k|) → ‖u - Y t0‖ ≤ η' →
        ∃ st : ℕ → Vec ι, st 0 = u ∧ (∀ k < n, Φ (hs k) (st k) = .ok (st (k + 1))) ∧
          ∀ k ≤ n, ‖st k - Y (tm k)‖ ≤ C' * (‖u - Y t0‖ + H ^ p + (1 / 2) ^ N + n * ε) := by
  obtain ⟨C', η', N0, hC', hη', h1, -, h2⟩ := rounded_run hp hC hη hΛ ha ht hb hY
  refine ⟨C', η', N0, hC', hη', h1, fun N ε Φ hN hε hΦ H n tm u hs H0 H1 hnε htm hst hu => ?_⟩
  let g : ℝ → Vec ι → Vec ι := fun h u => (Φ h u).toOption.getD 0
  let st : ℕ → Vec ι := fun k => Nat.rec u (fun j w => g (hs j) w) k
  have hg : StepNear Y a tf p C η N ε g := by
    intro h h0 hη q hq w hw
    obtain ⟨v, e, hv⟩ := hΦ h h0 hη q hq w hw
    simp only [g, e]
    exact hv
  have h3 := h2 N ε g hN hε hg H n tm st hs H0 H1 hnε htm (fun k hk => by
    obtain ⟨a1, a2, a3, a4⟩ := hst k hk
    exact ⟨a1, a2, a3, a4, rfl⟩) hu
  refine ⟨st, rfl, fun k hk => ?_, fun k hk => (h3 k hk).2.2⟩
  obtain ⟨a1, a2, a3, -⟩ := hst k hk
  obtain ⟨b1, b2, -⟩ := h3 k hk.le
  obtain ⟨v, e, -⟩ := hΦ (hs k) a2 (by linarith) (tm k) ⟨b1.1, a1⟩ (st k) b2
  have : st (k + 1) = g (hs k) (st k) := rfl
  rw [this]
  simp only [g, e]
  rfl

variable {t0 tf : ℝ} {Y : ℝ → Vec ι}

/-- Runs of a constant-step solver with inexact arithmetic and clock. -/
theorem CSSolver.rounded_runs (m : CSSolver ι) (hm : m.GoodContour) (hf : ContDiff ℝ ∞ f) (ht : t0 ≤ tf)
    (hY : Solves m.op.mat f t0 tf Y) {H0 : ℝ} (hH0 : 0 < H0) :
    ∃ (C η R : ℝ) (N0 : ℕ), 0 ≤ C ∧ 0 < η ∧ η ≤ 1 ∧ ∀ (N : ℕ) (F : FPEnv (m.withPoints N).Coef ι) (nl : NlFunc ι) (ε : ℝ), N0 ≤ N →
      0 ≤ ε → ε ≤ 1 → (m.withPoints N).Accurate F nl f ε R H0 →
      ∀ (H : ℝ) (n : ℕ) (tm : ℕ → ℝ) (u : Vec ι) (hs : ℕ → ℝ), 0 < H → H < η → n * ε ≤ η → tm 0 = t0 →
        (∀ k < n, tm k ≤ tf ∧ 0 < hs k ∧ hs k ≤ H ∧ |tm (k + 1) - (tm k + hs k)| ≤ ε * |tm k + hs k|) → ‖u - Y t0‖ ≤ η →
        ∃ st : ℕ → Vec ι, st 0 = u ∧ (∀ k < n, (m.withPoints N).rprog.oneStep F nl (hs k) (st k) = .ok (st (k + 1))) ∧
          ∀ k ≤ n, ‖st k - Y (tm k)‖ ≤ C * (‖u - Y t0‖ + H ^ 4 + (1 / 2) ^ N + n * ε) := by
  obtain ⟨a, b, Λ, ρ, ha, hb, hΛ, hYa, hρ, hL⟩ := hY.wider hf.continuous
  obtain ⟨δ, K0, hfl⟩ := hYa.flows
  obtain ⟨C1, η1, hC1, hη1, h1⟩ := m.one_step hm hf hfl
  obtain ⟨C2, η2, R, hC2, hη2, hη2', h2⟩ := m.step_near hm (LipOnBalls.of_contDiff (hf.of_le (by exact_mod_cast le_top))) (ρ + 1) hH0
  obtain ⟨C, η, N0, hC, hη, hηm, h3⟩ := rounded_iter (p := 4) (C := C1 + C2) (η := min η1 η2) (by norm_num) (by positivity)
    (lt_min hη1 hη2) hΛ ha ht hb hL
  refine ⟨C, η, R, N0 + 1, hC, hη, hηm.trans ((min_le_right _ _).trans hη2'), fun N F nl ε hN hε hε1 hA => ?_⟩
  refine h3 N ε _ (by omega) hε fun h h0 hh q hq u hu => ?_
  have hqb : q ∈ Set.Icc a b := ⟨hq.1, by linarith [hq.2]⟩
  have hur : ‖u‖ ≤ ρ + 1 := by
    have := norm_le_norm_add_norm_sub' u (Y q)
    linarith [hρ q hqb]
  obtain ⟨c1, c2⟩ := h1 N h (by omega) h0 (hh.trans_le (min_le_left _ _))
  have c3 := c2 q hq u (by rwa [add_zero])
  obtain ⟨-, v, v', d1, d2, d3⟩ := h2 N F nl ε h u (by omega) hε hε1 hA h0 (hh.le.trans (min_le_right _ _)) hur
  rw [CSSolver.oneStep, if_pos c1, show (fun v => Except.ok (f v) : NlFunc ι) = total f from rfl, ERK.step_eq_run] at d1
  obtain rfl := Except.ok.inj d1
  refine ⟨v', d2, ?_⟩
  rw [add_zero] at c3
  have e1 : 0 ≤ C2 * h * ‖u - Y q‖ := by positivity
  have e2 : 0 ≤ C2 * h * (h ^ 4 + (1 / 2) ^ N) := by positivity
  have e3 : 0 ≤ C1 * ε := by positivity
  have e4 := norm_sub_le_norm_sub_add_norm_sub v' (((m.withPoints N).method h).run f u).1 (Y (q + h))
  linarith

/-- Runs of an adaptive solver with inexact arithmetic and clock, whatever the sizes of the steps. -/
theorem ASSolver.rounded_runs (m : ASSolver ι) (hm : m.GoodContour) (hf : ContDiff ℝ ∞ f) (ht : t0 ≤ tf)
    (hY : Solves m.op.mat f t0 tf Y) {H0 : ℝ} (hH0 : 0 < H0) :
    ∃ (C η R : ℝ) (N0 : ℕ), 0 ≤ C ∧ 0 < η ∧ η ≤ 1 ∧ ∀ (N : ℕ) (F : FPEnv (m.withPoints N).Coef ι) (nl : NlFunc ι) (ε : ℝ), N0 ≤ N →
      0 ≤ ε → ε ≤ 1 → (m.withPoints N).Accurate F nl f ε R H0 →
      ∀ (H : ℝ) (n : ℕ) (tm : ℕ → ℝ) (u : Vec ι) (hs : ℕ → ℝ), 0 < H → H < η → n * ε ≤ η → tm 0 = t0 →
        (∀ k < n, tm k ≤ tf ∧ 0 < hs k ∧ hs k ≤ H ∧ |tm (k + 1) - (tm k + hs k)| ≤ ε * |tm k + hs k|) → ‖u - Y t0‖ ≤ η →
        ∃ st : ℕ → Vec ι, st 0 = u ∧
          (∀ k < n, ((m.withPoints N).rprog.oneTrial F nl (hs k) (st k)).map Prod.fst = .ok (st (k + 1))) ∧
          ∀ k ≤ n, ‖st k - Y (tm k)‖ ≤ C * (‖u - Y t0‖ + H ^ m.orderOf + (1 / 2) ^ N + n * ε) := by
  obtain ⟨a, b, Λ, ρ, ha, hb, hΛ, hYa, hρ, hL⟩ := hY.wider hf.continuous
  obtain ⟨δ, K0, hfl⟩ := hYa.flows
  obtain ⟨C1, η1, hC1, hη1, h1⟩ := m.one_step hm hf hfl
  obtain ⟨C2, η2, R, hC2, hη2, hη2', h2⟩ := m.trial_near hm (LipOnBalls.of_contDiff (hf.of_le (by exact_mod_cast le_top))) (ρ + 1) hH0
  obtain ⟨C, η, N0, hC, hη, hηm, h3⟩ := rounded_iter (p := m.orderOf) (C := C1 + C2) (η := min η1 η2) m.orderOf_ne (by positivity)
    (lt_min hη1 hη2) hΛ ha ht hb hL
  refine ⟨C, η, R, N0 + 1, hC, hη, hηm.trans ((min_le_right _ _).trans hη2'), fun N F nl ε hN hε hε1 hA => ?_⟩
  refine h3 N ε (fun h u => ((m.withPoints N).rprog.oneTrial F nl h u).map Prod.fst) (by omega) hε fun h h0 hh q hq u hu => ?_
  have hqb : q ∈ Set.Icc a b := ⟨hq.1, by linarith [hq.2]⟩
  have hur : ‖u‖ ≤ ρ + 1 := by
    have := norm_le_norm_add_norm_sub' u (Y q)
    linarith [hρ q hqb]
  obtain ⟨c1, c2⟩ := h1 N h (by omega) h0 (hh.trans_le (min_le_left _ _))
  have c3 := c2 q hq u (by rwa [add_zero])
  obtain ⟨-, v, v', d1, d2, d3, -⟩ := h2 N F nl ε h u (by omega) hε hε1 hA h0 (hh.le.trans (min_le_right _ _)) hur
  rw [show (fun v => Except.ok (f v) : NlFunc ι) = total f from rfl, (m.withPoints N).oneTrial_run _ c1] at d1
  obtain rfl := Except.ok.inj d1
  refine ⟨v'.1, by rw [d2]; rfl, ?_⟩
  rw [add_zero] at c3
  have e1 : 0 ≤ C2 * h * ‖u - Y q‖ := by positivity
  have e2 : 0 ≤ C2 * h * (h ^ m.orderOf + (1 / 2) ^ N) := by positivity
  have e3 : 0 ≤ C1 * ε := by positivity
  have e4 := norm_sub_le_norm_sub_add_norm_sub v'.1 (((m.withPoints N).userMethod h).run f u).1 (Y (q + h))
  linarith

end Verif
