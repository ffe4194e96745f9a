import Verif.Props.FloatEnd

/-!
# C84: further concrete cases
-/

set_option linter.unusedSectionVars false

namespace Verif

open Matrix
open scoped ContDiff Matrix.Norms.Operator

/-- KdV with IF4 in double precision: the run succeeds. -/
example (u0 : Vec (Fin 3)) (kx : Fin 3 → ℝ) : ∃ T > (0 : ℝ), ∃ (η : ℝ) (N0 : ℕ), 0 < η ∧ ∀ (N : ℕ) (h : ℝ), N0 ≤ N → 0 < h → h < η →
    N * (1000 * (1 / 2 ^ 53)) + (1 / 2) ^ N ≤ η * h →
    ∃ v, (((CSSolver.if4 (.diag (flKdvLin A64 B64 kx))).withPoints N).fpEvolve (CSSolver.flEnv _ (Arith.numpy rnd64) A64 (LinAlg.rounded rnd64))
      (flKdvNl A64 B64 F64 kx) rnd64 true (⌈2 * (T - 0) / h + 1⌉₊ + 1) u0 0 T h true 1 (CSSolver.fpNew _)).1 = .ok (some v) := by
  obtain ⟨g, hg, hs⟩ := C59_kdv_smooth (M := 2) two_ne_zero kx
  obtain ⟨T, hT, Y, h0, hY⟩ := C59_solution (Matrix.diagonal (kdvLin kx)) hs u0 0
  obtain ⟨C, η, R, N0, hη, h1⟩ := C84_kdv_evolve (M := 2) two_ne_zero kx hg (.if4 (.diag (kdvLin kx))) rfl trivial hT (hY T le_rfl)
  refine ⟨T, hT, η, N0, hη, fun N h hN hh hh1 hg => ?_⟩
  have hle : (120 : ℝ) * (1 / 2 ^ 53) ≤ 1000 * (1 / 2 ^ 53) := by norm_num
  obtain ⟨⟨v, hv, -⟩, -⟩ := h1 N (Arith.numpy rnd64) A64 B64 F64 (LinAlg.rounded rnd64) rnd64 (1000 * (1 / 2 ^ 53)) h u0 kx hN (by positivity)
    (fun i => by rw [sub_self, abs_zero]; positivity)
    ((Arith.numpy_within rnd64_error (by positivity) (by norm_num) R).of_le (by simp [dotFactor]; norm_num))
    ((A64_within _).of_le hle) ((B64_within _).of_le hle) ((F64_within (by norm_num) _).of_le hle) ((LinAlg.rounded_within rnd64_error (by positivity) R).of_le (by norm_num))
    (fun x => (rnd64_error x).trans (mul_le_mul_of_nonneg_right (by norm_num) (abs_nonneg x))) hh hh1 hg (by rw [h0, sub_self, norm_zero]; exact hη.le)
    true true 1 (CSSolver.fpNew _) (⌈2 * (T - 0) / h + 1⌉₊ + 1) (fun _ => hT.ne') one_ne_zero (by push_cast; linarith [Nat.le_ceil (2 * (T - 0) / h + 1)])
  exact ⟨v, hv⟩

/-- Burgers with viscosity `1/100` and ETD5 in double precision. -/
example (u0 : Vec (Fin 3)) (kx : Fin 3 → ℝ) : ∃ T > (0 : ℝ), ∃ (η : ℝ) (N0 : ℕ), 0 < η ∧ ∀ (N : ℕ) (h : ℝ), N0 ≤ N → 0 < h → h < η →
    N * (1000 * (1 / 2 ^ 53)) + (1 / 2) ^ N ≤ η * h →
    ∃ v, (((CSSolver.etd5 ⟨1 / 100, 32, 1⟩ (.diag (flBurgersLin B64 kx (1 / 100)))).withPoints N).fpEvolve
      (CSSolver.flEnv _ (Arith.numpy rnd64) A64 (LinAlg.rounded rnd64))
      (flBurgersNl A64 B64 F64 kx) rnd64 true (⌈2 * (T - 0) / h + 1⌉₊ + 1) u0 0 T h true 1 (CSSolver.fpNew _)).1 = .ok (some v) := by
  obtain ⟨g, hg, hs⟩ := C59_burgers_smooth (M := 2) two_ne_zero kx
  obtain ⟨T, hT, Y, h0, hY⟩ := C59_solution (Matrix.diagonal (burgersLin kx (1 / 100))) hs u0 0
  obtain ⟨C, η, R, N0, hη, h1⟩ := C84_burgers_evolve (M := 2) two_ne_zero kx (1 / 100) hg (.etd5 ⟨1 / 100, 32, 1⟩ (.diag (burgersLin kx (1 / 100)))) rfl
    (by constructor <;> norm_num) hT (hY T le_rfl)
  refine ⟨T, hT, η, N0, hη, fun N h hN hh hh1 hg => ?_⟩
  have hle : (120 : ℝ) * (1 / 2 ^ 53) ≤ 1000 * (1 / 2 ^ 53) := by norm_num
  obtain ⟨⟨v, hv, -⟩, -⟩ := h1 N (Arith.numpy rnd64) A64 B64 F64 (LinAlg.rounded rnd64) rnd64 (1000 * (1 / 2 ^ 53)) h u0 kx hN (by positivity)
    (fun i => by rw [sub_self, abs_zero]; positivity)
    ((Arith.numpy_within rnd64_error (by positivity) (by norm_num) R).of_le (by simp [dotFactor]; norm_num))
    ((A64_within _).of_le hle) ((B64_within _).of_le hle) ((F64_within (by norm_num) _).of_le hle) ((LinAlg.rounded_within rnd64_error (by positivity) R).of_le (by norm_num))
    (fun x => (rnd64_error x).trans (mul_le_mul_of_nonneg_right (by norm_num) (abs_nonneg x))) hh hh1 hg (by rw [h0, sub_self, norm_zero]; exact hη.le)
    true true 1 (CSSolver.fpNew _) (⌈2 * (T - 0) / h + 1⌉₊ + 1) (fun _ => hT.ne') one_ne_zero (by push_cast; linarith [Nat.le_ceil (2 * (T - 0) / h + 1)])
  exact ⟨v, hv⟩

/-- Adaptive runs of IF45DP for Burgers in double precision, for any wavenumbers. -/
example (u0 : Vec (Fin 3)) (kx : Fin 3 → ℝ) : ∃ T > (0 : ℝ), ∃ Y : ℝ → Vec (Fin 3), Y 0 = u0 ∧ ∃ (C η : ℝ) (N0 : ℕ), 0 < η ∧ ∀ N, N0 ≤ N →
    ∀ (fac : SolverConfig ℝ → Vec (Fin 3) → Vec (Fin 3) → Ext ℝ) (fuel : ℕ), ∀ r, r = ((ASSolver.if45dp (flBurgersLin B64 kx (1 / 100))).withPoints N).fpEvolve
      (ASSolver.flEnv _ (Arith.numpy rnd64) A64 (LinAlg.rounded rnd64)) fac (flBurgersNl A64 B64 F64 kx) rnd64 true ⟨1 / 10000, 5 / 4, 17 / 20, 4 / 5, 1 / 100, 1 / 10 ^ 16⟩
      fuel u0 0 T none true 1 (ASSolver.fpNew _) → r.2.t.IsChain (fun a b => b - a ≤ η / 2) →
      r.2.t.length * ((N : ℝ) * (1000 * (1 / 2 ^ 53)) + (1 / 2) ^ N) ≤ η →
      (N : ℝ) * (1000 * (1 / 2 ^ 53)) + (1 / 2) ^ N ≤ η * (η / 2) →
      ASSolver.RunNear r Y T (C * (‖u0 - Y 0‖ + (η / 2) ^ 5 + r.2.t.length * (N * (1000 * (1 / 2 ^ 53)) + (1 / 2) ^ N))) := by
  obtain ⟨g, hg, hs⟩ := C59_burgers_smooth (M := 2) two_ne_zero kx
  obtain ⟨T, hT, Y, h0, hY⟩ := C59_solution (Matrix.diagonal (burgersLin kx (1 / 100))) hs u0 0
  obtain ⟨C, η, R, N0, hη, h1⟩ := C84_burgers_stored (M := 2) two_ne_zero kx (1 / 100) hg (.if45dp (burgersLin kx (1 / 100))) rfl trivial hT.le (hY T le_rfl)
  refine ⟨T, hT, Y, h0, C, η, N0, hη, fun N hN fac fuel r hr hc hl hg => ?_⟩
  have hle : (120 : ℝ) * (1 / 2 ^ 53) ≤ 1000 * (1 / 2 ^ 53) := by norm_num
  exact h1 N (Arith.numpy rnd64) A64 B64 F64 (LinAlg.rounded rnd64) fac rnd64 (1000 * (1 / 2 ^ 53)) u0 kx hN (by positivity)
    (fun i => by rw [sub_self, abs_zero]; positivity)
    ((Arith.numpy_within rnd64_error (by positivity) (by norm_num) R).of_le (by simp [dotFactor]; norm_num))
    ((A64_within _).of_le hle) ((B64_within _).of_le hle) ((F64_within (by norm_num) _).of_le hle) ((LinAlg.rounded_within rnd64_error (by positivity) R).of_le (by norm_num))
    (fun x => (rnd64_error x).trans (mul_le_mul_of_nonneg_right (by norm_num) (abs_nonneg x))) (by rw [h0, sub_self, norm_zero]; exact hη.le)
    _ none true _ fuel (by norm_num) (by simp) (η / 2) hg (by linarith) (by linarith) r hr hc hl

/-- Adaptive runs of ETD35 for Allen–Cahn with one interior node in double precision. -/
example (u0 : Vec (Fin 1)) : ∃ T > (0 : ℝ), ∃ Y : ℝ → Vec (Fin 1), Y 0 = u0 ∧ ∃ (C η : ℝ) (N0 : ℕ), 0 < η ∧ ∀ N, N0 ≤ N →
    ∀ (fac : SolverConfig ℝ → Vec (Fin 1) → Vec (Fin 1) → Ext ℝ) (fuel : ℕ), ∀ r, r = ((ASSolver.etd35 ⟨1 / 100, 32, 1⟩
        (.full ((flAllenCahnLin (k := 1) B64 (d3 * d3) (1 / 100)).map fun r => (r : ℂ)))).withPoints N).fpEvolve
      (ASSolver.flEnv _ (Arith.numpy rnd64) A64 (LinAlg.rounded rnd64)) fac (flAllenCahnNl (k := 1) A64 ![1, 0, -1]) rnd64 true
      ⟨1 / 10000, 5 / 4, 17 / 20, 4 / 5, 1 / 100, 1 / 10 ^ 16⟩ fuel u0 0 T none true 1 (ASSolver.fpNew _) → r.2.t.IsChain (fun a b => b - a ≤ η / 2) →
      r.2.t.length * ((N : ℝ) * (1000 * (1 / 2 ^ 53)) + (1 / 2) ^ N) ≤ η →
      (N : ℝ) * (1000 * (1 / 2 ^ 53)) + (1 / 2) ^ N ≤ η * (η / 2) →
      ASSolver.RunNear r Y T (C * (‖u0 - Y 0‖ + (η / 2) ^ 4 + r.2.t.length * (N * (1000 * (1 / 2 ^ 53)) + (1 / 2) ^ N))) := by
  obtain ⟨g, hg, hs⟩ := C59_allen_cahn_smooth (k := 1) ![1, 0, -1]
  obtain ⟨T, hT, Y, h0, hY⟩ := C59_solution ((allenCahnLin (k := 1) d3 (1 / 100)).map fun r => (r : ℂ)) hs u0 0
  obtain ⟨C, η, R, N0, hη, h1⟩ := C84_allen_cahn_stored (k := 1) d3 ![1, 0, -1] (1 / 100) d3_le hg
    (.etd35 ⟨1 / 100, 32, 1⟩ (.full ((allenCahnLin (k := 1) d3 (1 / 100)).map fun r => (r : ℂ)))) rfl ⟨by norm_num, fun μ _ => by norm_num⟩ hT.le (hY T le_rfl)
  refine ⟨T, hT, Y, h0, C, η, N0, hη, fun N hN fac fuel r hr hc hl hg => ?_⟩
  have hle : (120 : ℝ) * (1 / 2 ^ 53) ≤ 1000 * (1 / 2 ^ 53) := by norm_num
  exact h1 N (Arith.numpy rnd64) A64 B64 (LinAlg.rounded rnd64) fac rnd64 (1000 * (1 / 2 ^ 53)) u0 ![1, 0, -1] (d3 * d3) hN (by positivity)
    (fun i => by rw [sub_self, abs_zero]; positivity) (fun i j => by rw [sub_self, abs_zero]; positivity)
    ((Arith.numpy_within rnd64_error (by positivity) (by norm_num) R).of_le (by simp [dotFactor]; norm_num))
    ((A64_within _).of_le hle) ((B64_within _).of_le hle) ((LinAlg.rounded_within rnd64_error (by positivity) R).of_le (by norm_num))
    (fun x => (rnd64_error x).trans (mul_le_mul_of_nonneg_right (by norm_num) (abs_nonneg x))) (by rw [h0, sub_self, norm_zero]; exact hη.le)
    _ none true _ fuel (by norm_num) (by simp) (η / 2) hg (by linarith) (by linarith) r hr hc hl

end Verif
