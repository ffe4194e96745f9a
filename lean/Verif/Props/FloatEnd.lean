import Verif.Props.FloatProblems

/-!
# C84: the model problems in NumPy's arithmetic
-/

set_option linter.unusedSectionVars false

namespace Verif

open Matrix
open scoped ContDiff Matrix.Norms.Operator

variable {M : ℕ}

theorem RArith.Within.of_le {B : RArith} {ρ ρ' R : ℝ} (h : B.Within ρ R) (hρ : ρ ≤ ρ') : B.Within ρ' R where
  add x y h1 h2 h3 := (h.add x y h1 h2 h3).trans (mul_le_mul_of_nonneg_right hρ (by positivity))
  mul x y h1 h2 h3 := (h.mul x y h1 h2 h3).trans (mul_le_mul_of_nonneg_right hρ (by positivity))
  pow x n h1 h2 h3 := (h.pow x n h1 h2 h3).trans (mul_le_mul_of_nonneg_right hρ (by positivity))

theorem FftLib.Within.of_le {F : FftLib} {N : ℕ} {ρ ρ' R : ℝ} (h : F.Within N ρ R) (hρ : ρ ≤ ρ') : F.Within N ρ' R where
  fft u b h1 h2 m hm := (h.fft u b h1 h2 m hm).trans (mul_le_mul_of_nonneg_right hρ (by
    have : 0 ≤ b := (norm_nonneg _).trans (h2 m hm)
    positivity))
  ifft u b h1 h2 j hj := (h.ifft u b h1 h2 j hj).trans (mul_le_mul_of_nonneg_right hρ (by
    have : 0 ≤ b := (norm_nonneg _).trans (h2 j hj)
    positivity))
  rfft u b h1 h2 m hm := by
    refine (h.rfft u b h1 h2 m hm).trans (mul_le_mul_of_nonneg_right hρ ?_)
    rcases Nat.eq_zero_or_pos N with rfl | hN
    · simp
    · have : 0 ≤ b := (abs_nonneg _).trans (h2 0 hN)
      positivity
  irfft u b h1 h2 j hj := (h.irfft u b h1 h2 j hj).trans (mul_le_mul_of_nonneg_right hρ (by
    have : 0 ≤ b := (norm_nonneg _).trans (h2 0 (Nat.zero_le _))
    positivity))

theorem kx_computed {rnd : ℝ → ℝ} {ρ K : ℝ} (hr : ∀ x, |rnd x - x| ≤ ρ * |x|) (hρ : 0 ≤ ρ) (hρ1 : ρ ≤ 1 / 100) (hK : 10 ≤ K) (hM : 2 ≤ M) {a b : ℝ}
    (hab : a ≠ b) : ∃ x ks, flConstructXKxRfft rnd (.int (2 * M : ℕ)) a b = .ok (x, ks) ∧ ks.length = M + 1 ∧
      ∀ i : Fin (M + 1), |ks.getD i 0 - waveNumbers M a b i| ≤ K * ρ * (1 + |waveNumbers M a b i|) := by
  obtain ⟨x, ks, e1, e2, e3⟩ := C84_kx_rfft hr hρ hρ1 (n := 2 * M) (by omega) (by omega) hab
  refine ⟨x, ks, e1, by omega, fun i => ?_⟩
  obtain ⟨k, k1, k2⟩ := e3 i (by omega)
  rw [List.getD_eq_getElem?_getD, k1, Option.getD_some]
  refine k2.trans ?_
  change 10 * ρ * |waveNumbers M a b i| ≤ _
  have := abs_nonneg (waveNumbers M a b i)
  calc 10 * ρ * |waveNumbers M a b i| ≤ K * ρ * |waveNumbers M a b i| := by gcongr
    _ ≤ K * ρ * (1 + |waveNumbers M a b i|) := by
      have : 0 ≤ K * ρ := by positivity
      nlinarith

/-- **C84.** The Korteweg–de Vries equation on `[a, b)` with `2 M ≥ 4` points, entirely in NumPy's arithmetic: `construct_x_kx_rfft`, `kdv_ops`, the
solver with the operator and the nonlinear function that they return, and `evolve`.  Assumed of the libraries: that transforms, exponentials and
inverses of matrices are accurate. -/
theorem C84_kdv_numpy (hM : 2 ≤ M) {a b : ℝ} (hab : a ≠ b) {g : Vec (Fin (M + 1)) → Vec (Fin (M + 1))}
    (hg : kdvNl (waveNumbers M a b) = total g) (m : CSSolver (Fin (M + 1))) (hop : m.op = .diag (kdvLin (waveNumbers M a b)))
    (hm : m.ClearContour 0) {t0 tf : ℝ} (ht : t0 < tf) {Y : ℝ → Vec (Fin (M + 1))} (hY : Solves m.op.mat g t0 tf Y) :
    ∃ (C η R : ℝ) (N0 : ℕ), 0 < η ∧ ∀ (N : ℕ) (rnd : ℝ → ℝ) (sum : List ℂ → ℂ) (F : FftLib) (La : LinAlg (Fin (M + 1))) (ρ h : ℝ) (u : Vec (Fin (M + 1))),
      N0 ≤ N → 0 ≤ ρ → (∀ x, |rnd x - x| ≤ ρ * |x|) → (∀ l, SumsTo rnd l (sum l)) → F.Within (2 * M) ρ R → La.Within ρ R → 0 < h → h < η →
      N * ρ + (1 / 2) ^ N ≤ η * h → ‖u - Y t0‖ ≤ η →
      ∃ xs ks, flConstructXKxRfft rnd (.int (2 * M : ℕ)) a b = .ok (xs, ks) ∧ ks.length = M + 1 ∧
      ∀ m', m' = m.withLinOp (.diag (flKdvLin (CArith.numpy rnd sum) (RArith.numpy rnd) fun i => ks.getD i 0)) →
      ∀ (pyDiv storeData : Bool) (freq : ℤ) (s : (m'.withPoints N).RSt) (fuel : ℕ), (pyDiv = true → tf ≠ 0) →
        freq ≠ 0 → 2 * (tf - t0) / h + 1 < fuel →
        CSSolver.RunNear ((m'.withPoints N).fpEvolve (CSSolver.flEnv _ (Arith.numpy rnd) (CArith.numpy rnd sum) La)
          (flKdvNl (CArith.numpy rnd sum) (RArith.numpy rnd) F fun i => ks.getD i 0) rnd pyDiv fuel u t0 tf h storeData freq s) Y tf h
          (C * (‖u - Y t0‖ + h ^ 4 + (N * ρ + (1 / 2) ^ N) / h)) := by
  have hM0 : M ≠ 0 := by omega
  obtain ⟨C, η, R, N0, hη, h1⟩ := C84_kdv_evolve hM0 (waveNumbers M a b) hg m hop hm ht hY
  obtain ⟨g', hg', hs⟩ := C59_kdv_smooth hM0 (waveNumbers M a b)
  obtain ⟨K', hK', hacc⟩ := numpy_accurate (f := g') (hs.of_le (by exact_mod_cast le_top)) R
  set K := max K' 120 with hK
  have hK120 : 120 ≤ K := le_max_right _ _
  refine ⟨|C| * K, min (min η (1 / 100)) (η / K), R, N0 + 1, lt_min (lt_min hη (by norm_num)) (by positivity),
    fun N rnd sum F La ρ h u hN hρ hr hsum hF hLa h0 hh hg hu => ?_⟩
  have m1 : min (min η (1 / 100)) (η / K) ≤ η := (min_le_left _ _).trans (min_le_left _ _)
  have m2 : min (min η (1 / 100)) (η / K) ≤ 1 / 100 := (min_le_left _ _).trans (min_le_right _ _)
  have e1 : h < η := hh.trans_le m1
  have e2 : h < 1 / 100 := hh.trans_le m2
  have hN1 : (1 : ℝ) ≤ N := by exact_mod_cast (show 1 ≤ N by omega)
  have hpow : (0 : ℝ) ≤ (1 / 2) ^ N := by positivity
  have hρ1 : ρ ≤ 1 / 100 := by
    have h3 : min (min η (1 / 100)) (η / K) * h ≤ 1 / 100 * h := mul_le_mul_of_nonneg_right m2 h0.le
    nlinarith
  have hg' : N * (K * ρ) + (1 / 2) ^ N ≤ K * (N * ρ + (1 / 2) ^ N) := by nlinarith
  have e3 : N * (K * ρ) + (1 / 2) ^ N ≤ η * h := by
    have h2 : N * ρ + (1 / 2) ^ N ≤ η / K * h := hg.trans (mul_le_mul_of_nonneg_right (min_le_right _ _) h0.le)
    rw [div_mul_eq_mul_div, le_div_iff₀ (by linarith)] at h2
    linarith
  have hle : ρ ≤ K * ρ := le_mul_of_one_le_left hρ (by linarith)
  obtain ⟨xs, ks, k1, k2, k3⟩ := kx_computed hr hρ hρ1 (show 10 ≤ K by linarith) hM hab
  refine ⟨xs, ks, k1, k2, fun m' hm' pyDiv storeData freq s fuel hp hfr hfu => ?_⟩
  subst hm'
  have q := h1 N (Arith.numpy rnd) (CArith.numpy rnd sum) (RArith.numpy rnd) F La rnd (K * ρ) h u _ (by omega) (by positivity) k3
    ((hacc rnd ρ hρ (by linarith) hr).1.of_le (mul_le_mul_of_nonneg_right (le_max_left _ _) hρ))
    ((CArith.numpy_within hr hρ (by linarith) hsum _).of_le (mul_le_mul_of_nonneg_right hK120 hρ))
    ((RArith.numpy_within hr hρ R).of_le hle) (hF.of_le hle) (hLa.of_le hle)
    (fun x => (hr x).trans (mul_le_mul_of_nonneg_right hle (abs_nonneg x))) h0 e1 e3 (hu.trans m1) pyDiv storeData freq s fuel hp hfr hfu
  have d0 := norm_nonneg (u - Y t0)
  have d1 : ‖u - Y t0‖ + h ^ 4 + (N * (K * ρ) + (1 / 2) ^ N) / h ≤ K * (‖u - Y t0‖ + h ^ 4 + (N * ρ + (1 / 2) ^ N) / h) := by
    have h2 : (N * (K * ρ) + (1 / 2) ^ N) / h ≤ K * (N * ρ + (1 / 2) ^ N) / h := div_le_div_of_nonneg_right hg' h0.le
    have h3 : h ^ 4 ≤ K * h ^ 4 := le_mul_of_one_le_left (by positivity) (by linarith)
    have h4 := le_mul_of_one_le_left d0 (show 1 ≤ K by linarith)
    rw [mul_div_assoc] at h2
    linarith
  have d2 : 0 ≤ ‖u - Y t0‖ + h ^ 4 + (N * (K * ρ) + (1 / 2) ^ N) / h := by positivity
  have d3 : C * (‖u - Y t0‖ + h ^ 4 + (N * (K * ρ) + (1 / 2) ^ N) / h) ≤ |C| * K * (‖u - Y t0‖ + h ^ 4 + (N * ρ + (1 / 2) ^ N) / h) := by
    rw [mul_assoc]
    exact (mul_le_mul_of_nonneg_right (le_abs_self C) d2).trans (mul_le_mul_of_nonneg_left d1 (abs_nonneg C))
  obtain ⟨⟨v, hv, he⟩, hst, hl, hsto⟩ := q
  exact ⟨⟨v, hv, he.trans d3⟩, hst, hl, fun p hp => (hsto p hp).trans d3⟩

/-- **C84.** The Burgers equation, entirely in NumPy's arithmetic. -/
theorem C84_burgers_numpy (hM : 2 ≤ M) {a b : ℝ} (hab : a ≠ b) (mu : ℝ) {g : Vec (Fin (M + 1)) → Vec (Fin (M + 1))}
    (hg : burgersNl (waveNumbers M a b) = total g) (m : CSSolver (Fin (M + 1))) (hop : m.op = .diag (burgersLin (waveNumbers M a b) mu))
    (hm : m.ClearContour 0) {t0 tf : ℝ} (ht : t0 < tf) {Y : ℝ → Vec (Fin (M + 1))} (hY : Solves m.op.mat g t0 tf Y) :
    ∃ (C η R : ℝ) (N0 : ℕ), 0 < η ∧ ∀ (N : ℕ) (rnd : ℝ → ℝ) (sum : List ℂ → ℂ) (F : FftLib) (La : LinAlg (Fin (M + 1))) (ρ h : ℝ) (u : Vec (Fin (M + 1))),
      N0 ≤ N → 0 ≤ ρ → (∀ x, |rnd x - x| ≤ ρ * |x|) → (∀ l, SumsTo rnd l (sum l)) → F.Within (2 * M) ρ R → La.Within ρ R → 0 < h → h < η →
      N * ρ + (1 / 2) ^ N ≤ η * h → ‖u - Y t0‖ ≤ η →
      ∃ xs ks, flConstructXKxRfft rnd (.int (2 * M : ℕ)) a b = .ok (xs, ks) ∧ ks.length = M + 1 ∧
      ∀ m', m' = m.withLinOp (.diag (flBurgersLin (RArith.numpy rnd) (fun i => ks.getD i 0) mu)) →
      ∀ (pyDiv storeData : Bool) (freq : ℤ) (s : (m'.withPoints N).RSt) (fuel : ℕ), (pyDiv = true → tf ≠ 0) →
        freq ≠ 0 → 2 * (tf - t0) / h + 1 < fuel →
        CSSolver.RunNear ((m'.withPoints N).fpEvolve (CSSolver.flEnv _ (Arith.numpy rnd) (CArith.numpy rnd sum) La)
          (flBurgersNl (CArith.numpy rnd sum) (RArith.numpy rnd) F fun i => ks.getD i 0) rnd pyDiv fuel u t0 tf h storeData freq s) Y tf h
          (C * (‖u - Y t0‖ + h ^ 4 + (N * ρ + (1 / 2) ^ N) / h)) := by
  have hM0 : M ≠ 0 := by omega
  obtain ⟨C, η, R, N0, hη, h1⟩ := C84_burgers_evolve hM0 (waveNumbers M a b) mu hg m hop hm ht hY
  obtain ⟨g', hg', hs⟩ := C59_burgers_smooth hM0 (waveNumbers M a b)
  obtain ⟨K', hK', hacc⟩ := numpy_accurate (f := g') (hs.of_le (by exact_mod_cast le_top)) R
  set K := max K' 120 with hK
  have hK120 : 120 ≤ K := le_max_right _ _
  refine ⟨|C| * K, min (min η (1 / 100)) (η / K), R, N0 + 1, lt_min (lt_min hη (by norm_num)) (by positivity),
    fun N rnd sum F La ρ h u hN hρ hr hsum hF hLa h0 hh hg hu => ?_⟩
  have m1 : min (min η (1 / 100)) (η / K) ≤ η := (min_le_left _ _).trans (min_le_left _ _)
  have m2 : min (min η (1 / 100)) (η / K) ≤ 1 / 100 := (min_le_left _ _).trans (min_le_right _ _)
  have e1 : h < η := hh.trans_le m1
  have e2 : h < 1 / 100 := hh.trans_le m2
  have hN1 : (1 : ℝ) ≤ N := by exact_mod_cast (show 1 ≤ N by omega)
  have hpow : (0 : ℝ) ≤ (1 / 2) ^ N := by positivity
  have hρ1 : ρ ≤ 1 / 100 := by
    have h3 : min (min η (1 / 100)) (η / K) * h ≤ 1 / 100 * h := mul_le_mul_of_nonneg_right m2 h0.le
    nlinarith
  have hg' : N * (K * ρ) + (1 / 2) ^ N ≤ K * (N * ρ + (1 / 2) ^ N) := by nlinarith
  have e3 : N * (K * ρ) + (1 / 2) ^ N ≤ η * h := by
    have h2 : N * ρ + (1 / 2) ^ N ≤ η / K * h := hg.trans (mul_le_mul_of_nonneg_right (min_le_right _ _) h0.le)
    rw [div_mul_eq_mul_div, le_div_iff₀ (by linarith)] at h2
    linarith
  have hle : ρ ≤ K * ρ := le_mul_of_one_le_left hρ (by linarith)
  obtain ⟨xs, ks, k1, k2, k3⟩ := kx_computed hr hρ hρ1 (show 10 ≤ K by linarith) hM hab
  refine ⟨xs, ks, k1, k2, fun m' hm' pyDiv storeData freq s fuel hp hfr hfu => ?_⟩
  subst hm'
  have q := h1 N (Arith.numpy rnd) (CArith.numpy rnd sum) (RArith.numpy rnd) F La rnd (K * ρ) h u _ (by omega) (by positivity) k3
    ((hacc rnd ρ hρ (by linarith) hr).1.of_le (mul_le_mul_of_nonneg_right (le_max_left _ _) hρ))
    ((CArith.numpy_within hr hρ (by linarith) hsum _).of_le (mul_le_mul_of_nonneg_right hK120 hρ))
    ((RArith.numpy_within hr hρ R).of_le hle) (hF.of_le hle) (hLa.of_le hle)
    (fun x => (hr x).trans (mul_le_mul_of_nonneg_right hle (abs_nonneg x))) h0 e1 e3 (hu.trans m1) pyDiv storeData freq s fuel hp hfr hfu
  have d0 := norm_nonneg (u - Y t0)
  have d1 : ‖u - Y t0‖ + h ^ 4 + (N * (K * ρ) + (1 / 2) ^ N) / h ≤ K * (‖u - Y t0‖ + h ^ 4 + (N * ρ + (1 / 2) ^ N) / h) := by
    have h2 : (N * (K * ρ) + (1 / 2) ^ N) / h ≤ K * (N * ρ + (1 / 2) ^ N) / h := div_le_div_of_nonneg_right hg' h0.le
    have h3 : h ^ 4 ≤ K * h ^ 4 := le_mul_of_one_le_left (by positivity) (by linarith)
    have h4 := le_mul_of_one_le_left d0 (show 1 ≤ K by linarith)
    rw [mul_div_assoc] at h2
    linarith
  have d2 : 0 ≤ ‖u - Y t0‖ + h ^ 4 + (N * (K * ρ) + (1 / 2) ^ N) / h := by positivity
  have d3 : C * (‖u - Y t0‖ + h ^ 4 + (N * (K * ρ) + (1 / 2) ^ N) / h) ≤ |C| * K * (‖u - Y t0‖ + h ^ 4 + (N * ρ + (1 / 2) ^ N) / h) := by
    rw [mul_assoc]
    exact (mul_le_mul_of_nonneg_right (le_abs_self C) d2).trans (mul_le_mul_of_nonneg_left d1 (abs_nonneg C))
  obtain ⟨⟨v, hv, he⟩, hst, hl, hsto⟩ := q
  exact ⟨⟨v, hv, he.trans d3⟩, hst, hl, fun p hp => (hsto p hp).trans d3⟩

/-! ### Cases -/

/-- Too large by `ρ / 2`. -/
noncomputable abbrev tooLarge (ρ x : ℝ) : ℝ := (1 + ρ / 2) * x

theorem tooLarge_error {ρ : ℝ} (hρ : 0 ≤ ρ) (x : ℝ) : |tooLarge ρ x - x| ≤ ρ / 2 * |x| := le_of_eq (by
  rw [show tooLarge ρ x - x = ρ / 2 * x by unfold tooLarge; ring, abs_mul, abs_of_nonneg (by linarith)])

theorem tooLarge_error' {ρ : ℝ} (hρ : 0 ≤ ρ) (x : ℝ) : |tooLarge ρ x - x| ≤ ρ * |x| :=
  (tooLarge_error hρ x).trans (mul_le_mul_of_nonneg_right (by linarith) (abs_nonneg x))

/-- KdV on `[0, 2π)` with four points from any spectrum, ETD4 with the default contour, every real operation with the relative error `ρ / 2`. -/
example (u0 : Vec (Fin 3)) : ∃ T > (0 : ℝ), ∀ tf, 0 < tf → tf ≤ T → ∃ (η : ℝ) (N0 : ℕ), 0 < η ∧ ∀ (N : ℕ) (ρ h : ℝ), N0 ≤ N → 0 < ρ → 0 < h → h < η →
    N * ρ + (1 / 2) ^ N ≤ η * h →
    ∃ xs ks, flConstructXKxRfft (tooLarge ρ) (.int 4) 0 (2 * Real.pi) = .ok (xs, ks) ∧ ∃ v,
      (((CSSolver.etd4 ⟨1 / 100, 32, 1⟩ (.diag (flKdvLin (CArith.numpy (tooLarge ρ) (seqSum (tooLarge ρ))) (RArith.numpy (tooLarge ρ))
        fun i : Fin 3 => ks.getD i 0))).withPoints N).fpEvolve
        (CSSolver.flEnv _ (Arith.numpy (tooLarge ρ)) (CArith.numpy (tooLarge ρ) (seqSum (tooLarge ρ))) (LinAlg.rounded (tooLarge ρ)))
        (flKdvNl (CArith.numpy (tooLarge ρ) (seqSum (tooLarge ρ))) (RArith.numpy (tooLarge ρ)) (FftLib.rounded (tooLarge ρ)) fun i => ks.getD i 0)
        (tooLarge ρ) true (⌈2 * (tf - 0) / h + 1⌉₊ + 1) u0 0 tf h true 1 (CSSolver.fpNew _)).1 = .ok (some v) := by
  obtain ⟨g, hg, hs⟩ := C59_kdv_smooth (M := 2) two_ne_zero (waveNumbers 2 0 (2 * Real.pi))
  obtain ⟨T, hT, Y, h0, hY⟩ := C59_solution (Matrix.diagonal (kdvLin (waveNumbers 2 0 (2 * Real.pi)))) hs u0 0
  refine ⟨T, hT, fun tf ht hle => ?_⟩
  obtain ⟨C, η, R, N0, hη, h1⟩ := C84_kdv_numpy (M := 2) le_rfl (a := 0) (b := 2 * Real.pi) (by positivity) hg
    (.etd4 ⟨1 / 100, 32, 1⟩ (.diag (kdvLin (waveNumbers 2 0 (2 * Real.pi))))) rfl (by constructor <;> norm_num) ht (hY tf hle)
  refine ⟨η, N0, hη, fun N ρ h hN hρ hh hh1 hg => ?_⟩
  obtain ⟨xs, ks, e, -, h2⟩ := h1 N (tooLarge ρ) (seqSum (tooLarge ρ)) (FftLib.rounded (tooLarge ρ)) (LinAlg.rounded (tooLarge ρ)) ρ h u0 hN hρ.le
    (tooLarge_error' hρ.le) (seqSum_sumsTo _) ((FftLib.rounded_within (tooLarge_error hρ.le) (by positivity) (by norm_num) R).of_le (by linarith))
    ((LinAlg.rounded_within (tooLarge_error hρ.le) (by positivity) R).of_le (by linarith)) hh hh1 hg (by rw [h0, sub_self, norm_zero]; exact hη.le)
  obtain ⟨⟨v, hv, -⟩, -⟩ := h2 _ rfl true true 1 (CSSolver.fpNew _) (⌈2 * (tf - 0) / h + 1⌉₊ + 1) (fun _ => ht.ne') one_ne_zero
    (by push_cast; linarith [Nat.le_ceil (2 * (tf - 0) / h + 1)])
  exact ⟨xs, ks, e, v, hv⟩

/-- Burgers with viscosity `1/100` and IF4; the times that were recorded are as many as the states. -/
example (u0 : Vec (Fin 5)) : ∃ T > (0 : ℝ), ∀ tf, 0 < tf → tf ≤ T → ∃ (η : ℝ) (N0 : ℕ), 0 < η ∧ ∀ (N : ℕ) (ρ h : ℝ), N0 ≤ N → 0 < ρ → 0 < h → h < η →
    N * ρ + (1 / 2) ^ N ≤ η * h →
    ∃ xs ks, flConstructXKxRfft (tooLarge ρ) (.int 8) (-1) 1 = .ok (xs, ks) ∧ ∃ v,
      (((CSSolver.if4 (.diag (flBurgersLin (RArith.numpy (tooLarge ρ)) (fun i : Fin 5 => ks.getD i 0) (1 / 100)))).withPoints N).fpEvolve
        (CSSolver.flEnv _ (Arith.numpy (tooLarge ρ)) (CArith.numpy (tooLarge ρ) (seqSum (tooLarge ρ))) (LinAlg.rounded (tooLarge ρ)))
        (flBurgersNl (CArith.numpy (tooLarge ρ) (seqSum (tooLarge ρ))) (RArith.numpy (tooLarge ρ)) (FftLib.rounded (tooLarge ρ)) fun i => ks.getD i 0)
        (tooLarge ρ) true (⌈2 * (tf - 0) / h + 1⌉₊ + 1) u0 0 tf h true 1 (CSSolver.fpNew _)).1 = .ok (some v) := by
  obtain ⟨g, hg, hs⟩ := C59_burgers_smooth (M := 4) four_ne_zero (waveNumbers 4 (-1) 1)
  obtain ⟨T, hT, Y, h0, hY⟩ := C59_solution (Matrix.diagonal (burgersLin (waveNumbers 4 (-1) 1) (1 / 100))) hs u0 0
  refine ⟨T, hT, fun tf ht hle => ?_⟩
  obtain ⟨C, η, R, N0, hη, h1⟩ := C84_burgers_numpy (M := 4) (by norm_num) (a := -1) (b := 1) (by norm_num) (1 / 100) hg
    (.if4 (.diag (burgersLin (waveNumbers 4 (-1) 1) (1 / 100)))) rfl trivial ht (hY tf hle)
  refine ⟨η, N0, hη, fun N ρ h hN hρ hh hh1 hg => ?_⟩
  obtain ⟨xs, ks, e, -, h2⟩ := h1 N (tooLarge ρ) (seqSum (tooLarge ρ)) (FftLib.rounded (tooLarge ρ)) (LinAlg.rounded (tooLarge ρ)) ρ h u0 hN hρ.le
    (tooLarge_error' hρ.le) (seqSum_sumsTo _) ((FftLib.rounded_within (tooLarge_error hρ.le) (by positivity) (by norm_num) R).of_le (by linarith))
    ((LinAlg.rounded_within (tooLarge_error hρ.le) (by positivity) R).of_le (by linarith)) hh hh1 hg (by rw [h0, sub_self, norm_zero]; exact hη.le)
  obtain ⟨⟨v, hv, -⟩, -⟩ := h2 _ rfl true true 1 (CSSolver.fpNew _) (⌈2 * (tf - 0) / h + 1⌉₊ + 1) (fun _ => ht.ne') one_ne_zero
    (by push_cast; linarith [Nat.le_ceil (2 * (tf - 0) / h + 1)])
  exact ⟨xs, ks, e, v, hv⟩

/-- The operators and functions of `kdv_ops` in double precision, with the computed wavenumbers, are within a constant times the unit roundoff
of the exact ones on every ball. -/
example (b : ℝ) : ∃ (K : ℝ) (g : Vec (Fin 3) → Vec (Fin 3)), kdvNl (waveNumbers 2 0 1) = total g ∧ ∀ x ks, flConstructXKxRfft rnd64 (.int 4) 0 1 = .ok (x, ks) →
    ‖flKdvLin A64 B64 (fun i : Fin 3 => ks.getD i 0) - kdvLin (waveNumbers 2 0 1)‖ ≤ K * (120 * (1 / 2 ^ 53)) ∧
    NlNear (flKdvNl A64 B64 F64 fun i : Fin 3 => ks.getD i 0) g (K * (120 * (1 / 2 ^ 53))) b := by
  obtain ⟨g, hg, -⟩ := C59_kdv_smooth (M := 2) two_ne_zero (waveNumbers 2 0 1)
  obtain ⟨K, R, hK, h⟩ := C84_kdv_problem two_ne_zero (waveNumbers 2 0 1) b hg
  refine ⟨K, g, hg, fun x ks e => ?_⟩
  obtain ⟨x', ks', e', -, hk⟩ := kx_computed (M := 2) (K := 120) rnd64_error (by positivity) (by norm_num) (by norm_num) le_rfl (zero_ne_one (α := ℝ))
  obtain ⟨rfl, rfl⟩ : x = x' ∧ ks = ks' := by
    have := e.symm.trans e'
    simpa using this
  exact h A64 B64 F64 _ _ (by positivity) (by norm_num) (A64_within _) (B64_within _) (F64_within (by norm_num) _) hk

/-- The second-order differentiation matrix on three nodes. -/
noncomputable abbrev d3 : Matrix (Fin 3) (Fin 3) ℝ := !![3 / 2, -2, 1 / 2; 1 / 2, 0, -1 / 2; -1 / 2, 2, -3 / 2]

theorem d3_sq : d3 * d3 = !![1, -2, 1; 1, -2, 1; 1, -2, 1] := by
  ext i j; fin_cases i <;> fin_cases j <;> simp [Matrix.mul_apply, Fin.sum_univ_succ] <;> norm_num

theorem d3_le (i j : Fin 3) : |(d3 * d3) i j| ≤ 2 := by
  rw [d3_sq]; fin_cases i <;> fin_cases j <;> norm_num

/-- Allen–Cahn with one interior node: grid and matrix too large by `ρ / 2`, as is every result. -/
example (u0 : Vec (Fin 1)) : ∃ T > (0 : ℝ), ∀ tf, 0 < tf → tf ≤ T → ∃ (η : ℝ) (N0 : ℕ), 0 < η ∧ ∀ (N : ℕ) (ρ h : ℝ), N0 ≤ N → 0 < ρ → ρ ≤ 1 / 120 → 0 < h → h < η →
    N * (120 * ρ) + (1 / 2) ^ N ≤ η * h →
    ∃ v, (((CSSolver.etd5 ⟨1 / 100, 32, 1⟩ (.full ((flAllenCahnLin (k := 1) (RArith.numpy (tooLarge ρ)) ((d3 * d3).map (tooLarge ρ)) (1 / 100)).map
        fun r => (r : ℂ)))).withPoints N).fpEvolve
        (CSSolver.flEnv _ (Arith.numpy (tooLarge ρ)) (CArith.numpy (tooLarge ρ) (seqSum (tooLarge ρ))) (LinAlg.rounded (tooLarge ρ)))
        (flAllenCahnNl (k := 1) (CArith.numpy (tooLarge ρ) (seqSum (tooLarge ρ))) fun i => tooLarge ρ (![1, 0, -1] i))
        (tooLarge ρ) true (⌈2 * (tf - 0) / h + 1⌉₊ + 1) u0 0 tf h true 1 (CSSolver.fpNew _)).1 = .ok (some v) := by
  obtain ⟨g, hg, hs⟩ := C59_allen_cahn_smooth (k := 1) ![1, 0, -1]
  obtain ⟨T, hT, Y, h0, hY⟩ := C59_solution ((allenCahnLin (k := 1) d3 (1 / 100)).map fun r => (r : ℂ)) hs u0 0
  refine ⟨T, hT, fun tf ht hle => ?_⟩
  obtain ⟨C, η, R, N0, hη, h1⟩ := C84_allen_cahn_evolve (k := 1) d3 ![1, 0, -1] (1 / 100) d3_le hg
    (.etd5 ⟨1 / 100, 32, 1⟩ (.full ((allenCahnLin (k := 1) d3 (1 / 100)).map fun r => (r : ℂ)))) rfl ⟨by norm_num, fun μ _ => by norm_num⟩ ht (hY tf hle)
  refine ⟨η, N0, hη, fun N ρ h hN hρ hρ1 hh hh1 hgap => ?_⟩
  obtain ⟨⟨v, hv, -⟩, -⟩ := h1 N (Arith.numpy (tooLarge ρ)) (CArith.numpy (tooLarge ρ) (seqSum (tooLarge ρ))) (RArith.numpy (tooLarge ρ))
    (LinAlg.rounded (tooLarge ρ)) (tooLarge ρ) (120 * ρ) h u0 (fun i => tooLarge ρ (![1, 0, -1] i)) ((d3 * d3).map (tooLarge ρ)) hN (by positivity)
    (fun i => (tooLarge_error' hρ.le _).trans (by nlinarith [abs_nonneg ((![1, 0, -1] : Fin 3 → ℝ) i)]))
    (fun i j => (tooLarge_error' hρ.le _).trans (by nlinarith [d3_le i j, abs_nonneg ((d3 * d3) i j)]))
    ((Arith.numpy_within (tooLarge_error' hρ.le) hρ.le (by linarith) R).of_le (mul_le_mul_of_nonneg_right (by simp [dotFactor]; norm_num) hρ.le))
    (CArith.numpy_within (tooLarge_error' hρ.le) hρ.le (by linarith) (seqSum_sumsTo _) _)
    ((RArith.numpy_within (tooLarge_error' hρ.le) hρ.le R).of_le (by linarith))
    ((LinAlg.rounded_within (tooLarge_error hρ.le) (by positivity) R).of_le (by linarith))
    (fun x => (tooLarge_error' hρ.le x).trans (by nlinarith [mul_nonneg hρ.le (abs_nonneg x)])) hh hh1
    hgap (by rw [h0, sub_self, norm_zero]; exact hη.le) true true 1 (CSSolver.fpNew _)
    (⌈2 * (tf - 0) / h + 1⌉₊ + 1) (fun _ => ht.ne') one_ne_zero (by push_cast; linarith [Nat.le_ceil (2 * (tf - 0) / h + 1)])
  exact ⟨v, hv⟩

/-- Adaptive runs of IF45DP for KdV in double precision, for any of its wavenumbers. -/
example (u0 : Vec (Fin 3)) (kx : Fin 3 → ℝ) : ∃ T > (0 : ℝ), ∃ Y : ℝ → Vec (Fin 3), Y 0 = u0 ∧ ∃ (C η : ℝ) (N0 : ℕ), 0 < η ∧ ∀ N, N0 ≤ N →
    ∀ (fac : SolverConfig ℝ → Vec (Fin 3) → Vec (Fin 3) → Ext ℝ) (fuel : ℕ), ∀ r, r = ((ASSolver.if45dp (flKdvLin A64 B64 kx)).withPoints N).fpEvolve
      (ASSolver.flEnv _ (Arith.numpy rnd64) A64 (LinAlg.rounded rnd64)) fac (flKdvNl A64 B64 F64 kx) rnd64 true ⟨1 / 10000, 5 / 4, 17 / 20, 4 / 5, 1 / 100, 1 / 10 ^ 16⟩
      fuel u0 0 T none true 1 (ASSolver.fpNew _) → r.2.t.IsChain (fun a b => b - a ≤ η / 2) →
      r.2.t.length * ((N : ℝ) * (1000 * (1 / 2 ^ 53)) + (1 / 2) ^ N) ≤ η →
      (N : ℝ) * (1000 * (1 / 2 ^ 53)) + (1 / 2) ^ N ≤ η * (η / 2) →
      ASSolver.RunNear r Y T (C * (‖u0 - Y 0‖ + (η / 2) ^ 5 + r.2.t.length * (N * (1000 * (1 / 2 ^ 53)) + (1 / 2) ^ N))) := by
  obtain ⟨g, hg, hs⟩ := C59_kdv_smooth (M := 2) two_ne_zero kx
  obtain ⟨T, hT, Y, h0, hY⟩ := C59_solution (Matrix.diagonal (kdvLin kx)) hs u0 0
  obtain ⟨C, η, R, N0, hη, h1⟩ := C84_kdv_stored (M := 2) two_ne_zero kx hg (.if45dp (kdvLin kx)) rfl trivial hT.le (hY T le_rfl)
  refine ⟨T, hT, Y, h0, C, η, N0, hη, fun N hN fac fuel r hr hc hl hg => ?_⟩
  have hle : (120 : ℝ) * (1 / 2 ^ 53) ≤ 1000 * (1 / 2 ^ 53) := by norm_num
  exact h1 N (Arith.numpy rnd64) A64 B64 F64 (LinAlg.rounded rnd64) fac rnd64 (1000 * (1 / 2 ^ 53)) u0 kx hN (by positivity)
    (fun i => by rw [sub_self, abs_zero]; positivity)
    ((Arith.numpy_within rnd64_error (by positivity) (by norm_num) R).of_le (by simp [dotFactor]; norm_num))
    ((A64_within _).of_le hle) ((B64_within _).of_le hle) ((F64_within (by norm_num) _).of_le hle) ((LinAlg.rounded_within rnd64_error (by positivity) R).of_le (by norm_num))
    (fun x => (rnd64_error x).trans (mul_le_mul_of_nonneg_right (by norm_num) (abs_nonneg x))) (by rw [h0, sub_self, norm_zero]; exact hη.le)
    _ none true _ fuel (by norm_num) (by simp) (η / 2) hg (by linarith) (by linarith) r hr hc hl

/-- Burgers and Allen–Cahn in double precision, with other wavenumbers and nodes than the exact ones. -/
example (b : ℝ) : ∃ (K : ℝ) (g : Vec (Fin 3) → Vec (Fin 3)), burgersNl ![0, 1, 2] = total g ∧ NlNear (flBurgersNl A64 B64 F64 ![0, 1, 2 + 1 / 2 ^ 50]) g K b := by
  obtain ⟨g, hg, -⟩ := C59_burgers_smooth (M := 2) two_ne_zero ![0, 1, 2]
  obtain ⟨K, R, hK, h⟩ := C84_burgers_problem two_ne_zero ![0, 1, 2] (1 / 100) b hg
  refine ⟨_, g, hg, (h A64 B64 F64 (120 * (1 / 2 ^ 53)) _ (by positivity) (by norm_num) (A64_within _) (B64_within _) (F64_within (by norm_num) _) ?_).2⟩
  intro m
  fin_cases m <;> norm_num [abs_of_pos]

example (b : ℝ) : ∃ (K : ℝ) (g : Vec (Fin 1) → Vec (Fin 1)), allenCahnNl (k := 1) ![1, 0, -1] = total g ∧
    NlNear (flAllenCahnNl (k := 1) A64 ![1, 1 / 2 ^ 50, -1]) g K b := by
  obtain ⟨g, hg, -⟩ := C59_allen_cahn_smooth (k := 1) ![1, 0, -1]
  obtain ⟨K, R, hK, h⟩ := C84_allen_cahn_problem (k := 1) d3 ![1, 0, -1] (1 / 100) b d3_le hg
  refine ⟨_, g, hg, (h A64 B64 (120 * (1 / 2 ^ 53)) _ (d3 * d3) (by positivity) (by norm_num) (A64_within _) (B64_within _) ?_ ?_).2⟩
  · intro m
    fin_cases m <;> norm_num [abs_of_pos]
  · intro i j
    rw [sub_self, abs_zero]
    positivity

/-- The logistic equation with the operator `-1 + ρ` in the place of `-1`. -/
example : ∃ (η : ℝ) (N0 : ℕ), 0 < η ∧ ∀ (N : ℕ) (ρ h : ℝ), N0 ≤ N → 0 < ρ → ρ ≤ 1 → 0 < h → h < η → N * (1000 * ρ) + (1 / 2) ^ N ≤ η * h → ρ ≤ 1 / 14 →
    ∃ v, (((CSSolver.etd4 ⟨1 / 100, 32, 1⟩ (.diag ![-1 + (ρ : ℂ)])).withPoints N).fpEvolve
      (CSSolver.flEnv _ (Arith.numpy (tooLarge ρ)) (CArith.numpy (tooLarge ρ) (seqSum (tooLarge ρ))) (LinAlg.rounded (tooLarge ρ)))
      (total logisticN) (tooLarge ρ) true (⌈2 * (2 - 0) / h + 1⌉₊ + 1) (logisticY 0) 0 2 h true 1 (CSSolver.fpNew _)).1 = .ok (some v) := by
  obtain ⟨C, η, R, N0, hη, h1⟩ := C84_evolve (.etd4 ⟨1 / 100, 32, 1⟩ (.diag ![-1])) (by constructor <;> norm_num) logisticN_smooth
    (show (0 : ℝ) < 2 by norm_num) (logistic_solves 0 2)
  refine ⟨η, N0, hη, fun N ρ h hN hρ hρ1 h0 hh hg hρ2 => ?_⟩
  obtain ⟨⟨v, hv, -⟩, -⟩ := h1 (.etd4 ⟨1 / 100, 32, 1⟩ (.diag ![-1 + (ρ : ℂ)])) N (Arith.numpy (tooLarge ρ)) (CArith.numpy (tooLarge ρ) (seqSum (tooLarge ρ)))
    (LinAlg.rounded (tooLarge ρ)) (total logisticN) (tooLarge ρ) (1000 * ρ) h (logisticY 0) hN (by positivity)
    (.etd4 (.diag ((pi_norm_le_iff_of_nonneg (by positivity)).2 fun i => by
      fin_cases i
      simp [abs_of_pos hρ]
      linarith)))
    ((Arith.numpy_within (tooLarge_error' hρ.le) hρ.le hρ1 R).of_le (mul_le_mul_of_nonneg_right (by simp [dotFactor]; norm_num) hρ.le))
    ((CArith.numpy_within (tooLarge_error' hρ.le) hρ.le hρ2 (seqSum_sumsTo _) _).of_le (by linarith))
    ((LinAlg.rounded_within (tooLarge_error hρ.le) (by positivity) R).of_le (by linarith))
    (fun v _ => ⟨_, rfl, by rw [sub_self, norm_zero]; positivity⟩)
    (fun x => (tooLarge_error' hρ.le x).trans (by nlinarith [mul_nonneg hρ.le (abs_nonneg x)])) h0 hh hg (by rw [sub_self, norm_zero]; exact hη.le)
    true true 1 (CSSolver.fpNew _) (⌈2 * (2 - 0) / h + 1⌉₊ + 1) (by norm_num) one_ne_zero (by push_cast; linarith [Nat.le_ceil (2 * (2 - 0) / h + 1)])
  exact ⟨v, hv⟩

end Verif
