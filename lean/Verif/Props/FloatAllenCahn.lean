import Verif.Props.FloatGrids

/-!
# C85: the Allen–Cahn equation in NumPy's arithmetic
-/

set_option linter.unusedSectionVars false

namespace Verif

open Matrix
open scoped ContDiff Matrix.Norms.Operator

/-- **C85.** The Allen–Cahn equation on `[a, b]` with `n + 3` Chebyshev points, entirely in NumPy's arithmetic: `construct_x_dx_cheb`,
`allen_cahn_ops` with the square of the matrix, the solver with the operator and the nonlinear function that it returns, and `evolve`. -/
theorem C85_allen_cahn_numpy (n : ℕ) {a b : ℝ} (hab : a ≠ b) {x : Fin (n + 2 + 1) → ℝ} {D : Matrix (Fin (n + 2 + 1)) (Fin (n + 2 + 1)) ℝ}
    (hD : constructXDxCheb (.int ((n : ℤ) + 2)) a b = .ok ⟨n + 2, x, D⟩) (eps : ℝ) {g : Vec (Fin (n + 1)) → Vec (Fin (n + 1))}
    (hg : allenCahnNl (k := n + 1) x = total g) (m : CSSolver (Fin (n + 1)))
    (hop : m.op = .full ((allenCahnLin (k := n + 1) D eps).map fun r => (r : ℂ))) (hm : m.ClearContour 0) {t0 tf : ℝ} (ht : t0 < tf)
    {Y : ℝ → Vec (Fin (n + 1))} (hY : Solves m.op.mat g t0 tf Y) :
    ∃ (C η R : ℝ) (N0 : ℕ), 0 < η ∧ ∀ (N : ℕ) (rnd : ℝ → ℝ) (sum : List ℂ → ℂ) (rsum : List ℝ → ℝ) (dot : List (ℝ × ℝ) → ℝ)
      (La : LinAlg (Fin (n + 1))) (ρ h : ℝ) (u : Vec (Fin (n + 1))),
      N0 ≤ N → RoundsTo rnd rsum dot ρ → (∀ l, SumsTo rnd l (sum l)) → La.Within ρ R → 0 < h → h < η →
      N * ρ + (1 / 2) ^ N ≤ η * h → ‖u - Y t0‖ ≤ η →
      ∃ x' D', flConstructXDxCheb rnd rsum (.int ((n : ℤ) + 2)) a b = .ok ⟨n + 2, x', D'⟩ ∧
      ∀ m', m' = m.withLinOp (.full ((flAllenCahnLin (k := n + 1) (RArith.numpy rnd) (flMatDot dot D' D') eps).map fun r => (r : ℂ))) →
      ∀ (pyDiv storeData : Bool) (freq : ℤ) (s : (m'.withPoints N).RSt) (fuel : ℕ), (pyDiv = true → tf ≠ 0) →
        freq ≠ 0 → 2 * (tf - t0) / h + 1 < fuel →
        CSSolver.RunNear ((m'.withPoints N).fpEvolve (CSSolver.flEnv _ (Arith.numpy rnd) (CArith.numpy rnd sum) La)
          (flAllenCahnNl (k := n + 1) (CArith.numpy rnd sum) x') rnd pyDiv fuel u t0 tf h storeData freq s) Y tf h
          (C * (‖u - Y t0‖ + h ^ 4 + (N * ρ + (1 / 2) ^ N) / h)) := by
  set d : ℝ := ∑ i, ∑ j, |(D * D) i j| with hd
  have hd0 : 0 ≤ d := Finset.sum_nonneg fun i _ => Finset.sum_nonneg fun j _ => abs_nonneg _
  have hdb : ∀ i j, |(D * D) i j| ≤ d := fun i j =>
    (Finset.single_le_sum (f := fun j => |(D * D) i j|) (fun j _ => abs_nonneg _) (Finset.mem_univ j)).trans
      (Finset.single_le_sum (f := fun i => ∑ j, |(D * D) i j|) (fun i _ => Finset.sum_nonneg fun j _ => abs_nonneg _) (Finset.mem_univ i))
  obtain ⟨C, η, R, N0, hη, h1⟩ := C84_allen_cahn_evolve (k := n + 1) D x eps hdb hg m hop hm ht hY
  obtain ⟨K0, δ, hK0, hδ, hgrid⟩ := C85_cheb n hab hD
  obtain ⟨g', hg', hs⟩ := C59_allen_cahn_smooth (k := n + 1) x
  obtain ⟨K', hK', hacc⟩ := numpy_accurate (f := g') (hs.of_le (by exact_mod_cast le_top)) R
  set K := max (max K' K0) 120 with hK
  have hK120 : 120 ≤ K := le_max_right _ _
  have hKK : K' ≤ K := (le_max_left _ _).trans (le_max_left _ _)
  have hKK0 : K0 ≤ K := (le_max_right _ _).trans (le_max_left _ _)
  set μ := min (min η (min (1 / 100) δ)) (η / K) with hμ
  have m1 : μ ≤ η := (min_le_left _ _).trans (min_le_left _ _)
  have m2 : μ ≤ 1 / 100 := (min_le_left _ _).trans ((min_le_right _ _).trans (min_le_left _ _))
  have m3 : μ ≤ δ := (min_le_left _ _).trans ((min_le_right _ _).trans (min_le_right _ _))
  have m4 : μ ≤ η / K := min_le_right _ _
  refine ⟨|C| * K, μ, R, N0 + 1, lt_min (lt_min hη (lt_min (by norm_num) hδ)) (by positivity),
    fun N rnd sum rsum dot La ρ h u hN hR hsum hLa h0 hh hg hu => ?_⟩
  have hρ := hR.nonneg
  have hr := hR.rnd
  have e1 : h < η := hh.trans_le m1
  have e2 : h < 1 / 100 := hh.trans_le m2
  have hN1 : (1 : ℝ) ≤ N := by exact_mod_cast (show 1 ≤ N by omega)
  have hpow : (0 : ℝ) ≤ (1 / 2) ^ N := by positivity
  have hNρ : ρ ≤ N * ρ := le_mul_of_one_le_left hρ hN1
  have hμ0 : 0 < μ := lt_min (lt_min hη (lt_min (by norm_num) hδ)) (by positivity)
  have hρμ : ρ ≤ μ := by nlinarith
  have hρ1 : ρ ≤ 1 / 100 := hρμ.trans m2
  have hg' : N * (K * ρ) + (1 / 2) ^ N ≤ K * (N * ρ + (1 / 2) ^ N) := by nlinarith
  have e3 : N * (K * ρ) + (1 / 2) ^ N ≤ η * h := by
    have h2 : N * ρ + (1 / 2) ^ N ≤ η / K * h := hg.trans (mul_le_mul_of_nonneg_right m4 h0.le)
    rw [div_mul_eq_mul_div, le_div_iff₀ (by linarith)] at h2
    linarith
  have hle : ρ ≤ K * ρ := le_mul_of_one_le_left hρ (by linarith)
  obtain ⟨x', D', k1, k2, -, k3⟩ := hgrid rnd rsum dot ρ hR (hρμ.trans m3)
  refine ⟨x', D', k1, fun m' hm' pyDiv storeData freq s fuel hp hfr hfu => ?_⟩
  subst hm'
  have hK0ρ : K0 * ρ ≤ K * ρ := mul_le_mul_of_nonneg_right hKK0 hρ
  have hKρ : 0 ≤ K * ρ := by positivity
  have q := h1 N (Arith.numpy rnd) (CArith.numpy rnd sum) (RArith.numpy rnd) La rnd (K * ρ) h u x' (flMatDot dot D' D') (by omega) (by positivity)
    (fun i => (k2 i).trans (by nlinarith [abs_nonneg (x i)])) (fun i j => (k3 i j).trans (by nlinarith))
    ((hacc rnd ρ hρ (by linarith) hr).1.of_le (mul_le_mul_of_nonneg_right hKK hρ))
    ((CArith.numpy_within hr hρ (by linarith) hsum _).of_le (mul_le_mul_of_nonneg_right hK120 hρ))
    ((RArith.numpy_within hr hρ R).of_le hle) (hLa.of_le hle)
    (fun x => (hr x).trans (mul_le_mul_of_nonneg_right hle (abs_nonneg x))) h0 e1 e3 (hu.trans m1) pyDiv storeData freq s fuel hp hfr hfu
  have d0 := norm_nonneg (u - Y t0)
  have d1 : ‖u - Y t0‖ + h ^ 4 + (N * (K * ρ) + (1 / 2) ^ N) / h ≤ K * (‖u - Y t0‖ + h ^ 4 + (N * ρ + (1 / 2) ^ N) / h) := by
    have h2 : (N * (K * ρ) + (1 / 2) ^ N) / h ≤ K * (N * ρ + (1 / 2) ^ N) / h := div_le_div_of_nonneg_right hg' h0.le
    have h3 : h ^ 4 ≤ K * h ^ 4 := le_mul_of_one_le_left (by positivity) (by linarith)
    have h4 := le_mul_of_one_le_left d0 (show 1 ≤ K by linarith)
    rw [mul_div_assoc] at h2
    linarith
  have d2 : 0 ≤ ‖u - Y t0‖ + h ^ 4 + (N * (K * ρ) + (1 / 2) ^ N) / h := by positivity
  have d3 : C * (‖u - Y t0‖ + h ^ 4 + (N * (K * ρ) + (1 / 2) ^ N) / h) ≤ |C| * K * (‖u - Y t0‖ + h ^ 4 + (N * ρ + (1 / 2) ^ N) / h) := by
    rw [mul_assoc]
    exact (mul_le_mul_of_nonneg_right (le_abs_self C) d2).trans (mul_le_mul_of_nonneg_left d1 (abs_nonneg C))
  obtain ⟨⟨v, hv, he⟩, hst, hl, hsto⟩ := q
  exact ⟨⟨v, hv, he.trans d3⟩, hst, hl, fun p hp => (hsto p hp).trans d3⟩

/-- Five points on `[-1, 1]` and ETD5, every real operation with the relative error `ρ / 2`. -/
example (u0 : Vec (Fin 3)) : ∃ T > (0 : ℝ), ∀ tf, 0 < tf → tf ≤ T → ∃ (η : ℝ) (N0 : ℕ), 0 < η ∧ ∀ (N : ℕ) (ρ h : ℝ), N0 ≤ N → 0 < ρ → 0 < h → h < η →
    N * ρ + (1 / 2) ^ N ≤ η * h →
    ∃ x' D', flConstructXDxCheb (tooLarge ρ) (realSum (seqSum (tooLarge ρ))) (.int 4) (-1) 1 = .ok ⟨4, x', D'⟩ ∧ ∃ v,
      (((CSSolver.etd5 ⟨1 / 100, 32, 1⟩ (.full ((flAllenCahnLin (k := 3) (RArith.numpy (tooLarge ρ))
        (flMatDot (roundedDot (tooLarge ρ) (realSum (seqSum (tooLarge ρ)))) D' D') (1 / 100)).map fun r => (r : ℂ)))).withPoints N).fpEvolve
        (CSSolver.flEnv _ (Arith.numpy (tooLarge ρ)) (CArith.numpy (tooLarge ρ) (seqSum (tooLarge ρ))) (LinAlg.rounded (tooLarge ρ)))
        (flAllenCahnNl (k := 3) (CArith.numpy (tooLarge ρ) (seqSum (tooLarge ρ))) x')
        (tooLarge ρ) true (⌈2 * (tf - 0) / h + 1⌉₊ + 1) u0 0 tf h true 1 (CSSolver.fpNew _)).1 = .ok (some v) := by
  obtain ⟨g, hg, hs⟩ := C59_allen_cahn_smooth (k := 3) (chebX 4 (-1) 1)
  obtain ⟨T, hT, Y, h0, hY⟩ := C59_solution ((allenCahnLin (k := 3) (chebD 4 (chebX 4 (-1) 1)) (1 / 100)).map fun r => (r : ℂ)) hs u0 0
  refine ⟨T, hT, fun tf ht hle => ?_⟩
  obtain ⟨C, η, R, N0, hη, h1⟩ := C85_allen_cahn_numpy 2 (a := -1) (b := 1) (by norm_num) (constructCheb_ok 2 (-1) 1) (1 / 100) hg
    (.etd5 ⟨1 / 100, 32, 1⟩ (.full ((allenCahnLin (k := 3) (chebD 4 (chebX 4 (-1) 1)) (1 / 100)).map fun r => (r : ℂ)))) rfl
    ⟨by norm_num, fun μ _ => by norm_num⟩ ht (hY tf hle)
  refine ⟨η, N0, hη, fun N ρ h hN hρ hh hh1 hg => ?_⟩
  obtain ⟨x', D', e, h2⟩ := h1 N (tooLarge ρ) (seqSum (tooLarge ρ)) _ _ (LinAlg.rounded (tooLarge ρ)) ρ h u0 hN (tooLarge_rounds hρ) (seqSum_sumsTo _)
    ((LinAlg.rounded_within (tooLarge_error hρ.le) (by positivity) R).of_le (by linarith)) hh hh1 hg (by rw [h0, sub_self, norm_zero]; exact hη.le)
  obtain ⟨⟨v, hv, -⟩, -⟩ := h2 _ rfl true true 1 (CSSolver.fpNew _) (⌈2 * (tf - 0) / h + 1⌉₊ + 1) (fun _ => ht.ne') one_ne_zero
    (by push_cast; linarith [Nat.le_ceil (2 * (tf - 0) / h + 1)])
  exact ⟨x', D', e, v, hv⟩

end Verif
