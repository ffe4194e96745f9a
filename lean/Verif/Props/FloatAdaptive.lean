import Verif.Props.FloatAllenCahn

/-!
# C84, C85: adaptive solvers of the model problems in NumPy's arithmetic
-/

set_option linter.unusedSectionVars false

namespace Verif

open Matrix
open scoped ContDiff Matrix.Norms.Operator

/-- What a bound in terms of `K ρ` instead of `ρ` asks for. -/
theorem scaled_roundoff {η K δ ρ H q : ℝ} {N : ℕ} (hη : 0 < η) (hK : 1 ≤ K) (hδ : 0 < δ) (hN : 1 ≤ N) (hρ : 0 ≤ ρ) (hq : 0 ≤ q) (hH0 : 0 < H)
    (hH : H < min (min η (min (1 / 100) δ)) (η / K)) (hg : N * ρ + q ≤ min (min η (min (1 / 100) δ)) (η / K) * H) :
    H < η ∧ ρ ≤ 1 / 100 ∧ ρ ≤ δ ∧ N * (K * ρ) + q ≤ η * H ∧ N * (K * ρ) + q ≤ K * (N * ρ + q) := by
  have hK0 : 0 < K := by linarith
  have hμ0 : 0 < min (min η (min (1 / 100) δ)) (η / K) := lt_min (lt_min hη (lt_min (by norm_num) hδ)) (by positivity)
  have m1 : min (min η (min (1 / 100) δ)) (η / K) ≤ η := (min_le_left _ _).trans (min_le_left _ _)
  have m2 : min (min η (min (1 / 100) δ)) (η / K) ≤ 1 / 100 := (min_le_left _ _).trans ((min_le_right _ _).trans (min_le_left _ _))
  have m3 : min (min η (min (1 / 100) δ)) (η / K) ≤ δ := (min_le_left _ _).trans ((min_le_right _ _).trans (min_le_right _ _))
  have m4 : min (min η (min (1 / 100) δ)) (η / K) ≤ η / K := min_le_right _ _
  set μ := min (min η (min (1 / 100) δ)) (η / K)
  have hN1 : (1 : ℝ) ≤ N := by exact_mod_cast hN
  have hNρ : ρ ≤ N * ρ := le_mul_of_one_le_left hρ hN1
  have hH1 : H < 1 / 100 := hH.trans_le m2
  have hρμ : ρ ≤ μ := by nlinarith
  have e : N * (K * ρ) + q ≤ K * (N * ρ + q) := by nlinarith
  refine ⟨hH.trans_le m1, hρμ.trans m2, hρμ.trans m3, ?_, e⟩
  have h2 : N * ρ + q ≤ η / K * H := hg.trans (mul_le_mul_of_nonneg_right m4 hH0.le)
  rw [div_mul_eq_mul_div, le_div_iff₀ hK0] at h2
  linarith

theorem ASSolver.RunNear.scale {ι : Type} [Fintype ι] [DecidableEq ι] {m : ASSolver ι} {r : Except PyErr (Option (Vec ι)) × m.RSt}
    {Y : ℝ → Vec ι} {tf C K e p q n : ℝ} (hK : 1 ≤ K) (he : 0 ≤ e) (hp : 0 ≤ p) (hn : 0 ≤ n) {q' : ℝ} (hq0 : 0 ≤ q') (hq : q' ≤ K * q)
    (h : ASSolver.RunNear r Y tf (C * (e + p + n * q'))) : ASSolver.RunNear r Y tf (|C| * K * (e + p + n * q)) := by
  have h1 : n * q' ≤ K * (n * q) := by nlinarith
  have h2 : e + p + n * q' ≤ K * (e + p + n * q) := by nlinarith
  have h3 : 0 ≤ e + p + n * q' := by positivity
  have h4 : C * (e + p + n * q') ≤ |C| * K * (e + p + n * q) := by
    rw [mul_assoc]
    exact (mul_le_mul_of_nonneg_right (le_abs_self C) h3).trans (mul_le_mul_of_nonneg_left h2 (abs_nonneg C))
  exact ⟨fun x hx => (h.stored x hx).trans h4, fun v hv => ⟨(h.result v hv).1, (h.result v hv).2.trans h4⟩⟩

/-- **C84.** Adaptive solvers of the Korteweg–de Vries equation, entirely in NumPy's arithmetic, if the recorded steps do not exceed `H`. -/
theorem C84_kdv_numpy_stored {M : ℕ} (hM : 2 ≤ M) {a b : ℝ} (hab : a ≠ b) {g : Vec (Fin (M + 1)) → Vec (Fin (M + 1))}
    (hg : kdvNl (waveNumbers M a b) = total g) (m : ASSolver (Fin (M + 1))) (hop : m.op = .diag (kdvLin (waveNumbers M a b)))
    (hm : m.ClearContour 0) {t0 tf : ℝ} (ht : t0 ≤ tf) {Y : ℝ → Vec (Fin (M + 1))} (hY : Solves m.op.mat g t0 tf Y) :
    ∃ (C η R : ℝ) (N0 : ℕ), 0 < η ∧ ∀ (N : ℕ) (rnd : ℝ → ℝ) (sum : List ℂ → ℂ) (F : FftLib) (La : LinAlg (Fin (M + 1)))
      (fac : SolverConfig ℝ → Vec (Fin (M + 1)) → Vec (Fin (M + 1)) → Ext ℝ) (ρ H : ℝ) (u : Vec (Fin (M + 1))),
      N0 ≤ N → 0 ≤ ρ → (∀ x, |rnd x - x| ≤ ρ * |x|) → (∀ l, SumsTo rnd l (sum l)) → F.Within (2 * M) ρ R → La.Within ρ R → 0 < H → H < η →
      N * ρ + (1 / 2) ^ N ≤ η * H → ‖u - Y t0‖ ≤ η →
      ∃ xs ks, flConstructXKxRfft rnd (.int (2 * M : ℕ)) a b = .ok (xs, ks) ∧ ks.length = M + 1 ∧
      ∀ m', m' = m.withEigs (flKdvLin (CArith.numpy rnd sum) (RArith.numpy rnd) fun i => ks.getD i 0) →
      ∀ (cfg : SolverConfig ℝ) (hInit : Option ℝ) (pyDiv : Bool) (s : (m'.withPoints N).RSt) (fuel : ℕ), 0 < cfg.minh →
        (∀ h, hInit = some h → 0 < h) →
        ∀ r, r = (m'.withPoints N).fpEvolve (ASSolver.flEnv _ (Arith.numpy rnd) (CArith.numpy rnd sum) La) fac
          (flKdvNl (CArith.numpy rnd sum) (RArith.numpy rnd) F fun i => ks.getD i 0) rnd pyDiv cfg fuel u t0 tf hInit true 1 s →
        r.2.t.IsChain (fun a b => b - a ≤ H) → r.2.t.length * (N * ρ + (1 / 2) ^ N) ≤ η →
        ASSolver.RunNear r Y tf (C * (‖u - Y t0‖ + H ^ m.orderOf + r.2.t.length * (N * ρ + (1 / 2) ^ N))) := by
  have hM0 : M ≠ 0 := by omega
  obtain ⟨C, η, R, N0, hη, h1⟩ := C84_kdv_stored hM0 (waveNumbers M a b) hg m hop hm ht hY
  obtain ⟨g', hg', hs⟩ := C59_kdv_smooth hM0 (waveNumbers M a b)
  obtain ⟨K', hK', hacc⟩ := numpy_accurate (f := g') (hs.of_le (by exact_mod_cast le_top)) R
  set K := max K' 120 with hK
  have hK120 : 120 ≤ K := le_max_right _ _
  have hK1 : 1 ≤ K := by linarith
  refine ⟨|C| * K, min (min η (min (1 / 100) 1)) (η / K), R, N0 + 1, lt_min (lt_min hη (lt_min (by norm_num) one_pos)) (by positivity),
    fun N rnd sum F La fac ρ H u hN hρ hr hsum hF hLa h0 hh hgN hu => ?_⟩
  have hq : (0 : ℝ) ≤ (1 / 2) ^ N := by positivity
  obtain ⟨e1, hρ1, -, e3, e4⟩ := scaled_roundoff hη hK1 one_pos (show 1 ≤ N by omega) hρ hq h0 hh hgN
  have hle : ρ ≤ K * ρ := le_mul_of_one_le_left hρ hK1
  obtain ⟨xs, ks, k1, k2, k3⟩ := kx_computed hr hρ hρ1 (show 10 ≤ K by linarith) hM hab
  refine ⟨xs, ks, k1, k2, fun m' hm' cfg hInit pyDiv s fuel hc hi r hr' hch hlen => ?_⟩
  subst hm'
  have hlen' : r.2.t.length * (N * (K * ρ) + (1 / 2) ^ N) ≤ η := by
    have h2 : r.2.t.length * (N * ρ + (1 / 2) ^ N) ≤ η / K := hlen.trans (min_le_right _ _)
    rw [le_div_iff₀ (by linarith)] at h2
    exact (mul_le_mul_of_nonneg_left e4 (Nat.cast_nonneg _)).trans (by linarith)
  refine ASSolver.RunNear.scale hK1 (norm_nonneg _) (pow_nonneg h0.le _) (Nat.cast_nonneg _) (by positivity) e4 ?_
  exact h1 N (Arith.numpy rnd) (CArith.numpy rnd sum) (RArith.numpy rnd) F La fac rnd (K * ρ) u _ (by omega) (by positivity) k3
    ((hacc rnd ρ hρ (by linarith) hr).1.of_le (mul_le_mul_of_nonneg_right (le_max_left _ _) hρ))
    ((CArith.numpy_within hr hρ (by linarith) hsum _).of_le (mul_le_mul_of_nonneg_right hK120 hρ))
    ((RArith.numpy_within hr hρ R).of_le hle) (hF.of_le hle) (hLa.of_le hle)
    (fun x => (hr x).trans (mul_le_mul_of_nonneg_right hle (abs_nonneg x))) (hu.trans ((min_le_left _ _).trans (min_le_left _ _)))
    cfg hInit pyDiv s fuel hc hi H e3 h0 e1 r hr' hch hlen'

/-- **C84.** Adaptive solvers of the Burgers equation, entirely in NumPy's arithmetic. -/
theorem C84_burgers_numpy_stored {M : ℕ} (hM : 2 ≤ M) {a b : ℝ} (hab : a ≠ b) (mu : ℝ) {g : Vec (Fin (M + 1)) → Vec (Fin (M + 1))}
    (hg : burgersNl (waveNumbers M a b) = total g) (m : ASSolver (Fin (M + 1))) (hop : m.op = .diag (burgersLin (waveNumbers M a b) mu))
    (hm : m.ClearContour 0) {t0 tf : ℝ} (ht : t0 ≤ tf) {Y : ℝ → Vec (Fin (M + 1))} (hY : Solves m.op.mat g t0 tf Y) :
    ∃ (C η R : ℝ) (N0 : ℕ), 0 < η ∧ ∀ (N : ℕ) (rnd : ℝ → ℝ) (sum : List ℂ → ℂ) (F : FftLib) (La : LinAlg (Fin (M + 1)))
      (fac : SolverConfig ℝ → Vec (Fin (M + 1)) → Vec (Fin (M + 1)) → Ext ℝ) (ρ H : ℝ) (u : Vec (Fin (M + 1))),
      N0 ≤ N → 0 ≤ ρ → (∀ x, |rnd x - x| ≤ ρ * |x|) → (∀ l, SumsTo rnd l (sum l)) → F.Within (2 * M) ρ R → La.Within ρ R → 0 < H → H < η →
      N * ρ + (1 / 2) ^ N ≤ η * H → ‖u - Y t0‖ ≤ η →
      ∃ xs ks, flConstructXKxRfft rnd (.int (2 * M : ℕ)) a b = .ok (xs, ks) ∧ ks.length = M + 1 ∧
      ∀ m', m' = m.withEigs (flBurgersLin (RArith.numpy rnd) (fun i => ks.getD i 0) mu) →
      ∀ (cfg : SolverConfig ℝ) (hInit : Option ℝ) (pyDiv : Bool) (s : (m'.withPoints N).RSt) (fuel : ℕ), 0 < cfg.minh →
        (∀ h, hInit = some h → 0 < h) →
        ∀ r, r = (m'.withPoints N).fpEvolve (ASSolver.flEnv _ (Arith.numpy rnd) (CArith.numpy rnd sum) La) fac
          (flBurgersNl (CArith.numpy rnd sum) (RArith.numpy rnd) F fun i => ks.getD i 0) rnd pyDiv cfg fuel u t0 tf hInit true 1 s →
        r.2.t.IsChain (fun a b => b - a ≤ H) → r.2.t.length * (N * ρ + (1 / 2) ^ N) ≤ η →
        ASSolver.RunNear r Y tf (C * (‖u - Y t0‖ + H ^ m.orderOf + r.2.t.length * (N * ρ + (1 / 2) ^ N))) := by
  have hM0 : M ≠ 0 := by omega
  obtain ⟨C, η, R, N0, hη, h1⟩ := C84_burgers_stored hM0 (waveNumbers M a b) mu hg m hop hm ht hY
  obtain ⟨g', hg', hs⟩ := C59_burgers_smooth hM0 (waveNumbers M a b)
  obtain ⟨K', hK', hacc⟩ := numpy_accurate (f := g') (hs.of_le (by exact_mod_cast le_top)) R
  set K := max K' 120 with hK
  have hK120 : 120 ≤ K := le_max_right _ _
  have hK1 : 1 ≤ K := by linarith
  refine ⟨|C| * K, min (min η (min (1 / 100) 1)) (η / K), R, N0 + 1, lt_min (lt_min hη (lt_min (by norm_num) one_pos)) (by positivity),
    fun N rnd sum F La fac ρ H u hN hρ hr hsum hF hLa h0 hh hgN hu => ?_⟩
  have hq : (0 : ℝ) ≤ (1 / 2) ^ N := by positivity
  obtain ⟨e1, hρ1, -, e3, e4⟩ := scaled_roundoff hη hK1 one_pos (show 1 ≤ N by omega) hρ hq h0 hh hgN
  have hle : ρ ≤ K * ρ := le_mul_of_one_le_left hρ hK1
  obtain ⟨xs, ks, k1, k2, k3⟩ := kx_computed hr hρ hρ1 (show 10 ≤ K by linarith) hM hab
  refine ⟨xs, ks, k1, k2, fun m' hm' cfg hInit pyDiv s fuel hc hi r hr' hch hlen => ?_⟩
  subst hm'
  have hlen' : r.2.t.length * (N * (K * ρ) + (1 / 2) ^ N) ≤ η := by
    have h2 : r.2.t.length * (N * ρ + (1 / 2) ^ N) ≤ η / K := hlen.trans (min_le_right _ _)
    rw [le_div_iff₀ (by linarith)] at h2
    exact (mul_le_mul_of_nonneg_left e4 (Nat.cast_nonneg _)).trans (by linarith)
  refine ASSolver.RunNear.scale hK1 (norm_nonneg _) (pow_nonneg h0.le _) (Nat.cast_nonneg _) (by positivity) e4 ?_
  exact h1 N (Arith.numpy rnd) (CArith.numpy rnd sum) (RArith.numpy rnd) F La fac rnd (K * ρ) u _ (by omega) (by positivity) k3
    ((hacc rnd ρ hρ (by linarith) hr).1.of_le (mul_le_mul_of_nonneg_right (le_max_left _ _) hρ))
    ((CArith.numpy_within hr hρ (by linarith) hsum _).of_le (mul_le_mul_of_nonneg_right hK120 hρ))
    ((RArith.numpy_within hr hρ R).of_le hle) (hF.of_le hle) (hLa.of_le hle)
    (fun x => (hr x).trans (mul_le_mul_of_nonneg_right hle (abs_nonneg x))) (hu.trans ((min_le_left _ _).trans (min_le_left _ _)))
    cfg hInit pyDiv s fuel hc hi H e3 h0 e1 r hr' hch hlen'

/-- **C85.** Adaptive solvers of the Allen–Cahn equation with full matrices, entirely in NumPy's arithmetic. -/
theorem C85_allen_cahn_numpy_stored (n : ℕ) {a b : ℝ} (hab : a ≠ b) {x : Fin (n + 2 + 1) → ℝ} {D : Matrix (Fin (n + 2 + 1)) (Fin (n + 2 + 1)) ℝ}
    (hD : constructXDxCheb (.int ((n : ℤ) + 2)) a b = .ok ⟨n + 2, x, D⟩) (eps : ℝ) {g : Vec (Fin (n + 1)) → Vec (Fin (n + 1))}
    (hg : allenCahnNl (k := n + 1) x = total g) (m : ASSolver (Fin (n + 1)))
    (hop : m.op = .full ((allenCahnLin (k := n + 1) D eps).map fun r => (r : ℂ))) (hm : m.ClearContour 0) {t0 tf : ℝ} (ht : t0 ≤ tf)
    {Y : ℝ → Vec (Fin (n + 1))} (hY : Solves m.op.mat g t0 tf Y) :
    ∃ (C η R : ℝ) (N0 : ℕ), 0 < η ∧ ∀ (N : ℕ) (rnd : ℝ → ℝ) (sum : List ℂ → ℂ) (rsum : List ℝ → ℝ) (dot : List (ℝ × ℝ) → ℝ)
      (La : LinAlg (Fin (n + 1))) (fac : SolverConfig ℝ → Vec (Fin (n + 1)) → Vec (Fin (n + 1)) → Ext ℝ) (ρ H : ℝ) (u : Vec (Fin (n + 1))),
      N0 ≤ N → RoundsTo rnd rsum dot ρ → (∀ l, SumsTo rnd l (sum l)) → La.Within ρ R → 0 < H → H < η →
      N * ρ + (1 / 2) ^ N ≤ η * H → ‖u - Y t0‖ ≤ η →
      ∃ x' D', flConstructXDxCheb rnd rsum (.int ((n : ℤ) + 2)) a b = .ok ⟨n + 2, x', D'⟩ ∧
      ∀ m', m' = m.withMatrix ((flAllenCahnLin (k := n + 1) (RArith.numpy rnd) (flMatDot dot D' D') eps).map fun r => (r : ℂ)) →
      ∀ (cfg : SolverConfig ℝ) (hInit : Option ℝ) (pyDiv : Bool) (s : (m'.withPoints N).RSt) (fuel : ℕ), 0 < cfg.minh →
        (∀ h, hInit = some h → 0 < h) →
        ∀ r, r = (m'.withPoints N).fpEvolve (ASSolver.flEnv _ (Arith.numpy rnd) (CArith.numpy rnd sum) La) fac
          (flAllenCahnNl (k := n + 1) (CArith.numpy rnd sum) x') rnd pyDiv cfg fuel u t0 tf hInit true 1 s →
        r.2.t.IsChain (fun a b => b - a ≤ H) → r.2.t.length * (N * ρ + (1 / 2) ^ N) ≤ η →
        ASSolver.RunNear r Y tf (C * (‖u - Y t0‖ + H ^ m.orderOf + r.2.t.length * (N * ρ + (1 / 2) ^ N))) := by
  set d : ℝ := ∑ i, ∑ j, |(D * D) i j| with hd
  have hd0 : 0 ≤ d := Finset.sum_nonneg fun i _ => Finset.sum_nonneg fun j _ => abs_nonneg _
  have hdb : ∀ i j, |(D * D) i j| ≤ d := fun i j =>
    (Finset.single_le_sum (f := fun j => |(D * D) i j|) (fun j _ => abs_nonneg _) (Finset.mem_univ j)).trans
      (Finset.single_le_sum (f := fun i => ∑ j, |(D * D) i j|) (fun i _ => Finset.sum_nonneg fun j _ => abs_nonneg _) (Finset.mem_univ i))
  obtain ⟨C, η, R, N0, hη, h1⟩ := C84_allen_cahn_stored (k := n + 1) D x eps hdb hg m hop hm ht hY
  obtain ⟨K0, δ, hK0, hδ, hgrid⟩ := C85_cheb n hab hD
  obtain ⟨g', hg', hs⟩ := C59_allen_cahn_smooth (k := n + 1) x
  obtain ⟨K', hK', hacc⟩ := numpy_accurate (f := g') (hs.of_le (by exact_mod_cast le_top)) R
  set K := max (max K' K0) 120 with hK
  have hK120 : 120 ≤ K := le_max_right _ _
  have hK1 : 1 ≤ K := by linarith
  have hKK : K' ≤ K := (le_max_left _ _).trans (le_max_left _ _)
  have hKK0 : K0 ≤ K := (le_max_right _ _).trans (le_max_left _ _)
  refine ⟨|C| * K, min (min η (min (1 / 100) δ)) (η / K), R, N0 + 1, lt_min (lt_min hη (lt_min (by norm_num) hδ)) (by positivity),
    fun N rnd sum rsum dot La fac ρ H u hN hR hsum hLa h0 hh hgN hu => ?_⟩
  have hρ := hR.nonneg
  have hr := hR.rnd
  have hq : (0 : ℝ) ≤ (1 / 2) ^ N := by positivity
  obtain ⟨e1, hρ1, hρδ, e3, e4⟩ := scaled_roundoff hη hK1 hδ (show 1 ≤ N by omega) hρ hq h0 hh hgN
  have hle : ρ ≤ K * ρ := le_mul_of_one_le_left hρ hK1
  obtain ⟨x', D', k1, k2, -, k3⟩ := hgrid rnd rsum dot ρ hR hρδ
  refine ⟨x', D', k1, fun m' hm' cfg hInit pyDiv s fuel hc hi r hr' hch hlen => ?_⟩
  subst hm'
  have hK0ρ : K0 * ρ ≤ K * ρ := mul_le_mul_of_nonneg_right hKK0 hρ
  have hKρ : 0 ≤ K * ρ := by positivity
  have hlen' : r.2.t.length * (N * (K * ρ) + (1 / 2) ^ N) ≤ η := by
    have h2 : r.2.t.length * (N * ρ + (1 / 2) ^ N) ≤ η / K := hlen.trans (min_le_right _ _)
    rw [le_div_iff₀ (by linarith)] at h2
    exact (mul_le_mul_of_nonneg_left e4 (Nat.cast_nonneg _)).trans (by linarith)
  refine ASSolver.RunNear.scale hK1 (norm_nonneg _) (pow_nonneg h0.le _) (Nat.cast_nonneg _) (by positivity) e4 ?_
  exact h1 N (Arith.numpy rnd) (CArith.numpy rnd sum) (RArith.numpy rnd) La fac rnd (K * ρ) u x' (flMatDot dot D' D') (by omega) (by positivity)
    (fun i => (k2 i).trans (by nlinarith [abs_nonneg (x i)])) (fun i j => (k3 i j).trans (by nlinarith))
    ((hacc rnd ρ hρ (by linarith) hr).1.of_le (mul_le_mul_of_nonneg_right hKK hρ))
    ((CArith.numpy_within hr hρ (by linarith) hsum _).of_le (mul_le_mul_of_nonneg_right hK120 hρ))
    ((RArith.numpy_within hr hρ R).of_le hle) (hLa.of_le hle)
    (fun x => (hr x).trans (mul_le_mul_of_nonneg_right hle (abs_nonneg x))) (hu.trans ((min_le_left _ _).trans (min_le_left _ _)))
    cfg hInit pyDiv s fuel hc hi H e3 h0 e1 r hr' hch hlen'

/-- Adaptive IF45DP for KdV on four points, every real operation with the relative error `ρ / 2`, with the default parameters. -/
example (u0 : Vec (Fin 3)) : ∃ T > (0 : ℝ), ∃ Y : ℝ → Vec (Fin 3), Y 0 = u0 ∧ ∃ (C η : ℝ) (N0 : ℕ), 0 < η ∧ ∀ (N : ℕ) (ρ H : ℝ), N0 ≤ N → 0 < ρ → 0 < H → H < η →
    N * ρ + (1 / 2) ^ N ≤ η * H →
    ∃ xs ks, flConstructXKxRfft (tooLarge ρ) (.int 4) 0 (2 * Real.pi) = .ok (xs, ks) ∧
      ∀ (fac : SolverConfig ℝ → Vec (Fin 3) → Vec (Fin 3) → Ext ℝ) (fuel : ℕ), ∀ r,
        r = ((ASSolver.if45dp (flKdvLin (CArith.numpy (tooLarge ρ) (seqSum (tooLarge ρ))) (RArith.numpy (tooLarge ρ)) fun i : Fin 3 => ks.getD i 0)).withPoints N).fpEvolve
          (ASSolver.flEnv _ (Arith.numpy (tooLarge ρ)) (CArith.numpy (tooLarge ρ) (seqSum (tooLarge ρ))) (LinAlg.rounded (tooLarge ρ))) fac
          (flKdvNl (CArith.numpy (tooLarge ρ) (seqSum (tooLarge ρ))) (RArith.numpy (tooLarge ρ)) (FftLib.rounded (tooLarge ρ)) fun i => ks.getD i 0)
          (tooLarge ρ) true ⟨1 / 10000, 5 / 4, 17 / 20, 4 / 5, 1 / 100, 1 / 10 ^ 16⟩ fuel u0 0 T none true 1 (ASSolver.fpNew _) →
        r.2.t.IsChain (fun a b => b - a ≤ H) → r.2.t.length * ((N : ℝ) * ρ + (1 / 2) ^ N) ≤ η →
        ASSolver.RunNear r Y T (C * (‖u0 - Y 0‖ + H ^ 5 + r.2.t.length * (N * ρ + (1 / 2) ^ N))) := by
  obtain ⟨g, hg, hs⟩ := C59_kdv_smooth (M := 2) two_ne_zero (waveNumbers 2 0 (2 * Real.pi))
  obtain ⟨T, hT, Y, h0, hY⟩ := C59_solution (Matrix.diagonal (kdvLin (waveNumbers 2 0 (2 * Real.pi)))) hs u0 0
  obtain ⟨C, η, R, N0, hη, h1⟩ := C84_kdv_numpy_stored (M := 2) le_rfl (a := 0) (b := 2 * Real.pi) (by positivity) hg
    (.if45dp (kdvLin (waveNumbers 2 0 (2 * Real.pi)))) rfl trivial hT.le (hY T le_rfl)
  refine ⟨T, hT, Y, h0, C, η, N0, hη, fun N ρ H hN hρ hH hH1 hg => ?_⟩
  have q := fun fac => h1 N (tooLarge ρ) (seqSum (tooLarge ρ)) (FftLib.rounded (tooLarge ρ)) (LinAlg.rounded (tooLarge ρ)) fac ρ H u0 hN hρ.le
    (tooLarge_error' hρ.le) (seqSum_sumsTo _) ((FftLib.rounded_within (tooLarge_error hρ.le) (by positivity) (by norm_num) R).of_le (by linarith))
    ((LinAlg.rounded_within (tooLarge_error hρ.le) (by positivity) R).of_le (by linarith)) hH hH1 hg (by rw [h0, sub_self, norm_zero]; exact hη.le)
  obtain ⟨xs, ks, e, -, -⟩ := q fun _ _ _ => .fin 1
  refine ⟨xs, ks, e, fun fac fuel r hr hc hl => ?_⟩
  obtain ⟨xs', ks', e', -, h2⟩ := q fac
  obtain ⟨rfl, rfl⟩ : xs' = xs ∧ ks' = ks := by
    have := e'.symm.trans e
    simpa using this
  exact h2 _ rfl _ none true _ fuel (by norm_num) (by simp) r hr hc hl

/-- Adaptive ETD35 for Burgers on eight points. -/
example (u0 : Vec (Fin 5)) : ∃ T > (0 : ℝ), ∃ Y : ℝ → Vec (Fin 5), Y 0 = u0 ∧ ∃ (C η : ℝ) (N0 : ℕ), 0 < η ∧ ∀ (N : ℕ) (ρ H : ℝ), N0 ≤ N → 0 < ρ → 0 < H → H < η →
    N * ρ + (1 / 2) ^ N ≤ η * H →
    ∃ xs ks, flConstructXKxRfft (tooLarge ρ) (.int 8) (-1) 1 = .ok (xs, ks) ∧
      ∀ (fuel : ℕ), ∀ r,
        r = ((ASSolver.etd35 ⟨1 / 100, 32, 1⟩ (.diag (flBurgersLin (RArith.numpy (tooLarge ρ)) (fun i : Fin 5 => ks.getD i 0) (1 / 100)))).withPoints N).fpEvolve
          (ASSolver.flEnv _ (Arith.numpy (tooLarge ρ)) (CArith.numpy (tooLarge ρ) (seqSum (tooLarge ρ))) (LinAlg.rounded (tooLarge ρ))) (fun _ _ _ => .fin 1)
          (flBurgersNl (CArith.numpy (tooLarge ρ) (seqSum (tooLarge ρ))) (RArith.numpy (tooLarge ρ)) (FftLib.rounded (tooLarge ρ)) fun i => ks.getD i 0)
          (tooLarge ρ) true ⟨1 / 10000, 5 / 4, 17 / 20, 4 / 5, 1 / 100, 1 / 10 ^ 16⟩ fuel u0 0 T (some (1 / 1000)) true 1 (ASSolver.fpNew _) →
        r.2.t.IsChain (fun a b => b - a ≤ H) → r.2.t.length * ((N : ℝ) * ρ + (1 / 2) ^ N) ≤ η →
        ASSolver.RunNear r Y T (C * (‖u0 - Y 0‖ + H ^ 4 + r.2.t.length * (N * ρ + (1 / 2) ^ N))) := by
  obtain ⟨g, hg, hs⟩ := C59_burgers_smooth (M := 4) four_ne_zero (waveNumbers 4 (-1) 1)
  obtain ⟨T, hT, Y, h0, hY⟩ := C59_solution (Matrix.diagonal (burgersLin (waveNumbers 4 (-1) 1) (1 / 100))) hs u0 0
  obtain ⟨C, η, R, N0, hη, h1⟩ := C84_burgers_numpy_stored (M := 4) (by norm_num) (a := -1) (b := 1) (by norm_num) (1 / 100) hg
    (.etd35 ⟨1 / 100, 32, 1⟩ (.diag (burgersLin (waveNumbers 4 (-1) 1) (1 / 100)))) rfl (by constructor <;> norm_num) hT.le (hY T le_rfl)
  refine ⟨T, hT, Y, h0, C, η, N0, hη, fun N ρ H hN hρ hH hH1 hg => ?_⟩
  obtain ⟨xs, ks, e, -, h2⟩ := h1 N (tooLarge ρ) (seqSum (tooLarge ρ)) (FftLib.rounded (tooLarge ρ)) (LinAlg.rounded (tooLarge ρ)) (fun _ _ _ => .fin 1) ρ H u0 hN hρ.le
    (tooLarge_error' hρ.le) (seqSum_sumsTo _) ((FftLib.rounded_within (tooLarge_error hρ.le) (by positivity) (by norm_num) R).of_le (by linarith))
    ((LinAlg.rounded_within (tooLarge_error hρ.le) (by positivity) R).of_le (by linarith)) hH hH1 hg (by rw [h0, sub_self, norm_zero]; exact hη.le)
  exact ⟨xs, ks, e, fun fuel r hr hc hl => h2 _ rfl _ (some (1 / 1000)) true _ fuel (by norm_num) (by simp) r hr hc hl⟩

/-- Adaptive ETD35 for Allen–Cahn on five points. -/
example (u0 : Vec (Fin 3)) : ∃ T > (0 : ℝ), ∃ Y : ℝ → Vec (Fin 3), Y 0 = u0 ∧ ∃ (C η : ℝ) (N0 : ℕ), 0 < η ∧ ∀ (N : ℕ) (ρ H : ℝ), N0 ≤ N → 0 < ρ → 0 < H → H < η →
    N * ρ + (1 / 2) ^ N ≤ η * H →
    ∃ x' D', flConstructXDxCheb (tooLarge ρ) (realSum (seqSum (tooLarge ρ))) (.int 4) (-1) 1 = .ok ⟨4, x', D'⟩ ∧
      ∀ (fuel : ℕ), ∀ r,
        r = ((ASSolver.etd35 ⟨1 / 100, 32, 1⟩ (.full ((flAllenCahnLin (k := 3) (RArith.numpy (tooLarge ρ))
            (flMatDot (roundedDot (tooLarge ρ) (realSum (seqSum (tooLarge ρ)))) D' D') (1 / 100)).map fun r => (r : ℂ)))).withPoints N).fpEvolve
          (ASSolver.flEnv _ (Arith.numpy (tooLarge ρ)) (CArith.numpy (tooLarge ρ) (seqSum (tooLarge ρ))) (LinAlg.rounded (tooLarge ρ))) (fun _ _ _ => .fin 1)
          (flAllenCahnNl (k := 3) (CArith.numpy (tooLarge ρ) (seqSum (tooLarge ρ))) x')
          (tooLarge ρ) true ⟨1 / 10000, 5 / 4, 17 / 20, 4 / 5, 1 / 100, 1 / 10 ^ 16⟩ fuel u0 0 T none true 1 (ASSolver.fpNew _) →
        r.2.t.IsChain (fun a b => b - a ≤ H) → r.2.t.length * ((N : ℝ) * ρ + (1 / 2) ^ N) ≤ η →
        ASSolver.RunNear r Y T (C * (‖u0 - Y 0‖ + H ^ 4 + r.2.t.length * (N * ρ + (1 / 2) ^ N))) := by
  obtain ⟨g, hg, hs⟩ := C59_allen_cahn_smooth (k := 3) (chebX 4 (-1) 1)
  obtain ⟨T, hT, Y, h0, hY⟩ := C59_solution ((allenCahnLin (k := 3) (chebD 4 (chebX 4 (-1) 1)) (1 / 100)).map fun r => (r : ℂ)) hs u0 0
  obtain ⟨C, η, R, N0, hη, h1⟩ := C85_allen_cahn_numpy_stored 2 (a := -1) (b := 1) (by norm_num) (constructCheb_ok 2 (-1) 1) (1 / 100) hg
    (.etd35 ⟨1 / 100, 32, 1⟩ (.full ((allenCahnLin (k := 3) (chebD 4 (chebX 4 (-1) 1)) (1 / 100)).map fun r => (r : ℂ)))) rfl
    ⟨by norm_num, fun μ _ => by norm_num⟩ hT.le (hY T le_rfl)
  refine ⟨T, hT, Y, h0, C, η, N0, hη, fun N ρ H hN hρ hH hH1 hg => ?_⟩
  obtain ⟨x', D', e, h2⟩ := h1 N (tooLarge ρ) (seqSum (tooLarge ρ)) _ _ (LinAlg.rounded (tooLarge ρ)) (fun _ _ _ => .fin 1) ρ H u0 hN (tooLarge_rounds hρ)
    (seqSum_sumsTo _) ((LinAlg.rounded_within (tooLarge_error hρ.le) (by positivity) R).of_le (by linarith)) hH hH1 hg
    (by rw [h0, sub_self, norm_zero]; exact hη.le)
  exact ⟨x', D', e, fun fuel r hr hc hl => h2 _ rfl _ none true _ fuel (by norm_num) (by simp) r hr hc hl⟩

end Verif
