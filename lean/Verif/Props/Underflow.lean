import Verif.Lemmas.Underflow
import Verif.Props.FloatEnd
import Verif.Model.Subnormal

/-!
# C87: rounding errors with underflow

The rounding errors of `C82` and `C84` are relative.  A number below the normal range is rounded with an absolute error instead: here
`rnd` satisfies `|rnd x - x| ≤ u |x| + τ`, as rounding of binary64 with gradual underflow or with flushing to zero does.  The clock is
rounded by `clk` with a relative error: sums of floating-point numbers do not underflow in IEEE arithmetic.
-/

set_option linter.unusedSectionVars false

namespace Verif

open Matrix
open scoped ContDiff Matrix.Norms.Operator

variable {ι : Type} [Fintype ι] [DecidableEq ι] {f : Vec ι → Vec ι} {t0 tf : ℝ} {Y : ℝ → Vec ι} {rnd : ℝ → ℝ} {u τ : ℝ} {M : ℕ}

theorem dotFactorU_eq (n : ℕ) : dotFactorU n = 32 * 3 ^ n - 32 := by
  induction n with
  | zero => norm_num [dotFactorU]
  | succ n ih => rw [dotFactorU, ih, pow_succ]; ring

/-- **C87.** Operations on arrays of complex numbers, with underflow. -/
theorem C87_arrays (hr : ∀ x, |rnd x - x| ≤ u * |x| + τ) (hu : 0 ≤ u) (hτ : 0 ≤ τ) (h1 : u + τ ≤ 1) (R : ℝ) :
    (Arith.numpy (ι := ι) rnd).Within (32 * 3 ^ Fintype.card ι * (u + τ)) R :=
  (Arith.numpy_mixed (mixed_of hr hu hτ) (by positivity) h1 R).of_le (mul_le_mul_of_nonneg_right (by rw [dotFactorU_eq]; linarith) (by positivity))

/-- **C87.** Operations on complex numbers, with underflow: for divisors and inverses of divisors of size at most `R`, also quotients. -/
theorem C87_complex (hr : ∀ x, |rnd x - x| ≤ u * |x| + τ) (hu : 0 ≤ u) (hτ : 0 ≤ τ) {R : ℝ} (h1 : u + 4 * (1 + |R|) * τ ≤ 1 / 64)
    {sum : List ℂ → ℂ} (hs : ∀ l, SumsTo rnd l (sum l)) : (CArith.numpy rnd sum).Within (140 * (u + 4 * (1 + |R|) * τ)) R :=
  CArith.numpy_mixed hr hu hτ h1 hs

theorem RArith.numpy_mixed (hr : ∀ x, |rnd x - x| ≤ u * |x| + τ) (hu : 0 ≤ u) (hτ : 0 ≤ τ) (R : ℝ) : (RArith.numpy rnd).Within (u + τ) R where
  add x y _ _ _ := (mixed_of hr hu hτ _).trans (mul_le_mul_of_nonneg_left (by linarith [abs_add_le x y]) (by positivity))
  mul x y _ _ _ := mixed_of hr hu hτ _
  pow x n _ _ _ := mixed_of hr hu hτ _

theorem numpy_mixed_all (ι : Type) [Fintype ι] [DecidableEq ι] (R : ℝ) : ∃ K : ℝ, 1 ≤ K ∧ ∀ (N : ℕ) (rnd : ℝ → ℝ) (sum : List ℂ → ℂ) (u τ : ℝ), 1 ≤ N → 0 ≤ u → 0 ≤ τ →
    (∀ x, |rnd x - x| ≤ u * |x| + τ) → (∀ l, SumsTo rnd l (sum l)) → K * (u + N * τ) ≤ 1 →
    (Arith.numpy (ι := ι) rnd).Within (K * (u + N * τ)) R ∧ (CArith.numpy rnd sum).Within (K * (u + N * τ)) (R * N) ∧
      (RArith.numpy rnd).Within (K * (u + N * τ)) R := by
  have h3 : (1 : ℝ) ≤ 3 ^ Fintype.card ι := one_le_pow₀ (by norm_num)
  have hR := abs_nonneg R
  refine ⟨560 * (1 + |R|) + 32 * 3 ^ Fintype.card ι, by linarith, fun N rnd sum u τ hN hu hτ hr hs hK => ?_⟩
  have hN1 : (1 : ℝ) ≤ N := by exact_mod_cast hN
  have hNτ : τ ≤ N * τ := le_mul_of_one_le_left hτ hN1
  have hρ : 0 ≤ u + N * τ := by positivity
  have hle : u + τ ≤ u + N * τ := by linarith
  have hmul : u + 4 * (1 + |R * N|) * τ ≤ 4 * (1 + |R|) * (u + N * τ) := by
    rw [abs_mul, Nat.abs_cast]
    have h4 : 0 ≤ |R| * u := by positivity
    nlinarith
  have hρ3 : 0 ≤ (3 : ℝ) ^ Fintype.card ι * (u + N * τ) := by positivity
  have hRρ : 0 ≤ |R| * (u + N * τ) := by positivity
  have h1 : u + 4 * (1 + |R * N|) * τ ≤ 1 / 64 := by nlinarith
  refine ⟨(C87_arrays hr hu hτ (by nlinarith) R).of_le ?_, (C87_complex hr hu hτ h1 hs).of_le ?_, (RArith.numpy_mixed hr hu hτ R).of_le ?_⟩
  · calc 32 * 3 ^ Fintype.card ι * (u + τ) ≤ 32 * 3 ^ Fintype.card ι * (u + N * τ) := by gcongr
      _ ≤ _ := mul_le_mul_of_nonneg_right (by linarith) hρ
  · nlinarith
  · nlinarith

/-- Constants: `K` times the errors. -/
theorem scaled_bound {C K a p q h ρ N : ℝ} (hK : 1 ≤ K) (ha : 0 ≤ a) (hp : 0 ≤ p) (hq : 0 ≤ q) (hρ : 0 ≤ ρ) (hN : 0 ≤ N) (h0 : 0 < h) :
    C * (a + p + (N * (K * ρ) + q) / h) ≤ |C| * K * (a + p + (N * ρ + q) / h) := by
  have h1 : N * (K * ρ) + q ≤ K * (N * ρ + q) := by nlinarith
  have h2 : (N * (K * ρ) + q) / h ≤ K * (N * ρ + q) / h := div_le_div_of_nonneg_right h1 h0.le
  rw [mul_div_assoc] at h2
  have h3 := le_mul_of_one_le_left ha hK
  have h4 := le_mul_of_one_le_left hp hK
  have d2 : 0 ≤ a + p + (N * (K * ρ) + q) / h := by positivity
  rw [mul_assoc]
  exact (mul_le_mul_of_nonneg_right (le_abs_self C) d2).trans (mul_le_mul_of_nonneg_left (by linarith) (abs_nonneg C))

theorem scaled_small {η K h ρ q N : ℝ} (hη : 0 < η) (hK : 1 ≤ K) (hρ : 0 ≤ ρ) (hq : 0 ≤ q) (hN : 1 ≤ N) (h0 : 0 < h) (hh : h < min η 1 / K)
    (hg : N * ρ + q ≤ min η 1 / K * h) : h < η ∧ K * ρ ≤ 1 ∧ N * (K * ρ) + q ≤ η * h := by
  have hK0 : 0 < K := by linarith
  have m0 : 0 < min η 1 := lt_min hη one_pos
  have m1 : min η 1 / K ≤ min η 1 := div_le_self m0.le hK
  have h1 : h < 1 := hh.trans_le (m1.trans (min_le_right _ _))
  rw [div_mul_eq_mul_div, le_div_iff₀ hK0] at hg
  have h2 : min η 1 * h ≤ η * h := mul_le_mul_of_nonneg_right (min_le_left _ _) h0.le
  have h3 : min η 1 * h ≤ 1 * h := mul_le_mul_of_nonneg_right (min_le_right _ _) h0.le
  have h4 : 0 ≤ K * ρ := by positivity
  refine ⟨hh.trans_le (m1.trans (min_le_left _ _)), ?_, ?_⟩
  · nlinarith
  · nlinarith

/-- **C87.** `evolve` of a constant-step solver in NumPy's arithmetic with underflow, for a nonlinear function with errors of that size: the
result and the recorded states are within a constant times `‖v - Y t0‖ + h^4 + (N (u + N τ) + 2^-N) / h` of the solution. -/
theorem C87_evolve (m : CSSolver ι) (hm : m.ClearContour 0) (hf : ContDiff ℝ ∞ f) (ht : t0 < tf) (hY : Solves m.op.mat f t0 tf Y) :
    ∃ (C η R : ℝ) (N0 : ℕ), 0 < η ∧ ∀ (N : ℕ) (rnd clk : ℝ → ℝ) (sum : List ℂ → ℂ) (B : LinAlg ι) (nl : NlFunc ι) (u τ ρ h : ℝ) (v : Vec ι),
      N0 ≤ N → 0 ≤ u → 0 ≤ τ → ρ = u + N * τ → (∀ x, |rnd x - x| ≤ u * |x| + τ) → (∀ x, |clk x - x| ≤ u * |x|) → (∀ l, SumsTo rnd l (sum l)) →
      B.Within ρ R → NlNear nl f ρ R → 0 < h → h < η → N * ρ + (1 / 2) ^ N ≤ η * h → ‖v - Y t0‖ ≤ η →
      ∀ (pyDiv storeData : Bool) (freq : ℤ) (s : (m.withPoints N).RSt) (fuel : ℕ), (pyDiv = true → tf ≠ 0) →
        freq ≠ 0 → 2 * (tf - t0) / h + 1 < fuel →
        CSSolver.RunNear ((m.withPoints N).fpEvolve ((m.withPoints N).flEnv (Arith.numpy rnd) (CArith.numpy rnd sum) B) nl clk pyDiv fuel v t0 tf h
          storeData freq s) Y tf h (C * (‖v - Y t0‖ + h ^ 4 + (N * ρ + (1 / 2) ^ N) / h)) := by
  obtain ⟨C, η, R, N0, hη, h1⟩ := C82_evolve m hm hf ht hY
  obtain ⟨K, hK, hacc⟩ := numpy_mixed_all ι R
  refine ⟨|C| * K, min η 1 / K, R, N0 + 1, div_pos (lt_min hη one_pos) (by linarith),
    fun N rnd clk sum B nl u τ ρ h v hN hu hτ hρ' hr hc hs hB hnl h0 hh hg hv pyDiv storeData freq s fuel hp hfr hfu => ?_⟩
  have hN1 : 1 ≤ N := by omega
  have hN1' : (1 : ℝ) ≤ N := by exact_mod_cast hN1
  have hρ : 0 ≤ ρ := by rw [hρ']; positivity
  have hle : ρ ≤ K * ρ := le_mul_of_one_le_left hρ hK
  have huρ : u ≤ K * ρ := (by rw [hρ']; have : 0 ≤ N * τ := by positivity
                              linarith : u ≤ ρ).trans hle
  obtain ⟨e1, e2, e3⟩ := scaled_small hη hK hρ (by positivity) hN1' h0 hh hg
  rw [hρ'] at e2
  obtain ⟨a1, a2, -⟩ := hacc N rnd sum u τ hN1 hu hτ hr hs e2
  rw [← hρ'] at a1 a2
  obtain ⟨⟨w, hw, he⟩, hst, hl, hsto⟩ := h1 N _ _ B nl clk (K * ρ) h v (by omega) (by positivity) a1 a2 (hB.of_le hle) (hnl.of_le hle)
    (fun x => (hc x).trans (mul_le_mul_of_nonneg_right huρ (abs_nonneg x))) h0 e1 e3
    (hv.trans ((div_le_self (lt_min hη one_pos).le hK).trans (min_le_left _ _))) pyDiv storeData freq s fuel hp hfr hfu
  have d := scaled_bound (C := C) hK (norm_nonneg (v - Y t0)) (by positivity : 0 ≤ h ^ 4) (by positivity : (0 : ℝ) ≤ (1 / 2) ^ N) hρ
    (by positivity : (0 : ℝ) ≤ N) h0
  exact ⟨⟨w, hw, he.trans d⟩, hst, hl, fun p hp => (hsto p hp).trans d⟩

/-- **C87.** The Korteweg–de Vries equation with underflow: the wavenumbers are given with errors `ρ`; the operator, the nonlinear function, the
coefficients and the stages are computed in NumPy's arithmetic. -/
theorem C87_kdv (hM : M ≠ 0) (kx : Fin (M + 1) → ℝ) {g : Vec (Fin (M + 1)) → Vec (Fin (M + 1))} (hg : kdvNl kx = total g)
    (m : CSSolver (Fin (M + 1))) (hop : m.op = .diag (kdvLin kx)) (hm : m.ClearContour 0) {t0 tf : ℝ} (ht : t0 < tf)
    {Y : ℝ → Vec (Fin (M + 1))} (hY : Solves m.op.mat g t0 tf Y) :
    ∃ (C η R : ℝ) (N0 : ℕ), 0 < η ∧ ∀ (N : ℕ) (rnd clk : ℝ → ℝ) (sum : List ℂ → ℂ) (F : FftLib) (La : LinAlg (Fin (M + 1))) (u τ ρ h : ℝ)
      (v : Vec (Fin (M + 1))) (kx' : Fin (M + 1) → ℝ), N0 ≤ N → 0 ≤ u → 0 ≤ τ → ρ = u + N * τ → (∀ x, |rnd x - x| ≤ u * |x| + τ) →
      (∀ x, |clk x - x| ≤ u * |x|) → (∀ l, SumsTo rnd l (sum l)) → (∀ i, |kx' i - kx i| ≤ ρ * (1 + |kx i|)) → F.Within (2 * M) ρ R → La.Within ρ R →
      0 < h → h < η → N * ρ + (1 / 2) ^ N ≤ η * h → ‖v - Y t0‖ ≤ η →
      ∀ m', m' = m.withLinOp (.diag (flKdvLin (CArith.numpy rnd sum) (RArith.numpy rnd) kx')) →
      ∀ (pyDiv storeData : Bool) (freq : ℤ) (s : (m'.withPoints N).RSt) (fuel : ℕ), (pyDiv = true → tf ≠ 0) →
        freq ≠ 0 → 2 * (tf - t0) / h + 1 < fuel →
        CSSolver.RunNear ((m'.withPoints N).fpEvolve (CSSolver.flEnv _ (Arith.numpy rnd) (CArith.numpy rnd sum) La)
          (flKdvNl (CArith.numpy rnd sum) (RArith.numpy rnd) F kx') clk pyDiv fuel v t0 tf h storeData freq s) Y tf h
          (C * (‖v - Y t0‖ + h ^ 4 + (N * ρ + (1 / 2) ^ N) / h)) := by
  obtain ⟨C, η, R, N0, hη, h1⟩ := C84_kdv_evolve hM kx hg m hop hm ht hY
  obtain ⟨K, hK, hacc⟩ := numpy_mixed_all (Fin (M + 1)) R
  refine ⟨|C| * K, min η 1 / K, R, N0 + 1, div_pos (lt_min hη one_pos) (by linarith),
    fun N rnd clk sum F La u τ ρ h v kx' hN hu hτ hρ' hr hc hs hk hF hLa h0 hh hg hv m' hm' pyDiv storeData freq s fuel hp hfr hfu => ?_⟩
  subst hm'
  have hN1 : 1 ≤ N := by omega
  have hN1' : (1 : ℝ) ≤ N := by exact_mod_cast hN1
  have hρ : 0 ≤ ρ := by rw [hρ']; positivity
  have hle : ρ ≤ K * ρ := le_mul_of_one_le_left hρ hK
  have huρ : u ≤ K * ρ := (by rw [hρ']; have : 0 ≤ N * τ := by positivity
                              linarith : u ≤ ρ).trans hle
  obtain ⟨e1, e2, e3⟩ := scaled_small hη hK hρ (by positivity) hN1' h0 hh hg
  rw [hρ'] at e2
  obtain ⟨a1, a2, a3⟩ := hacc N rnd sum u τ hN1 hu hτ hr hs e2
  rw [← hρ'] at a1 a2 a3
  obtain ⟨⟨w, hw, he⟩, hst, hl, hsto⟩ := h1 N _ _ _ F La clk (K * ρ) h v kx' (by omega) (by positivity)
    (fun i => (hk i).trans (mul_le_mul_of_nonneg_right hle (by positivity))) a1 a2 a3 (hF.of_le hle) (hLa.of_le hle)
    (fun x => (hc x).trans (mul_le_mul_of_nonneg_right huρ (abs_nonneg x))) h0 e1 e3
    (hv.trans ((div_le_self (lt_min hη one_pos).le hK).trans (min_le_left _ _))) pyDiv storeData freq s fuel hp hfr hfu
  have d := scaled_bound (C := C) hK (norm_nonneg (v - Y t0)) (by positivity : 0 ≤ h ^ 4) (by positivity : (0 : ℝ) ≤ (1 / 2) ^ N) hρ
    (by positivity : (0 : ℝ) ≤ N) h0
  exact ⟨⟨w, hw, he.trans d⟩, hst, hl, fun p hp => (hsto p hp).trans d⟩

/-- **C87.** The same for the Burgers equation. -/
theorem C87_burgers (hM : M ≠ 0) (kx : Fin (M + 1) → ℝ) (mu : ℝ) {g : Vec (Fin (M + 1)) → Vec (Fin (M + 1))} (hg : burgersNl kx = total g)
    (m : CSSolver (Fin (M + 1))) (hop : m.op = .diag (burgersLin kx mu)) (hm : m.ClearContour 0) {t0 tf : ℝ} (ht : t0 < tf)
    {Y : ℝ → Vec (Fin (M + 1))} (hY : Solves m.op.mat g t0 tf Y) :
    ∃ (C η R : ℝ) (N0 : ℕ), 0 < η ∧ ∀ (N : ℕ) (rnd clk : ℝ → ℝ) (sum : List ℂ → ℂ) (F : FftLib) (La : LinAlg (Fin (M + 1))) (u τ ρ h : ℝ)
      (v : Vec (Fin (M + 1))) (kx' : Fin (M + 1) → ℝ), N0 ≤ N → 0 ≤ u → 0 ≤ τ → ρ = u + N * τ → (∀ x, |rnd x - x| ≤ u * |x| + τ) →
      (∀ x, |clk x - x| ≤ u * |x|) → (∀ l, SumsTo rnd l (sum l)) → (∀ i, |kx' i - kx i| ≤ ρ * (1 + |kx i|)) → F.Within (2 * M) ρ R → La.Within ρ R →
      0 < h → h < η → N * ρ + (1 / 2) ^ N ≤ η * h → ‖v - Y t0‖ ≤ η →
      ∀ m', m' = m.withLinOp (.diag (flBurgersLin (RArith.numpy rnd) kx' mu)) →
      ∀ (pyDiv storeData : Bool) (freq : ℤ) (s : (m'.withPoints N).RSt) (fuel : ℕ), (pyDiv = true → tf ≠ 0) →
        freq ≠ 0 → 2 * (tf - t0) / h + 1 < fuel →
        CSSolver.RunNear ((m'.withPoints N).fpEvolve (CSSolver.flEnv _ (Arith.numpy rnd) (CArith.numpy rnd sum) La)
          (flBurgersNl (CArith.numpy rnd sum) (RArith.numpy rnd) F kx') clk pyDiv fuel v t0 tf h storeData freq s) Y tf h
          (C * (‖v - Y t0‖ + h ^ 4 + (N * ρ + (1 / 2) ^ N) / h)) := by
  obtain ⟨C, η, R, N0, hη, h1⟩ := C84_burgers_evolve hM kx mu hg m hop hm ht hY
  obtain ⟨K, hK, hacc⟩ := numpy_mixed_all (Fin (M + 1)) R
  refine ⟨|C| * K, min η 1 / K, R, N0 + 1, div_pos (lt_min hη one_pos) (by linarith),
    fun N rnd clk sum F La u τ ρ h v kx' hN hu hτ hρ' hr hc hs hk hF hLa h0 hh hg hv m' hm' pyDiv storeData freq s fuel hp hfr hfu => ?_⟩
  subst hm'
  have hN1 : 1 ≤ N := by omega
  have hN1' : (1 : ℝ) ≤ N := by exact_mod_cast hN1
  have hρ : 0 ≤ ρ := by rw [hρ']; positivity
  have hle : ρ ≤ K * ρ := le_mul_of_one_le_left hρ hK
  have huρ : u ≤ K * ρ := (by rw [hρ']; have : 0 ≤ N * τ := by positivity
                              linarith : u ≤ ρ).trans hle
  obtain ⟨e1, e2, e3⟩ := scaled_small hη hK hρ (by positivity) hN1' h0 hh hg
  rw [hρ'] at e2
  obtain ⟨a1, a2, a3⟩ := hacc N rnd sum u τ hN1 hu hτ hr hs e2
  rw [← hρ'] at a1 a2 a3
  obtain ⟨⟨w, hw, he⟩, hst, hl, hsto⟩ := h1 N _ _ _ F La clk (K * ρ) h v kx' (by omega) (by positivity)
    (fun i => (hk i).trans (mul_le_mul_of_nonneg_right hle (by positivity))) a1 a2 a3 (hF.of_le hle) (hLa.of_le hle)
    (fun x => (hc x).trans (mul_le_mul_of_nonneg_right huρ (abs_nonneg x))) h0 e1 e3
    (hv.trans ((div_le_self (lt_min hη one_pos).le hK).trans (min_le_left _ _))) pyDiv storeData freq s fuel hp hfr hfu
  have d := scaled_bound (C := C) hK (norm_nonneg (v - Y t0)) (by positivity : 0 ≤ h ^ 4) (by positivity : (0 : ℝ) ≤ (1 / 2) ^ N) hρ
    (by positivity : (0 : ℝ) ≤ N) h0
  exact ⟨⟨w, hw, he.trans d⟩, hst, hl, fun p hp => (hsto p hp).trans d⟩

/-- **C87.** Adaptive solvers in NumPy's arithmetic with underflow, for any error factor: while the recorded steps do not exceed `H` and are not too
many, the recorded states and the result are within a constant times `‖v - Y t0‖ + H^p + n (N (u + N τ) + 2^-N)` of the solution. -/
theorem C87_stored (m : ASSolver ι) (hm : m.ClearContour 0) (hf : ContDiff ℝ ∞ f) (ht : t0 ≤ tf) (hY : Solves m.op.mat f t0 tf Y) :
    ∃ (C η R : ℝ) (N0 : ℕ), 0 < η ∧ ∀ (N : ℕ) (rnd clk : ℝ → ℝ) (sum : List ℂ → ℂ) (B : LinAlg ι) (fac : SolverConfig ℝ → Vec ι → Vec ι → Ext ℝ)
      (nl : NlFunc ι) (u τ ρ : ℝ) (v : Vec ι),
      N0 ≤ N → 0 ≤ u → 0 ≤ τ → ρ = u + N * τ → (∀ x, |rnd x - x| ≤ u * |x| + τ) → (∀ x, |clk x - x| ≤ u * |x|) → (∀ l, SumsTo rnd l (sum l)) →
      B.Within ρ R → NlNear nl f ρ R → ‖v - Y t0‖ ≤ η →
      ∀ (cfg : SolverConfig ℝ) (hInit : Option ℝ) (pyDiv : Bool) (s : (m.withPoints N).RSt) (fuel : ℕ),
        0 < cfg.minh → (∀ h, hInit = some h → 0 < h) → ∀ H, N * ρ + (1 / 2) ^ N ≤ η * H → 0 < H → H < η →
        ∀ r, r = (m.withPoints N).fpEvolve ((m.withPoints N).flEnv (Arith.numpy rnd) (CArith.numpy rnd sum) B) fac nl clk pyDiv cfg fuel v t0 tf
          hInit true 1 s → r.2.t.IsChain (fun a b => b - a ≤ H) → r.2.t.length * (N * ρ + (1 / 2) ^ N) ≤ η →
        ASSolver.RunNear r Y tf (C * (‖v - Y t0‖ + H ^ m.orderOf + r.2.t.length * (N * ρ + (1 / 2) ^ N))) := by
  obtain ⟨C, η, R, N0, hη, h1⟩ := C82_stored m hm hf ht hY
  obtain ⟨K, hK, hacc⟩ := numpy_mixed_all ι R
  refine ⟨|C| * K, min η 1 / K, R, N0 + 1, div_pos (lt_min hη one_pos) (by linarith),
    fun N rnd clk sum B fac nl u τ ρ v hN hu hτ hρ' hr hc hs hB hnl hv cfg hInit pyDiv s fuel hmin hinit H hg h0 hh r hr' hch hlen => ?_⟩
  subst hr'
  have hN1 : 1 ≤ N := by omega
  have hN1' : (1 : ℝ) ≤ N := by exact_mod_cast hN1
  have hρ : 0 ≤ ρ := by rw [hρ']; positivity
  have hle : ρ ≤ K * ρ := le_mul_of_one_le_left hρ hK
  have huρ : u ≤ K * ρ := (by rw [hρ']; have : 0 ≤ N * τ := by positivity
                              linarith : u ≤ ρ).trans hle
  obtain ⟨e1, e2, e3⟩ := scaled_small hη hK hρ (by positivity) hN1' h0 hh hg
  rw [hρ'] at e2
  obtain ⟨a1, a2, -⟩ := hacc N rnd sum u τ hN1 hu hτ hr hs e2
  rw [← hρ'] at a1 a2
  have q := h1 N _ _ B fac nl clk (K * ρ) v (by omega) (by positivity) a1 a2 (hB.of_le hle) (hnl.of_le hle)
    (fun x => (hc x).trans (mul_le_mul_of_nonneg_right huρ (abs_nonneg x)))
    (hv.trans ((div_le_self (lt_min hη one_pos).le hK).trans (min_le_left _ _))) cfg hInit pyDiv s fuel hmin hinit H e3 h0 e1 hch
  generalize (m.withPoints N).fpEvolve ((m.withPoints N).flEnv (Arith.numpy rnd) (CArith.numpy rnd sum) B) fac nl clk pyDiv cfg fuel v t0 tf
    hInit true 1 s = r at q hlen ⊢
  have hl0 : (0 : ℝ) ≤ r.2.t.length := Nat.cast_nonneg _
  have hp0 : (0 : ℝ) ≤ (1 / 2) ^ N := by positivity
  have d0 : N * (K * ρ) + (1 / 2) ^ N ≤ K * (N * ρ + (1 / 2) ^ N) := by nlinarith
  have d1 : r.2.t.length * (N * (K * ρ) + (1 / 2) ^ N) ≤ K * (r.2.t.length * (N * ρ + (1 / 2) ^ N)) := by
    have := mul_le_mul_of_nonneg_left d0 hl0
    linarith
  have d2 : r.2.t.length * (N * (K * ρ) + (1 / 2) ^ N) ≤ η := by
    rw [le_div_iff₀ (by linarith)] at hlen
    linarith [min_le_left η 1]
  have d3 : C * (‖v - Y t0‖ + H ^ m.orderOf + r.2.t.length * (N * (K * ρ) + (1 / 2) ^ N)) ≤
      |C| * K * (‖v - Y t0‖ + H ^ m.orderOf + r.2.t.length * (N * ρ + (1 / 2) ^ N)) := by
    have h3 := le_mul_of_one_le_left (norm_nonneg (v - Y t0)) hK
    have h4 := le_mul_of_one_le_left (pow_nonneg h0.le m.orderOf) hK
    have h5 : 0 ≤ ‖v - Y t0‖ + H ^ m.orderOf + r.2.t.length * (N * (K * ρ) + (1 / 2) ^ N) := by positivity
    rw [mul_assoc]
    exact (mul_le_mul_of_nonneg_right (le_abs_self C) h5).trans (mul_le_mul_of_nonneg_left (by linarith) (abs_nonneg C))
  obtain ⟨q1, q2⟩ := q d2
  exact ⟨fun p hp => (q1 p hp).trans d3, fun w hw => ⟨(q2 w hw).1, (q2 w hw).2.trans d3⟩⟩

/-! ### Binary64 with underflow -/

/-- **C87.** Rounding to binary64 with gradual underflow has relative error `2^-53` up to an absolute error `2^-1075`. -/
theorem C87_gradual (x : ℝ) : |rnd64s x - x| ≤ 1 / 2 ^ 53 * |x| + 1 / 2 ^ 1075 := by
  have hx := abs_nonneg x
  unfold rnd64s
  split_ifs with h
  · have h1 := abs_roundHalfEven_sub_le (x * 2 ^ 1074)
    have e : (roundHalfEven (x * 2 ^ 1074) : ℝ) / 2 ^ 1074 - x = (roundHalfEven (x * 2 ^ 1074) - x * 2 ^ 1074) * (1 / 2 ^ 1074) := by
      rw [sub_mul, mul_assoc, mul_one_div_cancel (by positivity), mul_one, mul_one_div]
    rw [e, abs_mul, abs_of_pos (show (0 : ℝ) < 1 / 2 ^ 1074 by positivity)]
    have h2 := mul_le_mul_of_nonneg_right h1 (show (0 : ℝ) ≤ 1 / 2 ^ 1074 by positivity)
    have h3 : (1 / 2 : ℝ) * (1 / 2 ^ 1074) = 1 / 2 ^ 1075 := by rw [pow_succ _ 1074]; ring
    have : 0 ≤ 1 / 2 ^ 53 * |x| := by positivity
    linarith
  · have : (0 : ℝ) ≤ 1 / 2 ^ 1075 := by positivity
    linarith [rnd64_error x]

/-- **C87.** With flushing to zero the absolute error is `2^-1022`. -/
theorem C87_flush (x : ℝ) : |rnd64z x - x| ≤ 1 / 2 ^ 53 * |x| + 1 / 2 ^ 1022 := by
  have hx := abs_nonneg x
  unfold rnd64z
  split_ifs with h
  · rw [zero_sub, abs_neg]
    have : 0 ≤ 1 / 2 ^ 53 * |x| := by positivity
    linarith
  · have : (0 : ℝ) ≤ 1 / 2 ^ 1022 := by positivity
    linarith [rnd64_error x]

/-- **C87.** With gradual underflow sums of floating-point numbers have the relative error `2^-53`: those that are below the normal range are
exact. -/
theorem C87_sums {x y : ℝ} (hx : ∃ k : ℤ, x = k / 2 ^ 1074) (hy : ∃ k : ℤ, y = k / 2 ^ 1074) :
    |rnd64s (x + y) - (x + y)| ≤ 1 / 2 ^ 53 * |x + y| ∧ (|x + y| < 1 / 2 ^ 1022 → rnd64s (x + y) = x + y) := by
  have key : |x + y| < 1 / 2 ^ 1022 → rnd64s (x + y) = x + y := by
    intro h
    obtain ⟨a, rfl⟩ := hx
    obtain ⟨b, rfl⟩ := hy
    have e : ((a : ℝ) / 2 ^ 1074 + b / 2 ^ 1074) * 2 ^ 1074 = (a + b : ℤ) := by
      rw [← add_div, div_mul_cancel₀ _ (by positivity)]
      push_cast
      rfl
    rw [rnd64s, if_pos h, e, roundHalfEven_eq (N := a + b) (by linarith) (by linarith), ← add_div]
    push_cast
    rfl
  refine ⟨?_, key⟩
  by_cases h : |x + y| < 1 / 2 ^ 1022
  · rw [key h, sub_self, abs_zero]
    positivity
  · rw [rnd64s, if_neg h]
    exact rnd64_error _

/-- Products do not: the square of `2^-600` is rounded to zero. -/
example : rnd64s (1 / 2 ^ 600 * (1 / 2 ^ 600)) = 0 ∧ rnd64z (1 / 2 ^ 600 * (1 / 2 ^ 600)) = 0 ∧ ¬ ∃ u : ℝ, u < 1 ∧ ∀ x, |rnd64s x - x| ≤ u * |x| := by
  have e : (1 : ℝ) / 2 ^ 600 * (1 / 2 ^ 600) = 1 / 2 ^ 1200 := by rw [div_mul_div_comm, one_mul, ← pow_add]
  have hlt : |(1 : ℝ) / 2 ^ 1200| < 1 / 2 ^ 1022 := by
    rw [abs_of_pos (by positivity)]
    exact one_div_lt_one_div_of_lt (by positivity) (pow_lt_pow_right₀ (by norm_num) (by norm_num))
  have h0 : rnd64s (1 / 2 ^ 1200) = 0 := by
    rw [rnd64s, if_pos hlt, roundHalfEven_eq (N := 0)]
    · simp
    · have : (0 : ℝ) ≤ 1 / 2 ^ 1200 * 2 ^ 1074 := by positivity
      push_cast
      linarith
    · have : (1 : ℝ) / 2 ^ 1200 * 2 ^ 1074 = 1 / 2 ^ 126 := by
        rw [show (2 : ℝ) ^ 1200 = 2 ^ 126 * 2 ^ 1074 by rw [← pow_add], div_mul_eq_mul_div, one_mul, div_mul_cancel_right₀ (by positivity), one_div]
      rw [this]
      norm_num
  refine ⟨by rw [e]; exact h0, by rw [e, rnd64z, if_pos hlt], ?_⟩
  · rintro ⟨u, hu, h⟩
    have h1 := h (1 / 2 ^ 1200)
    rw [h0, zero_sub, abs_neg, abs_of_pos (by positivity)] at h1
    have : (0 : ℝ) < 1 / 2 ^ 1200 := by positivity
    nlinarith

/-- Arrays and complex numbers in binary64 with gradual underflow. -/
example : (Arith.numpy (ι := Fin 4) rnd64s).Within (32 * 3 ^ 4 * (1 / 2 ^ 53 + 1 / 2 ^ 1075)) 1000 ∧
    (CArith.numpy rnd64s (seqSum rnd64s)).Within (140 * (1 / 2 ^ 53 + 4 * (1 + |1000|) * (1 / 2 ^ 1075))) 1000 := by
  have h1 : (1 : ℝ) / 2 ^ 1075 ≤ 1 / 2 ^ 53 := one_div_le_one_div_of_le (by positivity) (pow_le_pow_right₀ (by norm_num) (by norm_num))
  refine ⟨C87_arrays (ι := Fin 4) C87_gradual (by positivity) (by positivity) (by norm_num at h1 ⊢; linarith) 1000,
    C87_complex C87_gradual (by positivity) (by positivity) ?_ (seqSum_sumsTo _)⟩
  rw [show |(1000 : ℝ)| = 1000 by norm_num]
  norm_num at h1 ⊢
  linarith

/-- The same with flushing to zero. -/
example : (CArith.numpy rnd64z (seqSum rnd64z)).Within (140 * (1 / 2 ^ 53 + 4 * (1 + |1000|) * (1 / 2 ^ 1022))) 1000 := by
  have h1 : (1 : ℝ) / 2 ^ 1022 ≤ 1 / 2 ^ 53 := one_div_le_one_div_of_le (by positivity) (pow_le_pow_right₀ (by norm_num) (by norm_num))
  refine C87_complex C87_flush (by positivity) (by positivity) ?_ (seqSum_sumsTo _)
  rw [show |(1000 : ℝ)| = 1000 by norm_num]
  norm_num at h1 ⊢
  linarith

/-- A rounding with relative error `u` that replaces results below `τ` by zero. -/
noncomputable def flushTo (u τ x : ℝ) : ℝ := if |x| ≤ τ then 0 else (1 + u) * x

theorem flushTo_error {u τ : ℝ} (hu : 0 ≤ u) (hτ : 0 ≤ τ) (x : ℝ) : |flushTo u τ x - x| ≤ u * |x| + τ := by
  have := mul_nonneg hu (abs_nonneg x)
  unfold flushTo
  split_ifs with h
  · rw [zero_sub, abs_neg]
    linarith
  · rw [show (1 + u) * x - x = u * x by ring, abs_mul, abs_of_nonneg hu]
    linarith

theorem stretch_error {u : ℝ} (hu : 0 ≤ u) (x : ℝ) : |(1 + u) * x - x| ≤ u * |x| :=
  le_of_eq (by rw [show (1 + u) * x - x = u * x by ring, abs_mul, abs_of_nonneg hu])

theorem FftLib.exact_within {N : ℕ} {ρ : ℝ} (hρ : 0 ≤ ρ) (hN : N ≠ 0) (R : ℝ) : FftLib.exact.Within N ρ R where
  fft u b _ h m hm := by
    rw [FftLib.exact, sub_self, norm_zero]
    have : 0 ≤ b := (norm_nonneg _).trans (h m hm)
    positivity
  ifft y b _ h j hj := by
    rw [FftLib.exact, sub_self, norm_zero]
    have : 0 ≤ b := (norm_nonneg _).trans (h j hj)
    positivity
  rfft u b _ h m _ := by
    rw [FftLib.exact, sub_self, norm_zero]
    have : 0 ≤ b := (abs_nonneg _).trans (h 0 (Nat.pos_of_ne_zero hN))
    positivity
  irfft y b _ h j _ := by
    rw [FftLib.exact, sub_self, abs_zero]
    have : 0 ≤ b := (norm_nonneg _).trans (h 0 (Nat.zero_le _))
    positivity

theorem exists_params {η : ℝ} (hη : 0 < η) (N0 : ℕ) : ∃ N, N0 ≤ N ∧ ∃ h u τ : ℝ, 0 < h ∧ h < η ∧ 0 < u ∧ 0 < τ ∧ N * (2 * u + N * τ) + (1 / 2) ^ N ≤ η * h := by
  obtain ⟨n, hn⟩ := exists_pow_lt_of_lt_one (show 0 < η * (η / 2) / 2 by positivity) (show (1 / 2 : ℝ) < 1 by norm_num)
  set N := N0 + n + 1 with hN
  have hN0 : (0 : ℝ) < N := by rw [hN]; positivity
  have hp : (1 / 2 : ℝ) ^ N ≤ (1 / 2) ^ n := pow_le_pow_of_le_one (by norm_num) (by norm_num) (by omega)
  refine ⟨N, by omega, η / 2, η * (η / 2) / 8 / N, η * (η / 2) / 4 / (N * N), by positivity, by linarith, by positivity, by positivity, ?_⟩
  have e : N * (2 * (η * (η / 2) / 8 / N) + N * (η * (η / 2) / 4 / (N * N))) = η * (η / 2) / 2 := by
    field_simp
    ring
  rw [e]
  linarith

/-- ETD4 for the logistic equation, with underflow: there are steps, numbers of contour points and roundings with which the run succeeds. -/
example : ∃ (N : ℕ) (h u τ : ℝ) (v : Vec (Fin 1)), 0 < h ∧ 0 < u ∧ 0 < τ ∧ (((CSSolver.etd4 ⟨1 / 100, 32, 1⟩ (.diag ![-1])).withPoints N).fpEvolve
    (CSSolver.flEnv _ (Arith.numpy (flushTo u τ)) (CArith.numpy (flushTo u τ) (seqSum (flushTo u τ))) (LinAlg.rounded fun x => (1 + u) * x))
    (total logisticN) (fun x => (1 + u) * x) true (⌈2 * (2 - 0) / h + 1⌉₊ + 1) (logisticY 0) 0 2 h true 1 (CSSolver.fpNew _)).1 = .ok (some v) := by
  obtain ⟨C, η, R, N0, hη, h1⟩ := C87_evolve (.etd4 ⟨1 / 100, 32, 1⟩ (.diag ![-1])) (by constructor <;> norm_num) logisticN_smooth
    (show (0 : ℝ) < 2 by norm_num) (logistic_solves 0 2)
  obtain ⟨N, hN, h, u, τ, h0, hh, hu, hτ, hg⟩ := exists_params hη N0
  have hNτ : 0 ≤ N * τ := by positivity
  obtain ⟨⟨v, hv, -⟩, -⟩ := h1 N (flushTo u τ) (fun x => (1 + u) * x) (seqSum (flushTo u τ)) (LinAlg.rounded fun x => (1 + u) * x) (total logisticN) (2 * u) τ _ h
    (logisticY 0) hN (by positivity) hτ.le rfl
    (fun x => (flushTo_error hu.le hτ.le x).trans (by have := mul_nonneg hu.le (abs_nonneg x); linarith))
    (fun x => (stretch_error hu.le x).trans (mul_le_mul_of_nonneg_right (by linarith) (abs_nonneg x)))
    (seqSum_sumsTo _) ((LinAlg.rounded_within (stretch_error hu.le) hu.le R).of_le (by linarith))
    (fun v _ => ⟨_, rfl, by rw [sub_self, norm_zero]; positivity⟩) h0 hh hg (by rw [sub_self, norm_zero]; exact hη.le) true true 1 (CSSolver.fpNew _)
    (⌈2 * (2 - 0) / h + 1⌉₊ + 1) (by norm_num) one_ne_zero (by push_cast; linarith [Nat.le_ceil (2 * (2 - 0) / h + 1)])
  exact ⟨N, h, u, τ, v, h0, hu, hτ, hv⟩

/-- KdV with IF4, for any wavenumbers, with underflow. -/
example (u0 : Vec (Fin 3)) (kx : Fin 3 → ℝ) : ∃ (N : ℕ) (T h u τ : ℝ) (v : Vec (Fin 3)), 0 < T ∧ 0 < h ∧ 0 < u ∧ 0 < τ ∧
    (((CSSolver.if4 (.diag (flKdvLin (CArith.numpy (flushTo u τ) (seqSum (flushTo u τ))) (RArith.numpy (flushTo u τ)) kx))).withPoints N).fpEvolve
    (CSSolver.flEnv _ (Arith.numpy (flushTo u τ)) (CArith.numpy (flushTo u τ) (seqSum (flushTo u τ))) (LinAlg.rounded fun x => (1 + u) * x))
    (flKdvNl (CArith.numpy (flushTo u τ) (seqSum (flushTo u τ))) (RArith.numpy (flushTo u τ)) FftLib.exact kx) (fun x => (1 + u) * x) true
    (⌈2 * (T - 0) / h + 1⌉₊ + 1) u0 0 T h true 1 (CSSolver.fpNew _)).1 = .ok (some v) := by
  obtain ⟨g, hg, hs⟩ := C59_kdv_smooth (M := 2) two_ne_zero kx
  obtain ⟨T, hT, Y, h0', hY⟩ := C59_solution (Matrix.diagonal (kdvLin kx)) hs u0 0
  obtain ⟨C, η, R, N0, hη, h1⟩ := C87_kdv (M := 2) two_ne_zero kx hg (.if4 (.diag (kdvLin kx))) rfl trivial hT (hY T le_rfl)
  obtain ⟨N, hN, h, u, τ, h0, hh, hu, hτ, hg⟩ := exists_params hη N0
  have hNτ : 0 ≤ N * τ := by positivity
  obtain ⟨⟨v, hv, -⟩, -⟩ := h1 N (flushTo u τ) (fun x => (1 + u) * x) (seqSum (flushTo u τ)) FftLib.exact (LinAlg.rounded fun x => (1 + u) * x) (2 * u) τ _ h
    u0 kx hN (by positivity) hτ.le rfl
    (fun x => (flushTo_error hu.le hτ.le x).trans (by have := mul_nonneg hu.le (abs_nonneg x); linarith))
    (fun x => (stretch_error hu.le x).trans (mul_le_mul_of_nonneg_right (by linarith) (abs_nonneg x)))
    (seqSum_sumsTo _) (fun i => by rw [sub_self, abs_zero]; positivity)
    (FftLib.exact_within (by positivity) (by norm_num) R) ((LinAlg.rounded_within (stretch_error hu.le) hu.le R).of_le (by linarith))
    h0 hh hg (by rw [h0', sub_self, norm_zero]; exact hη.le) _ rfl true true 1 (CSSolver.fpNew _)
    (⌈2 * (T - 0) / h + 1⌉₊ + 1) (fun _ => hT.ne') one_ne_zero (by push_cast; linarith [Nat.le_ceil (2 * (T - 0) / h + 1)])
  exact ⟨N, T, h, u, τ, v, hT, h0, hu, hτ, hv⟩

/-- Burgers with ETD5. -/
example (u0 : Vec (Fin 3)) (kx : Fin 3 → ℝ) : ∃ (N : ℕ) (T h u τ : ℝ) (v : Vec (Fin 3)), 0 < T ∧ 0 < h ∧ 0 < u ∧ 0 < τ ∧
    (((CSSolver.etd5 ⟨1 / 100, 32, 1⟩ (.diag (flBurgersLin (RArith.numpy (flushTo u τ)) kx (1 / 100)))).withPoints N).fpEvolve
    (CSSolver.flEnv _ (Arith.numpy (flushTo u τ)) (CArith.numpy (flushTo u τ) (seqSum (flushTo u τ))) (LinAlg.rounded fun x => (1 + u) * x))
    (flBurgersNl (CArith.numpy (flushTo u τ) (seqSum (flushTo u τ))) (RArith.numpy (flushTo u τ)) FftLib.exact kx) (fun x => (1 + u) * x) true
    (⌈2 * (T - 0) / h + 1⌉₊ + 1) u0 0 T h true 1 (CSSolver.fpNew _)).1 = .ok (some v) := by
  obtain ⟨g, hg, hs⟩ := C59_burgers_smooth (M := 2) two_ne_zero kx
  obtain ⟨T, hT, Y, h0', hY⟩ := C59_solution (Matrix.diagonal (burgersLin kx (1 / 100))) hs u0 0
  obtain ⟨C, η, R, N0, hη, h1⟩ := C87_burgers (M := 2) two_ne_zero kx (1 / 100) hg (.etd5 ⟨1 / 100, 32, 1⟩ (.diag (burgersLin kx (1 / 100)))) rfl
    (by constructor <;> norm_num) hT (hY T le_rfl)
  obtain ⟨N, hN, h, u, τ, h0, hh, hu, hτ, hg⟩ := exists_params hη N0
  have hNτ : 0 ≤ N * τ := by positivity
  obtain ⟨⟨v, hv, -⟩, -⟩ := h1 N (flushTo u τ) (fun x => (1 + u) * x) (seqSum (flushTo u τ)) FftLib.exact (LinAlg.rounded fun x => (1 + u) * x) (2 * u) τ _ h
    u0 kx hN (by positivity) hτ.le rfl
    (fun x => (flushTo_error hu.le hτ.le x).trans (by have := mul_nonneg hu.le (abs_nonneg x); linarith))
    (fun x => (stretch_error hu.le x).trans (mul_le_mul_of_nonneg_right (by linarith) (abs_nonneg x)))
    (seqSum_sumsTo _) (fun i => by rw [sub_self, abs_zero]; positivity)
    (FftLib.exact_within (by positivity) (by norm_num) R) ((LinAlg.rounded_within (stretch_error hu.le) hu.le R).of_le (by linarith))
    h0 hh hg (by rw [h0', sub_self, norm_zero]; exact hη.le) _ rfl true true 1 (CSSolver.fpNew _)
    (⌈2 * (T - 0) / h + 1⌉₊ + 1) (fun _ => hT.ne') one_ne_zero (by push_cast; linarith [Nat.le_ceil (2 * (T - 0) / h + 1)])
  exact ⟨N, T, h, u, τ, v, hT, h0, hu, hτ, hv⟩

/-- ETD34 for the logistic equation, in binary64 with gradual underflow: if it returns a state, then at a time from `tf` on. -/
example : ∃ (η : ℝ) (N0 : ℕ), 0 < η ∧ ∀ N, N0 ≤ N → (N : ℝ) * (2 / 2 ^ 53 + N * (1 / 2 ^ 1075)) + (1 / 2) ^ N ≤ η * (η / 2) → ∀ (fuel : ℕ) (v : Vec (Fin 1)),
    ∀ r, r = ((ASSolver.etd34 ⟨1 / 100, 32, 1⟩ (.diag ![-1])).withPoints N).fpEvolve
      (ASSolver.flEnv _ (Arith.numpy rnd64s) (CArith.numpy rnd64s (seqSum rnd64s)) (LinAlg.rounded rnd64))
      (fun cfg v e => computeS 4 cfg v e) (total logisticN) rnd64 true ⟨1 / 10000, 5 / 4, 17 / 20, 4 / 5, 1 / 100, 1 / 10 ^ 16⟩ fuel (logisticY 0) 0 2 none true 1
      (ASSolver.fpNew _) → r.2.t.IsChain (fun a b => b - a ≤ η / 2) →
      r.2.t.length * ((N : ℝ) * (2 / 2 ^ 53 + N * (1 / 2 ^ 1075)) + (1 / 2) ^ N) ≤ η → r.1 = .ok (some v) → 2 ≤ r.2.tc := by
  obtain ⟨C, η, R, N0, hη, h1⟩ := C87_stored (.etd34 ⟨1 / 100, 32, 1⟩ (.diag ![-1])) (by constructor <;> norm_num) logisticN_smooth
    (show (0 : ℝ) ≤ 2 by norm_num) (logistic_solves 0 2)
  refine ⟨η, N0, hη, fun N hN hg fuel v r hr hc hl hv => ?_⟩
  have hNτ : (0 : ℝ) ≤ N * (1 / 2 ^ 1075) := by positivity
  exact ((h1 N rnd64s rnd64 (seqSum rnd64s) (LinAlg.rounded rnd64) (fun cfg v e => computeS 4 cfg v e) (total logisticN) (2 / 2 ^ 53) (1 / 2 ^ 1075) _
    (logisticY 0) hN (by positivity) (by positivity) rfl
    (fun x => (C87_gradual x).trans (by have := abs_nonneg x; gcongr; norm_num))
    (fun x => (rnd64_error x).trans (by have := abs_nonneg x; gcongr; norm_num)) (seqSum_sumsTo _)
    ((LinAlg.rounded_within rnd64_error (by positivity) R).of_le (by linarith)) (fun v _ => ⟨_, rfl, by rw [sub_self, norm_zero]; positivity⟩)
    (by rw [sub_self, norm_zero]; exact hη.le) _ none true (ASSolver.fpNew _) fuel (by norm_num) (by simp) (η / 2) hg (by linarith) (by linarith) r hr hc hl).result v
    hv).1

/-- `2^-1074` and `3 · 2^-1074` have an exact sum. -/
example : rnd64s (1 / 2 ^ 1074 + 3 / 2 ^ 1074) = 1 / 2 ^ 1074 + 3 / 2 ^ 1074 := by
  refine (C87_sums ⟨1, by rw [Int.cast_one]⟩ ⟨3, by rw [Int.cast_ofNat]⟩).2 ?_
  rw [← add_div, abs_of_pos (by positivity), div_lt_div_iff₀ (by positivity) (by positivity), one_mul, show (2 : ℝ) ^ 1074 = 2 ^ 52 * 2 ^ 1022 by rw [← pow_add]]
  exact mul_lt_mul_of_pos_right (by norm_num) (by positivity)

end Verif
