import Verif.Props.FloatRuns
import Verif.Props.FloatModels

/-!
# C84: the model problems as they are computed, from the wavenumbers to the end of the run
-/

set_option linter.unusedSectionVars false

namespace Verif

open Matrix
open scoped ContDiff Matrix.Norms.Operator

variable {M : ℕ}

/-- `u u_x` with other wavenumbers. -/
theorem advection_kx_near (hM : M ≠ 0) {kx kx' : Fin (M + 1) → ℝ} {e b : ℝ} (he : ∀ m, |kx' m - kx m| ≤ e) {uf : Vec (Fin (M + 1))}
    (hb : ∀ m, ‖uf m‖ ≤ b) :
    ∃ v v', advection kx uf = .ok v ∧ advection kx' uf = .ok v' ∧ ∀ m, ‖v' m - v m‖ ≤ 2 * M * (b * (e * b)) := by
  refine ⟨_, _, advection_ok hM kx uf, advection_ok hM kx' uf, fun m => ?_⟩
  have h0 : 0 ≤ b := (norm_nonneg _).trans (hb 0)
  have he0 : 0 ≤ e := (abs_nonneg _).trans (he 0)
  have hN : 2 * M ≠ 0 := by omega
  have h1 : ∀ j, |irfft1 (2 * M) (specExt uf) j| ≤ b := fun j => abs_irfft1_le hN (fun m _ => specExt_norm_le h0 hb m) j
  have h2 : ∀ m, ‖Complex.I * (kx' m : ℂ) * uf m - Complex.I * (kx m : ℂ) * uf m‖ ≤ e * b := fun m => by
    rw [← sub_mul, ← mul_sub, norm_mul, norm_mul, Complex.norm_I, one_mul, ← Complex.ofReal_sub, Complex.norm_real, Real.norm_eq_abs]
    exact mul_le_mul (he m) (hb m) (norm_nonneg _) he0
  have h3 : ∀ j, |irfft1 (2 * M) (specExt fun m => Complex.I * (kx' m : ℂ) * uf m) j -
      irfft1 (2 * M) (specExt fun m => Complex.I * (kx m : ℂ) * uf m) j| ≤ e * b := fun j =>
    irfft1_near hN (fun m _ => specExt_near (by positivity) h2 m) j
  have := rfft1_near (N := 2 * M) (u := fun j => irfft1 (2 * M) (specExt uf) j * irfft1 (2 * M) (specExt fun m => Complex.I * (kx' m : ℂ) * uf m) j)
    (v := fun j => irfft1 (2 * M) (specExt uf) j * irfft1 (2 * M) (specExt fun m => Complex.I * (kx m : ℂ) * uf m) j) (e := b * (e * b))
    (fun j _ => by
      rw [← mul_sub, abs_mul]
      exact mul_le_mul (h1 j) (h3 j) (abs_nonneg _) h0) m.val
  push_cast at this
  exact this

variable {kx kx' : Fin (M + 1) → ℝ} {ρ : ℝ}

/-- Bounds for computed wavenumbers. -/
theorem kx_bounds (hρ : 0 ≤ ρ) (hρ1 : ρ ≤ 1) (hk : ∀ m, |kx' m - kx m| ≤ ρ * (1 + |kx m|)) :
    (∀ m, |kx' m - kx m| ≤ ρ * (1 + ‖kx‖)) ∧ ∀ m, |kx' m| ≤ 1 + 2 * ‖kx‖ := by
  have h1 : ∀ m, |kx m| ≤ ‖kx‖ := fun m => norm_le_pi_norm kx m
  have h2 : ∀ m, |kx' m - kx m| ≤ ρ * (1 + ‖kx‖) := fun m => (hk m).trans (mul_le_mul_of_nonneg_left (by linarith [h1 m]) hρ)
  refine ⟨h2, fun m => ?_⟩
  have h3 : |kx' m| ≤ ‖kx‖ + ρ * (1 + ‖kx‖) := norm_le_of_near (E := ℝ) (h1 m) (h2 m)
  nlinarith [norm_nonneg kx]

/-- **C84.** `kdv_ops` in floating point, with computed wavenumbers: the operator and, for spectra up to `b`, the nonlinear function are
within a constant times `ρ` of those of the exact problem. -/
theorem C84_kdv_problem (hM : M ≠ 0) (kx : Fin (M + 1) → ℝ) (b : ℝ) {g : Vec (Fin (M + 1)) → Vec (Fin (M + 1))} (hg : kdvNl kx = total g) :
    ∃ K R : ℝ, 1 ≤ K ∧ ∀ (A : CArith) (B : RArith) (F : FftLib) (ρ : ℝ) (kx' : Fin (M + 1) → ℝ), 0 ≤ ρ → ρ ≤ 1 → A.Within ρ R → B.Within ρ R →
      F.Within (2 * M) ρ R → (∀ m, |kx' m - kx m| ≤ ρ * (1 + |kx m|)) →
      ‖flKdvLin A B kx' - kdvLin kx‖ ≤ K * ρ ∧ NlNear (flKdvNl A B F kx') g (K * ρ) b := by
  set κ := 1 + 2 * ‖kx‖ with hκ
  have hκ0 : 0 ≤ ‖kx‖ := norm_nonneg kx
  have hκ1 : 1 ≤ κ := by linarith
  set c := max b 0 with hc
  have hc0 : 0 ≤ c := le_max_right _ _
  set S := (1 + κ) * (1 + c) ^ 2 with hS
  have hM1 : (1 : ℝ) ≤ M := by exact_mod_cast Nat.one_le_iff_ne_zero.2 hM
  have hS0 : 0 ≤ S := by positivity
  have hk3 : 0 ≤ (1 + κ) ^ 3 := by positivity
  have hMS : 0 ≤ M * S := by positivity
  refine ⟨1 + 100 * (1 + κ) ^ 3 + 3000 * M * S, 3 * (1 + κ) ^ 3 + 1100 * M * S, by nlinarith, fun A B F ρ kx' hρ hρ1 hA hB hF hk => ?_⟩
  obtain ⟨k1, k2⟩ := kx_bounds hρ hρ1 hk
  constructor
  · rw [pi_norm_le_iff_of_nonneg (by positivity)]
    intro m
    have h1 := C84_kdv_lin hA hB hρ hρ1 k2 (by nlinarith) m
    have h2 : ‖kdvLin kx' m - kdvLin kx m‖ ≤ 3 * (1 + κ) ^ 3 * ρ := by
      have hn : ‖(kx m : ℂ)‖ ≤ 1 + κ := by
        rw [Complex.norm_real]; exact (norm_le_pi_norm kx m).trans (by linarith)
      have hn' : ‖(kx' m : ℂ)‖ ≤ 1 + κ := by
        rw [Complex.norm_real]; exact (k2 m).trans (by linarith)
      have hd : ‖(kx' m : ℂ) - kx m‖ ≤ ρ * (1 + κ) := by
        rw [← Complex.ofReal_sub, Complex.norm_real]
        exact (k1 m).trans (mul_le_mul_of_nonneg_left (by linarith) hρ)
      have := pow_near hn hn' hd 3
      simp only [kdvLin]
      rw [← mul_sub, norm_mul, Complex.norm_I, one_mul]
      exact_mod_cast this
    rw [Pi.sub_apply]
    refine (norm_sub_le_norm_sub_add_norm_sub _ (kdvLin kx' m) _).trans ?_
    nlinarith [mul_nonneg hk3 hρ, mul_nonneg hMS hρ]
  · intro v hv
    have hv' : ∀ m, ‖v m‖ ≤ c := fun m => (norm_le_pi_norm v m).trans (hv.trans (le_max_left _ _))
    obtain ⟨w, w', e1, e2, e3⟩ := C84_kdv_nl hM hA hB hF hρ hρ1 k2 hv' (by nlinarith)
    obtain ⟨z, z', f1, f2, f3⟩ := advection_kx_near hM k1 hv'
    refine ⟨w', e2, ?_⟩
    rw [pi_norm_le_iff_of_nonneg (by positivity)]
    intro m
    have hgz : g v = fun m => -6 * z m := by
      have := congrFun hg v
      rw [kdvNl, f1] at this
      exact (Except.ok.inj this).symm
    have hw : w = fun m => -6 * z' m := by
      rw [kdvNl, f2] at e1
      exact (Except.ok.inj e1).symm
    have h2 : ‖w m - g v m‖ ≤ 12 * M * S * ρ := by
      rw [hw, hgz]
      change ‖-6 * z' m - -6 * z m‖ ≤ _
      rw [← mul_sub, norm_mul, show ‖(-6 : ℂ)‖ = 6 by norm_num]
      have h4 : c * (ρ * (1 + ‖kx‖) * c) ≤ S * ρ := by
        have a1 : c * c ≤ (1 + c) ^ 2 := by nlinarith
        have a2 : (1 + ‖kx‖) * (c * c) ≤ (1 + κ) * (1 + c) ^ 2 := mul_le_mul (by linarith) a1 (by positivity) (by positivity)
        nlinarith
      nlinarith [f3 m]
    rw [Pi.sub_apply]
    refine (norm_sub_le_norm_sub_add_norm_sub _ (w m) _).trans ?_
    nlinarith [e3 m, mul_nonneg hk3 hρ, mul_nonneg hMS hρ]

/-- **C84.** `burgers_ops` in floating point, with computed wavenumbers. -/
theorem C84_burgers_problem (hM : M ≠ 0) (kx : Fin (M + 1) → ℝ) (mu b : ℝ) {g : Vec (Fin (M + 1)) → Vec (Fin (M + 1))}
    (hg : burgersNl kx = total g) :
    ∃ K R : ℝ, 1 ≤ K ∧ ∀ (A : CArith) (B : RArith) (F : FftLib) (ρ : ℝ) (kx' : Fin (M + 1) → ℝ), 0 ≤ ρ → ρ ≤ 1 → A.Within ρ R → B.Within ρ R →
      F.Within (2 * M) ρ R → (∀ m, |kx' m - kx m| ≤ ρ * (1 + |kx m|)) →
      ‖flBurgersLin B kx' mu - burgersLin kx mu‖ ≤ K * ρ ∧ NlNear (flBurgersNl A B F kx') g (K * ρ) b := by
  set κ := 1 + 2 * ‖kx‖ with hκ
  have hκ0 : 0 ≤ ‖kx‖ := norm_nonneg kx
  have hκ1 : 1 ≤ κ := by linarith
  set c := max b 0 with hc
  have hc0 : 0 ≤ c := le_max_right _ _
  set S := (1 + κ) * (1 + c) ^ 2 with hS
  have hM1 : (1 : ℝ) ≤ M := by exact_mod_cast Nat.one_le_iff_ne_zero.2 hM
  have hS0 : 0 ≤ S := by positivity
  set P := (1 + |mu|) * (1 + κ ^ 2) with hP
  have hP0 : 0 ≤ P := by positivity
  have hMS : 0 ≤ M * S := by positivity
  refine ⟨1 + 11 * P + 200 * M * S, 2 * P + 100 * M * S, by nlinarith, fun A B F ρ kx' hρ hρ1 hA hB hF hk => ?_⟩
  obtain ⟨k1, k2⟩ := kx_bounds hρ hρ1 hk
  constructor
  · rw [pi_norm_le_iff_of_nonneg (by positivity)]
    intro m
    have h1 := C84_burgers_lin (mu := mu) hB hρ hρ1 k2 (by nlinarith) m
    have h2 : ‖burgersLin kx' mu m - burgersLin kx mu m‖ ≤ 8 * P * ρ := by
      have hn : ‖(kx m : ℂ)‖ ≤ 1 + κ := by
        rw [Complex.norm_real]; exact (norm_le_pi_norm kx m).trans (by linarith)
      have hn' : ‖(kx' m : ℂ)‖ ≤ 1 + κ := by
        rw [Complex.norm_real]; exact (k2 m).trans (by linarith)
      have hd : ‖(kx' m : ℂ) - kx m‖ ≤ ρ * (1 + κ) := by
        rw [← Complex.ofReal_sub, Complex.norm_real]
        exact (k1 m).trans (mul_le_mul_of_nonneg_left (by linarith) hρ)
      have := pow_near hn hn' hd 2
      simp only [burgersLin]
      rw [← mul_sub, norm_mul, norm_neg, Complex.norm_real, Real.norm_eq_abs]
      have h5 : (1 + κ) ^ 2 ≤ 4 * (1 + κ ^ 2) := by nlinarith [sq_nonneg (κ - 1)]
      have h6 : ‖(kx' m : ℂ) ^ 2 - (kx m : ℂ) ^ 2‖ ≤ 8 * (1 + κ ^ 2) * ρ := by
        refine this.trans ?_
        push_cast
        nlinarith
      calc |mu| * ‖(kx' m : ℂ) ^ 2 - (kx m : ℂ) ^ 2‖ ≤ |mu| * (8 * (1 + κ ^ 2) * ρ) := mul_le_mul_of_nonneg_left h6 (abs_nonneg _)
        _ ≤ (1 + |mu|) * (8 * (1 + κ ^ 2) * ρ) := mul_le_mul_of_nonneg_right (by linarith) (by positivity)
        _ = 8 * P * ρ := by rw [hP]; ring
    rw [Pi.sub_apply]
    refine (norm_sub_le_norm_sub_add_norm_sub _ (burgersLin kx' mu m) _).trans ?_
    nlinarith [mul_nonneg hP0 hρ, mul_nonneg hMS hρ]
  · intro v hv
    have hv' : ∀ m, ‖v m‖ ≤ c := fun m => (norm_le_pi_norm v m).trans (hv.trans (le_max_left _ _))
    obtain ⟨w, w', e1, e2, e3⟩ := C84_burgers_nl hM hA hB hF hρ hρ1 k2 hv' (by nlinarith)
    obtain ⟨z, z', f1, f2, f3⟩ := advection_kx_near hM k1 hv'
    refine ⟨w', e2, ?_⟩
    rw [pi_norm_le_iff_of_nonneg (by positivity)]
    intro m
    have hgz : g v = fun m => - z m := by
      have := congrFun hg v
      rw [burgersNl, f1] at this
      exact (Except.ok.inj this).symm
    have hw : w = fun m => - z' m := by
      rw [burgersNl, f2] at e1
      exact (Except.ok.inj e1).symm
    have h2 : ‖w m - g v m‖ ≤ 2 * M * S * ρ := by
      rw [hw, hgz]
      change ‖-z' m - -z m‖ ≤ _
      rw [neg_sub_neg, norm_sub_rev]
      have h4 : c * (ρ * (1 + ‖kx‖) * c) ≤ S * ρ := by
        have a1 : c * c ≤ (1 + c) ^ 2 := by nlinarith
        have a2 : (1 + ‖kx‖) * (c * c) ≤ (1 + κ) * (1 + c) ^ 2 := mul_le_mul (by linarith) a1 (by positivity) (by positivity)
        nlinarith
      nlinarith [f3 m]
    rw [Pi.sub_apply]
    refine (norm_sub_le_norm_sub_add_norm_sub _ (w m) _).trans ?_
    nlinarith [e3 m, mul_nonneg hP0 hρ, mul_nonneg hMS hρ]

/-! ### The runs -/

theorem RArith.Within.mono {B : RArith} {ρ R R' : ℝ} (h : B.Within ρ R) (hR : R' ≤ R) : B.Within ρ R' where
  add x y h1 h2 h3 := h.add x y (h1.trans hR) (h2.trans hR) (h3.trans hR)
  mul x y h1 h2 h3 := h.mul x y (h1.trans hR) (h2.trans hR) (h3.trans hR)
  pow x n h1 h2 h3 := h.pow x n (h1.trans hR) (h2.trans hR) h3

theorem FftLib.Within.mono {F : FftLib} {N : ℕ} {ρ R R' : ℝ} (h : F.Within N ρ R) (hR : R' ≤ R) : F.Within N ρ R' where
  fft u b h1 := h.fft u b (h1.trans hR)
  ifft u b h1 := h.ifft u b (h1.trans hR)
  rfft u b h1 := h.rfft u b (h1.trans hR)
  irfft u b h1 := h.irfft u b (h1.trans hR)

section
variable {ι : Type} [Fintype ι] [DecidableEq ι] {f : Vec ι → Vec ι} {Y : ℝ → Vec ι} {t0 tf : ℝ}

theorem CSSolver.near_withLinOp {m : CSSolver ι} {ε : ℝ} {L L' : LinOp ι} (hop : m.op = L) (h : L.Near ε L') : m.Near ε (m.withLinOp L') := by
  subst hop
  cases m
  exacts [.if4 h, .etd4 h, .etd5 h]

theorem ASSolver.near_withEigs {m : ASSolver ι} {ε : ℝ} {L L' : Vec ι} (hop : m.op = .diag L) (h : ‖L' - L‖ ≤ ε) : m.Near ε (m.withEigs L') := by
  rcases m with L0 | ⟨cfg, L0⟩ | ⟨cfg, L0⟩ | L0 <;> simp only [ASSolver.op] at hop
  · subst hop; exact .if34 (.diag h)
  · subst hop; exact .etd34 (.diag h)
  · subst hop; exact .etd35 (.diag h)
  · cases hop; exact .if45dp h

theorem ASSolver.near_withMatrix {m : ASSolver ι} {ε : ℝ} {L L' : Mat ι} (hop : m.op = .full L) (h : ‖L' - L‖ ≤ ε) : m.Near ε (m.withMatrix L') := by
  rcases m with L0 | ⟨cfg, L0⟩ | ⟨cfg, L0⟩ | L0 <;> simp only [ASSolver.op] at hop
  · subst hop; exact .if34 (.full h)
  · subst hop; exact .etd34 (.full h)
  · subst hop; exact .etd35 (.full h)
  · cases hop

/-- From the accuracy of an operator and a nonlinear function to that of a run. -/
theorem CSSolver.evolve_of_problem (m : CSSolver ι) (hm : m.ClearContour 0) (hf : ContDiff ℝ ∞ f) (ht : t0 < tf) (hY : Solves m.op.mat f t0 tf Y)
    (Q : ℝ → ℝ → CArith → CSSolver ι → NlFunc ι → Prop)
    (hQ : ∀ b, ∃ K R, 1 ≤ K ∧ ∀ ρ R' A m' nl, 0 ≤ ρ → ρ ≤ 1 → R ≤ R' → Q ρ R' A m' nl → A.Within ρ R → m.Near (K * ρ) m' ∧ NlNear nl f (K * ρ) b) :
    ∃ (C η R : ℝ) (N0 : ℕ), 0 < η ∧ ∀ (m' : CSSolver ι) (N : ℕ) (ar : Arith ι) (A : CArith) (B : LinAlg ι) (nl : NlFunc ι) (rnd : ℝ → ℝ) (ρ h : ℝ) (u : Vec ι),
      N0 ≤ N → 0 ≤ ρ → Q ρ R A m' nl → ar.Within ρ R → A.Within ρ (R * N) → B.Within ρ R → (∀ x, |rnd x - x| ≤ ρ * |x|) → 0 < h → h < η →
      N * ρ + (1 / 2) ^ N ≤ η * h → ‖u - Y t0‖ ≤ η →
      ∀ (pyDiv storeData : Bool) (freq : ℤ) (s : (m'.withPoints N).RSt) (fuel : ℕ), (pyDiv = true → tf ≠ 0) →
        freq ≠ 0 → 2 * (tf - t0) / h + 1 < fuel →
        RunNear ((m'.withPoints N).fpEvolve ((m'.withPoints N).flEnv ar A B) nl rnd pyDiv fuel u t0 tf h storeData freq s) Y tf h
          (C * (‖u - Y t0‖ + h ^ 4 + (N * ρ + (1 / 2) ^ N) / h)) := by
  obtain ⟨C, η, R1, N0, hη, h1⟩ := C84_evolve m hm hf ht hY
  obtain ⟨K, R2, hK, h2⟩ := hQ R1
  set R := max (max R1 R2) 0 with hR
  have hR0 : 0 ≤ R := le_max_right _ _
  have hR1 : R1 ≤ R := (le_max_left _ _).trans (le_max_left _ _)
  have hR2 : R2 ≤ R := (le_max_right _ _).trans (le_max_left _ _)
  refine ⟨|C| * K, min (min η 1) (η / K), R, N0 + 1, lt_min (lt_min hη one_pos) (by positivity),
    fun m' N ar A B nl rnd ρ h u hN hρ hq har hA hB hr h0 hh hg hu pyDiv storeData freq s fuel hp hfr hfu => ?_⟩
  have m1 : min (min η 1) (η / K) ≤ η := (min_le_left _ _).trans (min_le_left _ _)
  have m2 : min (min η 1) (η / K) ≤ 1 := (min_le_left _ _).trans (min_le_right _ _)
  have e1 : h < η := hh.trans_le m1
  have e2 : h < 1 := hh.trans_le m2
  have hN1 : (1 : ℝ) ≤ N := by exact_mod_cast (show 1 ≤ N by omega)
  have hpow : (0 : ℝ) ≤ (1 / 2) ^ N := by positivity
  have hρ1 : ρ ≤ 1 := by
    have h3 : min (min η 1) (η / K) * h ≤ 1 * h := mul_le_mul_of_nonneg_right m2 h0.le
    nlinarith
  have hg' : N * (K * ρ) + (1 / 2) ^ N ≤ K * (N * ρ + (1 / 2) ^ N) := by nlinarith
  have e3 : N * (K * ρ) + (1 / 2) ^ N ≤ η * h := by
    have h2 : N * ρ + (1 / 2) ^ N ≤ η / K * h := hg.trans (mul_le_mul_of_nonneg_right (min_le_right _ _) h0.le)
    rw [div_mul_eq_mul_div, le_div_iff₀ (by linarith)] at h2
    linarith
  have hle : ρ ≤ K * ρ := le_mul_of_one_le_left hρ hK
  obtain ⟨q1, q2⟩ := h2 ρ R A m' nl hρ hρ1 hR2 hq (hA.mono (hR2.trans (le_mul_of_one_le_right hR0 hN1)))
  have q := h1 m' N ar A B nl rnd (K * ρ) h u (by omega) (by positivity) q1 ((har.mono hR1).of_le hle)
    ((hA.mono (mul_le_mul_of_nonneg_right hR1 (by linarith))).of_le hle) ((hB.mono hR1).of_le hle) q2
    (fun x => (hr x).trans (mul_le_mul_of_nonneg_right hle (abs_nonneg x))) h0 e1 e3 (hu.trans m1) pyDiv storeData freq s fuel hp hfr hfu
  have d0 := norm_nonneg (u - Y t0)
  have d1 : ‖u - Y t0‖ + h ^ 4 + (N * (K * ρ) + (1 / 2) ^ N) / h ≤ K * (‖u - Y t0‖ + h ^ 4 + (N * ρ + (1 / 2) ^ N) / h) := by
    have h2 : (N * (K * ρ) + (1 / 2) ^ N) / h ≤ K * (N * ρ + (1 / 2) ^ N) / h := div_le_div_of_nonneg_right hg' h0.le
    have h3 : h ^ 4 ≤ K * h ^ 4 := le_mul_of_one_le_left (by positivity) (by linarith)
    have h4 := le_mul_of_one_le_left d0 hK
    rw [mul_div_assoc] at h2
    linarith
  have d2 : 0 ≤ ‖u - Y t0‖ + h ^ 4 + (N * (K * ρ) + (1 / 2) ^ N) / h := by positivity
  have d3 : C * (‖u - Y t0‖ + h ^ 4 + (N * (K * ρ) + (1 / 2) ^ N) / h) ≤ |C| * K * (‖u - Y t0‖ + h ^ 4 + (N * ρ + (1 / 2) ^ N) / h) := by
    rw [mul_assoc]
    exact (mul_le_mul_of_nonneg_right (le_abs_self C) d2).trans (mul_le_mul_of_nonneg_left d1 (abs_nonneg C))
  obtain ⟨⟨v, hv, he⟩, hs, hl, hst⟩ := q
  exact ⟨⟨v, hv, he.trans d3⟩, hs, hl, fun p hp => (hst p hp).trans d3⟩

/-- The same for adaptive solvers. -/
theorem ASSolver.stored_of_problem (m : ASSolver ι) (hm : m.ClearContour 0) (hf : ContDiff ℝ ∞ f) (ht : t0 ≤ tf) (hY : Solves m.op.mat f t0 tf Y)
    (Q : ℝ → ℝ → CArith → ASSolver ι → NlFunc ι → Prop)
    (hQ : ∀ b, ∃ K R, 1 ≤ K ∧ ∀ ρ R' A m' nl, 0 ≤ ρ → ρ ≤ 1 → R ≤ R' → Q ρ R' A m' nl → A.Within ρ R → m.Near (K * ρ) m' ∧ NlNear nl f (K * ρ) b) :
    ∃ (C η R : ℝ) (N0 : ℕ), 0 < η ∧ ∀ (m' : ASSolver ι) (N : ℕ) (ar : Arith ι) (A : CArith) (B : LinAlg ι) (fac : SolverConfig ℝ → Vec ι → Vec ι → Ext ℝ) (nl : NlFunc ι)
      (rnd : ℝ → ℝ) (ρ : ℝ) (u : Vec ι), N0 ≤ N → 0 ≤ ρ → Q ρ R A m' nl → ar.Within ρ R → A.Within ρ (R * N) → B.Within ρ R →
      (∀ x, |rnd x - x| ≤ ρ * |x|) → ‖u - Y t0‖ ≤ η →
      ∀ (cfg : SolverConfig ℝ) (hInit : Option ℝ) (pyDiv : Bool) (s : (m'.withPoints N).RSt) (fuel : ℕ),
        0 < cfg.minh → (∀ h, hInit = some h → 0 < h) → ∀ H, N * ρ + (1 / 2) ^ N ≤ η * H → 0 < H → H < η →
        ((m'.withPoints N).fpEvolve ((m'.withPoints N).flEnv ar A B) fac nl rnd pyDiv cfg fuel u t0 tf hInit true 1 s).2.t.IsChain
          (fun a b => b - a ≤ H) →
        ((m'.withPoints N).fpEvolve ((m'.withPoints N).flEnv ar A B) fac nl rnd pyDiv cfg fuel u t0 tf hInit true 1 s).2.t.length *
          (N * ρ + (1 / 2) ^ N) ≤ η →
        RunNear ((m'.withPoints N).fpEvolve ((m'.withPoints N).flEnv ar A B) fac nl rnd pyDiv cfg fuel u t0 tf hInit true 1 s) Y tf
          (C * (‖u - Y t0‖ + H ^ m.orderOf +
            ((m'.withPoints N).fpEvolve ((m'.withPoints N).flEnv ar A B) fac nl rnd pyDiv cfg fuel u t0 tf hInit true 1 s).2.t.length *
              (N * ρ + (1 / 2) ^ N))) := by
  obtain ⟨C, η, R1, N0, hη, h1⟩ := C84_stored m hm hf ht hY
  obtain ⟨K, R2, hK, h2⟩ := hQ R1
  set R := max (max R1 R2) 0 with hR
  have hR0 : 0 ≤ R := le_max_right _ _
  have hR1 : R1 ≤ R := (le_max_left _ _).trans (le_max_left _ _)
  have hR2 : R2 ≤ R := (le_max_right _ _).trans (le_max_left _ _)
  refine ⟨|C| * K, min (min η 1) (η / K), R, N0 + 1, lt_min (lt_min hη one_pos) (by positivity),
    fun m' N ar A B fac nl rnd ρ u hN hρ hq har hA hB hr hu cfg hInit pyDiv s fuel hmin hinit H hg h0 hh hch hlen => ?_⟩
  have m1 : min (min η 1) (η / K) ≤ η := (min_le_left _ _).trans (min_le_left _ _)
  have m2 : min (min η 1) (η / K) ≤ 1 := (min_le_left _ _).trans (min_le_right _ _)
  have e1 : H < η := hh.trans_le m1
  have e2 : H < 1 := hh.trans_le m2
  have hN1 : (1 : ℝ) ≤ N := by exact_mod_cast (show 1 ≤ N by omega)
  have hpow : (0 : ℝ) ≤ (1 / 2) ^ N := by positivity
  have hρ1 : ρ ≤ 1 := by
    have h3 : min (min η 1) (η / K) * H ≤ 1 * H := mul_le_mul_of_nonneg_right m2 h0.le
    nlinarith
  have hg' : N * (K * ρ) + (1 / 2) ^ N ≤ K * (N * ρ + (1 / 2) ^ N) := by nlinarith
  have e3 : N * (K * ρ) + (1 / 2) ^ N ≤ η * H := by
    have h2 : N * ρ + (1 / 2) ^ N ≤ η / K * H := hg.trans (mul_le_mul_of_nonneg_right (min_le_right _ _) h0.le)
    rw [div_mul_eq_mul_div, le_div_iff₀ (by linarith)] at h2
    linarith
  have hle : ρ ≤ K * ρ := le_mul_of_one_le_left hρ hK
  obtain ⟨q1, q2⟩ := h2 ρ R A m' nl hρ hρ1 hR2 hq (hA.mono (hR2.trans (le_mul_of_one_le_right hR0 hN1)))
  have q := h1 m' N ar A B fac nl rnd (K * ρ) u (by omega) (by positivity) q1 ((har.mono hR1).of_le hle)
    ((hA.mono (mul_le_mul_of_nonneg_right hR1 (by linarith))).of_le hle) ((hB.mono hR1).of_le hle) q2
    (fun x => (hr x).trans (mul_le_mul_of_nonneg_right hle (abs_nonneg x))) (hu.trans m1) cfg hInit pyDiv s fuel hmin hinit H e3 h0 e1 hch
  generalize (m'.withPoints N).fpEvolve ((m'.withPoints N).flEnv ar A B) fac nl rnd pyDiv cfg fuel u t0 tf hInit true 1 s = r at q hlen ⊢
  have hn : (0 : ℝ) ≤ r.2.t.length := Nat.cast_nonneg _
  have hl2 : r.2.t.length * (N * (K * ρ) + (1 / 2) ^ N) ≤ K * (r.2.t.length * (N * ρ + (1 / 2) ^ N)) := by
    have := mul_le_mul_of_nonneg_left hg' hn
    linarith
  have e4 : r.2.t.length * (N * (K * ρ) + (1 / 2) ^ N) ≤ η := by
    have h3 := hlen.trans (min_le_right _ _)
    rw [le_div_iff₀ (by linarith)] at h3
    linarith
  have d0 := norm_nonneg (u - Y t0)
  have d1 : ‖u - Y t0‖ + H ^ m.orderOf + r.2.t.length * (N * (K * ρ) + (1 / 2) ^ N) ≤
      K * (‖u - Y t0‖ + H ^ m.orderOf + r.2.t.length * (N * ρ + (1 / 2) ^ N)) := by
    have h3 : H ^ m.orderOf ≤ K * H ^ m.orderOf := le_mul_of_one_le_left (by positivity) (by linarith)
    have h4 := le_mul_of_one_le_left d0 hK
    linarith
  have d2 : 0 ≤ ‖u - Y t0‖ + H ^ m.orderOf + r.2.t.length * (N * (K * ρ) + (1 / 2) ^ N) := by positivity
  have d3 : C * (‖u - Y t0‖ + H ^ m.orderOf + r.2.t.length * (N * (K * ρ) + (1 / 2) ^ N)) ≤
      |C| * K * (‖u - Y t0‖ + H ^ m.orderOf + r.2.t.length * (N * ρ + (1 / 2) ^ N)) := by
    rw [mul_assoc]
    exact (mul_le_mul_of_nonneg_right (le_abs_self C) d2).trans (mul_le_mul_of_nonneg_left d1 (abs_nonneg C))
  obtain ⟨hst, hres⟩ := q e4
  exact ⟨fun p hp => (hst p hp).trans d3, fun v hv => ⟨(hres v hv).1, (hres v hv).2.trans d3⟩⟩

end

/-- **C84.** A solver of the Korteweg–de Vries equation with constant steps, computed throughout in floating point: the wavenumbers, the operator and
the nonlinear function of `kdv_ops`, the coefficients, the stages and the clock.  The states are within a constant times
`‖u - Y t0‖ + h^4 + (N ρ + 2^-N) / h` of the solution `Y` of the exact spectral equations. -/
theorem C84_kdv_evolve (hM : M ≠ 0) (kx : Fin (M + 1) → ℝ) {g : Vec (Fin (M + 1)) → Vec (Fin (M + 1))} (hg : kdvNl kx = total g)
    (m : CSSolver (Fin (M + 1))) (hop : m.op = .diag (kdvLin kx)) (hm : m.ClearContour 0) {t0 tf : ℝ} (ht : t0 < tf)
    {Y : ℝ → Vec (Fin (M + 1))} (hY : Solves m.op.mat g t0 tf Y) :
    ∃ (C η R : ℝ) (N0 : ℕ), 0 < η ∧ ∀ (N : ℕ) (ar : Arith (Fin (M + 1))) (A : CArith) (B : RArith) (F : FftLib) (La : LinAlg (Fin (M + 1)))
      (rnd : ℝ → ℝ) (ρ h : ℝ) (u : Vec (Fin (M + 1))) (kx' : Fin (M + 1) → ℝ), N0 ≤ N → 0 ≤ ρ → (∀ i, |kx' i - kx i| ≤ ρ * (1 + |kx i|)) →
      ar.Within ρ R → A.Within ρ (R * N) → B.Within ρ R → F.Within (2 * M) ρ R → La.Within ρ R → (∀ x, |rnd x - x| ≤ ρ * |x|) → 0 < h → h < η →
      N * ρ + (1 / 2) ^ N ≤ η * h → ‖u - Y t0‖ ≤ η →
      ∀ (pyDiv storeData : Bool) (freq : ℤ) (s : ((m.withLinOp (.diag (flKdvLin A B kx'))).withPoints N).RSt) (fuel : ℕ), (pyDiv = true → tf ≠ 0) →
        freq ≠ 0 → 2 * (tf - t0) / h + 1 < fuel →
        CSSolver.RunNear (((m.withLinOp (.diag (flKdvLin A B kx'))).withPoints N).fpEvolve (CSSolver.flEnv _ ar A La) (flKdvNl A B F kx') rnd
          pyDiv fuel u t0 tf h storeData freq s) Y tf h (C * (‖u - Y t0‖ + h ^ 4 + (N * ρ + (1 / 2) ^ N) / h)) := by
  obtain ⟨g', hg', hs⟩ := C59_kdv_smooth hM kx
  obtain rfl : g' = g := by
    funext v
    exact Except.ok.inj (congrFun (hg'.symm.trans hg) v)
  obtain ⟨C, η, R, N0, hη, h1⟩ := m.evolve_of_problem hm hs ht hY
    (fun ρ R A m' nl => ∃ (B : RArith) (F : FftLib) (kx' : Fin (M + 1) → ℝ), (∀ i, |kx' i - kx i| ≤ ρ * (1 + |kx i|)) ∧ B.Within ρ R ∧
      F.Within (2 * M) ρ R ∧ m' = m.withLinOp (.diag (flKdvLin A B kx')) ∧ nl = flKdvNl A B F kx')
    (fun b => by
      obtain ⟨K, R, hK, h2⟩ := C84_kdv_problem hM kx b hg
      refine ⟨K, R, hK, fun ρ R' A m' nl hρ hρ1 hR hq hA => ?_⟩
      obtain ⟨B, F, kx', hk, hB, hF, rfl, rfl⟩ := hq
      obtain ⟨a1, a2⟩ := h2 A B F ρ kx' hρ hρ1 hA (hB.mono hR) (hF.mono hR) hk
      exact ⟨CSSolver.near_withLinOp hop (.diag a1), a2⟩)
  exact ⟨C, η, R, N0, hη, fun N ar A B F La rnd ρ h u kx' hN hρ hk har hA hB hF hLa hr =>
    h1 _ N ar A La _ rnd ρ h u hN hρ ⟨B, F, kx', hk, hB, hF, rfl, rfl⟩ har hA hLa hr⟩

/-- **C84.** The same for the Burgers equation. -/
theorem C84_burgers_evolve (hM : M ≠ 0) (kx : Fin (M + 1) → ℝ) (mu : ℝ) {g : Vec (Fin (M + 1)) → Vec (Fin (M + 1))} (hg : burgersNl kx = total g)
    (m : CSSolver (Fin (M + 1))) (hop : m.op = .diag (burgersLin kx mu)) (hm : m.ClearContour 0) {t0 tf : ℝ} (ht : t0 < tf)
    {Y : ℝ → Vec (Fin (M + 1))} (hY : Solves m.op.mat g t0 tf Y) :
    ∃ (C η R : ℝ) (N0 : ℕ), 0 < η ∧ ∀ (N : ℕ) (ar : Arith (Fin (M + 1))) (A : CArith) (B : RArith) (F : FftLib) (La : LinAlg (Fin (M + 1)))
      (rnd : ℝ → ℝ) (ρ h : ℝ) (u : Vec (Fin (M + 1))) (kx' : Fin (M + 1) → ℝ), N0 ≤ N → 0 ≤ ρ → (∀ i, |kx' i - kx i| ≤ ρ * (1 + |kx i|)) →
      ar.Within ρ R → A.Within ρ (R * N) → B.Within ρ R → F.Within (2 * M) ρ R → La.Within ρ R → (∀ x, |rnd x - x| ≤ ρ * |x|) → 0 < h → h < η →
      N * ρ + (1 / 2) ^ N ≤ η * h → ‖u - Y t0‖ ≤ η →
      ∀ (pyDiv storeData : Bool) (freq : ℤ) (s : ((m.withLinOp (.diag (flBurgersLin B kx' mu))).withPoints N).RSt) (fuel : ℕ), (pyDiv = true → tf ≠ 0) →
        freq ≠ 0 → 2 * (tf - t0) / h + 1 < fuel →
        CSSolver.RunNear (((m.withLinOp (.diag (flBurgersLin B kx' mu))).withPoints N).fpEvolve (CSSolver.flEnv _ ar A La) (flBurgersNl A B F kx') rnd
          pyDiv fuel u t0 tf h storeData freq s) Y tf h (C * (‖u - Y t0‖ + h ^ 4 + (N * ρ + (1 / 2) ^ N) / h)) := by
  obtain ⟨g', hg', hs⟩ := C59_burgers_smooth hM kx
  obtain rfl : g' = g := by
    funext v
    exact Except.ok.inj (congrFun (hg'.symm.trans hg) v)
  obtain ⟨C, η, R, N0, hη, h1⟩ := m.evolve_of_problem hm hs ht hY
    (fun ρ R A m' nl => ∃ (B : RArith) (F : FftLib) (kx' : Fin (M + 1) → ℝ), (∀ i, |kx' i - kx i| ≤ ρ * (1 + |kx i|)) ∧ B.Within ρ R ∧
      F.Within (2 * M) ρ R ∧ m' = m.withLinOp (.diag (flBurgersLin B kx' mu)) ∧ nl = flBurgersNl A B F kx')
    (fun b => by
      obtain ⟨K, R, hK, h2⟩ := C84_burgers_problem hM kx mu b hg
      refine ⟨K, R, hK, fun ρ R' A m' nl hρ hρ1 hR hq hA => ?_⟩
      obtain ⟨B, F, kx', hk, hB, hF, rfl, rfl⟩ := hq
      obtain ⟨a1, a2⟩ := h2 A B F ρ kx' hρ hρ1 hA (hB.mono hR) (hF.mono hR) hk
      exact ⟨CSSolver.near_withLinOp hop (.diag a1), a2⟩)
  exact ⟨C, η, R, N0, hη, fun N ar A B F La rnd ρ h u kx' hN hρ hk har hA hB hF hLa hr =>
    h1 _ N ar A La _ rnd ρ h u hN hρ ⟨B, F, kx', hk, hB, hF, rfl, rfl⟩ har hA hLa hr⟩

/-- **C84.** The same for adaptive solvers of the Korteweg–de Vries equation, if the recorded steps do not exceed `H`: the rounding errors grow with
the number of steps. -/
theorem C84_kdv_stored (hM : M ≠ 0) (kx : Fin (M + 1) → ℝ) {g : Vec (Fin (M + 1)) → Vec (Fin (M + 1))} (hg : kdvNl kx = total g)
    (m : ASSolver (Fin (M + 1))) (hop : m.op = .diag (kdvLin kx)) (hm : m.ClearContour 0) {t0 tf : ℝ} (ht : t0 ≤ tf)
    {Y : ℝ → Vec (Fin (M + 1))} (hY : Solves m.op.mat g t0 tf Y) :
    ∃ (C η R : ℝ) (N0 : ℕ), 0 < η ∧ ∀ (N : ℕ) (ar : Arith (Fin (M + 1))) (A : CArith) (B : RArith) (F : FftLib) (La : LinAlg (Fin (M + 1)))
      (fac : SolverConfig ℝ → Vec (Fin (M + 1)) → Vec (Fin (M + 1)) → Ext ℝ) (rnd : ℝ → ℝ) (ρ : ℝ) (u : Vec (Fin (M + 1))) (kx' : Fin (M + 1) → ℝ),
      N0 ≤ N → 0 ≤ ρ → (∀ i, |kx' i - kx i| ≤ ρ * (1 + |kx i|)) →
      ar.Within ρ R → A.Within ρ (R * N) → B.Within ρ R → F.Within (2 * M) ρ R → La.Within ρ R → (∀ x, |rnd x - x| ≤ ρ * |x|) → ‖u - Y t0‖ ≤ η →
      ∀ (cfg : SolverConfig ℝ) (hInit : Option ℝ) (pyDiv : Bool) (s : ((m.withEigs (flKdvLin A B kx')).withPoints N).RSt) (fuel : ℕ),
        0 < cfg.minh → (∀ h, hInit = some h → 0 < h) → ∀ H, N * ρ + (1 / 2) ^ N ≤ η * H → 0 < H → H < η →
        ∀ r, r = ((m.withEigs (flKdvLin A B kx')).withPoints N).fpEvolve (ASSolver.flEnv _ ar A La) fac (flKdvNl A B F kx') rnd
          pyDiv cfg fuel u t0 tf hInit true 1 s → r.2.t.IsChain (fun a b => b - a ≤ H) → r.2.t.length * (N * ρ + (1 / 2) ^ N) ≤ η →
        ASSolver.RunNear r Y tf (C * (‖u - Y t0‖ + H ^ m.orderOf + r.2.t.length * (N * ρ + (1 / 2) ^ N))) := by
  obtain ⟨g', hg', hs⟩ := C59_kdv_smooth hM kx
  obtain rfl : g' = g := by
    funext v
    exact Except.ok.inj (congrFun (hg'.symm.trans hg) v)
  obtain ⟨C, η, R, N0, hη, h1⟩ := m.stored_of_problem hm hs ht hY
    (fun ρ R A m' nl => ∃ (B : RArith) (F : FftLib) (kx' : Fin (M + 1) → ℝ), (∀ i, |kx' i - kx i| ≤ ρ * (1 + |kx i|)) ∧ B.Within ρ R ∧
      F.Within (2 * M) ρ R ∧ m' = m.withEigs (flKdvLin A B kx') ∧ nl = flKdvNl A B F kx')
    (fun b => by
      obtain ⟨K, R, hK, h2⟩ := C84_kdv_problem hM kx b hg
      refine ⟨K, R, hK, fun ρ R' A m' nl hρ hρ1 hR hq hA => ?_⟩
      obtain ⟨B, F, kx', hk, hB, hF, rfl, rfl⟩ := hq
      obtain ⟨a1, a2⟩ := h2 A B F ρ kx' hρ hρ1 hA (hB.mono hR) (hF.mono hR) hk
      exact ⟨ASSolver.near_withEigs hop a1, a2⟩)
  refine ⟨C, η, R, N0, hη, fun N ar A B F La fac rnd ρ u kx' hN hρ hk har hA hB hF hLa hr hu cfg hInit pyDiv s fuel hmin hinit H hg h0 hh r hr' => ?_⟩
  subst hr'
  exact h1 _ N ar A La fac _ rnd ρ u hN hρ ⟨B, F, kx', hk, hB, hF, rfl, rfl⟩ har hA hLa hr hu cfg hInit pyDiv s fuel hmin hinit H hg h0 hh

/-- **C84.** Adaptive solvers of the Burgers equation. -/
theorem C84_burgers_stored (hM : M ≠ 0) (kx : Fin (M + 1) → ℝ) (mu : ℝ) {g : Vec (Fin (M + 1)) → Vec (Fin (M + 1))} (hg : burgersNl kx = total g)
    (m : ASSolver (Fin (M + 1))) (hop : m.op = .diag (burgersLin kx mu)) (hm : m.ClearContour 0) {t0 tf : ℝ} (ht : t0 ≤ tf)
    {Y : ℝ → Vec (Fin (M + 1))} (hY : Solves m.op.mat g t0 tf Y) :
    ∃ (C η R : ℝ) (N0 : ℕ), 0 < η ∧ ∀ (N : ℕ) (ar : Arith (Fin (M + 1))) (A : CArith) (B : RArith) (F : FftLib) (La : LinAlg (Fin (M + 1)))
      (fac : SolverConfig ℝ → Vec (Fin (M + 1)) → Vec (Fin (M + 1)) → Ext ℝ) (rnd : ℝ → ℝ) (ρ : ℝ) (u : Vec (Fin (M + 1))) (kx' : Fin (M + 1) → ℝ),
      N0 ≤ N → 0 ≤ ρ → (∀ i, |kx' i - kx i| ≤ ρ * (1 + |kx i|)) →
      ar.Within ρ R → A.Within ρ (R * N) → B.Within ρ R → F.Within (2 * M) ρ R → La.Within ρ R → (∀ x, |rnd x - x| ≤ ρ * |x|) → ‖u - Y t0‖ ≤ η →
      ∀ (cfg : SolverConfig ℝ) (hInit : Option ℝ) (pyDiv : Bool) (s : ((m.withEigs (flBurgersLin B kx' mu)).withPoints N).RSt) (fuel : ℕ),
        0 < cfg.minh → (∀ h, hInit = some h → 0 < h) → ∀ H, N * ρ + (1 / 2) ^ N ≤ η * H → 0 < H → H < η →
        ∀ r, r = ((m.withEigs (flBurgersLin B kx' mu)).withPoints N).fpEvolve (ASSolver.flEnv _ ar A La) fac (flBurgersNl A B F kx') rnd
          pyDiv cfg fuel u t0 tf hInit true 1 s → r.2.t.IsChain (fun a b => b - a ≤ H) → r.2.t.length * (N * ρ + (1 / 2) ^ N) ≤ η →
        ASSolver.RunNear r Y tf (C * (‖u - Y t0‖ + H ^ m.orderOf + r.2.t.length * (N * ρ + (1 / 2) ^ N))) := by
  obtain ⟨g', hg', hs⟩ := C59_burgers_smooth hM kx
  obtain rfl : g' = g := by
    funext v
    exact Except.ok.inj (congrFun (hg'.symm.trans hg) v)
  obtain ⟨C, η, R, N0, hη, h1⟩ := m.stored_of_problem hm hs ht hY
    (fun ρ R A m' nl => ∃ (B : RArith) (F : FftLib) (kx' : Fin (M + 1) → ℝ), (∀ i, |kx' i - kx i| ≤ ρ * (1 + |kx i|)) ∧ B.Within ρ R ∧
      F.Within (2 * M) ρ R ∧ m' = m.withEigs (flBurgersLin B kx' mu) ∧ nl = flBurgersNl A B F kx')
    (fun b => by
      obtain ⟨K, R, hK, h2⟩ := C84_burgers_problem hM kx mu b hg
      refine ⟨K, R, hK, fun ρ R' A m' nl hρ hρ1 hR hq hA => ?_⟩
      obtain ⟨B, F, kx', hk, hB, hF, rfl, rfl⟩ := hq
      obtain ⟨a1, a2⟩ := h2 A B F ρ kx' hρ hρ1 hA (hB.mono hR) (hF.mono hR) hk
      exact ⟨ASSolver.near_withEigs hop a1, a2⟩)
  refine ⟨C, η, R, N0, hη, fun N ar A B F La fac rnd ρ u kx' hN hρ hk har hA hB hF hLa hr hu cfg hInit pyDiv s fuel hmin hinit H hg h0 hh r hr' => ?_⟩
  subst hr'
  exact h1 _ N ar A La fac _ rnd ρ u hN hρ ⟨B, F, kx', hk, hB, hF, rfl, rfl⟩ har hA hLa hr hu cfg hInit pyDiv s fuel hmin hinit H hg h0 hh

/-! ### Allen–Cahn -/

theorem norm_mat_le {k : ℕ} {E : Mat (Fin k)} {e : ℝ} (he0 : 0 ≤ e) (he : ∀ i j, ‖E i j‖ ≤ e) : ‖E‖ ≤ k * e := by
  rw [Matrix.linfty_opNorm_def, ← NNReal.coe_mk (k * e) (by positivity), NNReal.coe_le_coe]
  refine Finset.sup_le fun i _ => ?_
  rw [← NNReal.coe_le_coe]
  push_cast
  calc ∑ j, ‖E i j‖ ≤ ∑ _j : Fin k, e := Finset.sum_le_sum fun j _ => he i j
    _ = k * e := by simp

/-- **C84.** `allen_cahn_ops` in floating point, with a computed grid and a computed square `D2` of the differentiation matrix. -/
theorem C84_allen_cahn_problem {k : ℕ} (D : Matrix (Fin (k + 2)) (Fin (k + 2)) ℝ) (x : Fin (k + 2) → ℝ) (eps b : ℝ) {d : ℝ}
    (hd : ∀ i j, |(D * D) i j| ≤ d) {g : Vec (Fin k) → Vec (Fin k)} (hg : allenCahnNl x = total g) :
    ∃ K R : ℝ, 1 ≤ K ∧ ∀ (A : CArith) (B : RArith) (ρ : ℝ) (x' : Fin (k + 2) → ℝ) (D2 : Matrix (Fin (k + 2)) (Fin (k + 2)) ℝ), 0 ≤ ρ → ρ ≤ 1 →
      A.Within ρ R → B.Within ρ R → (∀ i, |x' i - x i| ≤ ρ * (1 + |x i|)) → (∀ i j, |D2 i j - (D * D) i j| ≤ ρ * (1 + d)) →
      ‖(flAllenCahnLin B D2 eps).map (fun r => (r : ℂ)) - (allenCahnLin D eps).map (fun r => (r : ℂ))‖ ≤ K * ρ ∧
      NlNear (flAllenCahnNl A x') g (K * ρ) b := by
  set κ := 1 + 2 * ‖x‖ with hκ
  have hκ0 : 0 ≤ ‖x‖ := norm_nonneg x
  set c := max b 0 with hc
  have hc0 : 0 ≤ c := le_max_right _ _
  set s := 1 + κ + c with hs
  have hs1 : 1 ≤ s := by linarith
  have hs3 : 0 ≤ s ^ 3 := by positivity
  have hd0 : 0 ≤ d := (abs_nonneg _).trans (hd 0 0)
  set P := (1 + |eps|) * (1 + d) with hP
  have hP0 : 0 ≤ P := by positivity
  have hkP : 0 ≤ k * P := by positivity
  refine ⟨1 + 10 * (k * P) + 38 * s ^ 3, 5 * P + 20 * s ^ 3, by nlinarith, fun A B ρ x' D2 hρ hρ1 hA hB hx hD => ?_⟩
  have k1 : ∀ i, |x' i - x i| ≤ ρ * (1 + ‖x‖) := fun i =>
    (hx i).trans (mul_le_mul_of_nonneg_left (by linarith [norm_le_pi_norm x i, Real.norm_eq_abs (x i)]) hρ)
  have k2 : ∀ i, |x' i| ≤ κ := fun i => by
    have h1 := abs_add_le (x' i - x i) (x i)
    rw [sub_add_cancel] at h1
    have h2 : |x i| ≤ ‖x‖ := norm_le_pi_norm x i
    nlinarith [k1 i]
  constructor
  · refine (norm_mat_le (e := 10 * P * ρ) (by positivity) fun i j => ?_).trans ?_
    · rw [Matrix.sub_apply, Matrix.map_apply, Matrix.map_apply, ← Complex.ofReal_sub, Complex.norm_real]
      exact C84_allen_cahn_lin hB hρ hρ1 hd hD (by linarith) i j
    · nlinarith [mul_nonneg hs3 hρ]
  · intro v hv
    have hv' : ∀ i, ‖v i‖ ≤ c := fun i => (norm_le_pi_norm v i).trans (hv.trans (le_max_left _ _))
    obtain ⟨w, w', e1, e2, e3⟩ := C84_allen_cahn_nl hA hρ hρ1 k2 hv' hc0 (by linarith)
    refine ⟨w', e2, ?_⟩
    rw [pi_norm_le_iff_of_nonneg (by positivity)]
    intro i
    have hgv : g v = fun i => (x (interior i) : ℂ) - (v i + (x (interior i) : ℂ)) ^ 3 := (Except.ok.inj (congrFun hg v)).symm
    have hw : w = fun i => (x' (interior i) : ℂ) - (v i + (x' (interior i) : ℂ)) ^ 3 := (Except.ok.inj e1).symm
    have h2 : ‖w i - g v i‖ ≤ 4 * s ^ 3 * ρ := by
      rw [hw, hgv]
      change ‖(x' (interior i) : ℂ) - (v i + (x' (interior i) : ℂ)) ^ 3 - ((x (interior i) : ℂ) - (v i + (x (interior i) : ℂ)) ^ 3)‖ ≤ _
      rw [sub_sub_sub_comm]
      have hn : |x (interior i)| ≤ κ := (norm_le_pi_norm x (interior i)).trans (by linarith)
      have a1 : ‖v i + (x (interior i) : ℂ)‖ ≤ s := (norm_add_le _ _).trans (by rw [Complex.norm_real, Real.norm_eq_abs]; linarith [hv' i])
      have a2 : ‖v i + (x' (interior i) : ℂ)‖ ≤ s := (norm_add_le _ _).trans (by
        rw [Complex.norm_real, Real.norm_eq_abs]; linarith [hv' i, k2 (interior i)])
      have a0 : ‖(x' (interior i) : ℂ) - (x (interior i) : ℂ)‖ ≤ ρ * s := by
        rw [← Complex.ofReal_sub, Complex.norm_real]
        exact (k1 (interior i)).trans (mul_le_mul_of_nonneg_left (by linarith) hρ)
      have a3 := pow_near a1 a2 (e := ρ) (by rw [add_sub_add_left_eq_sub]; exact a0) 3
      have a4 : s ≤ s ^ 3 := le_self_pow₀ hs1 (by norm_num)
      refine (norm_sub_le _ _).trans ?_
      push_cast at a3
      nlinarith
    rw [Pi.sub_apply]
    refine (norm_sub_le_norm_sub_add_norm_sub _ (w i) _).trans ?_
    nlinarith [e3 i, mul_nonneg hkP hρ]

/-- **C84.** A solver of the Allen–Cahn equation with constant steps, computed throughout in floating point. -/
theorem C84_allen_cahn_evolve {k : ℕ} (D : Matrix (Fin (k + 2)) (Fin (k + 2)) ℝ) (x : Fin (k + 2) → ℝ) (eps : ℝ) {d : ℝ}
    (hd : ∀ i j, |(D * D) i j| ≤ d) {g : Vec (Fin k) → Vec (Fin k)} (hg : allenCahnNl x = total g)
    (m : CSSolver (Fin k)) (hop : m.op = .full ((allenCahnLin D eps).map fun r => (r : ℂ))) (hm : m.ClearContour 0) {t0 tf : ℝ} (ht : t0 < tf)
    {Y : ℝ → Vec (Fin k)} (hY : Solves m.op.mat g t0 tf Y) :
    ∃ (C η R : ℝ) (N0 : ℕ), 0 < η ∧ ∀ (N : ℕ) (ar : Arith (Fin k)) (A : CArith) (B : RArith) (La : LinAlg (Fin k))
      (rnd : ℝ → ℝ) (ρ h : ℝ) (u : Vec (Fin k)) (x' : Fin (k + 2) → ℝ) (D2 : Matrix (Fin (k + 2)) (Fin (k + 2)) ℝ), N0 ≤ N → 0 ≤ ρ →
      (∀ i, |x' i - x i| ≤ ρ * (1 + |x i|)) → (∀ i j, |D2 i j - (D * D) i j| ≤ ρ * (1 + d)) →
      ar.Within ρ R → A.Within ρ (R * N) → B.Within ρ R → La.Within ρ R → (∀ x, |rnd x - x| ≤ ρ * |x|) → 0 < h → h < η →
      N * ρ + (1 / 2) ^ N ≤ η * h → ‖u - Y t0‖ ≤ η →
      ∀ (pyDiv storeData : Bool) (freq : ℤ) (s : ((m.withLinOp (.full ((flAllenCahnLin B D2 eps).map fun r => (r : ℂ)))).withPoints N).RSt) (fuel : ℕ), (pyDiv = true → tf ≠ 0) →
        freq ≠ 0 → 2 * (tf - t0) / h + 1 < fuel →
        CSSolver.RunNear (((m.withLinOp (.full ((flAllenCahnLin B D2 eps).map fun r => (r : ℂ)))).withPoints N).fpEvolve (CSSolver.flEnv _ ar A La)
          (flAllenCahnNl A x') rnd pyDiv fuel u t0 tf h storeData freq s) Y tf h (C * (‖u - Y t0‖ + h ^ 4 + (N * ρ + (1 / 2) ^ N) / h)) := by
  obtain ⟨g', hg', hs⟩ := C59_allen_cahn_smooth x
  obtain rfl : g' = g := by
    funext v
    exact Except.ok.inj (congrFun (hg'.symm.trans hg) v)
  obtain ⟨C, η, R, N0, hη, h1⟩ := m.evolve_of_problem hm hs ht hY
    (fun ρ R A m' nl => ∃ (B : RArith) (x' : Fin (k + 2) → ℝ) (D2 : Matrix (Fin (k + 2)) (Fin (k + 2)) ℝ), (∀ i, |x' i - x i| ≤ ρ * (1 + |x i|)) ∧
      (∀ i j, |D2 i j - (D * D) i j| ≤ ρ * (1 + d)) ∧ B.Within ρ R ∧ m' = m.withLinOp (.full ((flAllenCahnLin B D2 eps).map fun r => (r : ℂ))) ∧
      nl = flAllenCahnNl A x')
    (fun b => by
      obtain ⟨K, R, hK, h2⟩ := C84_allen_cahn_problem D x eps b hd hg
      refine ⟨K, R, hK, fun ρ R' A m' nl hρ hρ1 hR hq hA => ?_⟩
      obtain ⟨B, x', D2, hx, hD, hB, rfl, rfl⟩ := hq
      obtain ⟨a1, a2⟩ := h2 A B ρ x' D2 hρ hρ1 hA (hB.mono hR) hx hD
      exact ⟨CSSolver.near_withLinOp hop (.full a1), a2⟩)
  exact ⟨C, η, R, N0, hη, fun N ar A B La rnd ρ h u x' D2 hN hρ hx hD har hA hB hLa hr =>
    h1 _ N ar A La _ rnd ρ h u hN hρ ⟨B, x', D2, hx, hD, hB, rfl, rfl⟩ har hA hLa hr⟩

/-- **C84.** Adaptive solvers of the Allen–Cahn equation. -/
theorem C84_allen_cahn_stored {k : ℕ} (D : Matrix (Fin (k + 2)) (Fin (k + 2)) ℝ) (x : Fin (k + 2) → ℝ) (eps : ℝ) {d : ℝ}
    (hd : ∀ i j, |(D * D) i j| ≤ d) {g : Vec (Fin k) → Vec (Fin k)} (hg : allenCahnNl x = total g)
    (m : ASSolver (Fin k)) (hop : m.op = .full ((allenCahnLin D eps).map fun r => (r : ℂ))) (hm : m.ClearContour 0) {t0 tf : ℝ} (ht : t0 ≤ tf)
    {Y : ℝ → Vec (Fin k)} (hY : Solves m.op.mat g t0 tf Y) :
    ∃ (C η R : ℝ) (N0 : ℕ), 0 < η ∧ ∀ (N : ℕ) (ar : Arith (Fin k)) (A : CArith) (B : RArith) (La : LinAlg (Fin k))
      (fac : SolverConfig ℝ → Vec (Fin k) → Vec (Fin k) → Ext ℝ) (rnd : ℝ → ℝ) (ρ : ℝ) (u : Vec (Fin k)) (x' : Fin (k + 2) → ℝ)
      (D2 : Matrix (Fin (k + 2)) (Fin (k + 2)) ℝ), N0 ≤ N → 0 ≤ ρ →
      (∀ i, |x' i - x i| ≤ ρ * (1 + |x i|)) → (∀ i j, |D2 i j - (D * D) i j| ≤ ρ * (1 + d)) →
      ar.Within ρ R → A.Within ρ (R * N) → B.Within ρ R → La.Within ρ R → (∀ x, |rnd x - x| ≤ ρ * |x|) → ‖u - Y t0‖ ≤ η →
      ∀ (cfg : SolverConfig ℝ) (hInit : Option ℝ) (pyDiv : Bool) (s : ((m.withMatrix ((flAllenCahnLin B D2 eps).map fun r => (r : ℂ))).withPoints N).RSt) (fuel : ℕ),
        0 < cfg.minh → (∀ h, hInit = some h → 0 < h) → ∀ H, N * ρ + (1 / 2) ^ N ≤ η * H → 0 < H → H < η →
        ∀ r, r = ((m.withMatrix ((flAllenCahnLin B D2 eps).map fun r => (r : ℂ))).withPoints N).fpEvolve (ASSolver.flEnv _ ar A La) fac (flAllenCahnNl A x') rnd
          pyDiv cfg fuel u t0 tf hInit true 1 s → r.2.t.IsChain (fun a b => b - a ≤ H) → r.2.t.length * (N * ρ + (1 / 2) ^ N) ≤ η →
        ASSolver.RunNear r Y tf (C * (‖u - Y t0‖ + H ^ m.orderOf + r.2.t.length * (N * ρ + (1 / 2) ^ N))) := by
  obtain ⟨g', hg', hs⟩ := C59_allen_cahn_smooth x
  obtain rfl : g' = g := by
    funext v
    exact Except.ok.inj (congrFun (hg'.symm.trans hg) v)
  obtain ⟨C, η, R, N0, hη, h1⟩ := m.stored_of_problem hm hs ht hY
    (fun ρ R A m' nl => ∃ (B : RArith) (x' : Fin (k + 2) → ℝ) (D2 : Matrix (Fin (k + 2)) (Fin (k + 2)) ℝ), (∀ i, |x' i - x i| ≤ ρ * (1 + |x i|)) ∧
      (∀ i j, |D2 i j - (D * D) i j| ≤ ρ * (1 + d)) ∧ B.Within ρ R ∧ m' = m.withMatrix ((flAllenCahnLin B D2 eps).map fun r => (r : ℂ)) ∧
      nl = flAllenCahnNl A x')
    (fun b => by
      obtain ⟨K, R, hK, h2⟩ := C84_allen_cahn_problem D x eps b hd hg
      refine ⟨K, R, hK, fun ρ R' A m' nl hρ hρ1 hR hq hA => ?_⟩
      obtain ⟨B, x', D2, hx, hD, hB, rfl, rfl⟩ := hq
      obtain ⟨a1, a2⟩ := h2 A B ρ x' D2 hρ hρ1 hA (hB.mono hR) hx hD
      exact ⟨ASSolver.near_withMatrix hop a1, a2⟩)
  refine ⟨C, η, R, N0, hη, fun N ar A B La fac rnd ρ u x' D2 hN hρ hx hD har hA hB hLa hr hu cfg hInit pyDiv s fuel hmin hinit H hg h0 hh r hr' => ?_⟩
  subst hr'
  exact h1 _ N ar A La fac _ rnd ρ u hN hρ ⟨B, x', D2, hx, hD, hB, rfl, rfl⟩ har hA hLa hr hu cfg hInit pyDiv s fuel hmin hinit H hg h0 hh

end Verif
