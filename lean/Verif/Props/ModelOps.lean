import Verif.Props.SpectralDeriv
import Verif.Props.Conservation
import Mathlib.Analysis.SpecialFunctions.Integrals.Basic

/-!
# C58: the KdV and Burgers operators are the spectral form of their equations
-/

set_option linter.unusedSectionVars false

namespace Verif

open Finset

/-- The derivatives of a resolved signal by `irfft`. -/
theorem irfft1_deriv {N : PyVal ℝ} {a b : ℝ} {x kx : List ℝ} (hg : constructXKxRfft id N a b = .ok (x, kx)) (M : ℕ)
    (hM : x.length = 2 * M) (α β : ℕ → ℝ) (γ : ℝ) (n : ℕ) {j : ℕ} (hj : j < 2 * M) :
    irfft1 (2 * M) (fun m => (Complex.I * ((kx.getD m 0 : ℝ) : ℂ)) ^ n *
      rfft1 (2 * M) (fun j => realTrigPoly M a b α β γ (x.getD j 0)) m) j =
      iteratedDeriv n (realTrigPoly M a b α β γ) (x.getD j 0) := by
  obtain ⟨v, h1, h2, h3⟩ := C46_exact hg M hM α β γ n
  obtain ⟨M', hM0, rfl, hab, rfl, rfl⟩ := constructXKxRfft_ok hg
  rw [gridPoints_length] at hM
  obtain rfl : M' = M := by omega
  obtain ⟨v', h1', -, h3'⟩ := dxRfft_ok (s := []) (N := 2 * M') (by omega) (by simp)
    (kx := .ofList ((List.range (M' + 1)).map fun m : ℕ => 2 * Real.pi * (m : ℝ) / (b - a))) (by show [List.length _] = _; simp)
    (u := .ofList ((gridPoints (2 * M') a b).map (realTrigPoly M' a b α β γ))) (by show [List.length _] = _; simp [gridPoints]) n
  obtain rfl : v = v' := Except.ok.inj (h1.symm.trans h1')
  rw [← h3 j (by rw [gridPoints_length]; exact hj)]
  refine Eq.trans ?_ (h3' [] j hj).symm
  simp only [List.nil_append, ofList_get]
  exact rfftLine_congr (fun m hm => rfl) (fun j hj => by
    rw [map_gridPoints_getD hj, gridPoints_getD hj]) n j

/-- The spectrum of the derivatives of a resolved signal, below the Nyquist mode and in it. -/
theorem rfft1_deriv {N : PyVal ℝ} {a b : ℝ} {x kx : List ℝ} (hg : constructXKxRfft id N a b = .ok (x, kx)) (M : ℕ)
    (hM : x.length = 2 * M) (α β : ℕ → ℝ) (γ : ℝ) (n : ℕ) {m : ℕ} (hm : m ≤ M) :
    rfft1 (2 * M) (fun j => iteratedDeriv n (realTrigPoly M a b α β γ) (x.getD j 0)) m =
      herm (2 * M) (fun m => (Complex.I * ((kx.getD m 0 : ℝ) : ℂ)) ^ n *
        rfft1 (2 * M) (fun j => realTrigPoly M a b α β γ (x.getD j 0)) m) m := by
  obtain ⟨M', hM0, -, -, hx, -⟩ := constructXKxRfft_ok hg
  obtain rfl : M' = M := by rw [hx, gridPoints_length] at hM; omega
  rw [← rfft1_irfft1 _ (by omega)]
  exact fft1_congr (fun j hj => by rw [irfft1_deriv hg M' hM α β γ n hj]) m

/-- The Nyquist entry of the spectrum of a resolved signal. -/
theorem rfft1_nyquist_trig {N : PyVal ℝ} {a b : ℝ} {x kx : List ℝ} (hg : constructXKxRfft id N a b = .ok (x, kx)) (M : ℕ)
    (hM : x.length = 2 * M) (α β : ℕ → ℝ) (γ : ℝ) :
    rfft1 (2 * M) (fun j => realTrigPoly M a b α β γ (x.getD j 0)) M = (2 * M : ℕ) * (γ : ℂ) := by
  obtain ⟨M', hM0, -, hab, rfl, rfl⟩ := constructXKxRfft_ok hg
  rw [gridPoints_length] at hM
  obtain rfl : M' = M := by omega
  rw [rfft1, fft1_congr (v := fun j => (irfft1 (2 * M') (halfSpec M' α β γ) j : ℂ)) (fun j hj => by
    rw [gridPoints_getD hj, realTrigPoly_samples hM0 hab])]
  have := rfft1_irfft1 (halfSpec M' α β γ) (show M' < 2 * M' by omega)
  rw [rfft1] at this
  rw [this, herm_halfSpec hM0 _ _ _ le_rfl, halfSpec, if_neg hM0, if_pos rfl]

theorem herm_lt {M m : ℕ} (hm0 : m ≠ 0) (hm : m < M) (y : ℕ → ℂ) : herm (2 * M) y m = y m := by
  rw [herm, if_neg hm0, if_pos (by omega)]

theorem herm_zero (N : ℕ) (y : ℕ → ℂ) : herm N y 0 = ((y 0).re : ℂ) := by rw [herm, if_pos rfl]

theorem herm_nyquist {M : ℕ} (hM : M ≠ 0) (y : ℕ → ℂ) : herm (2 * M) y M = ((y M).re : ℂ) := by
  rw [herm, if_neg hM, if_neg (by omega), if_pos rfl]

theorem rfft1_real_zero (N : ℕ) (u : ℕ → ℝ) : (rfft1 N u 0).im = 0 := by
  have : rfft1 N u 0 = ((∑ j ∈ range N, u j : ℝ) : ℂ) := by
    rw [rfft1, fft1, Complex.ofReal_sum]
    refine sum_congr rfl fun j _ => ?_
    simp
  rw [this, Complex.ofReal_im]

theorem rfft1_smul (N : ℕ) (c : ℝ) (u : ℕ → ℝ) (m : ℕ) : rfft1 N (fun j => c * u j) m = (c : ℂ) * rfft1 N u m := by
  rw [rfft1, rfft1, ← fft1_smul]
  congr 1; funext j; push_cast; rfl

variable {N : PyVal ℝ} {a b : ℝ} {x kx : List ℝ}

/-- The wavenumbers as an array of length `M + 1`. -/
def waves (kx : List ℝ) (M : ℕ) : Fin (M + 1) → ℝ := fun m => kx.getD m 0

/-- `np.fft.rfft(u(x))` for a function `u` on a grid of `2 M` points. -/
noncomputable def sampleSpec (x : List ℝ) (M : ℕ) (u : ℝ → ℝ) : Vec (Fin (M + 1)) := fun m => rfft1 (2 * M) (fun j => u (x.getD j 0)) m

/-- `advection` of a resolved signal. -/
theorem advection_resolved (hg : constructXKxRfft id N a b = .ok (x, kx)) (M : ℕ) (hM : x.length = 2 * M) (α β : ℕ → ℝ) (γ : ℝ) :
    advection (waves kx M) (sampleSpec x M (realTrigPoly M a b α β γ)) =
      .ok (sampleSpec x M fun y => realTrigPoly M a b α β γ y * deriv (realTrigPoly M a b α β γ) y) := by
  obtain ⟨M', hM0, -, -, hx, -⟩ := constructXKxRfft_ok hg
  obtain rfl : M' = M := by rw [hx, gridPoints_length] at hM; omega
  rw [advection_ok hM0]
  congr 1
  funext m
  rw [sampleSpec, rfft1, rfft1]
  refine fft1_congr (fun j hj => ?_) _
  have h0 := irfft1_deriv hg M' hM α β γ 0 hj
  have h1 := irfft1_deriv hg M' hM α β γ 1 hj
  simp only [pow_zero, one_mul, iteratedDeriv_zero] at h0
  simp only [pow_one, iteratedDeriv_one] at h1
  have e0 : irfft1 (2 * M') (specExt (sampleSpec x M' (realTrigPoly M' a b α β γ))) j = realTrigPoly M' a b α β γ (x.getD j 0) := by
    rw [← h0]
    refine irfft1_congr (fun k hk => ?_) j
    rw [specExt, dif_pos (by omega)]; rfl
  have e1 : irfft1 (2 * M') (specExt fun m => Complex.I * (waves kx M' m : ℂ) * sampleSpec x M' (realTrigPoly M' a b α β γ) m) j =
      deriv (realTrigPoly M' a b α β γ) (x.getD j 0) := by
    rw [← h1]
    refine irfft1_congr (fun k hk => ?_) j
    rw [specExt, dif_pos (by omega)]; rfl
  rw [e0, e1]

/-- **C58.** On the grid of `construct_x_kx_rfft`, for the trigonometric interpolant `u` of any real data, `nl_func(rfft(u))` of
`kdv_ops` is the spectrum of the grid values of `-6 u u_x`, and `lin_op * rfft(u)` that of `-u_xxx`, apart from the Nyquist entry:
there the code has `i k³ n γ`, the exact value is `0`. -/
theorem C58_kdv (hg : constructXKxRfft id N a b = .ok (x, kx)) (M : ℕ) (hM : x.length = 2 * M) (α β : ℕ → ℝ) (γ : ℝ) :
    let u := realTrigPoly M a b α β γ
    kdvNl (waves kx M) (sampleSpec x M u) = .ok (sampleSpec x M fun y => -6 * u y * deriv u y) ∧
    (∀ m, m ≠ Fin.last M → kdvLin (waves kx M) m * sampleSpec x M u m = sampleSpec x M (fun y => -iteratedDeriv 3 u y) m) ∧
    kdvLin (waves kx M) (Fin.last M) * sampleSpec x M u (Fin.last M) =
      Complex.I * (2 * Real.pi * M / (b - a)) ^ 3 * ((2 * M : ℕ) * γ) ∧
    sampleSpec x M (fun y => -iteratedDeriv 3 u y) (Fin.last M) = 0 := by
  intro u
  obtain ⟨M', hM0, -, hab, hx, hk⟩ := constructXKxRfft_ok hg
  obtain rfl : M' = M := by rw [hx, gridPoints_length] at hM; omega
  have hneg : ∀ m ≤ M', rfft1 (2 * M') (fun j => -iteratedDeriv 3 u (x.getD j 0)) m = -herm (2 * M') (fun m =>
      (Complex.I * ((kx.getD m 0 : ℝ) : ℂ)) ^ 3 * rfft1 (2 * M') (fun j => u (x.getD j 0)) m) m := by
    intro m hm
    rw [← rfft1_deriv hg M' hM α β γ 3 hm]
    have := rfft1_smul (2 * M') (-1) (fun j => iteratedDeriv 3 u (x.getD j 0)) m
    simp only [neg_one_mul] at this
    rw [this]
    push_cast; ring
  have hkM : waves kx M' (Fin.last M') = 2 * Real.pi * M' / (b - a) := by
    rw [waves, hk, Fin.val_last, map_range_getD (by omega)]
  refine ⟨?_, ?_, ?_, ?_⟩
  · rw [kdvNl, advection_resolved hg M' hM]
    simp only
    congr 1
    funext m
    have := rfft1_smul (2 * M') (-6) (fun j => u (x.getD j 0) * deriv u (x.getD j 0)) m
    simp only [sampleSpec]
    push_cast at this
    rw [← this]
    congr 1; funext j; ring
  · intro m hm
    have hm' : (m : ℕ) < M' := by
      have := m.2
      have : (m : ℕ) ≠ M' := fun h => hm (Fin.ext h)
      omega
    rw [show sampleSpec x M' (fun y => -iteratedDeriv 3 u y) m = _ from hneg m hm'.le]
    by_cases h0 : (m : ℕ) = 0
    · have hm0 : m = 0 := Fin.ext h0
      subst hm0
      have : kx.getD 0 0 = 0 := by rw [hk, map_range_getD (by omega)]; simp
      rw [Fin.val_zero, herm_zero, this, kdvLin, show waves kx M' 0 = 0 from this]
      simp
    · rw [herm_lt h0 hm', kdvLin, waves, sampleSpec]
      linear_combination Complex.I * (kx.getD (m : ℕ) 0 : ℂ) ^ 3 * rfft1 (2 * M') (fun j => u (x.getD j 0)) m * Complex.I_sq
  · rw [kdvLin, hkM, sampleSpec, Fin.val_last, rfft1_nyquist_trig hg M' hM]
    push_cast; ring
  · rw [sampleSpec, Fin.val_last, hneg M' le_rfl, herm_nyquist hM0, rfft1_nyquist_trig hg M' hM]
    have : ((Complex.I * ((kx.getD M' 0 : ℝ) : ℂ)) ^ 3 * ((2 * M' : ℕ) * (γ : ℂ))) =
        Complex.I * (((-(kx.getD M' 0) ^ 3 * ((2 * M' : ℕ) * γ) : ℝ)) : ℂ) := by
      push_cast
      linear_combination Complex.I * (kx.getD M' 0 : ℂ) ^ 3 * (2 * M' * (γ : ℂ)) * Complex.I_sq
    rw [this, Complex.re_mul_ofReal]
    simp

/-- **C58.** Hence the right hand side of the system that the solvers integrate is the spectrum of the right hand side of the KdV
equation exactly for data without a Nyquist component. -/
theorem C58_kdv_rhs (hg : constructXKxRfft id N a b = .ok (x, kx)) (M : ℕ) (hM : x.length = 2 * M) (α β : ℕ → ℝ) (γ : ℝ) :
    let u := realTrigPoly M a b α β γ
    (∃ v, kdvNl (waves kx M) (sampleSpec x M u) = .ok v ∧
      ∀ m, kdvLin (waves kx M) m * sampleSpec x M u m + v m =
        sampleSpec x M (fun y => -6 * u y * deriv u y - iteratedDeriv 3 u y) m) ↔ γ = 0 := by
  intro u
  obtain ⟨h1, h2, h3, h4⟩ := C58_kdv hg M hM α β γ
  obtain ⟨M', hM0, -, hab, hx, hk⟩ := constructXKxRfft_ok hg
  obtain rfl : M' = M := by rw [hx, gridPoints_length] at hM; omega
  have hadd : ∀ m, sampleSpec x M' (fun y => -6 * u y * deriv u y - iteratedDeriv 3 u y) m =
      sampleSpec x M' (fun y => -6 * u y * deriv u y) m + sampleSpec x M' (fun y => -iteratedDeriv 3 u y) m := by
    intro m
    simp only [sampleSpec, rfft1]
    rw [← fft1_add]
    congr 1; funext j; push_cast; ring
  have hba : ((b : ℂ) - a) ≠ 0 := by rw [sub_ne_zero]; exact_mod_cast hab.symm
  have hπ : (Real.pi : ℂ) ≠ 0 := by exact_mod_cast Real.pi_ne_zero
  have hM2 : (M' : ℂ) ≠ 0 := Nat.cast_ne_zero.2 hM0
  constructor
  · rintro ⟨v, hv, hv'⟩
    obtain rfl := Except.ok.inj (h1.symm.trans hv)
    have := hv' (Fin.last M')
    rw [hadd, h4] at this
    have h5 : kdvLin (waves kx M') (Fin.last M') * sampleSpec x M' u (Fin.last M') = 0 := by linear_combination this
    have h6 := h3.symm.trans h5
    simp only [mul_eq_zero, Complex.I_ne_zero, pow_eq_zero_iff, div_eq_zero_iff, hπ, hM2, hba, ne_eq, OfNat.ofNat_ne_zero,
      not_false_eq_true, or_self, false_or, Nat.cast_mul, Nat.cast_ofNat, Complex.ofReal_eq_zero] at h6
    exact h6
  · rintro hγ
    refine ⟨_, h1, fun m => ?_⟩
    rw [hadd, add_comm]
    congr 1
    by_cases hm : m = Fin.last M'
    · subst hm
      refine h3.trans (Eq.trans ?_ h4.symm)
      rw [hγ]; simp
    · exact h2 m hm

/-- **C58.** The same for `burgers_ops`, where all entries are exact: `lin_op * rfft(u) + nl_func(rfft(u))` is the spectrum of
`mu u_xx - u u_x`. -/
theorem C58_burgers (hg : constructXKxRfft id N a b = .ok (x, kx)) (M : ℕ) (hM : x.length = 2 * M) (α β : ℕ → ℝ) (γ mu : ℝ) :
    let u := realTrigPoly M a b α β γ
    burgersNl (waves kx M) (sampleSpec x M u) = .ok (sampleSpec x M fun y => -(u y * deriv u y)) ∧
    ∀ m, burgersLin (waves kx M) mu m * sampleSpec x M u m = sampleSpec x M (fun y => mu * iteratedDeriv 2 u y) m := by
  intro u
  obtain ⟨M', hM0, -, hab, hx, hk⟩ := constructXKxRfft_ok hg
  obtain rfl : M' = M := by rw [hx, gridPoints_length] at hM; omega
  refine ⟨?_, ?_⟩
  · rw [burgersNl, advection_resolved hg M' hM]
    simp only
    congr 1
    funext m
    have := rfft1_smul (2 * M') (-1) (fun j => u (x.getD j 0) * deriv u (x.getD j 0)) m
    simp only [sampleSpec]
    push_cast at this
    rw [neg_one_mul] at this
    rw [← this]
    congr 1; funext j; ring
  · intro m
    have hre : (sampleSpec x M' u m).im = 0 → ∀ r : ℝ, (((r : ℂ) * sampleSpec x M' u m).re : ℂ) = r * sampleSpec x M' u m := by
      intro h r
      apply Complex.ext
      · simp
      · simp [h]
    have hsq : ∀ k : ℝ, (Complex.I * (k : ℂ)) ^ 2 = ((-k ^ 2 : ℝ) : ℂ) := by
      intro k; rw [mul_pow, Complex.I_sq]; push_cast; ring
    have hmle : (m : ℕ) ≤ M' := by have := m.2; omega
    rw [show sampleSpec x M' (fun y => mu * iteratedDeriv 2 u y) m = (mu : ℂ) * rfft1 (2 * M') (fun j => iteratedDeriv 2 u (x.getD j 0)) m
      from rfft1_smul _ _ _ _, rfft1_deriv hg M' hM α β γ 2 hmle]
    have key : herm (2 * M') (fun m => (Complex.I * ((kx.getD m 0 : ℝ) : ℂ)) ^ 2 *
        rfft1 (2 * M') (fun j => u (x.getD j 0)) m) m = ((-(kx.getD m 0) ^ 2 : ℝ) : ℂ) * sampleSpec x M' u m := by
      by_cases h0 : (m : ℕ) = 0
      · have hm0 : m = 0 := Fin.ext h0
        subst hm0
        rw [Fin.val_zero, herm_zero, hsq]
        exact hre (rfft1_real_zero _ _) _
      · by_cases h1 : (m : ℕ) = M'
        · have hmM : m = Fin.last M' := Fin.ext h1
          subst hmM
          rw [Fin.val_last, herm_nyquist hM0, hsq]
          refine hre ?_ _
          rw [sampleSpec, Fin.val_last, rfft1_nyquist_trig hg M' hM]
          simp [Complex.mul_im]
        · rw [herm_lt h0 (by omega), hsq]; rfl
    rw [key, burgersLin, waves]
    push_cast; ring

/-! ### Aliasing -/

/-- A finite sum of exponentials with period `b - a`. -/
noncomputable def expSum {S : Type} (F : Finset S) (a b : ℝ) (c : S → ℂ) (ν : S → ℤ) (y : ℝ) : ℂ :=
  ∑ s ∈ F, c s * Complex.exp (2 * Real.pi * Complex.I * (ν s : ℤ) / (b - a) * ((y : ℂ) - a))

theorem expSum_mul {S : Type} (F : Finset S) (a b : ℝ) (c d : S → ℂ) (ν : S → ℤ) (y : ℝ) :
    expSum F a b c ν y * expSum F a b d ν y =
      expSum (F ×ˢ F) a b (fun p => c p.1 * d p.2) (fun p => ν p.1 + ν p.2) y := by
  rw [expSum, expSum, expSum, sum_mul_sum, sum_product]
  refine sum_congr rfl fun s _ => sum_congr rfl fun t _ => ?_
  rw [show ∀ p q r w : ℂ, p * q * (r * w) = p * r * (q * w) by intros; ring, ← Complex.exp_add]
  congr 2
  push_cast; ring

theorem integral_wave {a b : ℝ} (hab : a ≠ b) (k : ℤ) :
    ∫ y in a..b, Complex.exp (2 * Real.pi * Complex.I * k / (b - a) * ((y : ℂ) - a)) = if k = 0 then (b - a : ℂ) else 0 := by
  have hba : ((b : ℂ) - a) ≠ 0 := by rw [sub_ne_zero]; exact_mod_cast hab.symm
  split_ifs with hk
  · subst hk; simp
  · have hπ : (Real.pi : ℂ) ≠ 0 := by exact_mod_cast Real.pi_ne_zero
    have hk' : (k : ℂ) ≠ 0 := by exact_mod_cast hk
    set c : ℂ := 2 * Real.pi * Complex.I * k / (b - a) with hc
    have hc0 : c ≠ 0 := by
      rw [hc]; exact div_ne_zero (mul_ne_zero (mul_ne_zero (mul_ne_zero two_ne_zero hπ) Complex.I_ne_zero) hk') hba
    have e : ∀ y : ℝ, Complex.exp (c * ((y : ℂ) - a)) = Complex.exp (c * y) * Complex.exp (-(c * a)) := by
      intro y; rw [← Complex.exp_add]; congr 1; ring
    simp only [e]
    rw [intervalIntegral.integral_mul_const, integral_exp_mul_complex hc0]
    have h1 : Complex.exp (c * b) = Complex.exp (c * a) := by
      have : c * b = c * a + k * (2 * Real.pi * Complex.I) := by rw [hc]; field_simp; ring
      rw [this, Complex.exp_add, Complex.exp_int_mul_two_pi_mul_I, mul_one]
    rw [h1]; simp

/-- The Fourier coefficient of mode `m` of a function of period `b - a`. -/
noncomputable def fourierCoefOn (a b : ℝ) (g : ℝ → ℂ) (m : ℤ) : ℂ :=
  (∫ y in a..b, g y * Complex.exp (-(2 * Real.pi * Complex.I * m / (b - a) * ((y : ℂ) - a)))) / (b - a)

theorem fourierCoefOn_expSum {S : Type} (F : Finset S) {a b : ℝ} (hab : a ≠ b) (c : S → ℂ) (ν : S → ℤ) (m : ℤ) :
    fourierCoefOn a b (expSum F a b c ν) m = ∑ s ∈ F, if ν s = m then c s else 0 := by
  have hba : ((b : ℂ) - a) ≠ 0 := by rw [sub_ne_zero]; exact_mod_cast hab.symm
  rw [fourierCoefOn, div_eq_iff hba, sum_mul]
  have e : ∀ y : ℝ, expSum F a b c ν y * Complex.exp (-(2 * Real.pi * Complex.I * m / (b - a) * ((y : ℂ) - a))) =
      ∑ s ∈ F, c s * Complex.exp (2 * Real.pi * Complex.I * ((ν s - m : ℤ) : ℂ) / (b - a) * ((y : ℂ) - a)) := by
    intro y
    rw [expSum, sum_mul]
    refine sum_congr rfl fun s _ => ?_
    rw [mul_assoc, ← Complex.exp_add]
    congr 2
    push_cast; ring
  simp only [e]
  rw [intervalIntegral.integral_finsetSum]
  · refine sum_congr rfl fun s _ => ?_
    rw [intervalIntegral.integral_const_mul, integral_wave hab]
    simp only [sub_eq_zero]
    split_ifs <;> simp
  · intro s _
    refine Continuous.intervalIntegrable ?_ _ _
    fun_prop

theorem fft1_expSum {S : Type} (F : Finset S) {n : ℕ} (hn : n ≠ 0) {a b : ℝ} (hab : a ≠ b) (c : S → ℂ) (ν : S → ℤ) (m : ℕ) :
    fft1 n (fun j => expSum F a b c ν (a + j * (b - a) / n)) m = ∑ s ∈ F, if (n : ℤ) ∣ ν s - m then n * c s else 0 := by
  rw [fft1]
  have e : ∀ j : ℕ, expSum F a b c ν (a + j * (b - a) / n) * rootPow n (-(j * m : ℕ)) =
      ∑ s ∈ F, c s * rootPow n (j * (ν s - m)) := by
    intro j
    rw [expSum, sum_mul]
    refine sum_congr rfl fun s _ => ?_
    rw [exp_grid hab, mul_assoc, ← rootPow_add]
    congr 2
    push_cast; ring
  simp only [e]
  rw [sum_comm]
  refine sum_congr rfl fun s _ => ?_
  rw [← mul_sum, sum_rootPow hn]
  split_ifs
  · ring
  · simp

/-- Samples of a sum of exponentials have its exact Fourier coefficients in the modes that no other mode is aliased to. -/
theorem fft1_eq_fourierCoefOn {S : Type} (F : Finset S) {n : ℕ} {a b : ℝ} (hab : a ≠ b) (c : S → ℂ) (ν : S → ℤ) {K m : ℕ}
    (hν : ∀ s ∈ F, |ν s| ≤ K) (hm : K + m < n) :
    fft1 n (fun j => expSum F a b c ν (a + j * (b - a) / n)) m = n * fourierCoefOn a b (expSum F a b c ν) m := by
  rw [fft1_expSum F (by omega) hab, fourierCoefOn_expSum F hab, mul_sum]
  refine sum_congr rfl fun s hs => ?_
  have h1 := abs_le.1 (hν s hs)
  have : (n : ℤ) ∣ ν s - m ↔ ν s = m := by
    constructor
    · rintro ⟨q, hq⟩
      rcases lt_trichotomy q 0 with h | h | h
      · nlinarith
      · subst h; linarith
      · nlinarith
    · rintro h; rw [h, sub_self]; exact dvd_zero _
  simp only [this]
  split_ifs <;> simp

/-- The modes of a real trigonometric polynomial. -/
def rtModes (d : ℕ) : Finset (ℕ × Bool) := range (d + 1) ×ˢ Finset.univ

/-- The frequency of a mode. -/
def rtFreq (p : ℕ × Bool) : ℤ := if p.2 then p.1 else -p.1

/-- The coefficient of a mode. -/
noncomputable def rtCoef (α β : ℕ → ℝ) (p : ℕ × Bool) : ℂ :=
  if p.2 then ((α p.1 : ℂ) - β p.1 * Complex.I) / 2 else ((α p.1 : ℂ) + β p.1 * Complex.I) / 2

theorem rtFreq_le {d : ℕ} {p : ℕ × Bool} (hp : p ∈ rtModes d) : |rtFreq p| ≤ d := by
  have : p.1 < d + 1 := by simpa [rtModes] using hp
  rw [rtFreq]
  split_ifs
  · rw [abs_of_nonneg (by omega)]; omega
  · rw [abs_neg, abs_of_nonneg (by omega)]; omega

theorem realTrigPoly_expSum {M d : ℕ} (hd : d < M) (a b : ℝ) {α β : ℕ → ℝ} (hα : ∀ m, d < m → α m = 0) (hβ : ∀ m, d < m → β m = 0)
    (y : ℝ) : (realTrigPoly M a b α β 0 y : ℂ) = expSum (rtModes d) a b (rtCoef α β) rtFreq y := by
  rw [realTrigPoly, expSum, rtModes, sum_product, zero_mul, add_zero, Complex.ofReal_sum]
  rw [← sum_subset (range_subset_range.2 hd) (fun m _ hm => by
    have : d < m := by simp at hm; omega
    rw [hα m this, hβ m this]; simp)]
  refine sum_congr rfl fun m _ => ?_
  rw [Fintype.sum_bool]
  simp only [rtCoef, rtFreq, if_true, Bool.false_eq_true, if_false]
  set θ : ℂ := 2 * Real.pi * m / (b - a) * (y - a) with hθ
  have e1 : Complex.exp (2 * Real.pi * Complex.I * ((m : ℤ) : ℂ) / (b - a) * ((y : ℂ) - a)) = Complex.cos θ + Complex.sin θ * Complex.I := by
    rw [← Complex.exp_mul_I]; congr 1; rw [hθ]; push_cast; ring
  have e2 : Complex.exp (2 * Real.pi * Complex.I * ((-(m : ℤ) : ℤ) : ℂ) / (b - a) * ((y : ℂ) - a)) =
      Complex.cos θ - Complex.sin θ * Complex.I := by
    have := Complex.exp_mul_I (-θ)
    rw [Complex.cos_neg, Complex.sin_neg] at this
    rw [show Complex.cos θ - Complex.sin θ * Complex.I = Complex.cos θ + -Complex.sin θ * Complex.I by ring, ← this]
    congr 1; rw [hθ]; push_cast; ring
  rw [e1, e2]
  push_cast
  rw [← hθ]
  linear_combination ((β m : ℂ) * Complex.sin θ) * Complex.I_sq

theorem deriv_realTrigPoly_expSum {M d : ℕ} (hd : d < M) (a b : ℝ) {α β : ℕ → ℝ} (hα : ∀ m, d < m → α m = 0)
    (hβ : ∀ m, d < m → β m = 0) (y : ℝ) : ((deriv (realTrigPoly M a b α β 0) y : ℝ) : ℂ) =
      expSum (rtModes d) a b (fun p => rtCoef α β p * (2 * Real.pi * Complex.I * rtFreq p / (b - a))) rtFreq y := by
  have h1 : HasDerivAt (realTrigPoly M a b α β 0) (deriv (realTrigPoly M a b α β 0) y) y := by
    refine DifferentiableAt.hasDerivAt ?_
    unfold realTrigPoly
    fun_prop
  have h2 := h1.ofReal_comp
  have h3 : (fun y : ℝ => (realTrigPoly M a b α β 0 y : ℂ)) = expSum (rtModes d) a b (rtCoef α β) rtFreq :=
    funext fun y => realTrigPoly_expSum hd a b hα hβ y
  rw [h3] at h2
  have h4 := congrFun (iteratedDeriv_expSum (rtModes d) (rtCoef α β) (fun p => 2 * Real.pi * Complex.I * rtFreq p / (b - a)) a 1) y
  rw [iteratedDeriv_one] at h4
  rw [← h2.deriv]
  refine h4.trans ?_
  simp only [pow_one]
  rfl

/-- **C58.** No aliasing up to a known mode: for `u` of degree `d < n/2`, entry `m` of `nl_func(rfft(u))` of `kdv_ops` is `n` times the
exact Fourier coefficient of `-6 u u_x`, for every `m < n - 2d`; for `burgers_ops` of `-u u_x`.  (So with `d ≤ n/3` all modes up to
`d` are exact, the two-thirds rule.) -/
theorem C58_dealiased (hg : constructXKxRfft id N a b = .ok (x, kx)) (M : ℕ) (hM : x.length = 2 * M) {α β : ℕ → ℝ} {d : ℕ}
    (hd : d < M) (hα : ∀ m, d < m → α m = 0) (hβ : ∀ m, d < m → β m = 0) :
    let u := realTrigPoly M a b α β 0
    ∃ v w, kdvNl (waves kx M) (sampleSpec x M u) = .ok v ∧ burgersNl (waves kx M) (sampleSpec x M u) = .ok w ∧
      ∀ m : Fin (M + 1), 2 * d + m < 2 * M →
        v m = (2 * M : ℕ) * fourierCoefOn a b (fun y => ((-6 * u y * deriv u y : ℝ) : ℂ)) m ∧
        w m = (2 * M : ℕ) * fourierCoefOn a b (fun y => ((-(u y * deriv u y) : ℝ) : ℂ)) m := by
  intro u
  refine ⟨_, _, (C58_kdv hg M hM α β 0).1, (C58_burgers hg M hM α β 0 0).1, fun m hm => ?_⟩
  obtain ⟨M', hM0, -, hab, hx, hk⟩ := constructXKxRfft_ok hg
  obtain rfl : M' = M := by rw [hx, gridPoints_length] at hM; omega
  have key : ∀ r : ℝ, sampleSpec x M' (fun y => r * (u y * deriv u y)) m =
      (2 * M' : ℕ) * fourierCoefOn a b (fun y => ((r * (u y * deriv u y) : ℝ) : ℂ)) m := by
    intro r
    have e : ∀ y, ((r * (u y * deriv u y) : ℝ) : ℂ) = expSum (rtModes d ×ˢ rtModes d) a b
        (fun p => r * (rtCoef α β p.1 * (rtCoef α β p.2 * (2 * Real.pi * Complex.I * rtFreq p.2 / (b - a)))))
        (fun p => rtFreq p.1 + rtFreq p.2) y := by
      intro y
      rw [Complex.ofReal_mul, Complex.ofReal_mul, realTrigPoly_expSum hd a b hα hβ, deriv_realTrigPoly_expSum hd a b hα hβ, expSum_mul]
      rw [expSum, expSum, mul_sum]
      exact sum_congr rfl fun p _ => by ring
    rw [sampleSpec, rfft1, fft1_congr (fun j hj => by rw [hx, gridPoints_getD hj, e])]
    rw [fft1_eq_fourierCoefOn (K := 2 * d) _ hab _ _ (fun p hp => ?_) hm, ← funext e]
    rw [mem_product] at hp
    have h1 := rtFreq_le hp.1
    have h2 := rtFreq_le hp.2
    have := abs_add_le (rtFreq p.1) (rtFreq p.2)
    push_cast; linarith
  refine ⟨?_, ?_⟩
  · have := key (-6)
    simp only [← mul_assoc] at this
    exact this
  · have := key (-1)
    simp only [neg_one_mul] at this
    exact this

/-- Sixteen points on `[0, 1]` and `u = sin(2πx)`: the entry of mode `2` of `nl_func` of KdV is the exact one of `-6 u u_x`. -/
example : ∃ x kx v, constructXKxRfft id (.int 16) (0 : ℝ) 1 = .ok (x, kx) ∧
    kdvNl (waves kx 8) (sampleSpec x 8 (realTrigPoly 8 0 1 0 (fun m => if m = 1 then 1 else 0) 0)) = .ok v ∧
    v 2 = (2 * 8 : ℕ) * fourierCoefOn 0 1 (fun y => ((-6 * realTrigPoly 8 0 1 0 (fun m => if m = 1 then 1 else 0) 0 y *
      deriv (realTrigPoly 8 0 1 0 (fun m => if m = 1 then 1 else 0) 0) y : ℝ) : ℂ)) 2 := by
  have hg := C42_rfft 6 (a := (0 : ℝ)) (b := 1) (by norm_num)
  obtain ⟨v, w, h1, -, h2⟩ := C58_dealiased hg 8 (gridPoints_length _ _ _) (α := 0) (β := fun m => if m = 1 then 1 else 0) (d := 1)
    (by norm_num) (by simp) (fun m hm => if_neg (by omega))
  exact ⟨_, _, v, hg, h1, (h2 2 (by decide)).1⟩

/-- A signal with a Nyquist component is not treated exactly. -/
example : ∃ x kx, constructXKxRfft id (.int 16) (0 : ℝ) 1 = .ok (x, kx) ∧
    ¬ ∃ v, kdvNl (waves kx 8) (sampleSpec x 8 (realTrigPoly 8 0 1 0 0 1)) = .ok v ∧
      ∀ m, kdvLin (waves kx 8) m * sampleSpec x 8 (realTrigPoly 8 0 1 0 0 1) m + v m =
        sampleSpec x 8 (fun y => -6 * realTrigPoly 8 0 1 0 0 1 y * deriv (realTrigPoly 8 0 1 0 0 1) y -
          iteratedDeriv 3 (realTrigPoly 8 0 1 0 0 1) y) m := by
  have hg := C42_rfft 6 (a := (0 : ℝ)) (b := 1) (by norm_num)
  refine ⟨_, _, hg, fun h => one_ne_zero ((C58_kdv_rhs hg 8 (gridPoints_length _ _ _) 0 0 1).1 h)⟩

end Verif
