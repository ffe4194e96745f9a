import Verif.Lemmas.ContourMat
import Verif.Lemmas.User
import Verif.Lemmas.ETDCoef
import Mathlib.Analysis.SpecialFunctions.Integrals.Basic

/-!
# The φ functions and their approximations (properties C28–C31)
-/

set_option linter.unusedSectionVars false

namespace Verif

open Matrix Filter Topology intervalIntegral

variable {ι : Type} [Fintype ι] [DecidableEq ι]

/-! ### C28: the functions `psi1`, `psi2`, `psi3` -/

theorem phi_integral_rec (r : ℕ) (z : ℂ) :
    ∫ θ in (0 : ℝ)..1, Complex.exp ((1 - θ) * z) * (θ : ℂ) ^ r / (r.factorial : ℂ) =
      ((r + 1).factorial : ℂ)⁻¹ +
        z * ∫ θ in (0 : ℝ)..1, Complex.exp ((1 - θ) * z) * (θ : ℂ) ^ (r + 1) / ((r + 1).factorial : ℂ) := by
  have hf : ((r + 1).factorial : ℂ) ≠ 0 := by exact_mod_cast (Nat.factorial_pos _).ne'
  have hf' : (r.factorial : ℂ) ≠ 0 := by exact_mod_cast (Nat.factorial_pos _).ne'
  have hc : ∀ q : ℕ, Continuous fun θ : ℝ => Complex.exp ((1 - θ) * z) * (θ : ℂ) ^ q / (q.factorial : ℂ) := by
    intro q; fun_prop
  have hd : ∀ θ : ℝ, HasDerivAt (fun θ : ℝ => Complex.exp ((1 - θ) * z) * (θ : ℂ) ^ (r + 1) / ((r + 1).factorial : ℂ))
      (Complex.exp ((1 - θ) * z) * (θ : ℂ) ^ r / (r.factorial : ℂ) -
        z * (Complex.exp ((1 - θ) * z) * (θ : ℂ) ^ (r + 1) / ((r + 1).factorial : ℂ))) θ := by
    intro θ
    have h0 : HasDerivAt (fun θ : ℝ => (θ : ℂ)) 1 θ := Complex.ofRealCLM.hasDerivAt
    have h1 : HasDerivAt (fun θ : ℝ => ((1 - θ) * z : ℂ)) ((0 - 1) * z) θ := ((hasDerivAt_const θ (1 : ℂ)).sub h0).mul_const z
    have h2 := h1.cexp
    have h3 := (h2.mul (h0.pow (r + 1))).div_const ((r + 1).factorial : ℂ)
    refine h3.congr_deriv ?_
    rw [Nat.factorial_succ]
    push_cast
    have : ((r : ℂ) + 1) ≠ 0 := by exact_mod_cast Nat.succ_ne_zero r
    simp only [Pi.pow_apply]
    field_simp
    ring
  have hi := integral_eq_sub_of_hasDerivAt (a := (0 : ℝ)) (b := 1) (fun θ _ => hd θ)
    (((hc r).sub ((hc (r + 1)).const_mul z)).intervalIntegrable _ _)
  rw [integral_sub ((hc r).intervalIntegrable _ _) (((hc (r + 1)).const_mul z).intervalIntegrable _ _),
    intervalIntegral.integral_const_mul] at hi
  simp only [Complex.ofReal_one, sub_self, zero_mul, Complex.exp_zero, one_pow, mul_one, Complex.ofReal_zero, ne_eq,
    Nat.succ_ne_zero, not_false_eq_true, zero_pow, mul_zero, zero_div, sub_zero, one_div] at hi
  rw [← hi]; ring

theorem phi_integral_zero (z : ℂ) (hz : z ≠ 0) :
    ∫ θ in (0 : ℝ)..1, Complex.exp ((1 - θ) * z) = (Complex.exp z - 1) / z := by
  have hd : ∀ θ : ℝ, HasDerivAt (fun θ : ℝ => -Complex.exp ((1 - θ) * z) / z) (Complex.exp ((1 - θ) * z)) θ := by
    intro θ
    have h0 : HasDerivAt (fun θ : ℝ => (θ : ℂ)) 1 θ := Complex.ofRealCLM.hasDerivAt
    have h1 : HasDerivAt (fun θ : ℝ => ((1 - θ) * z : ℂ)) ((0 - 1) * z) θ := ((hasDerivAt_const θ (1 : ℂ)).sub h0).mul_const z
    have h2 := h1.cexp.neg.div_const z
    refine h2.congr_deriv ?_
    field_simp
    ring
  have hc : Continuous fun θ : ℝ => Complex.exp ((1 - θ) * z) := by fun_prop
  rw [integral_eq_sub_of_hasDerivAt (fun θ _ => hd θ) (hc.intervalIntegrable _ _)]
  simp
  ring

/-- **C28.** `φ_{r+1}(z) = ∫_0^1 e^{(1-θ)z} θ^r / r! dθ`, for the power series `φ` and every `z`. -/
theorem C28_phi_integral (r : ℕ) (z : ℂ) :
    phi (r + 1) z = ∫ θ in (0 : ℝ)..1, Complex.exp ((1 - θ) * z) * (θ : ℂ) ^ r / (r.factorial : ℂ) := by
  rcases eq_or_ne z 0 with rfl | hz
  · rw [phi_at_zero, phi_integral_rec]; simp
  · induction r with
    | zero =>
      rw [phi_eq_phiDiv _ hz]
      simp only [pow_zero, mul_one, Nat.factorial_zero, Nat.cast_one, div_one]
      rw [phi_integral_zero z hz]
      simp [phiDiv]
    | succ r ih =>
      have h1 := phi_succ (r + 1) z
      rw [ih, phi_integral_rec] at h1
      exact (mul_left_cancel₀ hz (add_left_cancel h1)).symm

/-- **C28.** `psi1`, `psi2`, `psi3` are `φ_1, 2 φ_2, 6 φ_3`, the integrals `r ∫_0^1 e^{(1-θ)z} θ^{r-1} dθ`. -/
theorem C28_psi (z : ℂ) (hz : z ≠ 0) :
    (psi1 z = 1 * ∫ θ in (0 : ℝ)..1, Complex.exp ((1 - θ) * z) * (θ : ℂ) ^ 0) ∧
    (psi2 z = 2 * ∫ θ in (0 : ℝ)..1, Complex.exp ((1 - θ) * z) * (θ : ℂ) ^ 1) ∧
    (psi3 z = 3 * ∫ θ in (0 : ℝ)..1, Complex.exp ((1 - θ) * z) * (θ : ℂ) ^ 2) := by
  have h1 := C28_phi_integral 0 z
  have h2 := C28_phi_integral 1 z
  have h3 := C28_phi_integral 2 z
  rw [phi_eq_phiDiv _ hz] at h1 h2 h3
  rw [psi1_eq, psi2_eq, psi3_eq, h1, h2, h3]
  refine ⟨by simp, by simp, ?_⟩
  simp only [intervalIntegral.integral_div]
  norm_num [Nat.factorial]
  ring

/-- **C28.** The recurrence of the `psi` functions. -/
theorem C28_recurrence (z : ℂ) (hz : z ≠ 0) :
    psi1 z = (Complex.exp z - 1) / z ∧ psi2 z = 2 * (psi1 z - 1) / z ∧ psi3 z = 3 * (psi2 z - 1) / z := by
  refine ⟨rfl, ?_, ?_⟩
  · unfold psi2 psi1; field_simp
  · unfold psi3 psi2; field_simp; ring

/-- **C28.** The power series of the `psi` functions; their limit at zero is 1. -/
theorem C28_series (z : ℂ) (hz : z ≠ 0) :
    psi1 z = ∑' j : ℕ, z ^ j / ((j + 1).factorial : ℂ) ∧
    psi2 z = 2 * ∑' j : ℕ, z ^ j / ((j + 2).factorial : ℂ) ∧
    psi3 z = 6 * ∑' j : ℕ, z ^ j / ((j + 3).factorial : ℂ) := by
  refine ⟨?_, ?_, ?_⟩
  · rw [psi1_eq, ← phi_eq_phiDiv _ hz]; rfl
  · rw [psi2_eq, ← phi_eq_phiDiv _ hz]; rfl
  · rw [psi3_eq, ← phi_eq_phiDiv _ hz]; rfl

/-- **C28.** The values at zero of the power series, and continuity there: the formulas have a removable singularity with
value 1. -/
theorem C28_at_zero :
    Tendsto psi1 (𝓝[≠] 0) (𝓝 1) ∧ Tendsto psi2 (𝓝[≠] 0) (𝓝 1) ∧ Tendsto psi3 (𝓝[≠] 0) (𝓝 1) := by
  have key : ∀ (k : ℕ) (c : ℂ), Tendsto (fun z => c * phiDiv k z) (𝓝[≠] 0) (𝓝 (c * (k.factorial : ℂ)⁻¹)) := by
    intro k c
    have h := ((phi_differentiable k).continuous.tendsto 0).mono_left (nhdsWithin_le_nhds (s := {0}ᶜ))
    rw [phi_at_zero] at h
    refine (h.const_mul c).congr' ?_
    filter_upwards [self_mem_nhdsWithin] with z hz
    rw [phi_eq_phiDiv k hz]
  refine ⟨?_, ?_, ?_⟩
  · have := key 1 1
    rw [show psi1 = fun z => 1 * phiDiv 1 z from funext psi1_eq']
    simpa using this
  · have := key 2 2
    rw [show psi2 = fun z => 2 * phiDiv 2 z from funext psi2_eq]
    simpa using this
  · have := key 3 6
    rw [show psi3 = fun z => 6 * phiDiv 3 z from funext psi3_eq]
    simpa [Nat.factorial] using this

/-- `psi1` at 1 is `e - 1`, and so on. -/
example : psi1 1 = Complex.exp 1 - 1 ∧ psi2 1 = 2 * (psi1 1 - 1) ∧ psi3 1 = 3 * (psi2 1 - 1) ∧
    psi1 1 = ∫ θ in (0 : ℝ)..1, Complex.exp ((1 - θ) * 1) * (θ : ℂ) ^ 0 := by
  have h1 := C28_recurrence 1 one_ne_zero
  have h2 := (C28_psi 1 one_ne_zero).1
  simp only [div_one] at h1
  exact ⟨h1.1, h1.2.1, h1.2.2, by rw [h2, one_mul]⟩

example : psi1 2 = ∑' j : ℕ, (2 : ℂ) ^ j / ((j + 1).factorial : ℂ) ∧
    phi 2 2 = ∫ θ in (0 : ℝ)..1, Complex.exp ((1 - θ) * 2) * (θ : ℂ) ^ 1 / ((1 : ℕ).factorial : ℂ) :=
  ⟨(C28_series 2 two_ne_zero).1, C28_phi_integral 1 2⟩

example : (1 : ℂ) ≠ 0 := one_ne_zero

/-! ### C29: small modes -/

/-- **C29.** For a mode below the cutoff the approximation of `φ_k(c z)` is the exact value and the aliased Taylor terms
of `w ↦ φ_k(c w)` at `z`. -/
theorem C29_alias {cut R : ℝ} {N : ℕ} (hN : 0 < N) (hR : 0 < R) (k : ℕ) (c : ℝ) (hc : c ≠ 0) (z : ℂ) (hz : ‖z‖ < cut)
    (h0 : ∀ m < N, z + node R N m ≠ 0) :
    HasSum (fun l : ℕ => (-1) ^ l * (R : ℂ) ^ (l * N) * iteratedDeriv (l * N) (fun w => phi k (c * w)) z /
      ((l * N).factorial : ℂ)) (phiMode cut R N k c z) := by
  have hm : phiMode cut R N k c z = contourMean R N (fun w => phi k (c * w)) z := by
    unfold phiMode contourMean
    rw [if_pos hz]
    congr 1
    refine Finset.sum_congr rfl fun m hm => ?_
    exact (phi_eq_phiDiv k (mul_ne_zero (by exact_mod_cast hc) (h0 m (Finset.mem_range.mp hm)))).symm
  rw [hm]
  exact contourMean_hasSum hN hR (phi_comp_differentiable k c) z

/-- The leading term of C29 is the exact value. -/
example (k : ℕ) (c R : ℝ) (N : ℕ) (z : ℂ) : (-1) ^ 0 * (R : ℂ) ^ (0 * N) * iteratedDeriv (0 * N) (fun w => phi k (c * w)) z /
    ((0 * N).factorial : ℂ) = phi k (c * z) := by simp

/-- **C29.** As the number of contour points grows, the approximation converges to the exact value, for every radius not
smaller than the cutoff, for small modes and trivially for large ones. -/
theorem C29_converges {cut R : ℝ} (hcut : 0 < cut) (hR : cut ≤ R) (k : ℕ) (c : ℝ) (hc : c ≠ 0) (z : ℂ) :
    Tendsto (fun N => phiMode cut R N k c z) atTop (𝓝 (phi k (c * z))) := by
  by_cases hz : ‖z‖ < cut
  · have hm : ∀ N, phiMode cut R N k c z = contourMean R N (fun w => phi k (c * w)) z := by
      intro N
      unfold phiMode contourMean
      rw [if_pos hz]
      congr 1
      refine Finset.sum_congr rfl fun m hm => ?_
      refine (phi_eq_phiDiv k (mul_ne_zero (by exact_mod_cast hc) fun h0 => ?_)).symm
      have := norm_node R N m (by linarith)
      rw [show node R N m = -z by linear_combination h0, norm_neg] at this
      linarith
    simp_rw [hm]
    exact contourMean_tendsto (by linarith) (phi_comp_differentiable k c) z
  · have hz0 : z ≠ 0 := by rintro rfl; simp at hz; linarith
    have : ∀ N, phiMode cut R N k c z = phi k (c * z) := by
      intro N
      unfold phiMode
      rw [if_neg hz, phi_eq_phiDiv k (mul_ne_zero (by exact_mod_cast hc) hz0)]
    simp_rw [this]
    exact tendsto_const_nhds

/-- **C29.** The same for radii smaller than the cutoff, unless a contour may pass through zero. -/
theorem C29_converges_radius {cut R : ℝ} (hR : 0 < R) (k : ℕ) (c : ℝ) (hc : c ≠ 0) (z : ℂ) (hz : ‖z‖ < cut) (hzR : ‖z‖ ≠ R) :
    Tendsto (fun N => phiMode cut R N k c z) atTop (𝓝 (phi k (c * z))) := by
  have hm : ∀ N, phiMode cut R N k c z = contourMean R N (fun w => phi k (c * w)) z := by
    intro N
    unfold phiMode contourMean
    rw [if_pos hz]
    congr 1
    refine Finset.sum_congr rfl fun m hm => ?_
    refine (phi_eq_phiDiv k (mul_ne_zero (by exact_mod_cast hc) fun h0 => hzR ?_)).symm
    have := norm_node R N m hR.le
    rwa [show node R N m = -z by linear_combination h0, norm_neg] at this
  simp_rw [hm]
  exact contourMean_tendsto hR (phi_comp_differentiable k c) z

example : ‖(0 : ℂ)‖ ≠ (1 : ℝ) := by norm_num

/-- **C29.** Error bound: at most the Taylor tail of `w ↦ φ_k(c w)` at `z` from order `N` on, evaluated at radius `R`. -/
theorem C29_error {cut R : ℝ} {N : ℕ} (hN : 0 < N) (hR : 0 < R) (k : ℕ) (c : ℝ) (hc : c ≠ 0) (z : ℂ) (hz : ‖z‖ < cut)
    (h0 : ∀ m < N, z + node R N m ≠ 0) :
    ‖phiMode cut R N k c z - phi k (c * z)‖ ≤
      ∑' j : ℕ, ‖iteratedDeriv (j + N) (fun w => phi k (c * w)) z / ((j + N).factorial : ℂ)‖ * R ^ (j + N) := by
  have h := alias_bound hN hR.le _ (taylor_summable (phi_comp_differentiable k c) z hR.le)
  rw [← (C29_alias hN hR k c hc z hz h0).tsum_eq]
  simp only [iteratedDeriv_zero, Nat.factorial_zero, Nat.cast_one, div_one] at h
  convert h using 3
  refine tsum_congr fun l => ?_
  rw [neg_pow ((R : ℂ) ^ N), ← pow_mul, mul_comm N l]; ring

/-- The default settings at the mode zero: the mean converges, and its error is bounded by the tail of the Taylor series. -/
example : Tendsto (fun N => phiMode (1 / 100) 1 N 3 1 0) atTop (𝓝 (phi 3 ((1 : ℝ) * 0))) ∧
    ‖phiMode (1 / 100) 1 32 3 1 0 - phi 3 ((1 : ℝ) * 0)‖ ≤
      ∑' j : ℕ, ‖iteratedDeriv (j + 32) (fun w => phi 3 ((1 : ℝ) * w)) 0 / ((j + 32).factorial : ℂ)‖ * 1 ^ (j + 32) :=
  ⟨C29_converges (by norm_num) (by norm_num) 3 1 one_ne_zero 0,
    C29_error (by norm_num) one_pos 3 1 one_ne_zero 0 (by norm_num) fun m _ => by rw [zero_add]; exact node_ne_zero one_pos _ _⟩

/-- A cutoff beyond the radius, at a mode off the circle. -/
example : Tendsto (fun N => phiMode 3 1 N 1 (1 / 2) 2) atTop (𝓝 (phi 1 ((1 / 2 : ℝ) * 2))) :=
  C29_converges_radius one_pos 1 (1 / 2) (by norm_num) 2 (by norm_num) (by norm_num)

example : HasSum (fun l : ℕ => (-1) ^ l * ((1 : ℝ) : ℂ) ^ (l * 32) * iteratedDeriv (l * 32) (fun w => phi 1 ((1 / 2 : ℝ) * w)) 0 /
    ((l * 32).factorial : ℂ)) (phiMode (1 / 100) 1 32 1 (1 / 2) 0) :=
  C29_alias (by norm_num) one_pos 1 (1 / 2) (by norm_num) 0 (by norm_num) fun m _ => by rw [zero_add]; exact node_ne_zero one_pos _ _

/-- The default configuration meets the hypotheses, e.g. for the mode zero. -/
example : ‖(0 : ℂ)‖ < (1 / 100 : ℝ) ∧ ∀ m < 32, (0 : ℂ) + node 1 32 m ≠ 0 :=
  ⟨by norm_num, fun m _ => by rw [zero_add]; exact node_ne_zero one_pos _ _⟩

/-! ### C30: full matrices -/

/-- **C30.** On an eigenvector of `c h L` the full-matrix approximation acts as the quadrature value. -/
theorem C30_eigenvector {R : ℝ} {N : ℕ} (L : Mat ι) (h c : ℝ) (p : ℕ) (hok : ContourOk R N L [c] h) (ζ : ℂ) (v : Vec ι)
    (hv : ((c * h : ℝ) : ℂ) • (L *ᵥ v) = ζ • v) (hζ : ∀ m < N, node R N m ≠ ζ) :
    phiFull R N L h p c *ᵥ v = quadrature R N p ζ • v := by
  unfold phiFull quadrature
  rw [Matrix.sum_mulVec, Finset.sum_div, Finset.sum_smul]
  refine Finset.sum_congr rfl fun m hm => ?_
  have hm := Finset.mem_range.mp hm
  have hu := hok m hm c (by simp)
  have hne : node R N m - ζ ≠ 0 := sub_ne_zero.mpr (hζ m hm)
  have he : (node R N m • (1 : Mat ι) - ((c * h : ℝ) : ℂ) • L) *ᵥ v = (node R N m - ζ) • v := by
    rw [sub_mulVec, smul_mulVec, one_mulVec, smul_mulVec, hv, sub_smul]
  have hi : (node R N m • (1 : Mat ι) - ((c * h : ℝ) : ℂ) • L)⁻¹ *ᵥ v = (node R N m - ζ)⁻¹ • v := by
    have : v = (node R N m - ζ)⁻¹ • ((node R N m • (1 : Mat ι) - ((c * h : ℝ) : ℂ) • L) *ᵥ v) := by
      rw [he, smul_smul, inv_mul_cancel₀ hne, one_smul]
    conv_lhs => rw [this]
    rw [mulVec_smul, mulVec_mulVec, Matrix.nonsing_inv_mul _ hu, one_mulVec]
  rw [smul_mulVec, hi, smul_smul]
  congr 1
  field_simp

/-- The scalar quadrature is the one-by-one case of the matrix one. -/
theorem quadrature_eq (R : ℝ) (N p : ℕ) (ζ : ℂ) (hζ : ∀ m < N, node R N m ≠ ζ) :
    phiFull R N (Matrix.diagonal fun _ : Fin 1 => ζ) 1 p 1 = Matrix.diagonal fun _ => quadrature R N p ζ := by
  unfold phiFull quadrature
  rw [Finset.sum_div]
  have : ∀ m ∈ Finset.range N, (node R N m * phiDiv p (node R N m) / N) •
      (node R N m • (1 : Mat (Fin 1)) - ((1 * 1 : ℝ) : ℂ) • Matrix.diagonal fun _ => ζ)⁻¹ =
      Matrix.diagonal fun _ => node R N m * phiDiv p (node R N m) / (node R N m - ζ) / N := by
    intro m hm
    have hne : node R N m - ζ ≠ 0 := sub_ne_zero.mpr (hζ m (Finset.mem_range.mp hm))
    have hd : node R N m • (1 : Mat (Fin 1)) - ((1 * 1 : ℝ) : ℂ) • (Matrix.diagonal fun _ => ζ) =
        Matrix.diagonal fun _ => node R N m - ζ := by
      ext i j
      obtain rfl : i = 0 := Subsingleton.elim _ _
      obtain rfl : j = 0 := Subsingleton.elim _ _
      simp
    have hinv : (Matrix.diagonal fun _ : Fin 1 => node R N m - ζ)⁻¹ = Matrix.diagonal fun _ => (node R N m - ζ)⁻¹ := by
      refine Matrix.inv_eq_right_inv ?_
      rw [Matrix.diagonal_mul_diagonal]
      simp [hne]
    rw [hd, hinv]
    ext i j
    obtain rfl : i = 0 := Subsingleton.elim _ _
    obtain rfl : j = 0 := Subsingleton.elim _ _
    simp; field_simp
  rw [Finset.sum_congr rfl this]
  ext i j
  obtain rfl : i = 0 := Subsingleton.elim _ _
  obtain rfl : j = 0 := Subsingleton.elim _ _
  simp [Matrix.sum_apply]

theorem scalar_contourOk (R : ℝ) (N : ℕ) (ζ : ℂ) (hζ : ∀ m < N, node R N m ≠ ζ) :
    ContourOk R N (Matrix.diagonal fun _ : Fin 1 => ζ) [1] 1 := by
  intro m hm c hc
  simp only [List.mem_singleton] at hc
  subst hc
  rw [Matrix.det_fin_one]
  simp [sub_ne_zero.mpr (hζ m hm)]

/-- **C30.** Closed form of the quadrature: every coefficient of the power series is aliased, and the result is divided by
`1 + (ζ/R)^N`. -/
theorem C30_formula {R : ℝ} {N : ℕ} (hN : 0 < N) (hR : 0 < R) (p : ℕ) (ζ : ℂ) (hζ : ∀ m < N, node R N m ≠ ζ) :
    (1 + (ζ / R) ^ N) * quadrature R N p ζ =
      ∑ k ∈ Finset.range N, (∑' l : ℕ, (((k + l * N) + p).factorial : ℂ)⁻¹ * (-(R : ℂ) ^ N) ^ l) * ζ ^ k := by
  have h := phiFull_eq hN hR (Matrix.diagonal fun _ : Fin 1 => ζ) 1 1 p (scalar_contourOk R N ζ hζ)
  rw [quadrature_eq R N p ζ hζ] at h
  have h0 := congrFun (congrFun h 0) 0
  simp only [aliasedPoly, mul_one, Complex.ofReal_one, one_smul, ← Matrix.diagonal_smul, Matrix.diagonal_pow,
    ← Matrix.diagonal_one, Matrix.diagonal_add, Matrix.diagonal_mul_diagonal, Matrix.diagonal_apply_eq,
    Matrix.sum_apply, Pi.pow_apply, Pi.smul_apply, smul_eq_mul] at h0
  rw [show ζ / (R : ℂ) = (R : ℂ)⁻¹ * ζ by rw [div_eq_mul_inv, mul_comm]]
  exact h0

/-- **C30.** Inside the contour the quadrature converges to the exact value. -/
theorem C30_inside {R : ℝ} (p : ℕ) (ζ : ℂ) (hζ : ‖ζ‖ < R) :
    Tendsto (fun N => quadrature R N p ζ) atTop (𝓝 (phi p ζ)) := by
  have hR : 0 < R := (norm_nonneg ζ).trans_lt hζ
  have hn : ∀ N m, node R N m ≠ ζ := by
    intro N m h
    have := norm_node R N m hR.le
    rw [h] at this
    linarith
  have hW : Tendsto (fun N => ((R : ℂ)⁻¹ • (((1 * 1 : ℝ) : ℂ) • (Matrix.diagonal fun _ : Fin 1 => ζ))) ^ N) atTop (𝓝 0) := by
    have h1 : Tendsto (fun N => ((R : ℂ)⁻¹ * ζ) ^ N) atTop (𝓝 0) := by
      refine tendsto_pow_atTop_nhds_zero_of_norm_lt_one ?_
      rw [norm_mul, norm_inv, Complex.norm_real, Real.norm_of_nonneg hR.le, inv_mul_lt_iff₀ hR, mul_one]
      exact hζ
    refine tendsto_pi_nhds.mpr fun i => tendsto_pi_nhds.mpr fun j => ?_
    obtain rfl : i = 0 := Subsingleton.elim _ _
    obtain rfl : j = 0 := Subsingleton.elim _ _
    simpa [← Matrix.diagonal_smul, Matrix.diagonal_pow, mul_pow] using h1
  have h := phiFull_tendsto hR (Matrix.diagonal fun _ : Fin 1 => ζ) 1 1 p hW
  have h00 := ((continuous_apply_apply 0 0).tendsto _).comp h
  simp only [quadrature_eq R _ p ζ fun m _ => hn _ m, phiExact, mul_one, Complex.ofReal_one, one_smul,
    phiMat_diagonal, Matrix.diagonal_apply_eq] at h00
  exact h00

/-- **C30.** Outside the contour the computed value tends to zero instead, so the error tends to the exact value itself. -/
theorem C30_outside {R : ℝ} (hR : 0 < R) (p : ℕ) (ζ : ℂ) (hζ : R < ‖ζ‖) :
    Tendsto (fun N => quadrature R N p ζ) atTop (𝓝 0) := by
  have hn : ∀ N m, node R N m ≠ ζ := by
    intro N m h
    have := norm_node R N m hR.le
    rw [h] at this
    linarith
  have hS : Tendsto (fun N => ∑ k ∈ Finset.range N, aliased R N (phiCoef p) k * ζ ^ k) atTop (𝓝 (phi p ζ)) := by
    have h := aliasedPoly_tendsto hR.le p (Matrix.diagonal fun _ : Fin 1 => ζ)
    have h00 := ((continuous_apply_apply 0 0).tendsto _).comp h
    refine (h00.congr fun N => ?_).trans (by rw [phiMat_diagonal, Matrix.diagonal_apply_eq])
    show aliasedPoly R N p (diagonal fun _ => ζ) 0 0 = _
    rw [aliasedPoly, Matrix.sum_apply]
    simp [Matrix.diagonal_pow]
  have hD : Tendsto (fun N : ℕ => ‖(1 : ℂ) + (ζ / R) ^ N‖) atTop atTop := by
    have h1 : 1 < ‖ζ / (R : ℂ)‖ := by
      rw [norm_div, Complex.norm_real, Real.norm_of_nonneg hR.le, one_lt_div hR]; exact hζ
    have h2 : Tendsto (fun N : ℕ => ‖ζ / (R : ℂ)‖ ^ N) atTop atTop := tendsto_pow_atTop_atTop_of_one_lt h1
    refine tendsto_atTop_mono (fun N => ?_) (tendsto_atTop_add_const_right _ (-1) h2)
    have := norm_sub_le ((1 : ℂ) + (ζ / R) ^ N) 1
    rw [add_sub_cancel_left, norm_pow, norm_one] at this
    linarith
  have hq : ∀ᶠ N in atTop, quadrature R N p ζ =
      (∑ k ∈ Finset.range N, aliased R N (phiCoef p) k * ζ ^ k) * (1 + (ζ / R) ^ N)⁻¹ := by
    filter_upwards [eventually_gt_atTop 0, hD.eventually_gt_atTop 0] with N hN hpos
    have hne : (1 : ℂ) + (ζ / R) ^ N ≠ 0 := norm_pos_iff.mp hpos
    have hf := C30_formula hN hR p ζ fun m _ => hn N m
    rw [eq_mul_inv_iff_mul_eq₀ hne, mul_comm]
    exact hf
  rw [tendsto_congr' hq]
  have hI : Tendsto (fun N : ℕ => ((1 : ℂ) + (ζ / R) ^ N)⁻¹) atTop (𝓝 0) := by
    rw [tendsto_zero_iff_norm_tendsto_zero]
    simp_rw [norm_inv]
    exact tendsto_inv_atTop_zero.comp hD
  simpa using hS.mul hI

/-- **C30.** If all eigenvalues of `c h L` lie inside the contour, then for all large numbers of points the inversions
succeed and the full-matrix approximation converges to `φ_p(c h L)`. -/
theorem C30_matrix {R : ℝ} (hR : 0 < R) (L : Mat ι) (h c : ℝ) (p : ℕ)
    (hsp : ∀ μ ∈ spectrum ℂ (((c * h : ℝ) : ℂ) • L), ‖μ‖ < R) :
    (∀ N, ContourOk R N L [c] h) ∧
    Tendsto (fun N => phiFull R N L h p c) atTop (𝓝 (phiMat p (((c * h : ℝ) : ℂ) • L))) := by
  refine ⟨fun N m hm c' hc' => ?_, phiFull_tendsto hR L h c p (powers_tendsto_of_spectrum hR _ hsp)⟩
  simp only [List.mem_singleton] at hc'
  subst hc'
  by_contra hu
  have : node R N m ∈ spectrum ℂ (((c' * h : ℝ) : ℂ) • L) := by
    rw [spectrum.mem_iff, Matrix.isUnit_iff_isUnit_det, Algebra.algebraMap_eq_smul_one]
    exact hu
  have h1 := hsp _ this
  rw [norm_node R N m hR.le] at h1
  exact lt_irrefl _ h1

/-- **C30.** Conversely, when the contour hits an eigenvalue the coefficients cannot be computed. -/
theorem C30_hit {R : ℝ} {N : ℕ} (L : Mat ι) (h c : ℝ) (m : ℕ) (hm : m < N)
    (hμ : node R N m ∈ spectrum ℂ (((c * h : ℝ) : ℂ) • L)) : ¬ ContourOk R N L [c] h := by
  intro hok
  rw [spectrum.mem_iff, Matrix.isUnit_iff_isUnit_det, Algebra.algebraMap_eq_smul_one] at hμ
  exact hμ (hok m hm c (by simp))

/-- A rotation by a small step: the coefficients converge to the functions of the matrix. -/
example : Tendsto (fun N => phiFull 1 N (!![0, 1 / 2; -1 / 2, 0] : Mat (Fin 2)) 1 2 1) atTop
    (𝓝 (phiMat 2 (((1 * 1 : ℝ) : ℂ) • !![0, 1 / 2; -1 / 2, 0]))) := by
  refine (C30_matrix one_pos (!![0, 1 / 2; -1 / 2, 0] : Mat (Fin 2)) 1 1 2 fun μ hμ => ?_).2
  rw [spectrum.mem_iff, Matrix.isUnit_iff_isUnit_det, Algebra.algebraMap_eq_smul_one, Matrix.det_fin_two] at hμ
  simp at hμ
  have h2 : μ * μ = -(1 / 4) := by linear_combination hμ
  have h3 : ‖μ‖ * ‖μ‖ = 1 / 4 := by rw [← norm_mul, h2]; norm_num
  nlinarith [norm_nonneg μ]

/-- Eigenvalues inside the circle are treated right, those outside get zero, and a node of the contour makes the solve fail. -/
example : Tendsto (fun N => quadrature 1 N 1 (1 / 2)) atTop (𝓝 (phi 1 (1 / 2))) ∧
    Tendsto (fun N => quadrature 1 N 1 2) atTop (𝓝 0) ∧
    ¬ ContourOk 1 4 (Matrix.diagonal fun _ : Fin 1 => node 1 4 2) [1] 1 := by
  refine ⟨C30_inside 1 _ (by norm_num), C30_outside one_pos 1 _ (by norm_num), C30_hit _ 1 1 2 (by norm_num) ?_⟩
  rw [mul_one, Complex.ofReal_one, one_smul, spectrum.mem_iff, Matrix.isUnit_iff_isUnit_det, Matrix.det_fin_one,
    Algebra.algebraMap_eq_smul_one]
  simp

example : (1 + ((1 / 2 : ℂ) / ((1 : ℝ) : ℂ)) ^ 8) * quadrature 1 8 1 (1 / 2) =
    ∑ k ∈ Finset.range 8, (∑' l : ℕ, (((k + l * 8) + 1).factorial : ℂ)⁻¹ * (-((1 : ℝ) : ℂ) ^ 8) ^ l) * (1 / 2) ^ k :=
  C30_formula (by norm_num) one_pos 1 (1 / 2) fun m _ h => by
    have := norm_node 1 8 m zero_le_one
    rw [h] at this
    norm_num at this

example : phiFull 1 8 (Matrix.diagonal ![2, 3]) 1 1 1 *ᵥ ![1, 0] = quadrature 1 8 1 2 • ![1, 0] := by
  refine C30_eigenvector _ 1 1 1 ?_ 2 ![1, 0] ?_ fun m _ h => ?_
  · intro m _ c hc
    have hn := norm_node 1 8 m zero_le_one
    obtain rfl := List.mem_singleton.1 hc
    rw [Matrix.det_fin_two, isUnit_iff_ne_zero]
    simp only [Matrix.sub_apply, Matrix.smul_apply, Matrix.diagonal_apply, Matrix.one_apply]
    simp only [if_true, if_false, smul_eq_mul, mul_one, mul_zero, sub_zero, Complex.ofReal_one, one_mul, Fin.isValue,
      Matrix.cons_val_zero, Matrix.cons_val_one, one_ne_zero, zero_ne_one]
    refine mul_ne_zero (fun h => ?_) fun h => ?_ <;> rw [sub_eq_zero.1 h] at hn <;> norm_num at hn
  · ext i; fin_cases i <;> simp [Matrix.mulVec_diagonal]
  · have := norm_node 1 8 m zero_le_one
    rw [h] at this
    norm_num at this

/-- A matrix with eigenvalues `±i/2`, inside the default contour of radius 1. -/
example : ∀ μ ∈ spectrum ℂ (((1 * 1 : ℝ) : ℂ) • (!![0, 1 / 2; -1 / 2, 0] : Mat (Fin 2))), ‖μ‖ < 1 := by
  intro μ hμ
  rw [spectrum.mem_iff, Matrix.isUnit_iff_isUnit_det, Algebra.algebraMap_eq_smul_one, Matrix.det_fin_two] at hμ
  simp at hμ
  have h2 : μ * μ = -(1 / 4) := by linear_combination hμ
  have h3 : ‖μ‖ * ‖μ‖ = 1 / 4 := by rw [← norm_mul, h2]; norm_num
  nlinarith [norm_nonneg μ]

/-! ### C31: arguments of the `psi` evaluations -/

/-- The arguments at which `psi` is evaluated for the fraction `c` and one mode `z` of a diagonal operator. -/
def psiArgs (cut R : ℝ) (N : ℕ) (c : ℝ) (z : ℂ) : Set ℂ :=
  {w | (‖z‖ < cut ∧ ∃ m < N, w = c * (z + node R N m)) ∨ (cut ≤ ‖z‖ ∧ w = c * z)}

/-- **C31.** The arguments listed are all that are used: the approximation does not depend on the function elsewhere. -/
theorem C31_args (cut R : ℝ) (N : ℕ) (k : ℕ) (c : ℝ) (z : ℂ) (g : ℂ → ℂ)
    (hg : ∀ w ∈ psiArgs cut R N c z, g w = phiDiv k w) :
    (if ‖z‖ < cut then contourMean R N (fun w => g (c * w)) z else g (c * z)) = phiMode cut R N k c z := by
  unfold phiMode
  split
  · next hz =>
    unfold contourMean
    congr 1
    exact Finset.sum_congr rfl fun m hm => hg _ (Or.inl ⟨hz, m, Finset.mem_range.mp hm, rfl⟩)
  · next hz => exact hg _ (Or.inr ⟨not_lt.mp hz, rfl⟩)

/-- **C31.** With `modecutoff ≤ contour_radius` no evaluation is at zero. -/
theorem C31_no_zero {cut R : ℝ} (hcut : 0 < cut) (hR : cut ≤ R) (N : ℕ) (c : ℝ) (hc : c ≠ 0) (z : ℂ) :
    (0 : ℂ) ∉ psiArgs cut R N c z := by
  have hc' : (c : ℂ) ≠ 0 := by exact_mod_cast hc
  rintro (⟨hz, m, _, h0⟩ | ⟨hz, h0⟩)
  · have h1 : z + node R N m = 0 := (mul_eq_zero.mp h0.symm).resolve_left hc'
    have := norm_node R N m (by linarith)
    rw [show node R N m = -z by linear_combination h1, norm_neg] at this
    linarith
  · have h1 : z = 0 := (mul_eq_zero.mp h0.symm).resolve_left hc'
    rw [h1, norm_zero] at hz
    linarith

/-- **C31.** Hence the method computed by ETD4 and ETD34 does not depend on the value assigned to the psi functions at
zero (`0/0` in the code). -/
theorem C31_krogstad (cfg : ETDConfig ℝ) (hcut : 0 < cfg.modecutoff) (hR : cfg.modecutoff ≤ cfg.contour_radius)
    (L : Vec ι) (h : ℝ) (g : ℕ → ℂ → ℂ) (hg : ∀ k w, w ≠ 0 → g k w = phiDiv k w) :
    krogstad (fun k c => Matrix.diagonal fun i => if ‖(h : ℂ) * L i‖ < cfg.modecutoff then
        contourMean cfg.contour_radius cfg.contour_points.toNat (fun w => g k (c * w)) (h * L i)
      else g k (c * (h * L i))) (Matrix.diagonal L) h =
    krogstad ((LinOp.diag L).phi cfg h) (Matrix.diagonal L) h := by
  have key : ∀ k (c : ℝ), c ≠ 0 → (Matrix.diagonal fun i => if ‖(h : ℂ) * L i‖ < cfg.modecutoff then
        contourMean cfg.contour_radius cfg.contour_points.toNat (fun w => g k (c * w)) (h * L i)
      else g k (c * (h * L i))) = (LinOp.diag L).phi cfg h k c := by
    intro k c hc
    refine congrArg Matrix.diagonal (funext fun i => ?_)
    refine C31_args _ _ _ k c _ (g k) fun w hw => hg k w ?_
    rintro rfl
    exact C31_no_zero hcut hR _ c hc _ hw
  unfold krogstad
  simp only [key _ (1 / 2) (by norm_num), key _ 1 (by norm_num)]

/-- **C31.** Likewise for ETD5 and ETD35. -/
theorem C31_etd5 (cfg : ETDConfig ℝ) (hcut : 0 < cfg.modecutoff) (hR : cfg.modecutoff ≤ cfg.contour_radius)
    (fsal : Bool) (L : Vec ι) (h : ℝ) (g : ℕ → ℂ → ℂ) (hg : ∀ k w, w ≠ 0 → g k w = phiDiv k w) :
    etd5Method fsal (fun k c => Matrix.diagonal fun i => if ‖(h : ℂ) * L i‖ < cfg.modecutoff then
        contourMean cfg.contour_radius cfg.contour_points.toNat (fun w => g k (c * w)) (h * L i)
      else g k (c * (h * L i))) (Matrix.diagonal L) h =
    etd5Method fsal ((LinOp.diag L).phi cfg h) (Matrix.diagonal L) h := by
  have key : ∀ k (c : ℝ), c ≠ 0 → (Matrix.diagonal fun i => if ‖(h : ℂ) * L i‖ < cfg.modecutoff then
        contourMean cfg.contour_radius cfg.contour_points.toNat (fun w => g k (c * w)) (h * L i)
      else g k (c * (h * L i))) = (LinOp.diag L).phi cfg h k c := by
    intro k c hc
    refine congrArg Matrix.diagonal (funext fun i => ?_)
    refine C31_args _ _ _ k c _ (g k) fun w hw => hg k w ?_
    rintro rfl
    exact C31_no_zero hcut hR _ c hc _ hw
  unfold etd5Method
  simp only [key _ (1 / 4) (by norm_num), key _ (1 / 2) (by norm_num), key _ (3 / 4) (by norm_num), key _ 1 (by norm_num)]

/-- **C31.** With `modecutoff > contour_radius` there is, for every step size, an operator for which one is. -/
theorem C31_zero {cut R : ℝ} (hR : 0 < R) (hcut : R < cut) (N : ℕ) (hN : 0 < N) (c : ℝ) (h : ℝ) (hh : h ≠ 0) :
    ∃ L : ℂ, (0 : ℂ) ∈ psiArgs cut R N c (h * L) := by
  refine ⟨-node R N 0 / h, Or.inl ⟨?_, 0, hN, ?_⟩⟩
  · rw [mul_div_cancel₀ _ (by exact_mod_cast hh), norm_neg, norm_node R N 0 hR.le]; exact hcut
  · rw [mul_div_cancel₀ _ (by exact_mod_cast hh)]; simp

/-- **C31.** In the full-matrix strategies `psi` is evaluated at the contour points, which are not zero. -/
theorem C31_full {R : ℝ} (hR : 0 < R) (N m : ℕ) : node R N m ≠ 0 := node_ne_zero hR N m

example : (0 : ℂ) ∉ psiArgs (1 / 100) 1 32 (1 / 2) 0 ∧ (∃ L : ℂ, (0 : ℂ) ∈ psiArgs 2 1 32 (1 / 2) ((1 / 10 : ℝ) * L)) ∧
    node 1 32 7 ≠ 0 :=
  ⟨C31_no_zero (by norm_num) (by norm_num) 32 _ (by norm_num) 0,
    C31_zero one_pos (by norm_num) 32 (by norm_num) _ (1 / 10) (by norm_num), C31_full one_pos 32 7⟩

/-- The coefficients do not depend on the value that the psi functions are given at zero. -/
example (L : Vec ι) (h : ℝ) :
    krogstad (fun k c => Matrix.diagonal fun i => if ‖(h : ℂ) * L i‖ < 1 / 100 then
        contourMean 1 32 (fun w => (if (c : ℂ) * w = 0 then 37 else phiDiv k (c * w))) (h * L i)
      else if (c : ℂ) * (h * L i) = 0 then 37 else phiDiv k (c * (h * L i))) (Matrix.diagonal L) h =
    krogstad ((LinOp.diag L).phi ⟨1 / 100, 32, 1⟩ h) (Matrix.diagonal L) h ∧
    etd5Method true (fun k c => Matrix.diagonal fun i => if ‖(h : ℂ) * L i‖ < 1 / 100 then
        contourMean 1 32 (fun w => (if (c : ℂ) * w = 0 then 37 else phiDiv k (c * w))) (h * L i)
      else if (c : ℂ) * (h * L i) = 0 then 37 else phiDiv k (c * (h * L i))) (Matrix.diagonal L) h =
    etd5Method true ((LinOp.diag L).phi ⟨1 / 100, 32, 1⟩ h) (Matrix.diagonal L) h :=
  ⟨C31_krogstad ⟨1 / 100, 32, 1⟩ (by norm_num) (by norm_num) L h (fun k w => if w = 0 then 37 else phiDiv k w)
      fun k w hw => if_neg hw,
    C31_etd5 ⟨1 / 100, 32, 1⟩ (by norm_num) (by norm_num) true L h (fun k w => if w = 0 then 37 else phiDiv k w)
      fun k w hw => if_neg hw⟩

example (z : ℂ) : (if ‖z‖ < 1 / 100 then contourMean 1 32 (fun w => (if ((1 / 2 : ℝ) : ℂ) * w = 0 then 37 else phiDiv 2 ((1 / 2 : ℝ) * w))) z
    else (if ((1 / 2 : ℝ) : ℂ) * z = 0 then 37 else phiDiv 2 ((1 / 2 : ℝ) * z))) = phiMode (1 / 100) 1 32 2 (1 / 2) z :=
  C31_args (1 / 100) 1 32 2 (1 / 2) z (fun w => if w = 0 then 37 else phiDiv 2 w) fun w hw =>
    if_neg fun h0 => C31_no_zero (by norm_num) (by norm_num) 32 (1 / 2) (by norm_num) z (h0 ▸ hw)

example : (0 : ℝ) < 1 / 100 ∧ (1 / 100 : ℝ) ≤ 1 := by norm_num

end Verif
