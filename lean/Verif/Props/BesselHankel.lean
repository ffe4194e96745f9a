import Verif.Props.FloatHankel
import Verif.Lemmas.BesselModes

/-!
# C86: the Hankel transform with the Bessel functions
-/

set_option linter.unusedSectionVars false

namespace Verif

open Real Set

variable {B : Bessel} {n : ℕ} {rmax : ℝ} {o : HankelObj}

theorem Bessel.IsTrue.zero_spec (hB : B.IsTrue) (i : ℕ) : 0 < B.zero i ∧ besselJ0 (B.zero i) = 0 := by
  have : B.zero i ∈ Set.range B.zero := ⟨i, rfl⟩
  rw [hB.range] at this
  exact this

theorem Bessel.IsTrue.simple (hB : B.IsTrue) (i : ℕ) : besselJ1 (B.zero i) ≠ 0 := besselJ1_ne_zero (hB.zero_spec i).1 (hB.zero_spec i).2

/-- **C86.** There is exactly one triple of functions as `scipy.special` documents them: `J₀` has infinitely many positive zeros and they can be
listed in increasing order. -/
theorem C86_exists : ∃! B : Bessel, B.IsTrue := by
  have hr : Set.range besselZero = {x | 0 < x ∧ besselJ0 x = 0} := by
    ext x
    constructor
    · rintro ⟨i, rfl⟩
      exact besselZero_pos_zero i
    · rintro ⟨h1, h2⟩
      exact exists_besselZero h1 h2
  refine ⟨⟨besselZero, besselJ0, besselJ1⟩, ⟨rfl, rfl, besselZero_strictMono, hr⟩, ?_⟩
  rintro ⟨z, j0, j1⟩ ⟨h1, h2, h3, h4⟩
  simp only at h1 h2 h3 h4
  subst h1 h2
  rw [(StrictMono.range_inj h3 besselZero_strictMono).1 (h4.trans hr.symm)]

/-- **C86.** The functions `J₀` and `J₁` are what they should be: `J₀(0) = 1`, `J₀' = - J₁`, `(x J₁)' = x J₀` (Bessel's equation). -/
theorem C86_equation : besselJ0 0 = 1 ∧ (∀ x, HasDerivAt besselJ0 (- besselJ1 x) x) ∧ ∀ x, HasDerivAt (fun x => x * besselJ1 x) (x * besselJ0 x) x := by
  refine ⟨besselJ0_zero, hasDerivAt_besselJ0, fun x => ?_⟩
  refine ((hasDerivAt_id x).mul (hasDerivAt_besselJ1 x)).congr_deriv ?_
  rw [← bessel_equation x]
  simp only [id]
  ring

/-- **C86.** No division by zero, and the errors of C85 apply. -/
theorem C86_regular (hB : B.IsTrue) : B.Regular where
  pos i := (hB.zero_spec i).1
  simple i := by rw [hB.j1]; exact hB.simple i
  lip0 x y := by rw [hB.j0]; exact besselJ0_lipschitz x y
  lip1 x y := by rw [hB.j1]; exact besselJ1_lipschitz x y

/-- The zeros are consecutive. -/
theorem Bessel.IsTrue.gap (hB : B.IsTrue) (i : ℕ) : B.zero (i + 1) < B.zero i + π := by
  obtain ⟨z, hz, h0⟩ := exists_besselJ0_zero (hB.zero_spec i).1
  have hmem : z ∈ Set.range B.zero := by rw [hB.range]; exact ⟨(hB.zero_spec i).1.trans hz.1, h0⟩
  obtain ⟨k, rfl⟩ := hmem
  have : i < k := hB.mono.lt_iff_lt.1 hz.1
  exact (hB.mono.monotone (Nat.succ_le_of_lt this)).trans_lt hz.2

/-- **C86.** The grids: `kr` lists in increasing order all positive `k` below `j_N / rmax` for which `J₀(k r)` vanishes at `rmax`, with gaps less than
`π / rmax`; `r` increases inside `(0, rmax)` with gaps less than `π rmax / j_N`. -/
theorem C86_grid (hB : B.IsTrue) (h : HankelObj.new B n rmax = .ok o) :
    o.kr.Pairwise (· < ·) ∧ (∀ k, k ∈ o.kr ↔ 0 < k ∧ k < o.jN / rmax ∧ besselJ0 (k * rmax) = 0) ∧ o.kr.IsChain (fun k l => l < k + π / rmax) ∧
    o.r.Pairwise (· < ·) ∧ (∀ x ∈ o.r, 0 < x ∧ x < rmax) ∧ o.r.IsChain (fun x y => y < x + π * rmax / o.jN) ∧ 0 < o.jN ∧ besselJ0 o.jN = 0 := by
  have hg := C49_grid B h hB.mono (hB.zero_spec 0).1
  obtain ⟨-, hR, rfl⟩ := eq_ideal B h
  have hN := (hB.zero_spec n).1
  refine ⟨?_, fun k => ?_, ?_, hg.2.2.1, hg.2.2.2.1, ?_, hB.zero_spec n⟩
  · simp only [hankelIdeal, List.pairwise_ofFn]
    exact fun i j hij => div_lt_div_of_pos_right (hB.mono hij) hR
  · simp only [hankelIdeal, List.mem_ofFn]
    constructor
    · rintro ⟨i, rfl⟩
      have h1 := hB.zero_spec i
      refine ⟨div_pos h1.1 hR, div_lt_div_of_pos_right (hB.mono i.2) hR, ?_⟩
      rw [div_mul_cancel₀ _ hR.ne']
      exact h1.2
    · rintro ⟨h1, h2, h3⟩
      have hmem : k * rmax ∈ Set.range B.zero := by rw [hB.range]; exact ⟨mul_pos h1 hR, h3⟩
      obtain ⟨i, hi⟩ := hmem
      have hin : i < n := by
        rw [lt_div_iff₀ hR, ← hi] at h2
        exact hB.mono.lt_iff_lt.1 h2
      exact ⟨⟨i, hin⟩, by simp only; rw [hi, mul_div_cancel_right₀ _ hR.ne']⟩
  · rw [List.isChain_iff_getElem]
    intro i hi
    simp only [hankelIdeal, List.getElem_ofFn]
    rw [← add_div]
    exact div_lt_div_of_pos_right (hB.gap i) hR
  · rw [List.isChain_iff_getElem]
    intro i hi
    simp only [hankelIdeal, List.getElem_ofFn, hankelR]
    rw [← add_div, ← add_mul]
    exact div_lt_div_of_pos_right (mul_lt_mul_of_pos_right (hB.gap i) hR) hN

/-- The matrix times `J₁²`. -/
theorem hankelY_mul (hB : B.IsTrue) (i k : Fin n) :
    hankelY B n i k * (B.zero n / 2 * besselJ1 (B.zero k) ^ 2) = besselJ0 (B.zero i * B.zero k / B.zero n) := by
  have h1 := (hB.zero_spec n).1.ne'
  have h2 := hB.simple k
  rw [hankelY, hB.j0, hB.j1]
  field_simp

/-- The Hankel transform of a sum of modes that vanish at the radius `R`. -/
theorem hankelIntegral_modes (hB : B.IsTrue) {R : ℝ} (hR : R ≠ 0) (c : Fin n → ℝ) (i : Fin n) :
    hankelIntegral R (fun r => ∑ m : Fin n, c m * besselJ0 (B.zero m / R * r)) (B.zero i / R) = c i * (R ^ 2 / 2 * besselJ1 (B.zero i) ^ 2) := by
  rw [hankelIntegral_sum R _ c fun m => continuous_j0_mul _, Finset.sum_eq_single i]
  · rw [hankelIntegral_mode hR (hB.zero_spec i).1 (hB.zero_spec i).1 (hB.zero_spec i).2 (hB.zero_spec i).2, if_pos rfl]
  · intro m _ hm
    rw [hankelIntegral_mode hR (hB.zero_spec m).1 (hB.zero_spec i).1 (hB.zero_spec m).2 (hB.zero_spec i).2,
      if_neg fun h => hm (Fin.ext (hB.mono.injective h)), mul_zero]
  · intro hi
    exact absurd (Finset.mem_univ i) hi

/-- **C86.** `iht` is exact for the functions `f(r) = ∑ c_m J₀(k_m r)` on the disk: from the values of the Hankel transform
`∫ f(r) J₀(k r) r dr` at the frequencies `kr` it returns the values of `f` at the points `r`. -/
theorem C86_iht_exact (hB : B.IsTrue) (h : HankelObj.new B n rmax = .ok o) (c : Fin n → ℝ) (f : ℝ → ℝ)
    (hf : ∀ r, f r = ∑ m : Fin n, c m * besselJ0 (o.kr.getD m 0 * r)) :
    o.iht (o.kr.map fun k => (hankelIntegral rmax f k : ℂ)) = .ok (o.r.map fun r => (f r : ℂ)) := by
  have hi := C49_iht B h
  obtain ⟨-, hR, rfl⟩ := eq_ideal B h
  have hN := (hB.zero_spec n).1
  have hkr : ∀ m : Fin n, (hankelIdeal B n rmax).kr.getD m 0 = B.zero m / rmax := fun m => by
    simp [hankelIdeal, List.getD_eq_getElem?_getD]
  have hf' : f = fun r => ∑ m : Fin n, c m * besselJ0 (B.zero m / rmax * r) := funext fun r => by simp only [hf, hkr]
  subst hf'
  simp only [hankelIdeal, List.map_ofFn] at hi ⊢
  rw [hi]
  congr 2
  funext i
  simp only [Function.comp, hankelIntegral_modes hB hR.ne', hankelR]
  rw [Complex.ofReal_sum, Finset.sum_div]
  refine Finset.sum_congr rfl fun k _ => ?_
  have e := hankelY_mul hB i k
  have e2 : B.zero k / rmax * (B.zero i * rmax / B.zero n) = B.zero i * B.zero k / B.zero n := by field_simp
  rw [e2, ← e]
  push_cast
  have h1 : (B.zero n : ℂ) ≠ 0 := Complex.ofReal_ne_zero.2 hN.ne'
  have h2 : (rmax : ℂ) ≠ 0 := Complex.ofReal_ne_zero.2 hR.ne'
  field_simp

/-- **C86.** `ht` is exact for functions whose spectrum is `G(k) = ∑ c_m J₀(r_m k)` for `k < j_N / rmax` and `0` beyond: from the values of
`f(r) = ∫ G(k) J₀(k r) k dk` at the points `r` it returns the values of `G` at the frequencies `kr`. -/
theorem C86_ht_exact (hB : B.IsTrue) (h : HankelObj.new B n rmax = .ok o) (c : Fin n → ℝ) (G : ℝ → ℝ)
    (hG : ∀ k, G k = ∑ m : Fin n, c m * besselJ0 (o.r.getD m 0 * k)) :
    o.ht (o.r.map fun r => (hankelIntegral (o.jN / rmax) G r : ℂ)) = .ok (o.kr.map fun k => (G k : ℂ)) := by
  have hi := C49_ht B h
  obtain ⟨-, hR, rfl⟩ := eq_ideal B h
  have hN := (hB.zero_spec n).1
  have hK : B.zero n / rmax ≠ 0 := (div_pos hN hR).ne'
  have hr : ∀ m : Fin n, hankelR B n rmax m = B.zero m / (B.zero n / rmax) := fun m => by
    rw [hankelR]
    field_simp
  have hkr : ∀ m : Fin n, (hankelIdeal B n rmax).r.getD m 0 = B.zero m / (B.zero n / rmax) := fun m => by
    rw [← hr]
    simp [hankelIdeal, List.getD_eq_getElem?_getD]
  have hf' : G = fun r => ∑ m : Fin n, c m * besselJ0 (B.zero m / (B.zero n / rmax) * r) := funext fun r => by simp only [hG, hkr]
  subst hf'
  simp only [hankelIdeal, List.map_ofFn] at hi ⊢
  rw [hi]
  congr 2
  funext i
  simp only [Function.comp, hr, hankelIntegral_modes hB hK]
  rw [Complex.ofReal_sum, Finset.mul_sum]
  refine Finset.sum_congr rfl fun k _ => ?_
  have e := hankelY_mul hB i k
  have e2 : B.zero k / (B.zero n / rmax) * (B.zero i / rmax) = B.zero i * B.zero k / B.zero n := by field_simp
  rw [e2, ← e]
  push_cast
  have h1 : (B.zero n : ℂ) ≠ 0 := Complex.ofReal_ne_zero.2 hN.ne'
  have h2 : (rmax : ℂ) ≠ 0 := Complex.ofReal_ne_zero.2 hR.ne'
  field_simp

/-- **C86.** Every array is of the form that `ht` and `iht` treat exactly, with unique coefficients: the last two theorems say what `ht` and `iht` return for
all real arrays. -/
theorem C86_every_array (hB : B.IsTrue) (h : HankelObj.new B n rmax = .ok o) (v : Fin n → ℝ) :
    (∃! c : Fin n → ℝ, o.r.map (hankelIntegral (o.jN / rmax) fun k => ∑ m : Fin n, c m * besselJ0 (o.r.getD m 0 * k)) = List.ofFn v) ∧
    ∃! c : Fin n → ℝ, o.kr.map (hankelIntegral rmax fun r => ∑ m : Fin n, c m * besselJ0 (o.kr.getD m 0 * r)) = List.ofFn v := by
  obtain ⟨-, hR, rfl⟩ := eq_ideal B h
  have hN := (hB.zero_spec n).1
  have hK : B.zero n / rmax ≠ 0 := (div_pos hN hR).ne'
  have hr : ∀ m : Fin n, hankelR B n rmax m = B.zero m / (B.zero n / rmax) := fun m => by
    rw [hankelR]
    field_simp
  have hr' : ∀ m : Fin n, (hankelIdeal B n rmax).r.getD m 0 = B.zero m / (B.zero n / rmax) := fun m => by
    rw [← hr]
    simp [hankelIdeal, List.getD_eq_getElem?_getD]
  have hkr : ∀ m : Fin n, (hankelIdeal B n rmax).kr.getD m 0 = B.zero m / rmax := fun m => by
    simp [hankelIdeal, List.getD_eq_getElem?_getD]
  simp only [hr', hkr]
  simp only [hankelIdeal, List.map_ofFn, List.ofFn_inj, Function.comp_def, hr, hankelIntegral_modes hB hK, hankelIntegral_modes hB hR.ne']
  have key : ∀ w : Fin n → ℝ, (∀ i, w i ≠ 0) → ∃! c : Fin n → ℝ, (fun i => c i * w i) = v := fun w hw =>
    ⟨fun i => v i / w i, funext fun i => div_mul_cancel₀ _ (hw i), fun c hc => funext fun i => by rw [← hc, mul_div_cancel_right₀ _ (hw i)]⟩
  exact ⟨key _ fun i => mul_ne_zero (div_ne_zero (pow_ne_zero 2 hK) two_ne_zero) (pow_ne_zero 2 (hB.simple i)),
    key _ fun i => mul_ne_zero (div_ne_zero (pow_ne_zero 2 hR.ne') two_ne_zero) (pow_ne_zero 2 (hB.simple i))⟩

/-- **C86.** `ht` of the functions `∑ c_m J₀(k_m r)` on the disk: the Hankel transform at the frequencies `kr`, up to an error by `Y² - 1`, that is
by the failure of `iht` to invert `ht` (`C49_inverse_iff`). -/
theorem C86_ht_defect (hB : B.IsTrue) (h : HankelObj.new B n rmax = .ok o) (c : Fin n → ℝ) (f : ℝ → ℝ)
    (hf : ∀ r, f r = ∑ m : Fin n, c m * besselJ0 (o.kr.getD m 0 * r)) :
    o.ht (o.r.map fun r => (f r : ℂ)) = .ok (List.ofFn fun i : Fin n => ((hankelIntegral rmax f (o.kr.getD i 0) +
      ∑ m, (hankelY B n * hankelY B n - 1) i m * hankelIntegral rmax f (o.kr.getD m 0) : ℝ) : ℂ)) := by
  have hi := C49_ht B h
  obtain ⟨-, hR, rfl⟩ := eq_ideal B h
  have hN := (hB.zero_spec n).1
  have hkr : ∀ m : Fin n, (hankelIdeal B n rmax).kr.getD m 0 = B.zero m / rmax := fun m => by
    simp [hankelIdeal, List.getD_eq_getElem?_getD]
  have hf' : f = fun r => ∑ m : Fin n, c m * besselJ0 (B.zero m / rmax * r) := funext fun r => by simp only [hf, hkr]
  subst hf'
  simp only [hkr]
  simp only [hankelIdeal, List.map_ofFn, hankelIntegral_modes hB hR.ne'] at hi ⊢
  rw [hi]
  congr 2
  funext i
  have e1 : ∀ k : Fin n, ∑ m : Fin n, c m * besselJ0 (B.zero m / rmax * hankelR B n rmax k) =
      ∑ m : Fin n, hankelY B n k m * (c m * (B.zero n / 2 * besselJ1 (B.zero m) ^ 2)) := fun k => Finset.sum_congr rfl fun m _ => by
    have e2 : B.zero m / rmax * hankelR B n rmax k = B.zero k * B.zero m / B.zero n := by rw [hankelR]; field_simp
    rw [e2, ← hankelY_mul hB k m]
    ring
  have e3 : ∀ w : Fin n → ℝ, w i + ∑ m, (hankelY B n * hankelY B n - 1) i m * w m = ∑ k, hankelY B n i k * ∑ m, hankelY B n k m * w m := fun w => by
    have h1 : ∑ m, (hankelY B n * hankelY B n - 1) i m * w m = ((hankelY B n * hankelY B n - 1).mulVec w) i := rfl
    have h2 : ∑ k, hankelY B n i k * ∑ m, hankelY B n k m * w m = ((hankelY B n).mulVec ((hankelY B n).mulVec w)) i := rfl
    rw [h1, h2, Matrix.sub_mulVec, Matrix.one_mulVec, Matrix.mulVec_mulVec]
    simp
  rw [e3 fun m => c m * (rmax ^ 2 / 2 * besselJ1 (B.zero m) ^ 2)]
  have e4 : ∀ k : Fin n, ∑ m : Fin n, hankelY B n k m * (c m * (rmax ^ 2 / 2 * besselJ1 (B.zero m) ^ 2)) =
      rmax ^ 2 / B.zero n * ∑ m : Fin n, hankelY B n k m * (c m * (B.zero n / 2 * besselJ1 (B.zero m) ^ 2)) := fun k => by
    rw [Finset.mul_sum]
    refine Finset.sum_congr rfl fun m _ => ?_
    field_simp
  simp only [e4, Function.comp, e1]
  push_cast
  rw [Finset.mul_sum]
  exact Finset.sum_congr rfl fun k _ => by ring

/-- **C86.** In floating point, with computed Bessel functions: `iht` of computed values of the Hankel transform of `f(r) = ∑ c_m J₀(k_m r)` is within a
constant times the unit roundoff of `f` at the points, uniformly for coefficients of size at most `b`. -/
theorem C86_iht_float (hB : B.IsTrue) (h : HankelObj.new B n rmax = .ok o) (b e : ℝ) :
    ∃ K δ : ℝ, 0 ≤ K ∧ 0 < δ ∧ ∀ (rnd : ℝ → ℝ) (sum : List ℝ → ℝ) (dot : List (ℝ × ℝ) → ℝ) (ρ : ℝ), RoundsTo rnd sum dot ρ → ρ ≤ δ →
      ∀ B' : Bessel, B'.Near B ρ → ∀ (c : Fin n → ℝ) (f : ℝ → ℝ), (∀ m, |c m| ≤ b) →
        (∀ r, f r = ∑ m : Fin n, c m * besselJ0 (o.kr.getD m 0 * r)) →
        ∀ g : Fin n → ℝ, (∀ i : Fin n, |g i - hankelIntegral rmax f (o.kr.getD i 0)| ≤ e * ρ) →
        ∃ (o' : HankelObj) (z : Fin n → ℝ), HankelObj.flNew rnd B' n rmax = .ok o' ∧ o'.flIht rnd dot (List.ofFn g) = .ok (List.ofFn z) ∧
          ∀ i : Fin n, |z i - f (o.r.getD i 0)| ≤ K * ρ := by
  obtain ⟨K, δ, hK, hδ, H⟩ := C85_transform (C86_regular hB) h (b * (rmax ^ 2 / 2)) e
  refine ⟨K, δ, hK, hδ, fun rnd sum dot ρ hRd hρ B' hB' c f hc hf g hg => ?_⟩
  have hx := C86_iht_exact hB h c f hf
  obtain ⟨-, hR, rfl⟩ := eq_ideal B h
  have hkr : ∀ m : Fin n, (hankelIdeal B n rmax).kr.getD m 0 = B.zero m / rmax := fun m => by
    simp [hankelIdeal, List.getD_eq_getElem?_getD]
  have hr : ∀ m : Fin n, (hankelIdeal B n rmax).r.getD m 0 = hankelR B n rmax m := fun m => by
    simp [hankelIdeal, List.getD_eq_getElem?_getD]
  have hf' : f = fun r => ∑ m : Fin n, c m * besselJ0 (B.zero m / rmax * r) := funext fun r => by simp only [hf, hkr]
  obtain ⟨o', _, _, z, z', e1, -, -, e2, e3, e4⟩ := H rnd sum dot ρ hRd hρ B' hB' (fun i => hankelIntegral rmax f (B.zero i / rmax)) g
    (fun i => by
      rw [hf', hankelIntegral_modes hB hR.ne', abs_mul]
      refine mul_le_mul (hc i) ?_ (abs_nonneg _) ((abs_nonneg _).trans (hc i))
      rw [abs_of_nonneg (by positivity)]
      refine mul_le_of_le_one_right (by positivity) ?_
      rw [← sq_abs]
      exact pow_le_one₀ (abs_nonneg _) (abs_besselJ1_le _))
    (fun i => by have := hg i; rwa [hkr] at this)
  refine ⟨o', z', e1, e3, fun i => ?_⟩
  have e5 : z = fun i => f (hankelR B n rmax i) := by
    simp only [hankelIdeal, List.map_ofFn] at hx e2
    have := List.ofFn_injective (Except.ok.inj (hx.symm.trans e2))
    funext i
    exact (Complex.ofReal_injective (congrFun this i)).symm
  rw [hr]
  have := (e4 i).2
  rwa [e5] at this

/-- **C86.** In floating point, with computed Bessel functions: `ht` of computed values of `∫ G(k) J₀(k r) k dk` with `G(k) = ∑ c_m J₀(r_m k)` is
within a constant times the unit roundoff of `G` at the frequencies. -/
theorem C86_ht_float (hB : B.IsTrue) (h : HankelObj.new B n rmax = .ok o) (b e : ℝ) :
    ∃ K δ : ℝ, 0 ≤ K ∧ 0 < δ ∧ ∀ (rnd : ℝ → ℝ) (sum : List ℝ → ℝ) (dot : List (ℝ × ℝ) → ℝ) (ρ : ℝ), RoundsTo rnd sum dot ρ → ρ ≤ δ →
      ∀ B' : Bessel, B'.Near B ρ → ∀ (c : Fin n → ℝ) (G : ℝ → ℝ), (∀ m, |c m| ≤ b) →
        (∀ k, G k = ∑ m : Fin n, c m * besselJ0 (o.r.getD m 0 * k)) →
        ∀ v : Fin n → ℝ, (∀ i : Fin n, |v i - hankelIntegral (o.jN / rmax) G (o.r.getD i 0)| ≤ e * ρ) →
        ∃ (o' : HankelObj) (z : Fin n → ℝ), HankelObj.flNew rnd B' n rmax = .ok o' ∧ o'.flHt rnd dot (List.ofFn v) = .ok (List.ofFn z) ∧
          ∀ i : Fin n, |z i - G (o.kr.getD i 0)| ≤ K * ρ := by
  obtain ⟨K, δ, hK, hδ, H⟩ := C85_transform (C86_regular hB) h (b * ((o.jN / rmax) ^ 2 / 2)) e
  refine ⟨K, δ, hK, hδ, fun rnd sum dot ρ hRd hρ B' hB' c G hc hG g hg => ?_⟩
  have hx := C86_ht_exact hB h c G hG
  obtain ⟨-, hR, rfl⟩ := eq_ideal B h
  have hN := (hB.zero_spec n).1
  have hK0 : B.zero n / rmax ≠ 0 := (div_pos hN hR).ne'
  have hkr : ∀ m : Fin n, (hankelIdeal B n rmax).kr.getD m 0 = B.zero m / rmax := fun m => by
    simp [hankelIdeal, List.getD_eq_getElem?_getD]
  have hr : ∀ m : Fin n, hankelR B n rmax m = B.zero m / (B.zero n / rmax) := fun m => by
    rw [hankelR]
    field_simp
  have hr' : ∀ m : Fin n, (hankelIdeal B n rmax).r.getD m 0 = B.zero m / (B.zero n / rmax) := fun m => by
    rw [← hr]
    simp [hankelIdeal, List.getD_eq_getElem?_getD]
  have hf' : G = fun k => ∑ m : Fin n, c m * besselJ0 (B.zero m / (B.zero n / rmax) * k) := funext fun r => by simp only [hG, hr']
  obtain ⟨o', z, z', _, _, e1, e2, e3, -, -, e4⟩ := H rnd sum dot ρ hRd hρ B' hB'
    (fun i => hankelIntegral (B.zero n / rmax) G (B.zero i / (B.zero n / rmax))) g
    (fun i => by
      rw [hf', hankelIntegral_modes hB hK0, abs_mul]
      refine mul_le_mul (hc i) ?_ (abs_nonneg _) ((abs_nonneg _).trans (hc i))
      rw [abs_of_nonneg (by positivity)]
      refine mul_le_of_le_one_right (by positivity) ?_
      rw [← sq_abs]
      exact pow_le_one₀ (abs_nonneg _) (abs_besselJ1_le _))
    (fun i => by have := hg i; rwa [hr'] at this)
  refine ⟨o', z', e1, e3, fun i => ?_⟩
  have e5 : z = fun i : Fin n => G (B.zero i / rmax) := by
    simp only [hankelIdeal, List.map_ofFn, Function.comp_def, hr] at hx e2
    have := List.ofFn_injective (Except.ok.inj (hx.symm.trans e2))
    funext i
    exact (Complex.ofReal_injective (congrFun this i)).symm
  rw [hkr]
  have := (e4 i).1
  rwa [e5] at this

/-! ### Cases -/

/-- The true functions. -/
theorem exists_hankel {n : ℕ} (hn : 4 ≤ n) {rmax : ℝ} (hR : 0 < rmax) :
    ∃ (B : Bessel) (o : HankelObj), B.IsTrue ∧ HankelObj.new B n rmax = .ok o ∧ o = hankelIdeal B n rmax := by
  obtain ⟨B, hB, -⟩ := C86_exists
  exact ⟨B, _, hB, by simpa using (C48_new B n rmax).2 (by omega) hR, rfl⟩

/-- Four points on the disk of radius `2`: the grid, and the transform of the first mode, whose values at the other three frequencies are zero. -/
example : ∃ (B : Bessel) (o : HankelObj), B.IsTrue ∧ HankelObj.new B (4 : ℕ) 2 = .ok o ∧ o.kr.Pairwise (· < ·) ∧ (∀ x ∈ o.r, x < 2) ∧
    (∀ k ∈ o.kr, besselJ0 (k * 2) = 0) ∧ besselJ1 o.jN ≠ 0 ∧ o.iht (o.kr.map fun k => (hankelIntegral 2 (fun r => besselJ0 (o.kr.getD 0 0 * r)) k : ℂ)) =
      .ok (o.r.map fun r => (besselJ0 (o.kr.getD 0 0 * r) : ℂ)) ∧
    hankelIntegral 2 (fun r => besselJ0 (B.zero 0 / 2 * r)) (B.zero 1 / 2) = 0 ∧ B.zero 3 < B.zero 2 + π := by
  obtain ⟨B, o, hB, h, rfl⟩ := exists_hankel (n := 4) le_rfl (two_pos (α := ℝ))
  have hg := C86_grid hB h
  refine ⟨B, _, hB, h, hg.1, fun x hx => (hg.2.2.2.2.1 x hx).2, fun k hk => ((hg.2.1 k).1 hk).2.2, hB.simple 4, ?_, ?_, hB.gap 2⟩
  · exact C86_iht_exact hB h ![1, 0, 0, 0] _ fun r => by simp [Fin.sum_univ_four]
  · rw [hankelIntegral_mode two_ne_zero (hB.zero_spec 0).1 (hB.zero_spec 1).1 (hB.zero_spec 0).2 (hB.zero_spec 1).2,
      if_neg (hB.mono (by norm_num : 0 < 1)).ne]

/-- `ht` of a function with the spectrum `J₀(r₁ k) - 3 J₀(r₃ k)`. -/
example : ∃ (B : Bessel) (o : HankelObj), B.IsTrue ∧ HankelObj.new B (4 : ℕ) 2 = .ok o ∧
    o.ht (o.r.map fun r => (hankelIntegral (o.jN / 2) (fun k => besselJ0 (o.r.getD 1 0 * k) - 3 * besselJ0 (o.r.getD 3 0 * k)) r : ℂ)) =
      .ok (o.kr.map fun k => ((besselJ0 (o.r.getD 1 0 * k) - 3 * besselJ0 (o.r.getD 3 0 * k) : ℝ) : ℂ)) ∧
    ∃ c : Fin 4 → ℝ, o.r.map (hankelIntegral (o.jN / 2) fun k => ∑ m : Fin 4, c m * besselJ0 (o.r.getD m 0 * k)) = [1, 2, 3, 4] := by
  obtain ⟨B, o, hB, h, rfl⟩ := exists_hankel (n := 4) le_rfl (two_pos (α := ℝ))
  refine ⟨B, _, hB, h, C86_ht_exact hB h ![0, 1, 0, -3] _ fun k => by simp [Fin.sum_univ_four]; ring, ?_⟩
  obtain ⟨c, hc, -⟩ := (C86_every_array hB h ![1, 2, 3, 4]).1
  exact ⟨c, by simpa using hc⟩

/-- `ht` of the second mode. -/
example : ∃ (B : Bessel) (o : HankelObj) (w : Fin 4 → ℂ), B.IsTrue ∧ HankelObj.new B (4 : ℕ) 2 = .ok o ∧
    o.ht (o.r.map fun r => (besselJ0 (o.kr.getD 1 0 * r) : ℂ)) = .ok (List.ofFn w) ∧
    w 0 = ((hankelY B 4 * hankelY B 4 - 1) 0 1 * (2 * besselJ1 (B.zero 1) ^ 2) : ℝ) := by
  obtain ⟨B, o, hB, h, rfl⟩ := exists_hankel (n := 4) le_rfl (two_pos (α := ℝ))
  refine ⟨B, _, _, hB, h, C86_ht_defect hB h ![0, 1, 0, 0] _ fun r => by simp [Fin.sum_univ_four], ?_⟩
  have hkr : ∀ m : Fin 4, (hankelIdeal B 4 2).kr.getD m 0 = B.zero m / 2 := fun m => by
    fin_cases m <;> simp [hankelIdeal]
  have hm := fun i : Fin 4 => hankelIntegral_modes hB (two_ne_zero (α := ℝ)) ![0, 1, 0, 0] i
  simp only [Fin.sum_univ_four, Matrix.cons_val, zero_mul, one_mul, zero_add, add_zero, Fin.val_zero, Fin.val_one] at hm
  have h1 := hkr 1
  simp only [Fin.val_one] at h1
  simp only [hkr, h1, hm, Fin.sum_univ_four, Matrix.cons_val, zero_mul, one_mul, mul_zero, zero_add, add_zero, Fin.val_one]
  norm_num

/-- In floating point, from computed Bessel functions with errors of `ρ` and computed values of the integrals. -/
example : ∃ (B : Bessel) (o : HankelObj), B.IsTrue ∧ HankelObj.new B (4 : ℕ) 2 = .ok o ∧ ∃ K δ : ℝ, 0 < δ ∧ ∀ ρ, 0 < ρ → ρ ≤ δ →
    ∃ (o' : HankelObj) (z z' : Fin 4 → ℝ), HankelObj.flNew (tooLarge ρ) ⟨fun i => B.zero i * (1 + ρ), fun x => besselJ0 x + ρ, fun x => besselJ1 x - ρ⟩ 4 2 = .ok o' ∧
      o'.flIht (tooLarge ρ) (roundedDot (tooLarge ρ) (realSum (seqSum (tooLarge ρ))))
        (List.ofFn fun i : Fin 4 => hankelIntegral 2 (fun r => besselJ0 (o.kr.getD 0 0 * r)) (o.kr.getD i 0) + ρ) = .ok (List.ofFn z) ∧
      o'.flHt (tooLarge ρ) (roundedDot (tooLarge ρ) (realSum (seqSum (tooLarge ρ))))
        (List.ofFn fun i : Fin 4 => hankelIntegral (o.jN / 2) (fun k => besselJ0 (o.r.getD 0 0 * k)) (o.r.getD i 0) + ρ) = .ok (List.ofFn z') ∧
      ∀ i : Fin 4, |z i - besselJ0 (o.kr.getD 0 0 * o.r.getD i 0)| ≤ K * ρ ∧ |z' i - besselJ0 (o.r.getD 0 0 * o.kr.getD i 0)| ≤ K * ρ := by
  obtain ⟨B, o, hB, h, rfl⟩ := exists_hankel (n := 4) le_rfl (two_pos (α := ℝ))
  obtain ⟨K1, δ1, p1, q1, H1⟩ := C86_iht_float hB h 1 1
  obtain ⟨K2, δ2, p2, q2, H2⟩ := C86_ht_float hB h 1 1
  refine ⟨B, _, hB, h, K1 + K2, min δ1 δ2, by positivity, fun ρ hρ hle => ?_⟩
  have hnear : Bessel.Near ⟨fun i => B.zero i * (1 + ρ), fun x => besselJ0 x + ρ, fun x => besselJ1 x - ρ⟩ B ρ :=
    ⟨fun i => by simp only; rw [mul_add, mul_one, add_sub_cancel_left, abs_mul, abs_of_pos hρ, mul_comm],
      fun x => by simp [hB.j0, abs_of_pos hρ], fun x => by simp [hB.j1, abs_of_pos hρ]⟩
  have hc : ∀ m : Fin 4, |(![1, 0, 0, 0] m : ℝ)| ≤ 1 := fun m => by fin_cases m <;> simp
  obtain ⟨o1, z, a1, a2, a3⟩ := H1 _ _ _ ρ (tooLarge_rounds hρ) (hle.trans (min_le_left _ _)) _ hnear ![1, 0, 0, 0]
    (fun r => besselJ0 ((hankelIdeal B 4 2).kr.getD 0 0 * r)) hc (fun r => by simp [Fin.sum_univ_four]) _
    (fun i => by rw [add_sub_cancel_left, abs_of_pos hρ, one_mul])
  obtain ⟨o2, z', b1, b2, b3⟩ := H2 _ _ _ ρ (tooLarge_rounds hρ) (hle.trans (min_le_right _ _)) _ hnear ![1, 0, 0, 0]
    (fun k => besselJ0 ((hankelIdeal B 4 2).r.getD 0 0 * k)) hc (fun r => by simp [Fin.sum_univ_four]) _
    (fun i => by rw [add_sub_cancel_left, abs_of_pos hρ, one_mul])
  obtain rfl : o1 = o2 := Except.ok.inj (a1.symm.trans b1)
  exact ⟨o1, z, z', a1, a2, b2, fun i => ⟨(a3 i).trans (mul_le_mul_of_nonneg_right (by linarith) hρ.le),
    (b3 i).trans (mul_le_mul_of_nonneg_right (by linarith) hρ.le)⟩⟩

end Verif
