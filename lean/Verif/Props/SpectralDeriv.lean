import Verif.Lemmas.Spectral
import Verif.Props.PeriodicGrid
import Mathlib.Order.Interval.Finset.Nat
import Mathlib.Data.Int.Interval
import Mathlib.Data.List.GetD

/-!
# C45, C46: spectral differentiation on the periodic grids
-/

set_option linter.unusedSectionVars false

namespace Verif

open Finset

/-- The trigonometric polynomial with modes `-M, …, M - 1` and period `b - a`. -/
noncomputable def trigPoly (M : ℕ) (a b : ℝ) (c : ℤ → ℂ) (x : ℝ) : ℂ :=
  ∑ k ∈ Ico (-(M : ℤ)) M, c k * Complex.exp (2 * Real.pi * Complex.I * k / (b - a) * (x - a))

/-- The real trigonometric polynomial of degree `M` and period `b - a` without the mode `sin (M ·)`. -/
noncomputable def realTrigPoly (M : ℕ) (a b : ℝ) (α β : ℕ → ℝ) (γ x : ℝ) : ℝ :=
  ∑ m ∈ range M, (α m * Real.cos (2 * Real.pi * m / (b - a) * (x - a)) + β m * Real.sin (2 * Real.pi * m / (b - a) * (x - a))) +
    γ * Real.cos (2 * Real.pi * M / (b - a) * (x - a))

theorem constructXKxFft_ok {N : PyVal ℝ} {a b : ℝ} {x kx : List ℝ} (h : constructXKxFft id N a b = .ok (x, kx)) :
    ∃ M : ℕ, M ≠ 0 ∧ N = .int (2 * M) ∧ a ≠ b ∧ x = gridPoints (2 * M) a b ∧ kx = (List.range (2 * M)).map fun m : ℕ =>
      2 * Real.pi * (if m < M then (m : ℝ) else (m : ℝ) - (2 * M : ℕ)) / (b - a) := by
  cases hc : checkGridSize N with
  | error e => simp [constructXKxFft, hc, bind, Except.bind] at h
  | ok n =>
    obtain ⟨k, rfl, rfl⟩ := checkGridSize_ok.1 hc
    have hab : a ≠ b := by
      rintro rfl
      rw [(C42_empty_interval k a).2] at h
      cases h
    rw [C42_fft k hab] at h
    simp only [Except.ok.injEq, Prod.mk.injEq] at h
    exact ⟨k + 2, by omega, by push_cast; rfl, hab, h.1.symm, h.2.symm⟩

theorem constructXKxRfft_ok {N : PyVal ℝ} {a b : ℝ} {x kx : List ℝ} (h : constructXKxRfft id N a b = .ok (x, kx)) :
    ∃ M : ℕ, M ≠ 0 ∧ N = .int (2 * M) ∧ a ≠ b ∧ x = gridPoints (2 * M) a b ∧
      kx = (List.range (M + 1)).map fun m : ℕ => 2 * Real.pi * (m : ℝ) / (b - a) := by
  cases hc : checkGridSize N with
  | error e => simp [constructXKxRfft, hc, bind, Except.bind] at h
  | ok n =>
    obtain ⟨k, rfl, rfl⟩ := checkGridSize_ok.1 hc
    have hab : a ≠ b := by
      rintro rfl
      rw [(C42_empty_interval k a).1] at h
      cases h
    rw [C42_rfft k hab] at h
    simp only [Except.ok.injEq, Prod.mk.injEq] at h
    exact ⟨k + 2, by omega, by push_cast; rfl, hab, h.1.symm, h.2.symm⟩

theorem gridPoints_length (n : ℕ) (a b : ℝ) : (gridPoints n a b).length = n := by simp [gridPoints]

theorem gridPoints_getD {n j : ℕ} (hj : j < n) (a b d : ℝ) : (gridPoints n a b).getD j d = a + j * (b - a) / n := by
  rw [gridPoints, List.getD_eq_getElem _ _ (by simpa using hj)]
  simp

theorem ofList_get {α : Type} [Inhabited α] (l : List α) (j : ℕ) : (NdArr.ofList l).get [j] = l.getD j default := rfl

theorem map_gridPoints_getD {α : Type} {n j : ℕ} (hj : j < n) (a b : ℝ) (f : ℝ → α) (d : α) :
    ((gridPoints n a b).map f).getD j d = f (a + j * (b - a) / n) := by
  rw [List.getD_eq_getElem _ _ (by simpa [gridPoints] using hj)]
  simp [gridPoints]

theorem map_range_getD {α : Type} {n j : ℕ} (hj : j < n) (f : ℕ → α) (d : α) : ((List.range n).map f).getD j d = f j := by
  rw [List.getD_eq_getElem _ _ (by simpa using hj)]
  simp

/-- The mode with index `m` of a spectrum of length `2 M`. -/
def signedMode (M m : ℕ) : ℤ := if m < M then (m : ℤ) else (m : ℤ) - (2 * M : ℕ)

theorem sum_signedMode (M : ℕ) (F : ℤ → ℂ) : ∑ k ∈ Ico (-(M : ℤ)) M, F k = ∑ m ∈ range (2 * M), F (signedMode M m) := by
  symm
  refine sum_bij' (fun m _ => signedMode M m) (fun k _ => if 0 ≤ k then k.toNat else (k + (2 * M : ℕ)).toNat) ?_ ?_ ?_ ?_ ?_
  · intro m hm
    simp only [mem_range, mem_Ico, signedMode] at *
    split_ifs <;> omega
  · intro k hk
    simp only [mem_range, mem_Ico] at *
    split_ifs <;> omega
  · intro m hm
    simp only [mem_range, signedMode] at *
    split_ifs <;> omega
  · intro k hk
    simp only [mem_Ico, signedMode] at *
    split_ifs <;> omega
  · intro m hm; rfl

/-- An exponential of the grid at a grid point. -/
theorem exp_grid {N : ℕ} {a b : ℝ} (hab : a ≠ b) (k : ℤ) (j : ℕ) :
    Complex.exp (2 * Real.pi * Complex.I * k / (b - a) * (((a + j * (b - a) / N : ℝ) : ℂ) - a)) = rootPow N (j * k) := by
  rw [rootPow]
  congr 1
  have : (b : ℂ) - a ≠ 0 := by
    rw [sub_ne_zero]; exact_mod_cast hab.symm
  push_cast
  field_simp
  ring

theorem rootPow_signedMode {M : ℕ} (hM : M ≠ 0) (m j : ℕ) :
    rootPow (2 * M) ((j : ℤ) * signedMode M m) = rootPow (2 * M) ((j * m : ℕ) : ℤ) := by
  rw [signedMode]
  split_ifs
  · push_cast; rfl
  · refine rootPow_congr (by omega) ⟨-j, ?_⟩
    push_cast; ring

/-- The samples of a trigonometric polynomial are an inverse transform. -/
theorem trigPoly_samples {M : ℕ} (hM : M ≠ 0) {a b : ℝ} (hab : a ≠ b) (c : ℤ → ℂ) (j : ℕ) :
    trigPoly M a b c (a + j * (b - a) / (2 * M : ℕ)) = ifft1 (2 * M) (fun m => (2 * M : ℕ) * c (signedMode M m)) j := by
  have hN : ((2 * M : ℕ) : ℂ) ≠ 0 := Nat.cast_ne_zero.2 (by omega)
  rw [trigPoly, sum_signedMode, ifft1, eq_div_iff hN, sum_mul]
  refine sum_congr rfl fun m _ => ?_
  rw [exp_grid hab, rootPow_signedMode hM]
  ring

/-- **C45.** On the grid of `construct_x_kx_fft`, `dx_fft` of order `n` gives the exact `n`-th derivative of every
trigonometric polynomial with modes `-N/2, …, N/2 - 1` at the grid points. -/
theorem C45_exact {N : PyVal ℝ} {a b : ℝ} {x kx : List ℝ} (hg : constructXKxFft id N a b = .ok (x, kx)) (M : ℕ)
    (hM : x.length = 2 * M) (c : ℤ → ℂ) (n : ℕ) :
    ∃ v, dxFft (.ofList kx) (.cplx (.ofList (x.map (trigPoly M a b c)))) (.int n) = .ok (.cplx v) ∧ v.shape = [x.length] ∧
      ∀ j < x.length, v.get [j] = iteratedDeriv n (trigPoly M a b c) (x.getD j 0) := by
  obtain ⟨M', hM0, rfl, hab, rfl, rfl⟩ := constructXKxFft_ok hg
  rw [gridPoints_length] at hM
  obtain rfl : M' = M := by omega
  have hN : 2 * M' ≠ 0 := by omega
  have hN' : ((2 * M' : ℕ) : ℂ) ≠ 0 := Nat.cast_ne_zero.2 hN
  rw [gridPoints_length]
  obtain ⟨v, h1, h2, h3⟩ := dxFft_ok (s := []) (N := 2 * M') hN (kx := .ofList ((List.range (2 * M')).map fun m : ℕ =>
      2 * Real.pi * (if m < M' then (m : ℝ) else (m : ℝ) - (2 * M' : ℕ)) / (b - a))) (by show [List.length _] = _; simp) (u := .ofList ((gridPoints (2 * M') a b).map (trigPoly M' a b c))) (by
    show [List.length _] = _; simp [gridPoints]) n
  refine ⟨v, h1, h2, fun j hj => ?_⟩
  rw [gridPoints_getD hj]
  refine (h3 [] j hj).trans ?_
  simp only [List.nil_append, ofList_get]
  rw [fftLine_congr (kx' := fun m => 2 * Real.pi * (signedMode M' m : ℝ) / (b - a)) (fun m hm => by
      rw [map_range_getD hm, signedMode]; split_ifs <;> push_cast <;> ring)
    (u' := ifft1 (2 * M') (fun m => (2 * M' : ℕ) * c (signedMode M' m))) (fun j hj => by
      rw [map_gridPoints_getD hj, trigPoly_samples hM0 hab])]
  have hp : trigPoly M' a b c = fun x : ℝ => ∑ k ∈ Ico (-(M' : ℤ)) M',
      c k * Complex.exp (2 * Real.pi * Complex.I * k / (b - a) * ((x : ℂ) - a)) := by
    funext x; rfl
  rw [hp, iteratedDeriv_expSum]
  simp only
  rw [sum_signedMode, fftLine, ifft1, div_eq_iff hN', sum_mul]
  refine sum_congr rfl fun m hm => ?_
  rw [fft1_ifft1 _ (mem_range.1 hm), exp_grid hab, rootPow_signedMode hM0]
  push_cast
  ring

/-- **C45.** Every array of samples is that of exactly one such polynomial: so `dx_fft` differentiates the trigonometric
interpolant of its argument. -/
theorem C45_interpolant {N : PyVal ℝ} {a b : ℝ} {x kx : List ℝ} (hg : constructXKxFft id N a b = .ok (x, kx)) (M : ℕ)
    (hM : x.length = 2 * M) (u : List ℂ) (hu : u.length = x.length) :
    ∃ c, x.map (trigPoly M a b c) = u ∧
      ∀ c', x.map (trigPoly M a b c') = u → ∀ k ∈ Ico (-(M : ℤ)) M, c' k = c k := by
  obtain ⟨M', hM0, rfl, hab, rfl, rfl⟩ := constructXKxFft_ok hg
  rw [gridPoints_length] at hM hu
  obtain rfl : M' = M := by omega
  have hN : 2 * M' ≠ 0 := by omega
  have hN' : ((2 * M' : ℕ) : ℂ) ≠ 0 := Nat.cast_ne_zero.2 hN
  have hmode : ∀ m < 2 * M', ∀ k : ℤ, k = signedMode M' m → (if 0 ≤ k then k.toNat else (k + (2 * M' : ℕ)).toNat) = m := by
    intro m hm k hk
    subst hk
    simp only [signedMode]
    split_ifs <;> omega
  have key : ∀ c, (gridPoints (2 * M') a b).map (trigPoly M' a b c) = u ↔
      ∀ m < 2 * M', c (signedMode M' m) = fft1 (2 * M') (fun j => u.getD j 0) m / (2 * M' : ℕ) := by
    intro c
    constructor
    · intro h m hm
      rw [eq_div_iff hN', mul_comm]
      rw [← fft1_ifft1 (fun m => ((2 * M' : ℕ) : ℂ) * c (signedMode M' m)) hm]
      refine fft1_congr (fun j hj => ?_) m
      rw [← trigPoly_samples hM0 hab, ← map_gridPoints_getD hj a b (trigPoly M' a b c) 0, h]
    · intro h
      refine List.ext_getElem (by simp [gridPoints, hu]) fun j h1 h2 => ?_
      have hj : j < 2 * M' := by rw [hu] at h2; exact h2
      have e := map_gridPoints_getD hj a b (trigPoly M' a b c) 0
      rw [List.getD_eq_getElem _ _ h1] at e
      rw [e, trigPoly_samples hM0 hab, ifft1_congr (v := fft1 (2 * M') (fun j => u.getD j 0)) (fun m hm => by
        rw [h m hm]; field_simp), ifft1_fft1 _ hj, List.getD_eq_getElem _ _ h2]
  refine ⟨fun k => fft1 (2 * M') (fun j => u.getD j 0) (if 0 ≤ k then k.toNat else (k + (2 * M' : ℕ)).toNat) / (2 * M' : ℕ), ?_, ?_⟩
  · rw [key]
    intro m hm
    rw [hmode m hm _ rfl]
  · intro c' h k hk
    rw [key] at h
    simp only [mem_Ico] at hk
    have := h (if 0 ≤ k then k.toNat else (k + (2 * M' : ℕ)).toNat) (by split_ifs <;> omega)
    refine Eq.trans ?_ this
    congr 1
    simp only [signedMode]
    split_ifs <;> omega

/-- **C45.** `dx_fft` is linear, on arrays of any dimension and any wavenumbers of that shape. -/
theorem C45_linear {s : List ℕ} {N : ℕ} (hN : N ≠ 0) {kx : NdArr ℝ} (hk : kx.shape = s ++ [N]) {u w : NdArr ℂ}
    (hu : u.shape = s ++ [N]) (hw : w.shape = s ++ [N]) (c d : ℂ) (n : ℕ) :
    ∃ v v1 v2, dxFft kx (.cplx ⟨s ++ [N], fun i => c * u.get i + d * w.get i⟩) (.int n) = .ok (.cplx v) ∧
      dxFft kx (.cplx u) (.int n) = .ok (.cplx v1) ∧ dxFft kx (.cplx w) (.int n) = .ok (.cplx v2) ∧
      v.shape = s ++ [N] ∧ ∀ idx, ∀ j < N, v.get (idx ++ [j]) = c * v1.get (idx ++ [j]) + d * v2.get (idx ++ [j]) := by
  obtain ⟨v, h1, h1', h1''⟩ := dxFft_ok hN hk (u := ⟨s ++ [N], fun i => c * u.get i + d * w.get i⟩) rfl n
  obtain ⟨v1, h2, -, h2'⟩ := dxFft_ok hN hk hu n
  obtain ⟨v2, h3, -, h3'⟩ := dxFft_ok hN hk hw n
  refine ⟨v, v1, v2, h1, h2, h3, h1', fun idx j hj => ?_⟩
  rw [h1'' idx j hj, h2' idx j hj, h3' idx j hj, ← fftLine_linear]

/-- **C45.** `dx_fft` of order `n₂` after order `n₁` is `dx_fft` of order `n₁ + n₂`, for arrays of any dimension and any
wavenumbers of that shape. -/
theorem C45_compose {s : List ℕ} {N : ℕ} (hN : N ≠ 0) {kx : NdArr ℝ} (hk : kx.shape = s ++ [N]) {u : NdArr ℂ}
    (hu : u.shape = s ++ [N]) (n₁ n₂ : ℕ) :
    ∃ v w v', dxFft kx (.cplx u) (.int n₁) = .ok (.cplx v) ∧ dxFft kx (.cplx v) (.int n₂) = .ok (.cplx w) ∧
      dxFft kx (.cplx u) (.int (n₁ + n₂)) = .ok (.cplx v') ∧ w.shape = v'.shape ∧
      ∀ idx, ∀ j < N, w.get (idx ++ [j]) = v'.get (idx ++ [j]) := by
  obtain ⟨v, h1, h1', h1''⟩ := dxFft_ok hN hk hu n₁
  obtain ⟨w, h2, h2', h2''⟩ := dxFft_ok hN hk h1' n₂
  obtain ⟨v', h3, h3', h3''⟩ := dxFft_ok hN hk hu (n₁ + n₂)
  refine ⟨v, w, v', h1, h2, by exact_mod_cast h3, by rw [h2', h3'], fun idx j hj => ?_⟩
  rw [h2'' idx j hj, h3'' idx j hj, ← fftLine_comp]
  exact fftLine_congr (fun _ _ => rfl) (fun j hj => h1'' idx j hj) _ _

/-- **C45.** Real samples are treated as complex ones with the same values (and with the same errors); only order 0 keeps the dtype. -/
theorem C45_real_same (kx : NdArr ℝ) (u : List ℝ) (n : ℤ) (hn : n ≠ 0) :
    dxFft kx (.real (.ofList u)) (.int n) = dxFft kx (.cplx (.ofList (u.map Complex.ofReal))) (.int n) := by
  have h : (NumArr.real (.ofList u)).toComplex = (NumArr.cplx (.ofList (u.map Complex.ofReal))).toComplex := by
    simp only [NumArr.toComplex, NdArr.ofList, List.length_map, NdArr.mk.injEq, true_and]
    funext idx
    have hd : (default : ℂ) = ((default : ℝ) : ℂ) := by
      show (0 : ℂ) = ((0 : ℝ) : ℂ)
      simp
    rw [hd, List.getD_map]
  simp only [dxFft, hn, if_false, h]

/-- **C45.** So for real samples of a trigonometric polynomial the samples of its derivative are returned. -/
theorem C45_real {N : PyVal ℝ} {a b : ℝ} {x kx : List ℝ} (hg : constructXKxFft id N a b = .ok (x, kx)) (M : ℕ)
    (hM : x.length = 2 * M) (c : ℤ → ℂ) (n : ℕ) (hn : n ≠ 0) (u : List ℝ) (hu : u.map Complex.ofReal = x.map (trigPoly M a b c)) :
    ∃ v, dxFft (.ofList kx) (.real (.ofList u)) (.int n) = .ok (.cplx v) ∧ v.shape = [x.length] ∧
      ∀ j < x.length, v.get [j] = iteratedDeriv n (trigPoly M a b c) (x.getD j 0) := by
  rw [C45_real_same _ _ _ (by exact_mod_cast hn), hu]
  exact C45_exact hg M hM c n

/-! ### C46 -/

/-- The coefficients of a real trigonometric polynomial as those of `exp`. -/
noncomputable def cosSin (M : ℕ) (α β : ℕ → ℝ) (γ : ℝ) (m : ℕ) : ℂ := if m = M then (γ : ℂ) else (α m : ℂ) - β m * Complex.I

theorem realTrigPoly_eq (M : ℕ) (a b : ℝ) (α β : ℕ → ℝ) (γ : ℝ) : realTrigPoly M a b α β γ = fun x : ℝ =>
    ∑ m ∈ range (M + 1), (cosSin M α β γ m * Complex.exp (2 * Real.pi * Complex.I * m / (b - a) * ((x : ℂ) - a))).re := by
  funext x
  have he : ∀ m : ℕ, Complex.exp (2 * Real.pi * Complex.I * m / (b - a) * ((x : ℂ) - a)) =
      Complex.exp (((2 * Real.pi * m / (b - a) * (x - a) : ℝ) : ℂ) * Complex.I) := by
    intro m; congr 1; push_cast; ring
  rw [sum_range_succ, realTrigPoly]
  congr 1
  · refine sum_congr rfl fun m hm => ?_
    rw [he, cosSin, if_neg (by have := mem_range.1 hm; omega), Complex.mul_re, Complex.exp_ofReal_mul_I_re,
      Complex.exp_ofReal_mul_I_im]
    simp
  · rw [he, cosSin, if_pos rfl, Complex.mul_re, Complex.exp_ofReal_mul_I_re, Complex.exp_ofReal_mul_I_im]
    simp

/-- The half spectrum of the samples. -/
noncomputable def halfSpec (M : ℕ) (α β : ℕ → ℝ) (γ : ℝ) (m : ℕ) : ℂ :=
  if m = 0 then ((2 * M : ℕ) : ℂ) * α 0 else if m = M then ((2 * M : ℕ) : ℂ) * γ else (M : ℂ) * ((α m : ℂ) - β m * Complex.I)

/-- `irfft` as a real part of a sum over the modes `0, …, M`. -/
theorem irfft1_eq_sum {M : ℕ} (hM : M ≠ 0) (y : ℕ → ℂ) (j : ℕ) :
    irfft1 (2 * M) y j = ∑ m ∈ range (M + 1), ((if m = 0 ∨ m = M then 1 / ((2 * M : ℕ) : ℝ) else 1 / (M : ℝ)) *
      (y m * rootPow (2 * M) ((j * m : ℕ) : ℤ)).re) := by
  have hM' : (M : ℝ) ≠ 0 := Nat.cast_ne_zero.2 hM
  rw [sum_range_succ, range_eq_Ico, sum_eq_sum_Ico_succ_bot (by omega), irfft1, if_pos (by omega),
    show (2 * M + 1) / 2 = M by omega, show 2 * M / 2 = M by omega, if_pos (Or.inl rfl), if_pos (Or.inr rfl), rootPow_half hM]
  have h1 : ((y M) * (-1) ^ j).re = (y M).re * (-1) ^ j := by
    rw [show ((-1 : ℂ) ^ j) = (((-1 : ℝ) ^ j : ℝ) : ℂ) by push_cast; rfl, Complex.re_mul_ofReal]
  have h2 : ∑ m ∈ Ico (0 + 1) M, ((if m = 0 ∨ m = M then 1 / ((2 * M : ℕ) : ℝ) else 1 / (M : ℝ)) *
      (y m * rootPow (2 * M) ((j * m : ℕ) : ℤ)).re) =
      (∑ m ∈ Ico 1 M, 2 * (y m * rootPow (2 * M) ((j * m : ℕ) : ℤ)).re) / (2 * M : ℕ) := by
    rw [sum_div]
    refine sum_congr (by simp) fun m hm => ?_
    simp only [mem_Ico] at hm
    rw [if_neg (by omega)]
    push_cast
    field_simp
  rw [h1, h2]
  simp
  ring

theorem realTrigPoly_samples {M : ℕ} (hM : M ≠ 0) {a b : ℝ} (hab : a ≠ b) (α β : ℕ → ℝ) (γ : ℝ) (j : ℕ) :
    realTrigPoly M a b α β γ (a + j * (b - a) / (2 * M : ℕ)) = irfft1 (2 * M) (halfSpec M α β γ) j := by
  have hM' : (M : ℝ) ≠ 0 := Nat.cast_ne_zero.2 hM
  rw [realTrigPoly_eq, irfft1_eq_sum hM]
  refine sum_congr rfl fun m hm => ?_
  have hg := exp_grid (N := 2 * M) hab (m : ℤ) j
  push_cast at hg ⊢
  rw [hg]
  have hr : ∀ (r : ℝ) (z w : ℂ), r * (z * w).re = ((r : ℂ) * z * w).re := by
    intro r z w; rw [mul_assoc, Complex.re_ofReal_mul]
  rw [hr]
  have hM2 : (M : ℂ) ≠ 0 := Nat.cast_ne_zero.2 hM
  by_cases h0 : m = 0
  · subst h0
    simp only [cosSin, halfSpec, if_neg (Ne.symm hM), if_true, true_or]
    push_cast
    simp
    field_simp
  · by_cases h1 : m = M
    · subst h1
      simp only [cosSin, halfSpec, if_neg h0, if_true, or_true]
      push_cast
      congr 2
      field_simp
    · simp only [cosSin, halfSpec, h0, h1, or_self, if_false]
      push_cast
      congr 2
      field_simp

theorem herm_halfSpec {M : ℕ} (hM : M ≠ 0) (α β : ℕ → ℝ) (γ : ℝ) {m : ℕ} (hm : m ≤ M) :
    herm (2 * M) (halfSpec M α β γ) m = halfSpec M α β γ m := by
  have hre : ∀ r : ℝ, (((((2 * M : ℕ) : ℂ) * (r : ℂ)).re : ℝ) : ℂ) = ((2 * M : ℕ) : ℂ) * r := by
    intro r
    rw [show (((2 * M : ℕ) : ℂ) * (r : ℂ)) = (((2 * M : ℕ) * r : ℝ) : ℂ) by push_cast; ring, Complex.ofReal_re]
  rw [herm]
  split_ifs with h1 h2 h3
  · subst h1; simp only [halfSpec, if_true]; exact hre _
  · rfl
  · have : m = M := by omega
    subst this
    simp only [halfSpec, if_neg hM, if_true]; exact hre _
  · omega

/-- **C46.** On the grid of `construct_x_kx_rfft`, `dx_rfft` of order `n` gives the exact `n`-th derivative at the grid points of
every real trigonometric polynomial of degree below `N/2`, and also of `cos` of degree `N/2`. -/
theorem C46_exact {N : PyVal ℝ} {a b : ℝ} {x kx : List ℝ} (hg : constructXKxRfft id N a b = .ok (x, kx)) (M : ℕ)
    (hM : x.length = 2 * M) (α β : ℕ → ℝ) (γ : ℝ) (n : ℕ) :
    ∃ v, dxRfft (.ofList kx) (.real (.ofList (x.map (realTrigPoly M a b α β γ)))) (.int n) = .ok v ∧ v.shape = [x.length] ∧
      ∀ j < x.length, v.get [j] = iteratedDeriv n (realTrigPoly M a b α β γ) (x.getD j 0) := by
  obtain ⟨M', hM0, rfl, hab, rfl, rfl⟩ := constructXKxRfft_ok hg
  rw [gridPoints_length] at hM
  obtain rfl : M' = M := by omega
  have hN : 2 * M' ≠ 0 := by omega
  rw [gridPoints_length]
  obtain ⟨v, h1, h2, h3⟩ := dxRfft_ok (s := []) (N := 2 * M') hN (by simp) (kx := .ofList ((List.range (M' + 1)).map fun m : ℕ =>
      2 * Real.pi * (m : ℝ) / (b - a))) (by show [List.length _] = _; simp) (u := .ofList ((gridPoints (2 * M') a b).map (realTrigPoly M' a b α β γ))) (by
    show [List.length _] = _; simp [gridPoints]) n
  refine ⟨v, h1, h2, fun j hj => ?_⟩
  rw [gridPoints_getD hj]
  refine (h3 [] j hj).trans ?_
  simp only [List.nil_append, ofList_get]
  rw [rfftLine_congr (kx' := fun m => 2 * Real.pi * (m : ℝ) / (b - a)) (fun m hm => by
      rw [map_range_getD (by omega)])
    (u' := irfft1 (2 * M') (halfSpec M' α β γ)) (fun j hj => by
      rw [map_gridPoints_getD hj, realTrigPoly_samples hM0 hab])]
  rw [realTrigPoly_eq, iteratedDeriv_reExpSum]
  simp only
  rw [rfftLine, irfft1_eq_sum hM0]
  refine sum_congr rfl fun m hm => ?_
  have hm' : m ≤ M' := by have := mem_range.1 hm; omega
  have hg := exp_grid (N := 2 * M') hab (m : ℤ) j
  rw [rfft1_irfft1 _ (by omega), herm_halfSpec hM0 _ _ _ hm']
  rw [show ((m : ℕ) : ℂ) = ((m : ℤ) : ℂ) by push_cast; rfl, hg]
  have hr : ∀ (r : ℝ) (z w : ℂ), r * (z * w).re = ((r : ℂ) * z * w).re := by
    intro r z w; rw [mul_assoc, Complex.re_ofReal_mul]
  rw [hr]
  have hM2 : (M' : ℂ) ≠ 0 := Nat.cast_ne_zero.2 hM0
  have hk : Complex.I * ((2 * Real.pi * (m : ℝ) / (b - a) : ℝ) : ℂ) = 2 * Real.pi * Complex.I * ((m : ℤ) : ℂ) / (b - a) := by
    push_cast; ring
  rw [hk]
  have hcs : (((if m = 0 ∨ m = M' then 1 / ((2 * M' : ℕ) : ℝ) else 1 / (M' : ℝ)) : ℝ) : ℂ) * halfSpec M' α β γ m =
      if m = 0 then (α 0 : ℂ) else cosSin M' α β γ m := by
    by_cases h0 : m = 0
    · subst h0
      simp only [halfSpec, if_true, true_or]
      push_cast; field_simp
    · by_cases h1 : m = M'
      · subst h1
        simp only [cosSin, halfSpec, if_neg h0, if_true, or_true]
        push_cast; field_simp
      · simp only [cosSin, halfSpec, h0, h1, or_self, if_false]
        push_cast; field_simp
  by_cases h0 : m = 0
  · subst h0
    rw [if_pos rfl] at hcs
    rw [show ∀ A B C D : ℂ, A * (B * C) * D = A * C * B * D by intros; ring, hcs]
    simp only [cosSin, if_neg (Ne.symm hM0)]
    simp only [Nat.cast_zero, mul_zero]
    by_cases hn : n = 0
    · subst hn; simp
    · simp [hn]
  · rw [if_neg h0] at hcs
    rw [show ∀ A B C D : ℂ, A * (B * C) * D = A * C * B * D by intros; ring, hcs]
    congr 3

/-- The alternating sum, the coefficient of the mode `N/2`. -/
noncomputable def altSum (N : ℕ) (u : ℕ → ℝ) : ℝ := ∑ j ∈ range N, (-1) ^ j * u j

theorem rfft1_nyquist {M : ℕ} (hM : M ≠ 0) (u : ℕ → ℝ) : rfft1 (2 * M) u M = (altSum (2 * M) u : ℂ) := by
  rw [rfft1, fft1, altSum, Complex.ofReal_sum]
  refine sum_congr rfl fun j _ => ?_
  have h : rootPow (2 * M) (-((j * M : ℕ) : ℤ)) = (-1) ^ j := by
    rw [← rootPow_conj, rootPow_half hM]
    simp
  rw [h]
  push_cast
  ring

theorem im_pow_eq_zero_iff {k : ℝ} (hk : k ≠ 0) (n : ℕ) : ((Complex.I * (k : ℂ)) ^ n).im = 0 ↔ Even n := by
  have h2 : ∀ q : ℕ, (Complex.I * (k : ℂ)) ^ (2 * q) = (((-(k ^ 2)) ^ q : ℝ) : ℂ) := by
    intro q
    rw [pow_mul, mul_pow, Complex.I_sq]
    push_cast
    ring
  constructor
  · intro h
    by_contra hn
    obtain ⟨q, rfl⟩ := Nat.not_even_iff_odd.1 hn
    rw [pow_succ, h2, Complex.im_ofReal_mul] at h
    have : (-(k ^ 2)) ^ q ≠ 0 := pow_ne_zero _ (neg_ne_zero.2 (pow_ne_zero _ hk))
    simp [this, hk] at h
  · rintro ⟨q, rfl⟩
    rw [← two_mul, h2, Complex.ofReal_im]

/-- Two half spectra that differ only at the mode `N/2`. -/
theorem irfft1_sub_nyquist {M : ℕ} (hM : M ≠ 0) {y z : ℕ → ℂ} (h : ∀ m < M, y m = z m) (j : ℕ) :
    irfft1 (2 * M) y j - irfft1 (2 * M) z j = ((y M).re - (z M).re) * (-1) ^ j / (2 * M : ℕ) := by
  rw [irfft1, irfft1, if_pos (by omega), if_pos (by omega), show (2 * M + 1) / 2 = M by omega, show 2 * M / 2 = M by omega,
    h 0 (by omega), sum_congr rfl fun m hm => by rw [h m (by simp only [mem_Ico] at hm; omega)]]
  ring

theorem rfftLine_comp_defect {M : ℕ} (hM : M ≠ 0) (kx : ℕ → ℝ) (h0 : kx 0 = 0) (n₁ n₂ : ℕ) (u : ℕ → ℝ) (j : ℕ) :
    rfftLine (2 * M) kx n₂ (rfftLine (2 * M) kx n₁ u) j - rfftLine (2 * M) kx (n₁ + n₂) u j =
      ((Complex.I * (kx M : ℂ)) ^ n₁).im * ((Complex.I * (kx M : ℂ)) ^ n₂).im * altSum (2 * M) u * (-1) ^ j / (2 * M : ℕ) := by
  have hN : 2 * M ≠ 0 := by omega
  have hr : ∀ m ≤ M, rfft1 (2 * M) (rfftLine (2 * M) kx n₁ u) m =
      herm (2 * M) (fun m => (Complex.I * (kx m : ℂ)) ^ n₁ * rfft1 (2 * M) u m) m := by
    intro m hm
    exact rfft1_irfft1 _ (by omega)
  have hu0 : (((rfft1 (2 * M) u 0).re : ℝ) : ℂ) = rfft1 (2 * M) u 0 := by
    have := herm_rfft1 hN u (m := 0) (by omega)
    rw [herm, if_pos rfl] at this
    exact this
  rw [rfftLine, rfftLine, irfft1_sub_nyquist hM]
  · congr 2
    rw [hr M le_rfl, herm, if_neg hM, if_neg (by omega), if_pos rfl, rfft1_nyquist hM, pow_add, Complex.re_mul_ofReal,
      Complex.re_mul_ofReal, Complex.re_mul_ofReal, Complex.mul_re]
    ring
  · intro m hm
    rw [hr m hm.le, herm]
    split_ifs with h1 h2 h3
    · subst h1
      rw [h0]
      by_cases hn : n₁ = 0
      · subst hn; simp only [pow_zero, one_mul, hu0, zero_add]
      · simp [hn]
    · rw [pow_add]; ring
    · omega
    · omega

/-- **C46.** Every array of real samples is that of such a polynomial. -/
theorem C46_interpolant {N : PyVal ℝ} {a b : ℝ} {x kx : List ℝ} (hg : constructXKxRfft id N a b = .ok (x, kx)) (M : ℕ)
    (hM : x.length = 2 * M) (u : List ℝ) (hu : u.length = x.length) : ∃ α β γ, x.map (realTrigPoly M a b α β γ) = u := by
  obtain ⟨M', hM0, rfl, hab, rfl, rfl⟩ := constructXKxRfft_ok hg
  rw [gridPoints_length] at hM hu
  obtain rfl : M' = M := by omega
  have hN : 2 * M' ≠ 0 := by omega
  have hM2 : (M' : ℂ) ≠ 0 := Nat.cast_ne_zero.2 hM0
  set y := rfft1 (2 * M') (fun j => u.getD j 0) with hy
  have hy0 : (((y 0).re : ℝ) : ℂ) = y 0 := by
    have := herm_rfft1 hN (fun j => u.getD j 0) (m := 0) (by omega)
    rw [herm, if_pos rfl] at this
    exact this
  have hyM : (((y M').re : ℝ) : ℂ) = y M' := by
    have := herm_rfft1 hN (fun j => u.getD j 0) (m := M') (by omega)
    rw [herm, if_neg hM0, if_neg (by omega), if_pos rfl] at this
    exact this
  refine ⟨fun m => if m = 0 then (y 0).re / (2 * M' : ℕ) else (y m).re / M', fun m => -(y m).im / M', (y M').re / (2 * M' : ℕ), ?_⟩
  refine List.ext_getElem (by simp [gridPoints, hu]) fun j h1 h2 => ?_
  have hj : j < 2 * M' := by rw [hu] at h2; exact h2
  rw [← List.getD_eq_getElem _ 0 h1, map_gridPoints_getD hj, realTrigPoly_samples hM0 hab, irfft1_congr (z := y),
    hy, irfft1_rfft1 _ hj, List.getD_eq_getElem _ _ h2]
  intro m hm
  have hm' : m ≤ M' := by omega
  simp only [halfSpec]
  split_ifs with h1 h2
  · subst h1
    push_cast
    rw [hy0]
    field_simp
  · subst h2
    push_cast
    rw [hyM]
    field_simp
  · push_cast
    rw [mul_sub, mul_div_cancel₀ _ hM2, neg_div, neg_mul, mul_neg, sub_neg_eq_add, ← mul_assoc, mul_div_cancel₀ _ hM2]
    exact Complex.re_add_im (y m)

/-- **C46.** `dx_rfft` is linear, on arrays of any dimension and any wavenumbers of the right shape. -/
theorem C46_linear {s : List ℕ} {N : ℕ} (hN : N ≠ 0) (hs : s.prod ≠ 0) {kx : NdArr ℝ} (hk : kx.shape = s ++ [N / 2 + 1])
    {u w : NdArr ℝ} (hu : u.shape = s ++ [N]) (hw : w.shape = s ++ [N]) (c d : ℝ) (n : ℕ) :
    ∃ v v1 v2, dxRfft kx (.real ⟨s ++ [N], fun i => c * u.get i + d * w.get i⟩) (.int n) = .ok v ∧
      dxRfft kx (.real u) (.int n) = .ok v1 ∧ dxRfft kx (.real w) (.int n) = .ok v2 ∧
      v.shape = s ++ [N] ∧ ∀ idx, ∀ j < N, v.get (idx ++ [j]) = c * v1.get (idx ++ [j]) + d * v2.get (idx ++ [j]) := by
  obtain ⟨v, h1, h1', h1''⟩ := dxRfft_ok hN hs hk (u := ⟨s ++ [N], fun i => c * u.get i + d * w.get i⟩) rfl n
  obtain ⟨v1, h2, -, h2'⟩ := dxRfft_ok hN hs hk hu n
  obtain ⟨v2, h3, -, h3'⟩ := dxRfft_ok hN hs hk hw n
  refine ⟨v, v1, v2, h1, h2, h3, h1', fun idx j hj => ?_⟩
  rw [h1'' idx j hj, h2' idx j hj, h3' idx j hj, ← rfftLine_linear]

/-- **C46.** `dx_rfft` of order `n₂` after order `n₁` is `dx_rfft` of order `n₁ + n₂` exactly when one of the orders is even or the
samples have no component at the mode `N/2`. -/
theorem C46_compose {N : PyVal ℝ} {a b : ℝ} {x kx : List ℝ} (hg : constructXKxRfft id N a b = .ok (x, kx)) (u : List ℝ)
    (hu : u.length = x.length) (n₁ n₂ : ℕ) :
    ∃ v w v', dxRfft (.ofList kx) (.real (.ofList u)) (.int n₁) = .ok v ∧ dxRfft (.ofList kx) (.real v) (.int n₂) = .ok w ∧
      dxRfft (.ofList kx) (.real (.ofList u)) (.int (n₁ + n₂)) = .ok v' ∧ w.shape = [x.length] ∧ v'.shape = [x.length] ∧
      ((∀ j < x.length, w.get [j] = v'.get [j]) ↔ Even n₁ ∨ Even n₂ ∨ altSum x.length (fun j => u.getD j 0) = 0) := by
  obtain ⟨M, hM, rfl, hab, rfl, rfl⟩ := constructXKxRfft_ok hg
  rw [gridPoints_length] at hu ⊢
  have hN : 2 * M ≠ 0 := by omega
  set kx : NdArr ℝ := .ofList ((List.range (M + 1)).map fun m : ℕ => 2 * Real.pi * (m : ℝ) / (b - a)) with hkx
  have hk : kx.shape = [] ++ [2 * M / 2 + 1] := by show [List.length _] = _; simp
  obtain ⟨v, h1, h1', h1''⟩ := dxRfft_ok hN (s := []) (by simp) hk (u := .ofList u) (by show [List.length _] = _; simp [hu]) n₁
  obtain ⟨w, h2, h2', h2''⟩ := dxRfft_ok hN (s := []) (by simp) hk h1' n₂
  obtain ⟨v', h3, h3', h3''⟩ := dxRfft_ok hN (s := []) (by simp) hk (u := .ofList u) (by show [List.length _] = _; simp [hu]) (n₁ + n₂)
  refine ⟨v, w, v', h1, h2, by exact_mod_cast h3, h2', h3', ?_⟩
  have hb : b - a ≠ 0 := sub_ne_zero.2 hab.symm
  have hkg : ∀ m ≤ M, kx.get [m] = 2 * Real.pi * (m : ℝ) / (b - a) := by
    intro m hm
    rw [hkx, ofList_get, map_range_getD (by omega)]
  have hk0 : kx.get [0] = 0 := by rw [hkg 0 (by omega)]; simp
  have hkM : kx.get [M] ≠ 0 := by
    rw [hkg M le_rfl]
    have : (M : ℝ) ≠ 0 := Nat.cast_ne_zero.2 hM
    have := Real.pi_ne_zero
    positivity
  have key : ∀ j < 2 * M, w.get [j] - v'.get [j] = ((Complex.I * (kx.get [M] : ℂ)) ^ n₁).im * ((Complex.I * (kx.get [M] : ℂ)) ^ n₂).im *
      altSum (2 * M) (fun j => u.getD j 0) * (-1) ^ j / (2 * M : ℕ) := by
    intro j hj
    rw [← rfftLine_comp_defect hM (fun m => kx.get [m]) hk0]
    refine congrArg₂ (· - ·) ((h2'' [] j hj).trans ?_) (h3'' [] j hj)
    exact rfftLine_congr (fun _ _ => rfl) (fun j hj => h1'' [] j hj) _ _
  have hiff : ∀ j < 2 * M, (w.get [j] = v'.get [j] ↔ Even n₁ ∨ Even n₂ ∨ altSum (2 * M) (fun j => u.getD j 0) = 0) := by
    intro j hj
    rw [← sub_eq_zero, key j hj, ← im_pow_eq_zero_iff hkM n₁, ← im_pow_eq_zero_iff hkM n₂]
    have h4 : ((2 * M : ℕ) : ℝ) ≠ 0 := Nat.cast_ne_zero.2 hN
    have h5 : ((-1 : ℝ)) ^ j ≠ 0 := pow_ne_zero _ (by norm_num)
    simp only [div_eq_zero_iff, mul_eq_zero, h4, h5, or_false, or_assoc]
  exact ⟨fun h => (hiff 0 (by omega)).1 (h 0 (by omega)), fun h j hj => (hiff j hj).2 h⟩

/-- **C46.** `dx_rfft` and `dx_fft` agree on real samples exactly when the order is even or there is no component at the
mode `N/2`. -/
theorem C46_agrees {N : PyVal ℝ} {a b : ℝ} {x kx x' kx' : List ℝ} (hg : constructXKxRfft id N a b = .ok (x, kx))
    (hg' : constructXKxFft id N a b = .ok (x', kx')) (u : List ℝ) (hu : u.length = x.length) (n : ℕ) :
    x' = x ∧ ∃ v w, dxRfft (.ofList kx) (.real (.ofList u)) (.int n) = .ok v ∧
      dxFft (.ofList kx') (.cplx (.ofList (u.map Complex.ofReal))) (.int n) = .ok (.cplx w) ∧
      ((∀ j < x.length, w.get [j] = (v.get [j] : ℂ)) ↔ Even n ∨ altSum x.length (fun j => u.getD j 0) = 0) := by
  obtain ⟨M, hM, rfl, hab, rfl, rfl⟩ := constructXKxRfft_ok hg
  obtain ⟨M', -, hMM, -, rfl, rfl⟩ := constructXKxFft_ok hg'
  obtain rfl : M = M' := by
    simp only [PyVal.int.injEq] at hMM
    omega
  refine ⟨rfl, ?_⟩
  rw [gridPoints_length] at hu ⊢
  have hN : 2 * M ≠ 0 := by omega
  obtain ⟨v, h1, h1', h1''⟩ := dxRfft_ok hN (s := []) (by simp)
    (kx := .ofList ((List.range (M + 1)).map fun m : ℕ => 2 * Real.pi * (m : ℝ) / (b - a)))
    (by show [List.length _] = _; simp) (u := .ofList u) (by show [List.length _] = _; simp [hu]) n
  obtain ⟨w, h2, h2', h2''⟩ := dxFft_ok hN (s := []) (kx := .ofList ((List.range (2 * M)).map fun m : ℕ =>
      2 * Real.pi * (if m < M then (m : ℝ) else (m : ℝ) - (2 * M : ℕ)) / (b - a)))
    (by show [List.length _] = _; simp) (u := .ofList (u.map Complex.ofReal)) (by show [List.length _] = _; simp [hu]) n
  refine ⟨v, w, h1, h2, ?_⟩
  have hb : b - a ≠ 0 := sub_ne_zero.2 hab.symm
  set κ : ℝ := 2 * Real.pi * M / (b - a) with hκ
  have hκ0 : κ ≠ 0 := by
    have : (M : ℝ) ≠ 0 := Nat.cast_ne_zero.2 hM
    have := Real.pi_ne_zero
    positivity
  set U : ℕ → ℝ := fun j => u.getD j 0 with hU
  have key : ∀ j < 2 * M, w.get [j] - (v.get [j] : ℂ) =
      -Complex.I * (((Complex.I * (κ : ℂ)) ^ n).im : ℂ) * (altSum (2 * M) U : ℂ) * (-1) ^ j / (2 * M : ℕ) := by
    intro j hj
    have e1 : v.get [j] = rfftLine (2 * M) (fun m => 2 * Real.pi * (m : ℝ) / (b - a)) n U j := by
      refine (h1'' [] j hj).trans (rfftLine_congr (fun m hm => ?_) (fun j hj => ?_) _ _)
      · rw [List.nil_append, ofList_get, map_range_getD (by omega)]
      · rw [List.nil_append, ofList_get]; rfl
    have e2 : w.get [j] = fftLine (2 * M) (fun m => 2 * Real.pi * (signedMode M m : ℝ) / (b - a)) n (fun j => (U j : ℂ)) j := by
      refine (h2'' [] j hj).trans (fftLine_congr (fun m hm => ?_) (fun j hj => ?_) _ _)
      · rw [List.nil_append, ofList_get, map_range_getD hm, signedMode]; split_ifs <;> push_cast <;> ring
      · rw [List.nil_append, ofList_get, hU]
        rw [List.getD_eq_getElem _ _ (by simpa [hu] using hj)]
        simp only [List.getElem_map]
        rw [List.getD_eq_getElem _ _ (by rw [hu]; exact hj)]
    rw [e1, e2, rfftLine, irfft1_eq_ifft1 hN, fftLine, ifft1, ifft1, ← sub_div, ← sum_sub_distrib]
    congr 1
    rw [sum_eq_single M]
    · have hs : rfft1 (2 * M) U M = (altSum (2 * M) U : ℂ) := rfft1_nyquist hM U
      have hs' : fft1 (2 * M) (fun j => (U j : ℂ)) M = (altSum (2 * M) U : ℂ) := hs
      have hc : (Complex.I * ((2 * Real.pi * (signedMode M M : ℝ) / (b - a) : ℝ) : ℂ)) ^ n =
          (starRingEnd ℂ) ((Complex.I * (κ : ℂ)) ^ n) := by
        rw [map_pow, map_mul, Complex.conj_I, Complex.conj_ofReal, signedMode, if_neg (lt_irrefl _), hκ]
        congr 1
        push_cast
        ring
      rw [herm, if_neg hM, if_neg (by omega), if_pos rfl, hs, hs', rootPow_half hM, hc, ← hκ, Complex.re_mul_ofReal]
      generalize (Complex.I * (κ : ℂ)) ^ n = A
      rw [Complex.ofReal_mul]
      have : (starRingEnd ℂ) A = (A.re : ℂ) - (A.im : ℂ) * Complex.I := by
        apply Complex.ext <;> simp
      rw [this]
      ring
    · intro m hm hmM
      have hm' := mem_range.1 hm
      rw [sub_eq_zero]
      congr 1
      rw [herm]
      split_ifs with h3 h4 h5
      · subst h3
        rw [signedMode, if_pos (by omega)]
        have hu0 : (((rfft1 (2 * M) U 0).re : ℝ) : ℂ) = rfft1 (2 * M) U 0 := by
          have := herm_rfft1 hN U (m := 0) (by omega)
          rw [herm, if_pos rfl] at this
          exact this
        by_cases hn : n = 0
        · subst hn
          simp only [pow_zero, one_mul]
          exact hu0.symm
        · simp [hn]
      · rw [signedMode, if_pos (by omega)]
        push_cast
        rfl
      · omega
      · rw [signedMode, if_neg (by omega), map_mul, map_pow, map_mul, Complex.conj_I, Complex.conj_ofReal]
        have := fft1_real_conj hN U (m := 2 * M - m) (by omega)
        rw [show 2 * M - (2 * M - m) = m by omega] at this
        rw [this]
        congr 2
        push_cast [Nat.cast_sub hm'.le]
        ring
    · intro h
      exact absurd (mem_range.2 (by omega)) h
  have hiff : ∀ j < 2 * M, (w.get [j] = (v.get [j] : ℂ) ↔ Even n ∨ altSum (2 * M) U = 0) := by
    intro j hj
    rw [← sub_eq_zero, key j hj, ← im_pow_eq_zero_iff hκ0 n]
    have h4 : ((2 * M : ℕ) : ℂ) ≠ 0 := Nat.cast_ne_zero.2 hN
    have h5 : ((-1 : ℂ)) ^ j ≠ 0 := pow_ne_zero _ (by norm_num)
    have h6 : -Complex.I ≠ 0 := neg_ne_zero.2 Complex.I_ne_zero
    simp only [div_eq_zero_iff, mul_eq_zero, h4, h5, h6, or_false, false_or, Complex.ofReal_eq_zero]
  exact ⟨fun h => (hiff 0 (by omega)).1 (h 0 (by omega)), fun h j hj => (hiff j hj).2 h⟩

/-- Four points on `[0, 1]`: both grids exist, so the hypotheses of the theorems above are met. -/
example : ∃ x kx kx', constructXKxFft id (.int 4) (0 : ℝ) 1 = .ok (x, kx) ∧ constructXKxRfft id (.int 4) (0 : ℝ) 1 = .ok (x, kx') ∧
    x.length = 2 * 2 :=
  ⟨_, _, _, C42_fft 0 (by norm_num), C42_rfft 0 (by norm_num), gridPoints_length _ _ _⟩

/-- The real samples `1, 1, 1, 1` of the constant polynomial: the first derivative is zero. -/
example : ∃ x kx v, constructXKxFft id (.int 4) (0 : ℝ) 1 = .ok (x, kx) ∧
    dxFft (.ofList kx) (.real (.ofList [1, 1, 1, 1])) (.int 1) = .ok (.cplx v) ∧ ∀ j < 4, v.get [j] = 0 := by
  have hc : trigPoly 2 0 1 (fun k => if k = 0 then 1 else 0) = fun _ => 1 := by
    funext x
    rw [trigPoly, sum_eq_single 0] <;> simp +contextual
  obtain ⟨v, h1, -, h2⟩ := C45_real (C42_fft 0 (a := 0) (b := 1) (by norm_num)) 2 (gridPoints_length _ _ _)
    (fun k => if k = 0 then 1 else 0) 1 one_ne_zero [1, 1, 1, 1] (by rw [hc]; simp [gridPoints, List.range_succ])
  refine ⟨_, _, v, C42_fft 0 (by norm_num), h1, fun j hj => ?_⟩
  rw [h2 j (by rw [gridPoints_length]; exact hj), hc]
  simp

/-- Two first derivatives of the samples `1, -1, 1, -1` are not the second derivative. -/
example : ∃ x kx v w v', constructXKxRfft id (.int 4) (0 : ℝ) 1 = .ok (x, kx) ∧
    dxRfft (.ofList kx) (.real (.ofList [1, -1, 1, -1])) (.int 1) = .ok v ∧ dxRfft (.ofList kx) (.real v) (.int 1) = .ok w ∧
    dxRfft (.ofList kx) (.real (.ofList [1, -1, 1, -1])) (.int 2) = .ok v' ∧ ¬ ∀ j < 4, w.get [j] = v'.get [j] := by
  obtain ⟨v, w, v', h1, h2, h3, -, -, h⟩ := C46_compose (C42_rfft 0 (a := 0) (b := 1) (by norm_num)) [1, -1, 1, -1]
    (by rw [gridPoints_length]; rfl) 1 1
  refine ⟨_, _, v, w, v', C42_rfft 0 (by norm_num), h1, h2, h3, ?_⟩
  rw [gridPoints_length] at h
  intro hall
  have := h.1 hall
  simp [altSum, sum_range_succ] at this
  norm_num at this

/-- One Fourier mode on four points of `[0, 1)`, second derivative. -/
example : ∃ x kx v, constructXKxFft id (.int 4) (0 : ℝ) 1 = .ok (x, kx) ∧
    dxFft (.ofList kx) (.cplx (.ofList (x.map (trigPoly 2 0 1 fun k => if k = 1 then 1 else 0)))) (.int 2) = .ok (.cplx v) ∧
    ∀ j < 4, v.get [j] = iteratedDeriv 2 (trigPoly 2 0 1 fun k => if k = 1 then 1 else 0) (x.getD j 0) := by
  obtain ⟨v, h1, -, h2⟩ := C45_exact (C42_fft 0 (a := 0) (b := 1) (by norm_num)) 2 (gridPoints_length _ _ _)
    (fun k => if k = 1 then 1 else 0) 2
  exact ⟨_, _, v, C42_fft 0 (by norm_num), h1, fun j hj => h2 j (by rw [gridPoints_length]; exact hj)⟩

/-- The samples `1, 2, 3, 4` are those of a trigonometric polynomial. -/
example : ∃ x kx c α β γ, constructXKxFft id (.int 4) (0 : ℝ) 1 = .ok (x, kx) ∧ x.map (trigPoly 2 0 1 c) = [1, 2, 3, 4] ∧
    x.map (realTrigPoly 2 0 1 α β γ) = [1, 2, 3, 4] := by
  obtain ⟨c, hc, -⟩ := C45_interpolant (C42_fft 0 (a := 0) (b := 1) (by norm_num)) 2 (gridPoints_length _ _ _) [1, 2, 3, 4]
    (by rw [gridPoints_length]; rfl)
  obtain ⟨α, β, γ, hr⟩ := C46_interpolant (C42_rfft 0 (a := 0) (b := 1) (by norm_num)) 2 (gridPoints_length _ _ _) [1, 2, 3, 4]
    (by rw [gridPoints_length]; rfl)
  exact ⟨_, _, c, α, β, γ, C42_fft 0 (by norm_num), hc, hr⟩

/-- A stack of two signals of four samples: the derivative is linear, and taken twice it is the second derivative. -/
example (kx : NdArr ℝ) (hk : kx.shape = [2, 4]) (u : NdArr ℂ) (hu : u.shape = [2, 4]) :
    (∃ v v1 v2, dxFft kx (.cplx ⟨[2, 4], fun i => 2 * u.get i + 3 * u.get i⟩) (.int 1) = .ok (.cplx v) ∧
      dxFft kx (.cplx u) (.int 1) = .ok (.cplx v1) ∧ dxFft kx (.cplx u) (.int 1) = .ok (.cplx v2) ∧
      v.get [1, 3] = 2 * v1.get [1, 3] + 3 * v2.get [1, 3]) ∧
    ∃ v w v', dxFft kx (.cplx u) (.int 1) = .ok (.cplx v) ∧ dxFft kx (.cplx v) (.int 1) = .ok (.cplx w) ∧
      dxFft kx (.cplx u) (.int 2) = .ok (.cplx v') ∧ w.get [1, 3] = v'.get [1, 3] := by
  obtain ⟨v, v1, v2, a1, a2, a3, -, a4⟩ := C45_linear (s := [2]) (N := 4) (by norm_num) hk hu hu 2 3 1
  obtain ⟨w, w1, w2, b1, b2, b3, -, b4⟩ := C45_compose (s := [2]) (N := 4) (by norm_num) hk hu 1 1
  exact ⟨⟨v, v1, v2, a1, a2, a3, a4 [1] 3 (by norm_num)⟩, w, w1, w2, b1, b2, b3, b4 [1] 3 (by norm_num)⟩

example (kx : NdArr ℝ) : dxFft kx (.real (.ofList [1, 2, 3, 4])) (.int 1) = dxFft kx (.cplx (.ofList [1, 2, 3, 4])) (.int 1) := by
  rw [C45_real_same kx [1, 2, 3, 4] 1 one_ne_zero]
  norm_num

example : ∃ x kx v, constructXKxRfft id (.int 4) (0 : ℝ) 1 = .ok (x, kx) ∧
    dxRfft (.ofList kx) (.real (.ofList (x.map (realTrigPoly 2 0 1 0 (fun m => if m = 1 then 1 else 0) 0)))) (.int 1) = .ok v ∧
    ∀ j < 4, v.get [j] = iteratedDeriv 1 (realTrigPoly 2 0 1 0 (fun m => if m = 1 then 1 else 0) 0) (x.getD j 0) := by
  obtain ⟨v, h1, -, h2⟩ := C46_exact (C42_rfft 0 (a := 0) (b := 1) (by norm_num)) 2 (gridPoints_length _ _ _)
    0 (fun m => if m = 1 then 1 else 0) 0 1
  exact ⟨_, _, v, C42_rfft 0 (by norm_num), h1, fun j hj => h2 j (by rw [gridPoints_length]; exact hj)⟩

example (kx : NdArr ℝ) (hk : kx.shape = [2, 3]) (u : NdArr ℝ) (hu : u.shape = [2, 4]) :
    ∃ v v1 v2, dxRfft kx (.real ⟨[2, 4], fun i => 2 * u.get i + 3 * u.get i⟩) (.int 1) = .ok v ∧
      dxRfft kx (.real u) (.int 1) = .ok v1 ∧ dxRfft kx (.real u) (.int 1) = .ok v2 ∧
      v.get [1, 3] = 2 * v1.get [1, 3] + 3 * v2.get [1, 3] := by
  obtain ⟨v, v1, v2, a1, a2, a3, -, a4⟩ := C46_linear (s := [2]) (N := 4) (by norm_num) (by norm_num) hk hu hu 2 3 1
  exact ⟨v, v1, v2, a1, a2, a3, a4 [1] 3 (by norm_num)⟩

/-- The two derivatives of the samples `1, -1, 1, -1` differ. -/
example : ∃ x kx kx' v w, constructXKxRfft id (.int 4) (0 : ℝ) 1 = .ok (x, kx) ∧ constructXKxFft id (.int 4) (0 : ℝ) 1 = .ok (x, kx') ∧
    dxRfft (.ofList kx) (.real (.ofList [1, -1, 1, -1])) (.int 1) = .ok v ∧
    dxFft (.ofList kx') (.cplx (.ofList ([1, -1, 1, -1].map Complex.ofReal))) (.int 1) = .ok (.cplx w) ∧
    ¬ ∀ j < 4, w.get [j] = (v.get [j] : ℂ) := by
  obtain ⟨-, v, w, h1, h2, h⟩ := C46_agrees (C42_rfft 0 (a := 0) (b := 1) (by norm_num)) (C42_fft 0 (a := 0) (b := 1) (by norm_num))
    [1, -1, 1, -1] (by rw [gridPoints_length]; rfl) 1
  refine ⟨_, _, _, v, w, C42_rfft 0 (by norm_num), C42_fft 0 (by norm_num), h1, h2, fun hall => ?_⟩
  rw [gridPoints_length] at h
  have := h.1 hall
  simp [altSum, sum_range_succ] at this
  norm_num at this

end Verif
