import Verif.Props.FloatCoefs
import Verif.Lemmas.FloatAdvection
import Verif.Lemmas.FloatArith
import Verif.Lemmas.FloatKx
import Verif.Lemmas.FloatDeriv
import Verif.Spec.Rounded

/-!
# C84: rounding errors of the model problems, of the wavenumbers and of the Fourier derivatives

`kdv_ops`, `burgers_ops`, `allen_cahn_ops`, `construct_x_kx_rfft`, `construct_x_kx_fft`, `dx_rfft` and `dx_fft` with inexact operations and
transforms return what they return in exact arithmetic, up to explicit multiples of the accuracy of the operations.
-/

set_option linter.unusedSectionVars false

namespace Verif

open Finset

variable {M : ℕ} {A : CArith} {B : RArith} {F : FftLib} {ρ R κ b : ℝ}

/-- Rounding after each operation is accurate, whatever the size of the numbers. -/
theorem RArith.numpy_within {rnd : ℝ → ℝ} {u : ℝ} (hr : ∀ x, |rnd x - x| ≤ u * |x|) (hu : 0 ≤ u) (R : ℝ) : (RArith.numpy rnd).Within u R where
  add x y _ _ _ := (hr _).trans (mul_le_mul_of_nonneg_left (by linarith [abs_add_le x y]) hu)
  mul x y _ _ _ := (hr _).trans (mul_le_mul_of_nonneg_left (by linarith) hu)
  pow x n _ _ _ := (hr _).trans (mul_le_mul_of_nonneg_left (by linarith) hu)

/-! ### The nonlinear functions -/

/-- **C84.** The nonlinear function of `kdv_ops` in floating point: for spectra with entries up to `b` and wavenumbers up to `κ` it neither
raises nor differs from the exact one by more than `2200 M (1 + κ) (1 + b)²` times the accuracy of operations and transforms. -/
theorem C84_kdv_nl (hM : M ≠ 0) (hA : A.Within ρ R) (hB : B.Within ρ R) (hF : F.Within (2 * M) ρ R) (hρ : 0 ≤ ρ) (hρ1 : ρ ≤ 1)
    {kx : Fin (M + 1) → ℝ} (hκ : ∀ m, |kx m| ≤ κ) {uf : Vec (Fin (M + 1))} (hb : ∀ m, ‖uf m‖ ≤ b)
    (hR : 1100 * M * ((1 + κ) * (1 + b) ^ 2) ≤ R) :
    ∃ v v', kdvNl kx uf = .ok v ∧ flKdvNl A B F kx uf = .ok v' ∧ ∀ m, ‖v' m - v m‖ ≤ 2200 * M * ((1 + κ) * (1 + b) ^ 2) * ρ := by
  have h0 : 0 ≤ κ := (abs_nonneg _).trans (hκ 0)
  have h1 : 0 ≤ b := (norm_nonneg _).trans (hb 0)
  have hM1 : (1 : ℝ) ≤ M := by exact_mod_cast Nat.one_le_iff_ne_zero.2 hM
  have hS1 : 1 ≤ (1 + κ) * (1 + b) ^ 2 := one_le_mul_of_one_le_of_one_le (by linarith) (one_le_pow₀ (by linarith))
  obtain ⟨v, v', e, e', hv, hd⟩ := flAdvection_near hM hA hB hF hρ hρ1 hκ hb (by nlinarith)
  set S := (1 + κ) * (1 + b) ^ 2
  have hMS : 1 ≤ M * S := one_le_mul_of_one_le_of_one_le hM1 hS1
  refine ⟨_, _, by rw [kdvNl, e], by rw [flKdvNl, e'], fun m => ?_⟩
  have hn : ‖v' m‖ ≤ 182 * (M * S) := (norm_le_of_near (hv m) (hd m)).trans (by nlinarith)
  have h6 : ‖(-6 : ℂ)‖ = 6 := by norm_num
  have := hA.mul_near hρ (x := -6) (x' := -6) (y := v m) (y' := v' m) (a := 6) (d := 0) (by rw [h6]) hn (by nlinarith) (by nlinarith)
    (by nlinarith) (by simp) (hd m)
  refine this.trans ?_
  rw [h6]
  nlinarith [mul_nonneg hρ (show (0 : ℝ) ≤ M * S - 1 by linarith)]

/-- **C84.** The nonlinear function of `burgers_ops` in floating point. -/
theorem C84_burgers_nl (hM : M ≠ 0) (hA : A.Within ρ R) (hB : B.Within ρ R) (hF : F.Within (2 * M) ρ R) (hρ : 0 ≤ ρ) (hρ1 : ρ ≤ 1)
    {kx : Fin (M + 1) → ℝ} (hκ : ∀ m, |kx m| ≤ κ) {uf : Vec (Fin (M + 1))} (hb : ∀ m, ‖uf m‖ ≤ b)
    (hR : 100 * M * ((1 + κ) * (1 + b) ^ 2) ≤ R) :
    ∃ v v', burgersNl kx uf = .ok v ∧ flBurgersNl A B F kx uf = .ok v' ∧ ∀ m, ‖v' m - v m‖ ≤ 180 * M * ((1 + κ) * (1 + b) ^ 2) * ρ := by
  obtain ⟨v, v', e, e', -, hd⟩ := flAdvection_near hM hA hB hF hρ hρ1 hκ hb hR
  refine ⟨_, _, by rw [burgersNl, e], by rw [flBurgersNl, e'], fun m => ?_⟩
  rw [neg_sub_neg, norm_sub_rev]
  exact hd m

/-- **C84.** The nonlinear function of `allen_cahn_ops` in floating point, on any grid with points up to `κ`. -/
theorem C84_allen_cahn_nl {k : ℕ} (hA : A.Within ρ R) (hρ : 0 ≤ ρ) (hρ1 : ρ ≤ 1) {x : Fin (k + 2) → ℝ} (hκ : ∀ i, |x i| ≤ κ) {u : Vec (Fin k)}
    (hb : ∀ i, ‖u i‖ ≤ b) (hb0 : 0 ≤ b) (hR : 20 * (1 + κ + b) ^ 3 ≤ R) :
    ∃ v v', allenCahnNl x u = .ok v ∧ flAllenCahnNl A x u = .ok v' ∧ ∀ i, ‖v' i - v i‖ ≤ 34 * (1 + κ + b) ^ 3 * ρ := by
  refine ⟨_, _, rfl, rfl, fun i => ?_⟩
  have h0 : 0 ≤ κ := (abs_nonneg _).trans (hκ 0)
  set s := 1 + κ + b with hs
  have hs1 : 1 ≤ s := by linarith
  have hs2 : s ≤ s ^ 2 := by nlinarith
  have hs3 : s ^ 2 ≤ s ^ 3 := by nlinarith [sq_nonneg s]
  set c : ℂ := (x (interior i) : ℂ) with hc
  have hcn : ‖c‖ ≤ κ := by rw [hc, Complex.norm_real]; exact hκ _
  set w := u i + c with hw
  have hwn : ‖w‖ ≤ b + κ := (norm_add_le _ _).trans (add_le_add (hb i) hcn)
  have a1 : ‖A.add (u i) c - w‖ ≤ s * ρ := by
    have := hA.add (u i) c ((hb i).trans (by nlinarith)) (hcn.trans (by nlinarith)) (hwn.trans (by nlinarith))
    exact this.trans (by nlinarith [hb i])
  set w' := A.add (u i) c with hw'
  have a2 : ‖w'‖ ≤ 2 * s := (norm_le_of_near hwn a1).trans (by nlinarith)
  have a3 : ‖w' ^ 3‖ ≤ 8 * s ^ 3 := by
    rw [norm_pow]; exact (pow_le_pow_left₀ (norm_nonneg _) a2 3).trans (by nlinarith)
  have a4 : ‖A.pow w' 3 - w' ^ 3‖ ≤ 9 * s ^ 3 * ρ := by
    have := hA.pow w' 3 (a2.trans (by nlinarith)) (a3.trans (by nlinarith)) le_rfl
    exact this.trans (by nlinarith)
  have a5 : ‖w' ^ 3 - w ^ 3‖ ≤ 7 * s ^ 3 * ρ := by
    rw [show w' ^ 3 - w ^ 3 = (w' - w) * (w' ^ 2 + w' * w + w ^ 2) by ring, norm_mul]
    have hq : ‖w' ^ 2 + w' * w + w ^ 2‖ ≤ 7 * s ^ 2 := by
      have hw1 : ‖w‖ ≤ s := hwn.trans (by linarith)
      refine (norm_add₃_le).trans ?_
      rw [norm_pow, norm_mul, norm_pow]
      nlinarith [norm_nonneg w, norm_nonneg w']
    calc ‖w' - w‖ * ‖w' ^ 2 + w' * w + w ^ 2‖ ≤ s * ρ * (7 * s ^ 2) := mul_le_mul a1 hq (norm_nonneg _) (by positivity)
      _ = 7 * s ^ 3 * ρ := by ring
  have a6 : ‖A.pow w' 3 - w ^ 3‖ ≤ 16 * s ^ 3 * ρ := by
    refine (norm_sub_le_norm_sub_add_norm_sub _ (w' ^ 3) _).trans ?_
    linarith
  have a7 : ‖A.pow w' 3‖ ≤ 17 * s ^ 3 := by
    have h3 : ‖A.pow w' 3‖ ≤ 8 * s ^ 3 + 9 * s ^ 3 * ρ := norm_le_of_near a3 a4
    nlinarith [pow_pos (show 0 < s by linarith) 3]
  have a8 := hA.sub c (A.pow w' 3) (hcn.trans (by nlinarith)) (a7.trans (by nlinarith)) ((norm_sub_le _ _).trans (by nlinarith))
  calc ‖A.sub c (A.pow w' 3) - (c - w ^ 3)‖ ≤ ‖A.sub c (A.pow w' 3) - (c - A.pow w' 3)‖ + ‖c - A.pow w' 3 - (c - w ^ 3)‖ :=
        norm_sub_le_norm_sub_add_norm_sub _ _ _
    _ ≤ ρ * (1 + ‖c‖ + ‖A.pow w' 3‖) + 16 * s ^ 3 * ρ := by
        refine add_le_add a8 ?_
        rw [sub_sub_sub_cancel_left, norm_sub_rev]; exact a6
    _ ≤ 34 * s ^ 3 * ρ := by nlinarith

/-! ### The linear operators -/

/-- **C84.** The linear operator of `kdv_ops` in floating point. -/
theorem C84_kdv_lin (hA : A.Within ρ R) (hB : B.Within ρ R) (hρ : 0 ≤ ρ) (hρ1 : ρ ≤ 1) {kx : Fin (M + 1) → ℝ} (hκ : ∀ m, |kx m| ≤ κ)
    (hR : 3 * (1 + κ) ^ 3 ≤ R) (m : Fin (M + 1)) : ‖flKdvLin A B kx m - kdvLin kx m‖ ≤ 4 * (1 + κ) ^ 3 * ρ := by
  have h0 : 0 ≤ κ := (abs_nonneg _).trans (hκ 0)
  have h3 : |kx m ^ 3| ≤ κ ^ 3 := by rw [abs_pow]; exact pow_le_pow_left₀ (abs_nonneg _) (hκ m) 3
  have hs : 1 + κ + κ ^ 3 ≤ (1 + κ) ^ 3 := by nlinarith [pow_nonneg h0 2]
  have hk3 : 0 ≤ κ ^ 3 := by positivity
  have p1 : |B.pow (kx m) 3 - kx m ^ 3| ≤ (1 + κ) ^ 3 * ρ := by
    have := hB.pow (kx m) 3 ((hκ m).trans (by linarith)) (h3.trans (by linarith)) le_rfl
    exact this.trans (by nlinarith)
  have p2 : |B.pow (kx m) 3| ≤ 2 * (1 + κ) ^ 3 := (norm_le_of_near (E := ℝ) h3 p1).trans (by nlinarith)
  have := hA.mul_near hρ (x := Complex.I) (x' := Complex.I) (y := (kx m : ℂ) ^ 3) (y' := (B.pow (kx m) 3 : ℂ)) (a := 1) (d := 0)
    (b := 2 * (1 + κ) ^ 3) (e := (1 + κ) ^ 3 * ρ) (by simp) (by rwa [Complex.norm_real]) (by linarith) (by linarith) (by linarith) (by simp)
    (by rw [← Complex.ofReal_pow, ← Complex.ofReal_sub, Complex.norm_real]; exact p1)
  refine this.trans ?_
  rw [Complex.norm_I]
  nlinarith

/-- **C84.** The linear operator of `burgers_ops` in floating point. -/
theorem C84_burgers_lin (hB : B.Within ρ R) (hρ : 0 ≤ ρ) (hρ1 : ρ ≤ 1) {kx : Fin (M + 1) → ℝ} (hκ : ∀ m, |kx m| ≤ κ) {mu : ℝ}
    (hR : 2 * ((1 + |mu|) * (1 + κ ^ 2)) ≤ R) (m : Fin (M + 1)) :
    ‖flBurgersLin B kx mu m - burgersLin kx mu m‖ ≤ 3 * ((1 + |mu|) * (1 + κ ^ 2)) * ρ := by
  have h0 : 0 ≤ κ := (abs_nonneg _).trans (hκ 0)
  have hmu := abs_nonneg mu
  have hk2 : 0 ≤ κ ^ 2 := by positivity
  have hmk := mul_nonneg hmu hk2
  have h2 : |kx m ^ 2| ≤ κ ^ 2 := by rw [abs_pow]; exact pow_le_pow_left₀ (abs_nonneg _) (hκ m) 2
  have hκ2 : κ ≤ 1 + κ ^ 2 := by nlinarith [sq_nonneg (κ - 1)]
  have p1 : |B.pow (kx m) 2 - kx m ^ 2| ≤ (1 + κ ^ 2) * ρ := by
    have := hB.pow (kx m) 2 ((hκ m).trans (by nlinarith)) (h2.trans (by nlinarith)) (by norm_num)
    exact this.trans (by nlinarith)
  have p2 : |B.pow (kx m) 2| ≤ 2 * (1 + κ ^ 2) := (norm_le_of_near (E := ℝ) h2 p1).trans (by nlinarith)
  have hn : |(-mu)| ≤ |mu| := (abs_neg mu).le
  have := hB.mul_near hρ (x := -mu) (x' := -mu) (y := kx m ^ 2) (y' := B.pow (kx m) 2) (a := |mu|) (d := 0)
    (b := 2 * (1 + κ ^ 2)) (e := (1 + κ ^ 2) * ρ) hn p2 (by nlinarith) (by nlinarith) (by nlinarith) (by simp) p1
  have e : flBurgersLin B kx mu m - burgersLin kx mu m = ((B.mul (-mu) (B.pow (kx m) 2) - -mu * kx m ^ 2 : ℝ) : ℂ) := by
    simp only [flBurgersLin, burgersLin]; push_cast; rfl
  rw [e, Complex.norm_real, Real.norm_eq_abs]
  refine this.trans ?_
  rw [abs_neg]
  nlinarith [mul_nonneg hρ hmk, mul_nonneg hρ hmu, mul_nonneg hρ hk2]

/-- **C84.** The linear operator of `allen_cahn_ops` in floating point, if the product `D2` of the differentiation matrix with itself is
computed as accurately as the rest. -/
theorem C84_allen_cahn_lin {k : ℕ} {d : ℝ} (hB : B.Within ρ R) (hρ : 0 ≤ ρ) (hρ1 : ρ ≤ 1) {D D2 : Matrix (Fin (k + 2)) (Fin (k + 2)) ℝ}
    (hd : ∀ i j, |(D * D) i j| ≤ d) (hD : ∀ i j, |D2 i j - (D * D) i j| ≤ ρ * (1 + d)) {eps : ℝ}
    (hR : 5 * ((1 + |eps|) * (1 + d)) ≤ R) (i j : Fin k) :
    |flAllenCahnLin B D2 eps i j - allenCahnLin D eps i j| ≤ 10 * ((1 + |eps|) * (1 + d)) * ρ := by
  have h0 : 0 ≤ d := (abs_nonneg _).trans (hd 0 0)
  have he := abs_nonneg eps
  have hed := mul_nonneg he h0
  have p1 := hD (interior i) (interior j)
  set x := (D * D) (interior i) (interior j)
  set x' := D2 (interior i) (interior j)
  have p2 : |x'| ≤ 2 * (1 + d) := (norm_le_of_near (E := ℝ) (hd _ _) p1).trans (by nlinarith)
  have p3 := hB.mul_near hρ (x := eps) (x' := eps) (y := x) (y' := x') (a := |eps|) (d := 0) (b := 2 * (1 + d)) le_rfl p2
    (by nlinarith) (by nlinarith) (by nlinarith) (by simp) p1
  have p4 : |B.mul eps x' - eps * x| ≤ 3 * ((1 + |eps|) * (1 + d)) * ρ := by
    refine p3.trans ?_
    nlinarith [mul_nonneg hρ hed, mul_nonneg hρ he, mul_nonneg hρ h0]
  have p5 : |eps * x| ≤ (1 + |eps|) * (1 + d) - 1 := by
    rw [abs_mul]
    nlinarith [mul_le_mul_of_nonneg_left (hd (interior i) (interior j)) he]
  have hP : 1 ≤ (1 + |eps|) * (1 + d) := one_le_mul_of_one_le_of_one_le (by linarith) (by linarith)
  have p6 : |B.mul eps x'| ≤ 4 * ((1 + |eps|) * (1 + d)) - 1 := (norm_le_of_near (E := ℝ) p5 p4).trans (by nlinarith)
  set δ : ℝ := if interior i = interior j then 1 else 0 with hδ
  have hδ1 : |δ| ≤ 1 := by rw [hδ]; split_ifs <;> simp
  have p7 := hB.add (B.mul eps x') δ (by linarith) (by linarith) ((abs_add_le _ _).trans (by linarith))
  have e : allenCahnLin D eps i j = eps * x + δ := by
    simp [allenCahnLin, Matrix.one_apply, hδ, x]
  rw [e, flAllenCahnLin]
  calc |B.add (B.mul eps x') δ - (eps * x + δ)| ≤ |B.add (B.mul eps x') δ - (B.mul eps x' + δ)| + |B.mul eps x' + δ - (eps * x + δ)| :=
        abs_sub_le _ _ _
    _ ≤ ρ * (1 + |B.mul eps x'| + |δ|) + 3 * ((1 + |eps|) * (1 + d)) * ρ := by
        refine add_le_add p7 ?_
        rwa [add_sub_add_right_eq_sub]
    _ ≤ 10 * ((1 + |eps|) * (1 + d)) * ρ := by nlinarith

/-! ### The wavenumbers -/

theorem RelNear.dx_ne {rnd : ℝ → ℝ} {u : ℝ} (hr : ∀ x, |rnd x - x| ≤ u * |x|) (hu : 0 ≤ u) (hu1 : u < 1) {n : ℕ} (hn : n ≠ 0) {a b : ℝ}
    (hab : a ≠ b) : rnd (rnd (b - a) / n) ≠ 0 :=
  ((((RelNear.refl (b - a)).round hr hu hu1).div hu1 (RelNear.refl (n : ℝ))).round hr hu hu1).ne_zero hu1
    (div_ne_zero (sub_ne_zero.2 hab.symm) (by exact_mod_cast hn))

/-- **C84.** `construct_x_kx_rfft` in floating point: for every even `n > 2` and every interval the `n / 2 + 1` wavenumbers are
`2π i / (b - a)` with a relative error of at most ten roundings. -/
theorem C84_kx_rfft {rnd : ℝ → ℝ} {u : ℝ} (hr : ∀ x, |rnd x - x| ≤ u * |x|) (hu : 0 ≤ u) (hu1 : u ≤ 1 / 100) {n : ℕ} (hn : 2 < n) (he : n % 2 = 0)
    {a b : ℝ} (hab : a ≠ b) :
    ∃ x kx, flConstructXKxRfft rnd (.int n) a b = .ok (x, kx) ∧ kx.length = n / 2 + 1 ∧
      ∀ i ≤ n / 2, ∃ k, kx[i]? = some k ∧ |k - 2 * Real.pi * i / (b - a)| ≤ 10 * u * |2 * Real.pi * i / (b - a)| := by
  have hd := RelNear.dx_ne hr hu (by linarith) (n := n) (by omega) hab
  have hc : checkGridSize (.int n) = .ok n := by
    rw [checkGridSize, if_neg (by omega)]
    rfl
  refine ⟨npArange rnd a b (rnd (rnd (b - a) / n)), flKxRfft (RArith.numpy rnd) n (rnd (rnd (b - a) / n)), ?_, ?_, fun i hi => ?_⟩
  · unfold flConstructXKxRfft
    rw [hc]
    change (if rnd (rnd (b - a) / n) = 0 then _ else _ : Except PyErr _) = _
    rw [if_neg hd]
    rfl
  · simp [flKxRfft]
  · refine ⟨_, ?_, flKx_error hr hu hu1 (n := n) (by omega) a b i⟩
    rw [flKxRfft, List.getElem?_map, List.getElem?_range (by omega)]
    rfl

/-- **C84.** `construct_x_kx_fft` in floating point: the `n` wavenumbers are those of `0, …, n/2 - 1, -n/2, …, -1`. -/
theorem C84_kx_fft {rnd : ℝ → ℝ} {u : ℝ} (hr : ∀ x, |rnd x - x| ≤ u * |x|) (hu : 0 ≤ u) (hu1 : u ≤ 1 / 100) {n : ℕ} (hn : 2 < n) (he : n % 2 = 0)
    {a b : ℝ} (hab : a ≠ b) :
    ∃ x kx, flConstructXKxFft rnd (.int n) a b = .ok (x, kx) ∧ kx.length = n ∧
      ∀ i < n, ∃ k, kx[i]? = some k ∧ |k - 2 * Real.pi * (if i < n / 2 then (i : ℝ) else i - n) / (b - a)|
        ≤ 10 * u * |2 * Real.pi * (if i < n / 2 then (i : ℝ) else i - n) / (b - a)| := by
  have hd := RelNear.dx_ne hr hu (by linarith) (n := n) (by omega) hab
  have hc : checkGridSize (.int n) = .ok n := by
    rw [checkGridSize, if_neg (by omega)]
    rfl
  refine ⟨npArange rnd a b (rnd (rnd (b - a) / n)), flKxFft (RArith.numpy rnd) n (rnd (rnd (b - a) / n)), ?_, ?_, fun i hi => ?_⟩
  · unfold flConstructXKxFft
    rw [hc]
    change (if rnd (rnd (b - a) / n) = 0 then _ else _ : Except PyErr _) = _
    rw [if_neg hd]
    rfl
  · simp [flKxFft]; omega
  · refine ⟨_, ?_, flKx_error hr hu hu1 (n := n) (by omega) a b _⟩
    rw [flKxFft, List.getElem?_map]
    have hm : (n - 1) / 2 + 1 = n / 2 := by omega
    have : ((List.range ((n - 1) / 2 + 1)).map (fun i : ℕ => (i : ℝ)) ++ (List.range (n / 2)).map fun i : ℕ => (i : ℝ) - ((n / 2 : ℕ) : ℝ))[i]? =
        some (if i < n / 2 then (i : ℝ) else i - n) := by
      split_ifs with h
      · rw [List.getElem?_append_left (by simp; omega), List.getElem?_map, List.getElem?_range (by omega)]; rfl
      · rw [List.getElem?_append_right (by simp; omega), List.getElem?_map, List.getElem?_range (by simp; omega)]
        simp only [List.length_map, List.length_range, Option.map_some, Option.some.injEq, hm]
        have h2 : n = n / 2 + n / 2 := by omega
        rw [Nat.cast_sub (by omega)]
        have h3 : (n : ℝ) = ((n / 2 : ℕ) : ℝ) + ((n / 2 : ℕ) : ℝ) := by exact_mod_cast h2
        linarith
    rw [this]
    rfl

/-! ### The Fourier derivatives -/

/-- **C84.** `dx_rfft` in floating point, for arrays of any shape and every order: where a line of the argument has entries up to `b` and the
wavenumbers of that line are at most `κ`, the result is that of exact arithmetic up to
`(2 n + 26) (2 (1 + κ))ⁿ (1 + N b)` times the accuracy. -/
theorem C84_dx_rfft {s : List ℕ} {N n : ℕ} (hN : N ≠ 0) (hs0 : s.prod ≠ 0) (hn : n ≠ 0) (hA : A.Within ρ R) (hp : PowWithin A ρ R n)
    (hF : F.Within N ρ R) (hρ : 0 ≤ ρ) (hρ1 : ρ ≤ 1) {kx : NdArr ℝ} (hk : kx.shape = s ++ [N / 2 + 1]) {u : NdArr ℝ} (hu : u.shape = s ++ [N])
    (hR : 13 * ((2 * (1 + κ)) ^ n * (1 + N * b)) ≤ R) :
    ∃ v v', dxRfft kx (.real u) (.int n) = .ok v ∧ flDxRfft A F kx (.real u) (.int n) = .ok v' ∧ v'.shape = v.shape ∧
      ∀ idx, (∀ m ≤ N / 2, |kx.get (idx ++ [m])| ≤ κ) → (∀ j < N, |u.get (idx ++ [j])| ≤ b) →
        ∀ j < N, |v'.get (idx ++ [j]) - v.get (idx ++ [j])| ≤ (2 * n + 26) * ((2 * (1 + κ)) ^ n * (1 + N * b)) * ρ := by
  obtain ⟨v, e1, e2, e3⟩ := dxRfft_ok hN hs0 hk hu n
  obtain ⟨v', f1, f2, f3⟩ := flDxRfft_ok (A := A) (F := F) hN hs0 hk hu hn
  refine ⟨v, v', e1, f1, f2.trans e2.symm, fun idx hκ hb j hj => ?_⟩
  rw [e3 idx j hj, f3 idx j hj, rfftLine]
  have h0 : 0 ≤ κ := (abs_nonneg _).trans (hκ 0 (Nat.zero_le _))
  have h1 : 0 ≤ b := (abs_nonneg _).trans (hb j hj)
  have hN1 : (1 : ℝ) ≤ N := by exact_mod_cast Nat.one_le_iff_ne_zero.2 hN
  have hNb : 0 ≤ N * b := by positivity
  have hQ1 : 1 ≤ (2 * (1 + κ)) ^ n := one_le_pow₀ (by linarith)
  have hP1 : 1 + N * b ≤ (2 * (1 + κ)) ^ n * (1 + N * b) := le_mul_of_one_le_left (by linarith) hQ1
  have hbN : b ≤ N * b := le_mul_of_one_le_left h1 hN1
  have key (m : ℕ) (hm : m ≤ N / 2) := flEntry_near (n := n) hA hp hρ hρ1 (hκ m hm) (Z := 1 + N * b) (by linarith) hn
    ((norm_rfft1_le hb m).trans (by linarith)) (y' := F.rfft N (fun j => u.get (idx ++ [j])) m)
    ((hF.rfft _ b (by linarith) hb m hm).trans (mul_comm _ _).le) hR
  have := hF.irfft_near hR (fun m hm => (key m hm).2.2) (fun m hm => (key m hm).1) hj
  refine this.trans ?_
  have h2 := mul_le_mul_of_nonneg_left (show 1 ≤ (2 * (1 + κ)) ^ n * (1 + N * b) by linarith) hρ
  generalize (2 * (1 + κ)) ^ n * (1 + N * b) = P at *
  linarith

/-- **C84.** The same for `dx_fft`. -/
theorem C84_dx_fft {s : List ℕ} {N n : ℕ} (hN : N ≠ 0) (hn : n ≠ 0) (hA : A.Within ρ R) (hp : PowWithin A ρ R n)
    (hF : F.Within N ρ R) (hρ : 0 ≤ ρ) (hρ1 : ρ ≤ 1) {kx : NdArr ℝ} (hk : kx.shape = s ++ [N]) {u : NdArr ℂ} (hu : u.shape = s ++ [N])
    (hR : 13 * ((2 * (1 + κ)) ^ n * (1 + N * b)) ≤ R) :
    ∃ v v', dxFft kx (.cplx u) (.int n) = .ok (.cplx v) ∧ flDxFft A F kx (.cplx u) (.int n) = .ok (.cplx v') ∧ v'.shape = v.shape ∧
      ∀ idx, (∀ m < N, |kx.get (idx ++ [m])| ≤ κ) → (∀ j < N, ‖u.get (idx ++ [j])‖ ≤ b) →
        ∀ j < N, ‖v'.get (idx ++ [j]) - v.get (idx ++ [j])‖ ≤ (2 * n + 26) * ((2 * (1 + κ)) ^ n * (1 + N * b)) * ρ := by
  obtain ⟨v, e1, e2, e3⟩ := dxFft_ok hN hk hu n
  obtain ⟨v', f1, f2, f3⟩ := flDxFft_ok (A := A) (F := F) hN hk hu hn
  refine ⟨v, v', e1, f1, f2.trans e2.symm, fun idx hκ hb j hj => ?_⟩
  rw [e3 idx j hj, f3 idx j hj, fftLine]
  have h0 : 0 ≤ κ := (abs_nonneg _).trans (hκ j hj)
  have h1 : 0 ≤ b := (norm_nonneg _).trans (hb j hj)
  have hN1 : (1 : ℝ) ≤ N := by exact_mod_cast Nat.one_le_iff_ne_zero.2 hN
  have hNb : 0 ≤ N * b := by positivity
  have hQ1 : 1 ≤ (2 * (1 + κ)) ^ n := one_le_pow₀ (by linarith)
  have hP1 : 1 + N * b ≤ (2 * (1 + κ)) ^ n * (1 + N * b) := le_mul_of_one_le_left (by linarith) hQ1
  have hbN : b ≤ N * b := le_mul_of_one_le_left h1 hN1
  have key (m : ℕ) (hm : m < N) := flEntry_near (n := n) hA hp hρ hρ1 (hκ m hm) (Z := 1 + N * b) (by linarith) hn
    ((norm_fft1_le hb m).trans (by linarith)) (y' := F.fft N (fun j => u.get (idx ++ [j])) m)
    ((hF.fft _ b (by linarith) hb m hm).trans (mul_comm _ _).le) hR
  have := hF.ifft_near hR (fun m hm => (key m hm).2.2) (fun m hm => (key m hm).1) hj
  refine this.trans ?_
  have h2 := mul_le_mul_of_nonneg_left (show 1 ≤ (2 * (1 + κ)) ^ n * (1 + N * b) by linarith) hρ
  generalize (2 * (1 + κ)) ^ n * (1 + N * b) = P at *
  linarith

/-- **C84.** For every argument, `dx_rfft` raises in floating point what it raises in exact arithmetic, and otherwise returns an array of the
same shape. -/
theorem C84_dx_rfft_raises (A : CArith) (F : FftLib) (kx : NdArr ℝ) (u : NumArr) (n : PyVal ℝ) :
    (flDxRfft A F kx u n).map NdArr.shape = (dxRfft kx u n).map NdArr.shape := by
  rcases n with n | _ | _ | _ <;> try rfl
  unfold flDxRfft dxRfft
  dsimp only
  by_cases h : n < 0
  · rw [if_pos h, if_pos h]
  rw [if_neg h, if_neg h]
  rcases u with u | u
  swap
  · rfl
  dsimp only
  split_ifs with h1 h2 <;> try rfl
  unfold flNpRfft npRfft
  rcases u.shape.getLast? with _ | N
  · rfl
  by_cases hN : N = 0
  · simp only [hN, if_true]; rfl
  · simp only [hN, if_false]
    change (if kx.shape ≠ u.shape.dropLast ++ [N / 2 + 1] then _ else _ : Except PyErr (NdArr ℝ)).map _ =
      (if kx.shape ≠ u.shape.dropLast ++ [N / 2 + 1] then _ else _ : Except PyErr (NdArr ℝ)).map _
    split_ifs <;> rfl

/-- **C84.** The same for `dx_fft`; for real and complex arguments alike the result is complex unless the order is 0. -/
theorem C84_dx_fft_raises (A : CArith) (F : FftLib) (kx : NdArr ℝ) (u : NumArr) (n : PyVal ℝ) :
    (flDxFft A F kx u n).map (fun r => (r.toComplex.shape, r matches .cplx _)) = (dxFft kx u n).map (fun r => (r.toComplex.shape, r matches .cplx _)) := by
  rcases n with n | _ | _ | _ <;> try rfl
  unfold flDxFft dxFft
  dsimp only
  split_ifs with h h1 <;> try rfl
  unfold flNpFft npFft
  rcases u.toComplex.shape.getLast? with _ | N
  · rfl
  by_cases hN : N = 0
  · simp only [hN, if_true]; rfl
  · simp only [hN, if_false]
    change (if kx.shape ≠ u.toComplex.shape.dropLast ++ [N] then _ else _ : Except PyErr NumArr).map _ =
      (if kx.shape ≠ u.toComplex.shape.dropLast ++ [N] then _ else _ : Except PyErr NumArr).map _
    split_ifs <;> rfl

/-! ### Cases -/

/-- A real signal of length 4 with four wavenumbers instead of three: `ValueError`. -/
example : flDxRfft CArith.exact FftLib.exact ⟨[4], fun _ => 1⟩ (.real ⟨[4], fun _ => 1⟩) (.int 1) = .error .valueError := by
  have h := C84_dx_rfft_raises CArith.exact FftLib.exact ⟨[4], fun _ => 1⟩ (.real ⟨[4], fun _ => 1⟩) (.int 1)
  have h2 : dxRfft ⟨[4], fun _ => 1⟩ (.real ⟨[4], fun _ => 1⟩) (.int 1) = .error .valueError := rfl
  rw [h2] at h
  rcases e : flDxRfft CArith.exact FftLib.exact ⟨[4], fun _ => 1⟩ (.real ⟨[4], fun _ => 1⟩) (.int 1) with x | x
  · rw [e] at h; exact congrArg _ (Except.error.inj h)
  · rw [e] at h; cases h

/-- A zero-dimensional argument of `dx_fft`: `IndexError`. -/
example (A : CArith) (F : FftLib) : (flDxFft A F ⟨[4], fun _ => 1⟩ (.real ⟨[], fun _ => 1⟩) (.int 1)).map (fun r => (r.toComplex.shape, r matches .cplx _)) =
    .error .indexError := by
  rw [C84_dx_fft_raises]; rfl

/-- Exact transforms with rounded results. -/
noncomputable def FftLib.rounded (rnd : ℝ → ℝ) : FftLib where
  fft N u m := cround rnd (fft1 N u m)
  ifft N u m := cround rnd (ifft1 N u m)
  rfft N u m := cround rnd (rfft1 N u m)
  irfft N u m := rnd (irfft1 N u m)

theorem FftLib.rounded_within {rnd : ℝ → ℝ} {u : ℝ} (hr : ∀ x, |rnd x - x| ≤ u * |x|) (hu : 0 ≤ u) {N : ℕ} (hN : N ≠ 0) (R : ℝ) :
    (FftLib.rounded rnd).Within N (2 * u) R where
  fft y b _ h m hm := (cround_error hr hu _).trans (mul_le_mul_of_nonneg_left ((norm_fft1_le h m).trans (by linarith)) (by positivity))
  ifft y b _ h m hm := (cround_error hr hu _).trans (mul_le_mul_of_nonneg_left ((norm_ifft1_le hN h m).trans (by linarith)) (by positivity))
  rfft y b _ h m hm := (cround_error hr hu _).trans (mul_le_mul_of_nonneg_left ((norm_rfft1_le h m).trans (by linarith)) (by positivity))
  irfft y b _ h j hj := (hr _).trans (by
    have := abs_irfft1_le hN h j
    have := abs_nonneg (irfft1 N y j)
    nlinarith)

/-- NumPy's arithmetic with 53 bits. -/
noncomputable abbrev A64 : CArith := CArith.numpy rnd64 (seqSum rnd64)

noncomputable abbrev B64 : RArith := RArith.numpy rnd64

noncomputable abbrev F64 : FftLib := FftLib.rounded rnd64

theorem A64_within (R : ℝ) : A64.Within (120 * (1 / 2 ^ 53)) R := CArith.numpy_within rnd64_error (by positivity) (by norm_num) (seqSum_sumsTo _) R

theorem B64_within (R : ℝ) : B64.Within (120 * (1 / 2 ^ 53)) R where
  add x y _ _ _ := (rnd64_error _).trans (by nlinarith [abs_add_le x y, abs_nonneg x, abs_nonneg y])
  mul x y _ _ _ := (rnd64_error _).trans (by nlinarith [abs_nonneg (x * y)])
  pow x n _ _ _ := (rnd64_error _).trans (by nlinarith [abs_nonneg (x ^ n)])

theorem F64_within {N : ℕ} (hN : N ≠ 0) (R : ℝ) : F64.Within N (120 * (1 / 2 ^ 53)) R where
  fft y b _ h m hm := (cround_error rnd64_error (by positivity) _).trans (by
    have := norm_fft1_le h m
    have := norm_nonneg (fft1 N y m)
    nlinarith)
  ifft y b _ h m hm := (cround_error rnd64_error (by positivity) _).trans (by
    have := norm_ifft1_le hN h m
    have := norm_nonneg (ifft1 N y m)
    nlinarith)
  rfft y b _ h m hm := (cround_error rnd64_error (by positivity) _).trans (by
    have := norm_rfft1_le h m
    have := norm_nonneg (rfft1 N y m)
    nlinarith)
  irfft y b _ h j hj := (rnd64_error _).trans (by
    have := abs_irfft1_le hN h j
    have := abs_nonneg (irfft1 N y j)
    nlinarith)

/-- KdV with the wavenumbers `0, 1, 2` in double precision, for every spectrum in the unit ball. -/
example (uf : Vec (Fin 3)) (hu : ∀ m, ‖uf m‖ ≤ 1) : ∃ v v', kdvNl ![0, 1, 2] uf = .ok v ∧ flKdvNl A64 B64 F64 ![0, 1, 2] uf = .ok v' ∧
    ∀ m, ‖v' m - v m‖ ≤ 1 / 10 ^ 9 := by
  obtain ⟨v, v', e, e', h⟩ := C84_kdv_nl (κ := 2) two_ne_zero (A64_within _) (B64_within _) (F64_within (by norm_num) _) (by positivity) (by norm_num)
    (kx := ![0, 1, 2]) (by intro m; fin_cases m <;> norm_num) hu le_rfl
  exact ⟨v, v', e, e', fun m => (h m).trans (by norm_num)⟩

/-- Burgers likewise. -/
example (uf : Vec (Fin 3)) (hu : ∀ m, ‖uf m‖ ≤ 1) : ∃ v v', burgersNl ![0, 1, 2] uf = .ok v ∧ flBurgersNl A64 B64 F64 ![0, 1, 2] uf = .ok v' ∧
    ∀ m, ‖v' m - v m‖ ≤ 1 / 10 ^ 9 := by
  obtain ⟨v, v', e, e', h⟩ := C84_burgers_nl (κ := 2) two_ne_zero (A64_within _) (B64_within _) (F64_within (by norm_num) _) (by positivity) (by norm_num)
    (kx := ![0, 1, 2]) (by intro m; fin_cases m <;> norm_num) hu le_rfl
  exact ⟨v, v', e, e', fun m => (h m).trans (by norm_num)⟩

/-- Allen–Cahn on the nodes `1, 1/2, -1/2, -1`. -/
example (u : Vec (Fin 2)) (hu : ∀ m, ‖u m‖ ≤ 1) : ∃ v v', allenCahnNl ![1, 1 / 2, -1 / 2, -1] u = .ok v ∧
    flAllenCahnNl A64 ![1, 1 / 2, -1 / 2, -1] u = .ok v' ∧ ∀ m, ‖v' m - v m‖ ≤ 1 / 10 ^ 9 := by
  obtain ⟨v, v', e, e', h⟩ := C84_allen_cahn_nl (κ := 1) (A64_within _) (by positivity) (by norm_num)
    (x := ![1, 1 / 2, -1 / 2, -1]) (by intro m; fin_cases m <;> norm_num [abs_of_nonneg, abs_of_neg]) hu zero_le_one le_rfl
  exact ⟨v, v', e, e', fun m => (h m).trans (by norm_num)⟩

/-- The linear operators in double precision. -/
example (m : Fin 3) : ‖flKdvLin A64 B64 ![0, 1, 2] m - kdvLin ![0, 1, 2] m‖ ≤ 1 / 10 ^ 9 ∧
    ‖flBurgersLin B64 ![0, 1, 2] (1 / 100) m - burgersLin ![0, 1, 2] (1 / 100) m‖ ≤ 1 / 10 ^ 9 :=
  ⟨(C84_kdv_lin (κ := 2) (A64_within _) (B64_within _) (by positivity) (by norm_num) (kx := ![0, 1, 2]) (by intro m; fin_cases m <;> norm_num)
    le_rfl m).trans (by norm_num),
   (C84_burgers_lin (κ := 2) (B64_within _) (by positivity) (by norm_num) (kx := ![0, 1, 2]) (by intro m; fin_cases m <;> norm_num)
    le_rfl m).trans (by rw [abs_of_pos (by norm_num)]; norm_num)⟩

example (i j : Fin 1) : |flAllenCahnLin B64 (!![1, -2, 1; 1, -2, 1; 1, -2, 1] : Matrix (Fin 3) (Fin 3) ℝ) (1 / 100) i j -
    allenCahnLin (!![3 / 2, -2, 1 / 2; 1 / 2, 0, -1 / 2; -1 / 2, 2, -3 / 2] : Matrix (Fin 3) (Fin 3) ℝ) (1 / 100) i j| ≤ 1 / 10 ^ 9 := by
  have e : (!![3 / 2, -2, 1 / 2; 1 / 2, 0, -1 / 2; -1 / 2, 2, -3 / 2] : Matrix (Fin 3) (Fin 3) ℝ) * !![3 / 2, -2, 1 / 2; 1 / 2, 0, -1 / 2; -1 / 2, 2, -3 / 2] =
      !![1, -2, 1; 1, -2, 1; 1, -2, 1] := by
    ext i j; fin_cases i <;> fin_cases j <;> simp [Matrix.mul_apply, Fin.sum_univ_succ] <;> norm_num
  refine (C84_allen_cahn_lin (k := 1) (d := 2) (B64_within _) (by positivity) (by norm_num) ?_ ?_ le_rfl i j).trans ?_
  · rw [e]; intro i j; fin_cases i <;> fin_cases j <;> norm_num
  · rw [e]; intro i j; rw [sub_self, abs_zero]; positivity
  · rw [abs_of_pos (by norm_num)]; norm_num

/-- The wavenumbers on `[-30, 30)` with 256 points in double precision. -/
example : ∃ x kx, flConstructXKxRfft rnd64 (.int 256) (-30) 30 = .ok (x, kx) ∧ kx.length = 129 ∧
    ∀ i ≤ (128 : ℕ), ∃ k, kx[i]? = some k ∧ |k - 2 * Real.pi * i / (30 - -30)| ≤ 10 * (1 / 2 ^ 53) * |2 * Real.pi * i / (30 - -30)| :=
  C84_kx_rfft rnd64_error (by positivity) (by norm_num) (n := 256) (by norm_num) (by norm_num) (by norm_num)

example : ∃ x kx, flConstructXKxFft rnd64 (.int 256) (-30) 30 = .ok (x, kx) ∧ kx.length = 256 ∧ ∃ k, kx[200]? = some k ∧ k < 0 := by
  obtain ⟨x, kx, e, hl, h⟩ := C84_kx_fft rnd64_error (by positivity) (by norm_num) (n := 256) (by norm_num) (by norm_num) (a := -30) (b := 30) (by norm_num)
  obtain ⟨k, h1, h2⟩ := h 200 (by norm_num)
  refine ⟨x, kx, e, hl, k, h1, ?_⟩
  rw [if_neg (by norm_num)] at h2
  have hp := Real.pi_pos
  have h3 : 2 * Real.pi * (((200 : ℕ) : ℝ) - ((256 : ℕ) : ℝ)) / (30 - -30) = -(28 / 15 * Real.pi) := by push_cast; ring
  rw [h3, abs_neg, abs_of_pos (show 0 < 28 / 15 * Real.pi by positivity)] at h2
  have := (abs_le.1 h2).2
  nlinarith

theorem A64_pow (R : ℝ) (n : ℕ) (hn : n ≤ 3) : PowWithin A64 (120 * (1 / 2 ^ 53)) R n := fun z h1 h2 => (A64_within R).pow z n h1 h2 hn

/-- The second derivative of two signals of length 4 in double precision. -/
example (u : NdArr ℝ) (hu : u.shape = [2, 4]) (hb : ∀ i j, |u.get [i, j]| ≤ 1) (kx : NdArr ℝ) (hk : kx.shape = [2, 3])
    (hκ : ∀ i m, kx.get [i, m] = m) : ∃ v v', dxRfft kx (.real u) (.int 2) = .ok v ∧ flDxRfft A64 F64 kx (.real u) (.int 2) = .ok v' ∧
      v'.shape = v.shape ∧ ∀ j < 4, |v'.get [1, j] - v.get [1, j]| ≤ 1 / 10 ^ 9 := by
  obtain ⟨v, v', e, e', hs, h⟩ := C84_dx_rfft (s := [2]) (N := 4) (n := 2) (κ := 2) (b := 1) (by norm_num) (by norm_num) (by norm_num) (A64_within _)
    (A64_pow _ 2 (by norm_num)) (F64_within (by norm_num) _) (by positivity) (by norm_num) (kx := kx) hk (u := u) hu le_rfl
  refine ⟨v, v', e, e', hs, fun j hj => (h [1] (fun m hm => ?_) (fun j _ => hb 1 j) j hj).trans (by norm_num)⟩
  change |kx.get [1, m]| ≤ 2
  rw [hκ, abs_of_nonneg (by positivity)]
  exact_mod_cast hm

example (u : NdArr ℂ) (hu : u.shape = [4]) (hb : ∀ j, ‖u.get [j]‖ ≤ 1) (kx : NdArr ℝ) (hk : kx.shape = [4])
    (hκ : ∀ m, |kx.get [m]| ≤ 2) : ∃ v v', dxFft kx (.cplx u) (.int 3) = .ok (.cplx v) ∧ flDxFft A64 F64 kx (.cplx u) (.int 3) = .ok (.cplx v') ∧
      v'.shape = v.shape ∧ ∀ j < 4, ‖v'.get [j] - v.get [j]‖ ≤ 1 / 10 ^ 9 := by
  obtain ⟨v, v', e, e', hs, h⟩ := C84_dx_fft (s := []) (N := 4) (n := 3) (κ := 2) (b := 1) (by norm_num) (by norm_num) (A64_within _)
    (A64_pow _ 3 (by norm_num)) (F64_within (by norm_num) _) (by positivity) (by norm_num) (kx := kx) hk (u := u) hu le_rfl
  exact ⟨v, v', e, e', hs, fun j hj => (h [] (fun m _ => hκ m) (fun j _ => hb j) j hj).trans (by norm_num)⟩

/-- Computed wavenumbers are not the exact ones: if every result is too large by one half, the first nonzero one
is `81/32 π` instead of `π / 2`. -/
example : (flKxRfft (RArith.numpy fun x => 3 / 2 * x) 4 1)[1]? = some (81 / 32 * Real.pi) := by
  simp [flKxRfft, RArith.numpy, List.range_succ]
  ring

end Verif
