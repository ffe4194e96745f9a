import Verif.Lemmas.Fourier
import Verif.Lemmas.Invariant
import Verif.Model.Models
import Verif.Props.History

/-!
# C52: the mean of KdV and Burgers runs
-/

set_option linter.unusedSectionVars false

namespace Verif

open Finset Matrix

variable {M : ℕ}

theorem advection_ok (hM : M ≠ 0) (kx : Fin (M + 1) → ℝ) (uf : Vec (Fin (M + 1))) :
    advection kx uf = .ok fun m => rfft1 (2 * M) (fun j => irfft1 (2 * M) (specExt uf) j *
      irfft1 (2 * M) (specExt fun m => Complex.I * (kx m : ℂ) * uf m) j) m := by
  rw [advection, if_neg hM]

theorem specExt_val (y : Vec (Fin (M + 1))) (m : Fin (M + 1)) : specExt y m = y m := by
  rw [specExt, dif_pos m.2]

theorem specExt_zero (y : Vec (Fin (M + 1))) : specExt y 0 = y 0 := specExt_val y 0

theorem specExt_last (y : Vec (Fin (M + 1))) : specExt y M = y (Fin.last M) := specExt_val y (Fin.last M)

/-- The mean of a product of two real signals, by Parseval's identity. -/
theorem sum_irfft1_mul {N : ℕ} (hN : N ≠ 0) (y z : ℕ → ℂ) :
    ((∑ j ∈ range N, irfft1 N y j * irfft1 N z j : ℝ) : ℂ) =
      (∑ m ∈ range N, herm N y m * (starRingEnd ℂ) (herm N z m)) / N := by
  rw [← sum_ifft1_mul_conj hN, Complex.ofReal_sum]
  refine sum_congr rfl fun j _ => ?_
  rw [← irfft1_eq_ifft1 hN, ← irfft1_eq_ifft1 hN, Complex.conj_ofReal, Complex.ofReal_mul]

theorem advection_zero (hM : M ≠ 0) (kx : Fin (M + 1) → ℝ) (uf v : Vec (Fin (M + 1))) (hv : advection kx uf = .ok v) :
    v 0 = ((-(kx 0 * ((uf 0).re * (uf 0).im) + kx (Fin.last M) * ((uf (Fin.last M)).re * (uf (Fin.last M)).im)) / (2 * M : ℕ) : ℝ)
      : ℂ) := by
  have hN : 2 * M ≠ 0 := by omega
  rw [advection_ok hM] at hv
  simp only [Except.ok.injEq] at hv
  rw [← hv]
  have h0 : ∀ u : ℕ → ℝ, rfft1 (2 * M) u ((0 : Fin (M + 1)) : ℕ) = ((∑ j ∈ range (2 * M), u j : ℝ) : ℂ) := by
    intro u
    rw [rfft1, fft1, Complex.ofReal_sum]
    refine sum_congr rfl fun j _ => ?_
    simp
  show rfft1 _ _ ((0 : Fin (M + 1)) : ℕ) = _
  rw [h0, sum_irfft1_mul hN, sum_range_pair hN]
  set y := specExt uf with hy
  set z := specExt fun m => Complex.I * (kx m : ℂ) * uf m with hz
  have hzy : ∀ m, 0 < m → m < M → z m = Complex.I * (specExt (fun m => (kx m : ℂ)) m) * y m := by
    intro m _ hm
    simp only [hz, hy, specExt]
    rw [dif_pos (by omega), dif_pos (by omega), dif_pos (by omega)]
  have hmid : ∑ m ∈ Ico 1 ((2 * M + 1) / 2), (herm (2 * M) y m * (starRingEnd ℂ) (herm (2 * M) z m) +
      herm (2 * M) y (2 * M - m) * (starRingEnd ℂ) (herm (2 * M) z (2 * M - m))) = 0 := by
    refine sum_eq_zero fun m hm => ?_
    simp only [mem_Ico] at hm
    have e1 : ∀ w, herm (2 * M) w m = w m := fun w => by rw [herm, if_neg (by omega), if_pos (by omega)]
    have e2 : ∀ w, herm (2 * M) w (2 * M - m) = (starRingEnd ℂ) (w m) := fun w => by
      rw [herm, if_neg (by omega), if_neg (by omega), if_neg (by omega)]
      congr 2; omega
    rw [e1, e1, e2, e2, hzy m (by omega) (by omega)]
    have hk : (starRingEnd ℂ) (specExt (fun m => (kx m : ℂ)) m) = specExt (fun m => (kx m : ℂ)) m := by
      rw [specExt, dif_pos (by omega), Complex.conj_ofReal]
    simp only [map_mul, map_neg, Complex.conj_I, hk, Complex.conj_conj]
    ring
  rw [hmid, if_pos (by omega)]
  have e0 : ∀ w, herm (2 * M) w 0 = ((w 0).re : ℂ) := fun w => by rw [herm, if_pos rfl]
  have eM : ∀ w, herm (2 * M) w (2 * M / 2) = ((w M).re : ℂ) := fun w => by
    rw [show 2 * M / 2 = M by omega, herm, if_neg hM, if_neg (by omega), if_pos rfl]
  rw [e0, e0, eM, eM, Complex.conj_ofReal, Complex.conj_ofReal, hy, hz, specExt_zero, specExt_zero, specExt_last, specExt_last]
  have hre : ∀ (k : ℝ) (w : ℂ), (Complex.I * (k : ℂ) * w).re = -(k * w.im) := by
    intro k w; simp [Complex.mul_re]
  rw [hre, hre]
  push_cast
  ring

/-- The Nyquist entry of the nonlinear terms is real. -/
theorem advection_last (hM : M ≠ 0) (kx : Fin (M + 1) → ℝ) (uf v : Vec (Fin (M + 1))) (hv : advection kx uf = .ok v) :
    (v (Fin.last M)).im = 0 := by
  have hN : 2 * M ≠ 0 := by omega
  rw [advection_ok hM] at hv
  simp only [Except.ok.injEq] at hv
  rw [← hv]
  show (rfft1 _ _ ((Fin.last M : Fin (M + 1)) : ℕ)).im = 0
  rw [Fin.val_last, rfft1]
  rw [← Complex.conj_eq_iff_im, ← fft1_real_conj hN _ (by omega)]
  congr 1; omega

/-- **C52.** The zero mode of `nl_func(uf)` for `kdv_ops(kx)` and `burgers_ops(kx, mu)`, with `kx[0] = 0` and `n = 2M` grid
points: only the Nyquist mode contributes, because `irfft` drops its imaginary part. -/
theorem C52_zero_mode (hM : M ≠ 0) (kx : Fin (M + 1) → ℝ) (hk : kx 0 = 0) (uf : Vec (Fin (M + 1))) :
    ∃ v w, kdvNl kx uf = .ok v ∧ burgersNl kx uf = .ok w ∧
      v 0 = (6 * (kx (Fin.last M) * ((uf (Fin.last M)).re * (uf (Fin.last M)).im)) / (2 * M : ℕ) : ℝ) ∧
      w 0 = (kx (Fin.last M) * ((uf (Fin.last M)).re * (uf (Fin.last M)).im) / (2 * M : ℕ) : ℝ) := by
  refine ⟨_, _, by rw [kdvNl, advection_ok hM], by rw [burgersNl, advection_ok hM], ?_, ?_⟩
  · have := advection_zero hM kx uf _ (advection_ok hM kx uf)
    simp only at this ⊢
    rw [this, hk]
    push_cast; ring
  · have := advection_zero hM kx uf _ (advection_ok hM kx uf)
    simp only at this ⊢
    rw [this, hk]
    push_cast; ring

/-- **C52.** Hence it is `0` exactly for the spectra whose Nyquist entry is real or purely imaginary, in particular for the
spectrum `rfft(u)` of every real `u`. -/
theorem C52_zero_mode_iff (hM : M ≠ 0) (kx : Fin (M + 1) → ℝ) (hk : kx 0 = 0) (hkM : kx (Fin.last M) ≠ 0)
    (uf : Vec (Fin (M + 1))) :
    (∃ v, kdvNl kx uf = .ok v ∧ v 0 = 0) ↔ (uf (Fin.last M)).re = 0 ∨ (uf (Fin.last M)).im = 0 := by
  obtain ⟨v, w, h1, -, h2, -⟩ := C52_zero_mode hM kx hk uf
  have hM' : ((2 * M : ℕ) : ℝ) ≠ 0 := by positivity
  rw [h1]
  simp only [Except.ok.injEq, exists_eq_left']
  rw [h2, Complex.ofReal_eq_zero]
  simp [hkM, hM]

/-- With the amplitude `1 + i` at the Nyquist mode the mean of the KdV term is not zero; with `i` it is. -/
example : (¬ ∃ v, kdvNl ![0, 1, 2] ![4, 1, 1 + Complex.I] = .ok v ∧ v 0 = 0) ∧
    (∃ v, kdvNl ![0, 1, 2] ![4, 1, Complex.I] = .ok v ∧ v 0 = 0) ∧
    ∃ w, burgersNl ![0, 1, 2] ![4, 1, 1 + Complex.I] = .ok w ∧ w 0 = (1 / 2 : ℝ) := by
  refine ⟨?_, ?_, ?_⟩
  · rw [C52_zero_mode_iff (M := 2) (by norm_num) _ rfl (by simp [show Fin.last 2 = 2 from rfl])]
    simp [show Fin.last 2 = 2 from rfl]
  · exact (C52_zero_mode_iff (M := 2) (by norm_num) _ rfl (by simp [show Fin.last 2 = 2 from rfl]) _).2
      (Or.inl (by simp [show Fin.last 2 = 2 from rfl]))
  · obtain ⟨v, w, -, h, -, h0⟩ := C52_zero_mode (M := 2) (by norm_num) ![0, 1, 2] rfl ![4, 1, 1 + Complex.I]
    refine ⟨w, h, h0.trans ?_⟩
    congr 1
    simp [show Fin.last 2 = 2 from rfl]
    norm_num

theorem C52_real_signal (hM : M ≠ 0) (kx : Fin (M + 1) → ℝ) (hk : kx 0 = 0) (u : ℕ → ℝ) :
    ∃ v w, kdvNl kx (fun m => rfft1 (2 * M) u m) = .ok v ∧ burgersNl kx (fun m => rfft1 (2 * M) u m) = .ok w ∧
      v 0 = 0 ∧ w 0 = 0 := by
  obtain ⟨v, w, h1, h2, h3, h4⟩ := C52_zero_mode hM kx hk fun m => rfft1 (2 * M) u m
  have him : (rfft1 (2 * M) u (Fin.last M)).im = 0 := by
    rw [Fin.val_last, rfft1, ← Complex.conj_eq_iff_im, ← fft1_real_conj (by omega) _ (by omega)]
    congr 1; omega
  refine ⟨v, w, h1, h2, ?_, ?_⟩
  · rw [h3, him]; simp
  · rw [h4, him]; simp

/-- The signal `1, 2, 0, 5`. -/
example : ∃ v, kdvNl ![0, 1, 2] (fun m => rfft1 4 (fun j => ([1, 2, 0, 5] : List ℝ).getD j 0) m) = .ok v ∧ v 0 = 0 := by
  obtain ⟨v, w, h, -, h0, -⟩ := C52_real_signal (M := 2) (by norm_num) ![0, 1, 2] rfl
    (fun j => ([1, 2, 0, 5] : List ℝ).getD j 0)
  exact ⟨v, h, h0⟩

/-! ### Burgers -/

theorem burgers_keeps (hM : M ≠ 0) (kx : Fin (M + 1) → ℝ) (hk : kx 0 = 0) (w : Vec (Fin (M + 1)))
    (hw : (w (Fin.last M)).im = 0) :
    ∃ n, burgersNl kx w = .ok n ∧ n 0 = 0 ∧ (n (Fin.last M)).im = 0 := by
  obtain ⟨-, n, -, h1, -, h2⟩ := C52_zero_mode hM kx hk w
  refine ⟨n, h1, by rw [h2, hw]; simp, ?_⟩
  rw [burgersNl, advection_ok hM] at h1
  simp only [Except.ok.injEq] at h1
  have := advection_last hM kx w _ (advection_ok hM kx w)
  rw [← h1]
  simpa using this

theorem burgersLin_real (kx : Fin (M + 1) → ℝ) (mu : ℝ) (m : Fin (M + 1)) : (burgersLin kx mu m).im = 0 := by
  rw [burgersLin, show (-(mu : ℂ) * (kx m : ℂ) ^ 2) = ((-mu * kx m ^ 2 : ℝ) : ℂ) by push_cast; ring, Complex.ofReal_im]

/-- **C52.** Burgers' equation with any constant-step solver: from a spectrum with a real Nyquist entry (such as `rfft(u)`), every
run keeps the zero mode, in the result and in all snapshots, whatever the step size, number of steps, rounding of the clock and
history of the solver. -/
theorem C52_burgers (hM : M ≠ 0) (kx : Fin (M + 1) → ℝ) (hk : kx 0 = 0) (mu : ℝ) (m : CSSolver (Fin (M + 1)))
    (hm : m.op = .diag (burgersLin kx mu)) (u : Vec (Fin (M + 1))) (hu : (u (Fin.last M)).im = 0) (rnd : ℝ → ℝ)
    (pyDiv : Bool) (fuel : ℕ) (t0 tf h : ℝ) (storeData : Bool) (freq : ℤ) (s : m.State) :
    (∀ v, (m.evolve (burgersNl kx) rnd pyDiv fuel u t0 tf h storeData freq s).1 = .ok (some v) → v 0 = u 0) ∧
    ∀ v ∈ (m.evolve (burgersNl kx) rnd pyDiv fuel u t0 tf h storeData freq s).2.u, v 0 = u 0 := by
  have := m.evolve_invariant (burgersNl kx) (fun v => v 0 = u 0 ∧ (v (Fin.last M)).im = 0) rnd pyDiv fuel u ⟨rfl, hu⟩ t0 tf h
    (fun w v hw hv => by
      obtain ⟨h1, h2⟩ := CSSolver.keep_step m hm (by simp [burgersLin, hk]) (burgersLin_real kx mu _) (burgers_keeps hM kx hk)
        h w v hw.2 hv
      exact ⟨h1.trans hw.1, h2⟩) storeData freq s
  exact ⟨fun v hv => (this.1 v hv).1, fun v hv => (this.2 v hv).1⟩

/-- **C52.** The same for every adaptive solver. -/
theorem C52_burgers_adaptive (hM : M ≠ 0) (kx : Fin (M + 1) → ℝ) (hk : kx 0 = 0) (mu : ℝ) (m : ASSolver (Fin (M + 1)))
    (hm : m.op = .diag (burgersLin kx mu)) (u : Vec (Fin (M + 1))) (hu : (u (Fin.last M)).im = 0) (rnd : ℝ → ℝ)
    (pyDiv : Bool) (cfg : SolverConfig ℝ) (fuel : ℕ) (t0 tf : ℝ) (hInit : Option ℝ) (storeData : Bool) (freq : ℤ)
    (s : m.State) :
    (∀ v, (m.evolve (burgersNl kx) rnd pyDiv cfg fuel u t0 tf hInit storeData freq s).1 = .ok (some v) → v 0 = u 0) ∧
    ∀ v ∈ (m.evolve (burgersNl kx) rnd pyDiv cfg fuel u t0 tf hInit storeData freq s).2.u, v 0 = u 0 := by
  have := m.evolve_invariant (burgersNl kx) (fun v => v 0 = u 0 ∧ (v (Fin.last M)).im = 0)
    (fun h w r hw hv => by
      obtain ⟨h1, h2⟩ := ASSolver.keep_trial m hm (by simp [burgersLin, hk]) (burgersLin_real kx mu _)
        (burgers_keeps hM kx hk) h w r hw.2 hv
      exact ⟨h1.trans hw.1, h2⟩) rnd pyDiv cfg fuel u ⟨rfl, hu⟩ t0 tf hInit storeData freq s
  exact ⟨fun v hv => (this.1 v hv).1, fun v hv => (this.2 v hv).1⟩

/-- **C52.** Single steps, of a solver that is new, reset or has just produced the array. -/
theorem C52_burgers_step (hM : M ≠ 0) (kx : Fin (M + 1) → ℝ) (hk : kx 0 = 0) (mu : ℝ) (m : CSSolver (Fin (M + 1)))
    (hm : m.op = .diag (burgersLin kx mu)) (u : Vec (Fin (M + 1))) (hu : (u (Fin.last M)).im = 0) (h : ℝ) (s : m.State)
    (hs : m.Follows (burgersNl kx) u s) (v : Vec (Fin (M + 1))) (hv : (m.step (burgersNl kx) u h s).1 = .ok v) :
    v 0 = u 0 ∧ (v (Fin.last M)).im = 0 :=
  m.step_invariant (burgersNl kx) (fun v => v 0 = u 0 ∧ (v (Fin.last M)).im = 0)
    (fun h w v hw hv => by
      obtain ⟨h1, h2⟩ := CSSolver.keep_step m hm (by simp [burgersLin, hk]) (burgersLin_real kx mu _) (burgers_keeps hM kx hk)
        h w v hw.2 hv
      exact ⟨h1.trans hw.1, h2⟩) u ⟨rfl, hu⟩ h hs.inv v hv

/-- **C52.** The same for adaptive steps. -/
theorem C52_burgers_adaptive_step (hM : M ≠ 0) (kx : Fin (M + 1) → ℝ) (hk : kx 0 = 0) (mu : ℝ) (m : ASSolver (Fin (M + 1)))
    (hm : m.op = .diag (burgersLin kx mu)) (u : Vec (Fin (M + 1))) (hu : (u (Fin.last M)).im = 0) (rnd : ℝ → ℝ)
    (cfg : SolverConfig ℝ) (h : ℝ) (s : m.State) (hs : m.Follows (burgersNl kx) u s) (v : Vec (Fin (M + 1))) (h1 h2 : ℝ)
    (hv : (m.step (burgersNl kx) rnd cfg u h s).1 = .ok (v, h1, h2)) : v 0 = u 0 ∧ (v (Fin.last M)).im = 0 :=
  m.step_invariant (burgersNl kx) (fun v => v 0 = u 0 ∧ (v (Fin.last M)).im = 0)
    (fun h w r hw hv => by
      obtain ⟨h1, h2⟩ := ASSolver.keep_trial m hm (by simp [burgersLin, hk]) (burgersLin_real kx mu _)
        (burgers_keeps hM kx hk) h w r hw.2 hv
      exact ⟨h1.trans hw.1, h2⟩) rnd cfg u ⟨rfl, hu⟩ h hs.ready v h1 h2 hv

example (cfg : ETDConfig ℝ) (scfg : SolverConfig ℝ) (v : Vec (Fin 3)) (h1 h2 : ℝ) :
    (((CSSolver.etd5 cfg (.diag (burgersLin ![0, 1, 2] 1))).step (burgersNl ![0, 1, 2]) ![4, 1 + Complex.I, 3] 0.1
      (CSSolver.etd5 cfg (.diag (burgersLin ![0, 1, 2] 1))).new).1 = .ok v → v 0 = 4) ∧
    (((ASSolver.etd35 cfg (.diag (burgersLin ![0, 1, 2] 1))).step (burgersNl ![0, 1, 2]) id scfg ![4, 1 + Complex.I, 3] 0.1
      (ASSolver.etd35 cfg (.diag (burgersLin ![0, 1, 2] 1))).new).1 = .ok (v, h1, h2) → v 0 = 4) ∧
    (((ASSolver.etd35 cfg (.diag (burgersLin ![0, 1, 2] 1))).evolve (burgersNl ![0, 1, 2]) id true scfg 100 ![4, 1 + Complex.I, 3]
      0 1 none true 1 (ASSolver.etd35 cfg (.diag (burgersLin ![0, 1, 2] 1))).new).1 = .ok (some v) → v 0 = 4) :=
  ⟨fun h => (C52_burgers_step (M := 2) (by norm_num) ![0, 1, 2] rfl 1 (.etd5 cfg (.diag (burgersLin ![0, 1, 2] 1))) rfl _
    (by simp [show Fin.last 2 = 2 from rfl]) 0.1 _ (.new _) v h).1,
   fun h => (C52_burgers_adaptive_step (M := 2) (by norm_num) ![0, 1, 2] rfl 1 (.etd35 cfg (.diag (burgersLin ![0, 1, 2] 1))) rfl _
    (by simp [show Fin.last 2 = 2 from rfl]) id scfg 0.1 _ (.new _) v h1 h2 h).1,
   fun h => (C52_burgers_adaptive (M := 2) (by norm_num) ![0, 1, 2] rfl 1 (.etd35 cfg (.diag (burgersLin ![0, 1, 2] 1))) rfl _
    (by simp [show Fin.last 2 = 2 from rfl]) id true scfg 100 0 1 none true 1 _).1 v h⟩

/-! ### KdV -/

/-- The spectrum with entries `a` in mode zero and `b` in the Nyquist mode. -/
def twoModes (M : ℕ) (a b : ℂ) : Vec (Fin (M + 1)) := fun m => if m = 0 then a else if m = Fin.last M then b else 0

theorem twoModes_zero (a b : ℂ) : twoModes M a b 0 = a := by simp [twoModes]

theorem last_ne_zero (hM : M ≠ 0) : Fin.last M ≠ 0 := fun h => hM (by simpa using congrArg Fin.val h)

theorem twoModes_last (hM : M ≠ 0) (a b : ℂ) : twoModes M a b (Fin.last M) = b := by simp [twoModes, last_ne_zero hM]

theorem twoModes_add (a b c d : ℂ) : twoModes M a b + twoModes M c d = twoModes M (a + c) (b + d) := by
  funext m; simp only [twoModes, Pi.add_apply]; split_ifs <;> simp

theorem twoModes_smul (r a b : ℂ) : r • twoModes M a b = twoModes M (r * a) (r * b) := by
  funext m; simp only [twoModes, Pi.smul_apply, smul_eq_mul]; split_ifs <;> simp

theorem twoModes_expm {L : Vec (Fin (M + 1))} (hL : L 0 = 0) (θ : ℝ) (a b : ℂ) :
    expm (diagonal L) θ *ᵥ twoModes M a b = twoModes M a (Complex.exp (θ * L (Fin.last M)) * b) := by
  funext m
  rw [expm_diagonal, mulVec_diagonal]
  simp only [twoModes]
  split_ifs with h1 h2
  · rw [h1, hL]; simp
  · rw [h2]
  · simp

theorem irfft1_twoModes {y : Vec (Fin (M + 1))} (hy : ∀ m, m ≠ 0 → m ≠ Fin.last M → y m = 0) (j : ℕ) :
    irfft1 (2 * M) (specExt y) j = ((y 0).re + (y (Fin.last M)).re * (-1) ^ j) / (2 * M : ℕ) := by
  rw [irfft1, sum_eq_zero, if_pos (by omega), show 2 * M / 2 = M by omega, specExt_zero, specExt_last, add_zero]
  intro m hm
  simp only [mem_Ico] at hm
  have : specExt y m = 0 := by
    rw [specExt, dif_pos (by omega)]
    refine hy _ (fun h => ?_) fun h => ?_
    · have := congrArg Fin.val h; simp at this; omega
    · have := congrArg Fin.val h; simp at this; omega
  rw [this]; simp

theorem advection_twoModes (hM : M ≠ 0) (kx : Fin (M + 1) → ℝ) (hk : kx 0 = 0) (a b : ℂ) :
    advection kx (twoModes M a b) = .ok (twoModes M ((-(kx (Fin.last M) * (b.re * b.im)) / (2 * M : ℕ) : ℝ) : ℂ)
      ((-(kx (Fin.last M) * (a.re * b.im)) / (2 * M : ℕ) : ℝ) : ℂ)) := by
  have hN : 2 * M ≠ 0 := by omega
  have hN' : ((2 * M : ℕ) : ℂ) ≠ 0 := Nat.cast_ne_zero.2 hN
  rw [advection_ok hM]
  congr 1
  funext m
  have e1 : ∀ j, irfft1 (2 * M) (specExt (twoModes M a b)) j = (a.re + b.re * (-1) ^ j) / (2 * M : ℕ) := by
    intro j
    rw [irfft1_twoModes (fun m h1 h2 => by simp [twoModes, h1, h2]), twoModes_zero, twoModes_last hM]
  have e2 : ∀ j, irfft1 (2 * M) (specExt fun m => Complex.I * (kx m : ℂ) * twoModes M a b m) j =
      (-(kx (Fin.last M) * b.im) * (-1) ^ j) / (2 * M : ℕ) := by
    intro j
    rw [irfft1_twoModes (fun m h1 h2 => by simp [twoModes, h1, h2]), twoModes_zero, twoModes_last hM, hk]
    simp [Complex.mul_re]
  simp only [e1, e2]
  rw [rfft1, fft1]
  have hterm : ∀ j : ℕ, ((((a.re + b.re * (-1) ^ j) / (2 * M : ℕ) * (-(kx (Fin.last M) * b.im) * (-1) ^ j / (2 * M : ℕ)) : ℝ)) : ℂ)
      * rootPow (2 * M) (-(j * (m : ℕ) : ℕ)) =
      ((-(kx (Fin.last M) * (b.re * b.im)) : ℝ) : ℂ) / (2 * M : ℕ) / (2 * M : ℕ) * rootPow (2 * M) ((j : ℤ) * ((0 : ℕ) - (m : ℕ) : ℤ)) +
      ((-(kx (Fin.last M) * (a.re * b.im)) : ℝ) : ℂ) / (2 * M : ℕ) / (2 * M : ℕ) *
        rootPow (2 * M) ((j : ℤ) * ((M : ℕ) - (m : ℕ) : ℤ)) := by
    intro j
    have h1 : rootPow (2 * M) ((j : ℤ) * ((M : ℕ) - (m : ℕ) : ℤ)) = (-1) ^ j * rootPow (2 * M) (-(j * (m : ℕ) : ℕ)) := by
      rw [← rootPow_half hM j, ← rootPow_add]
      congr 1; push_cast; ring
    have h2 : rootPow (2 * M) ((j : ℤ) * ((0 : ℕ) - (m : ℕ) : ℤ)) = rootPow (2 * M) (-(j * (m : ℕ) : ℕ)) := by
      congr 1; push_cast; ring
    rw [h1, h2]
    have hs : ((-1 : ℂ) ^ j) * (-1) ^ j = 1 := by rw [← mul_pow]; simp
    push_cast
    field_simp
    linear_combination (-(kx (Fin.last M) : ℂ) * b.re * b.im * rootPow (2 * M) (-((j : ℤ) * (m : ℕ)))) * hs
  rw [sum_congr rfl fun j _ => hterm j, sum_add_distrib, ← mul_sum, ← mul_sum, sum_rootPow hN, sum_rootPow hN]
  have hm := m.2
  have d0 : (((2 * M : ℕ) : ℤ) ∣ (((0 : ℕ) : ℤ) - (m : ℕ))) ↔ m = 0 := by
    rw [dvd_sub_iff_of_lt (by omega) (by omega)]
    constructor
    · intro h; exact Fin.ext h.symm
    · rintro rfl; rfl
  have dM : (((2 * M : ℕ) : ℤ) ∣ ((M : ℤ) - (m : ℕ))) ↔ m = Fin.last M := by
    rw [dvd_sub_iff_of_lt (by omega) (by omega)]
    constructor
    · intro h; exact Fin.ext h.symm
    · rintro rfl; rfl
  simp only [d0, dM, twoModes]
  have h0M := last_ne_zero hM
  split_ifs with h1 h2 h3
  · exact absurd (h2.symm.trans h1) h0M
  · push_cast; field_simp; ring
  · push_cast; field_simp; ring
  · simp

theorem kdvNl_twoModes (hM : M ≠ 0) (kx : Fin (M + 1) → ℝ) (hk : kx 0 = 0) (a b : ℂ) :
    kdvNl kx (twoModes M a b) = .ok (twoModes M ((6 * kx (Fin.last M) * (b.re * b.im) / (2 * M : ℕ) : ℝ) : ℂ)
      ((6 * kx (Fin.last M) * (a.re * b.im) / (2 * M : ℕ) : ℝ) : ℂ)) := by
  rw [kdvNl, advection_twoModes hM kx hk]
  simp only
  congr 1
  funext m
  simp only [twoModes]
  split_ifs
  · push_cast; ring
  · push_cast; ring
  · simp

theorem kdv_keeps (hM : M ≠ 0) (kx : Fin (M + 1) → ℝ) (hk : kx 0 = 0) (hkM : kx (Fin.last M) = 0) (w : Vec (Fin (M + 1))) :
    ∃ n, kdvNl kx w = .ok n ∧ n 0 = 0 ∧ (n (Fin.last M)).im = 0 := by
  obtain ⟨n, -, h1, -, h2, -⟩ := C52_zero_mode hM kx hk w
  refine ⟨n, h1, by rw [h2, hkM]; simp, ?_⟩
  rw [kdvNl, advection_ok hM] at h1
  simp only [Except.ok.injEq] at h1
  have := advection_last hM kx w _ (advection_ok hM kx w)
  rw [← h1]
  simp only [Complex.mul_im, this]
  simp

/-- **C52.** The KdV equation with the Nyquist wavenumber set to zero: the mean is kept in all runs.  (With `kx[-1] = 0` every
spectrum whose Nyquist entry is real keeps it real, and the zero mode of `nl_func` is zero.) -/
theorem C52_kdv_filtered (hM : M ≠ 0) (kx : Fin (M + 1) → ℝ) (hk : kx 0 = 0) (hkM : kx (Fin.last M) = 0)
    (m : CSSolver (Fin (M + 1)))
    (hm : m.op = .diag (kdvLin kx)) (u : Vec (Fin (M + 1))) (hu : (u (Fin.last M)).im = 0) (rnd : ℝ → ℝ)
    (pyDiv : Bool) (fuel : ℕ) (t0 tf h : ℝ) (storeData : Bool) (freq : ℤ) (s : m.State) :
    (∀ v, (m.evolve (kdvNl kx) rnd pyDiv fuel u t0 tf h storeData freq s).1 = .ok (some v) → v 0 = u 0) ∧
    ∀ v ∈ (m.evolve (kdvNl kx) rnd pyDiv fuel u t0 tf h storeData freq s).2.u, v 0 = u 0 := by
  have := m.evolve_invariant (kdvNl kx) (fun v => v 0 = u 0 ∧ (v (Fin.last M)).im = 0) rnd pyDiv fuel u ⟨rfl, hu⟩ t0 tf h
    (fun w v hw hv => by
      obtain ⟨h1, h2⟩ := CSSolver.keep_step m hm (by simp [kdvLin, hk]) (by simp [kdvLin, hkM])
        (fun w _ => kdv_keeps hM kx hk hkM w) h w v hw.2 hv
      exact ⟨h1.trans hw.1, h2⟩) storeData freq s
  exact ⟨fun v hv => (this.1 v hv).1, fun v hv => (this.2 v hv).1⟩

/-- **C52.** The same for adaptive solvers. -/
theorem C52_kdv_filtered_adaptive (hM : M ≠ 0) (kx : Fin (M + 1) → ℝ) (hk : kx 0 = 0) (hkM : kx (Fin.last M) = 0)
    (m : ASSolver (Fin (M + 1)))
    (hm : m.op = .diag (kdvLin kx)) (u : Vec (Fin (M + 1))) (hu : (u (Fin.last M)).im = 0) (rnd : ℝ → ℝ)
    (pyDiv : Bool) (cfg : SolverConfig ℝ) (fuel : ℕ) (t0 tf : ℝ) (hInit : Option ℝ) (storeData : Bool) (freq : ℤ)
    (s : m.State) :
    (∀ v, (m.evolve (kdvNl kx) rnd pyDiv cfg fuel u t0 tf hInit storeData freq s).1 = .ok (some v) → v 0 = u 0) ∧
    ∀ v ∈ (m.evolve (kdvNl kx) rnd pyDiv cfg fuel u t0 tf hInit storeData freq s).2.u, v 0 = u 0 := by
  have := m.evolve_invariant (kdvNl kx) (fun v => v 0 = u 0 ∧ (v (Fin.last M)).im = 0)
    (fun h w r hw hv => by
      obtain ⟨h1, h2⟩ := ASSolver.keep_trial m hm (by simp [kdvLin, hk]) (by simp [kdvLin, hkM])
        (fun w _ => kdv_keeps hM kx hk hkM w) h w r hw.2 hv
      exact ⟨h1.trans hw.1, h2⟩) rnd pyDiv cfg fuel u ⟨rfl, hu⟩ t0 tf hInit storeData freq s
  exact ⟨fun v hv => (this.1 v hv).1, fun v hv => (this.2 v hv).1⟩

/-- The wavenumber of the Nyquist mode set to zero. -/
example (scfg : SolverConfig ℝ) (v : Vec (Fin 3)) :
    (((CSSolver.if4 (.diag (kdvLin ![0, 1, 0]))).evolve (kdvNl ![0, 1, 0]) id true 100 ![4, 1 + Complex.I, 3] 0 1 0.1 true 1
      (CSSolver.if4 (.diag (kdvLin ![0, 1, 0]))).new).1 = .ok (some v) → v 0 = 4) ∧
    (((ASSolver.if34 (.diag (kdvLin ![0, 1, 0]))).evolve (kdvNl ![0, 1, 0]) id true scfg 100 ![4, 1 + Complex.I, 3] 0 1 none true 1
      (ASSolver.if34 (.diag (kdvLin ![0, 1, 0]))).new).1 = .ok (some v) → v 0 = 4) :=
  ⟨(C52_kdv_filtered (M := 2) (by norm_num) ![0, 1, 0] rfl rfl (.if4 (.diag (kdvLin ![0, 1, 0]))) rfl _
    (by simp [show Fin.last 2 = 2 from rfl]) id true 100 0 1 0.1 true 1 _).1 v,
   (C52_kdv_filtered_adaptive (M := 2) (by norm_num) ![0, 1, 0] rfl rfl (.if34 (.diag (kdvLin ![0, 1, 0]))) rfl _
    (by simp [show Fin.last 2 = 2 from rfl]) id true scfg 100 0 1 none true 1 _).1 v⟩

/-- **C52.** Otherwise the mean of a KdV run is *not* conserved: on every grid, for the real signal `u_j = (-1)^j / n`, whose
spectrum is the Nyquist mode, one IF4 step of size `π / (2 k³)` (`k` the Nyquist wavenumber) changes the zero mode.  The linear
part `i k³` turns the Nyquist entry, which should stay real. -/
theorem C52_kdv_drift (hM : M ≠ 0) (kx : Fin (M + 1) → ℝ) (hk : kx 0 = 0) (hkM : 0 < kx (Fin.last M)) :
    ∃ v, ((CSSolver.if4 (.diag (kdvLin kx))).step (kdvNl kx) (twoModes M 0 1) (Real.pi / (2 * kx (Fin.last M) ^ 3))
      (CSSolver.if4 (.diag (kdvLin kx))).new).1 = .ok v ∧ 0 < (v 0).re := by
  set κ := kx (Fin.last M) with hκ
  set h := Real.pi / (2 * κ ^ 3) with hh
  have hpos : 0 < h := by positivity
  have hNpos : (0 : ℝ) < (2 * M : ℕ) := by positivity
  set e : ℂ := Complex.exp ((Real.pi / 4 : ℝ) * Complex.I) with he
  have here : e.re = Real.sqrt 2 / 2 := by rw [he, Complex.exp_ofReal_mul_I_re, Real.cos_pi_div_four]
  have heim : e.im = Real.sqrt 2 / 2 := by rw [he, Complex.exp_ofReal_mul_I_im, Real.sin_pi_div_four]
  have hs2 : 0 < Real.sqrt 2 := Real.sqrt_pos.2 two_pos
  have hL0 : kdvLin kx 0 = 0 := by simp [kdvLin, hk]
  have hLM : kdvLin kx (Fin.last M) = Complex.I * (κ : ℂ) ^ 3 := rfl
  have hκ3 : (κ : ℂ) ≠ 0 := by exact_mod_cast hkM.ne'
  have hexp : ∀ c : ℝ, Complex.exp (((c * h : ℝ) : ℂ) * kdvLin kx (Fin.last M)) = Complex.exp ((c * (Real.pi / 2) : ℝ) * Complex.I) := by
    intro c
    congr 1
    rw [hLM, hh]
    push_cast
    field_simp
  have hI : Complex.I * (starRingEnd ℂ) e = e := by
    apply Complex.ext <;> simp [here, heim]
  have hexpn : Complex.exp (((-(h / 2) : ℝ) : ℂ) * kdvLin kx (Fin.last M)) = (starRingEnd ℂ) e := by
    rw [show -(h / 2) = -(1 / 2) * h by ring, hexp, he, ← Complex.exp_conj]
    congr 1
    simp only [map_mul, Complex.conj_I, Complex.conj_ofReal]
    push_cast; ring
  have hexp1 : Complex.exp (((h / 2 : ℝ) : ℂ) * kdvLin kx (Fin.last M)) = e := by
    rw [show h / 2 = (1 / 2) * h by ring, hexp, he]; congr 2; norm_num; ring
  have hexp2 : Complex.exp ((h : ℂ) * kdvLin kx (Fin.last M)) = Complex.I := by
    have := hexp 1
    rw [one_mul, one_mul] at this
    rw [this, show ((Real.pi / 2 : ℝ) : ℂ) * Complex.I = (Real.pi : ℂ) / 2 * Complex.I by push_cast; ring,
      Complex.exp_pi_div_two_mul_I]
  set p : ℝ := 6 * κ * (Real.sqrt 2 / 2 * (Real.sqrt 2 / 2)) / (2 * M : ℕ) with hp
  have hppos : 0 < p := by positivity
  set q : ℝ := 6 * κ * (h / 2 * p * (Real.sqrt 2 / 2)) / (2 * M : ℕ) with hq
  have hqpos : 0 < q := by positivity
  set b3 : ℂ := Complex.I * (1 + (h : ℂ) * ((starRingEnd ℂ) e * q)) with hb3
  have hb3' : b3 = Complex.I + (h : ℂ) * (e * q) := by
    rw [hb3]; linear_combination (h : ℂ) * q * hI
  have hb3re : b3.re = h * q * (Real.sqrt 2 / 2) := by
    rw [hb3']; simp [Complex.mul_re, here, heim]; ring
  have hb3im : b3.im = 1 + h * q * (Real.sqrt 2 / 2) := by
    rw [hb3']; simp [Complex.mul_re, here, heim]; ring
  set r : ℝ := 6 * κ * (b3.re * b3.im) / (2 * M : ℕ) with hr
  have hrpos : 0 < r := by rw [hr, hb3re, hb3im]; positivity
  obtain ⟨f, hf⟩ : ∃ f, kdvNl kx = total f :=
    ⟨fun uf m => -6 * rfft1 (2 * M) (fun j => irfft1 (2 * M) (specExt uf) j *
      irfft1 (2 * M) (specExt fun m => Complex.I * (kx m : ℂ) * uf m) j) m, by
        funext uf; rw [kdvNl, advection_ok hM]; rfl⟩
  have hf2 : ∀ a b, f (twoModes M a b) = twoModes M ((6 * κ * (b.re * b.im) / (2 * M : ℕ) : ℝ) : ℂ)
      ((6 * κ * (a.re * b.im) / (2 * M : ℕ) : ℝ) : ℂ) := by
    intro a b
    have := kdvNl_twoModes hM kx hk a b
    rw [hf] at this
    exact Except.ok.inj this
  have hF : ∀ t a b, interaction (diagonal (kdvLin kx)) f t (twoModes M a b) =
      expm (diagonal (kdvLin kx)) (-t) *ᵥ f (twoModes M a (Complex.exp (t * kdvLin kx (Fin.last M)) * b)) := by
    intro t a b
    rw [interaction, twoModes_expm hL0]
  have k1 : interaction (diagonal (kdvLin kx)) f 0 (twoModes M 0 1) = twoModes M 0 0 := by
    rw [hF, hf2, twoModes_expm hL0]; simp
  have k2 : interaction (diagonal (kdvLin kx)) f (h / 2) (twoModes M 0 1) = twoModes M p 0 := by
    rw [hF, hexp1, mul_one, hf2, twoModes_expm hL0, here, heim]
    simp [hp]
  have k3 : interaction (diagonal (kdvLin kx)) f (h / 2) (twoModes M ((h / 2 : ℂ) * p) 1) =
      twoModes M p ((starRingEnd ℂ) e * q) := by
    rw [hF, hexp1, mul_one, hf2, twoModes_expm hL0, here, heim, hexpn]
    rw [show ((h : ℂ) / 2 * p).re = h / 2 * p by rw [← Complex.ofReal_re (h / 2 * p)]; push_cast; rfl]
  have k4 : ∃ d, interaction (diagonal (kdvLin kx)) f h (twoModes M ((h : ℂ) * p) (1 + (h : ℂ) * ((starRingEnd ℂ) e * q))) =
      twoModes M r d := by
    rw [hF, hexp2, ← hb3, hf2, twoModes_expm hL0]
    exact ⟨_, rfl⟩
  obtain ⟨d, k4⟩ := k4
  rw [hf]
  refine ⟨_, C21_if4 (.diag (kdvLin kx)) f _ h hpos.le _ _ ((C21_rk4_textbook _ _ _ _ _).2
    ⟨_, _, _, _, rfl, rfl, rfl, rfl, rfl, rfl⟩), ?_⟩
  have hmat : (LinOp.diag (kdvLin kx)).mat = diagonal (kdvLin kx) := rfl
  have s1 : twoModes M 0 1 + (h / 2 : ℂ) • twoModes M 0 0 = twoModes M 0 1 := by
    rw [twoModes_smul, twoModes_add]; simp
  have s2 : twoModes M 0 1 + (h / 2 : ℂ) • twoModes M p 0 = twoModes M ((h / 2 : ℂ) * p) 1 := by
    rw [twoModes_smul, twoModes_add]; simp
  have s3 : twoModes M 0 1 + (h : ℂ) • twoModes M p ((starRingEnd ℂ) e * q) =
      twoModes M ((h : ℂ) * p) (1 + (h : ℂ) * ((starRingEnd ℂ) e * q)) := by
    rw [twoModes_smul, twoModes_add]; simp
  rw [hmat, k1, s1, k2, s2, k3, s3, k4]
  simp only [twoModes_smul, twoModes_add]
  rw [twoModes_expm hL0, twoModes_zero]
  have : (0 : ℂ) + (h / 6 : ℂ) * (0 + 2 * (p : ℂ) + 2 * (p : ℂ) + (r : ℂ)) = ((h / 6 * (4 * p + r) : ℝ) : ℂ) := by
    push_cast; ring
  rw [this, Complex.ofReal_re]
  positivity

/-- The grid with four points on `[0, 2π)`: the step changes the mean of `u = (1, -1, 1, -1) / 4` from `0` to a positive number. -/
example : ∃ v, ((CSSolver.if4 (.diag (kdvLin ![0, 1, 2]))).step (kdvNl ![0, 1, 2]) (twoModes 2 0 1) (Real.pi / 16)
    (CSSolver.if4 (.diag (kdvLin ![0, 1, 2]))).new).1 = .ok v ∧ 0 < (v 0).re := by
  have := C52_kdv_drift (M := 2) (by norm_num) ![0, 1, 2] rfl (by simp [show Fin.last 2 = 2 from rfl])
  have h2 : (![0, 1, 2] : Fin 3 → ℝ) (Fin.last 2) = 2 := rfl
  rw [h2] at this
  norm_num at this
  exact this

/-- A Burgers run with ETDRK5 on four points. -/
example (cfg : ETDConfig ℝ) (v : Vec (Fin 3)) (h : ((CSSolver.etd5 cfg (.diag (burgersLin ![0, 1, 2] 1))).evolve
    (burgersNl ![0, 1, 2]) id false 100 ![4, 1 + Complex.I, 3] 0 1 0.1 false 1
    (CSSolver.etd5 cfg (.diag (burgersLin ![0, 1, 2] 1))).new).1 = .ok (some v)) : v 0 = 4 :=
  (C52_burgers (M := 2) (by norm_num) ![0, 1, 2] rfl 1 (.etd5 cfg (.diag (burgersLin ![0, 1, 2] 1))) rfl _
    (by simp [show Fin.last 2 = 2 from rfl]) id false 100 0 1 0.1 false 1 _).1 v h

end Verif
