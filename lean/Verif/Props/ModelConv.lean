import Verif.Props.Conservation
import Verif.Props.Convergence
import Mathlib.Analysis.ODE.ExistUnique

/-!
# C59: the model problems are smooth, so the solvers converge on them
-/

set_option linter.unusedSectionVars false

namespace Verif

open Matrix Finset
open scoped ContDiff

variable {ι : Type} [Fintype ι] [DecidableEq ι] {f : Vec ι → Vec ι} {M : ℕ}

theorem contDiff_re {g : Vec ι → ℂ} (hg : ContDiff ℝ ∞ g) : ContDiff ℝ ∞ fun u => (g u).re :=
  Complex.reCLM.contDiff.comp hg

theorem contDiff_ofReal {g : Vec ι → ℝ} (hg : ContDiff ℝ ∞ g) : ContDiff ℝ ∞ fun u => ((g u : ℝ) : ℂ) :=
  Complex.ofRealCLM.contDiff.comp hg

theorem contDiff_irfft1 {N : ℕ} {y : Vec ι → ℕ → ℂ} (hy : ∀ m, ContDiff ℝ ∞ fun u => y u m) (j : ℕ) :
    ContDiff ℝ ∞ fun u => irfft1 N (y u) j := by
  unfold irfft1
  refine ContDiff.div_const (((contDiff_re (hy 0)).add (ContDiff.sum fun m _ => contDiff_const.mul
    (contDiff_re ((hy m).mul contDiff_const)))).add ?_) _
  split_ifs
  · exact (contDiff_re (hy _)).mul contDiff_const
  · exact contDiff_const

theorem contDiff_advection (hM : M ≠ 0) (kx : Fin (M + 1) → ℝ) :
    ∃ g : Vec (Fin (M + 1)) → Vec (Fin (M + 1)), advection kx = total g ∧ ContDiff ℝ ∞ g := by
  refine ⟨fun uf m => rfft1 (2 * M) (fun j => irfft1 (2 * M) (specExt uf) j *
      irfft1 (2 * M) (specExt fun m => Complex.I * (kx m : ℂ) * uf m) j) m, funext fun uf => advection_ok hM kx uf, ?_⟩
  refine contDiff_pi.mpr fun m => ?_
  unfold rfft1 fft1
  have hs : ∀ (c : Fin (M + 1) → ℂ) (k : ℕ), ContDiff ℝ ∞ fun uf : Vec (Fin (M + 1)) => specExt (fun m => c m * uf m) k := by
    intro c k
    unfold specExt
    split_ifs
    · exact contDiff_const.mul (contDiff_apply ℝ ℂ _)
    · exact contDiff_const
  have hs1 : ∀ k : ℕ, ContDiff ℝ ∞ fun uf : Vec (Fin (M + 1)) => specExt uf k := by
    intro k
    unfold specExt
    split_ifs
    · exact contDiff_apply ℝ ℂ _
    · exact contDiff_const
  exact ContDiff.sum fun j _ => (contDiff_ofReal ((contDiff_irfft1 hs1 j).mul
    (contDiff_irfft1 (hs fun m => Complex.I * (kx m : ℂ)) j))).mul contDiff_const

/-- **C59.** The `nl_func` of `kdv_ops` never raises and is infinitely often differentiable, for at least two wavenumbers. -/
theorem C59_kdv_smooth (hM : M ≠ 0) (kx : Fin (M + 1) → ℝ) : ∃ g, kdvNl kx = total g ∧ ContDiff ℝ ∞ g := by
  obtain ⟨g, h1, h2⟩ := contDiff_advection hM kx
  refine ⟨fun u m => -6 * g u m, ?_, contDiff_pi.mpr fun m => contDiff_const.mul (contDiff_pi.mp h2 m)⟩
  funext u
  rw [kdvNl, h1]; rfl

/-- **C59.** The same for `burgers_ops`. -/
theorem C59_burgers_smooth (hM : M ≠ 0) (kx : Fin (M + 1) → ℝ) : ∃ g, burgersNl kx = total g ∧ ContDiff ℝ ∞ g := by
  obtain ⟨g, h1, h2⟩ := contDiff_advection hM kx
  refine ⟨fun u m => -g u m, ?_, contDiff_pi.mpr fun m => (contDiff_pi.mp h2 m).neg⟩
  funext u
  rw [burgersNl, h1]; rfl

/-- **C59.** The same for `allen_cahn_ops`, on every grid. -/
theorem C59_allen_cahn_smooth {k : ℕ} (x : Fin (k + 2) → ℝ) : ∃ g, allenCahnNl x = total g ∧ ContDiff ℝ ∞ g := by
  refine ⟨fun u i => (x (interior i) : ℂ) - (u i + (x (interior i) : ℂ)) ^ 3, rfl, contDiff_pi.mpr fun i => ?_⟩
  exact contDiff_const.sub (((contDiff_apply ℝ ℂ i).add contDiff_const).pow 3)

/-- **C59.** A smooth problem has a solution from every initial array, on some interval. -/
theorem C59_solution (L : Mat ι) (hf : ContDiff ℝ ∞ f) (u0 : Vec ι) (t0 : ℝ) :
    ∃ T > t0, ∃ Y : ℝ → Vec ι, Y t0 = u0 ∧ ∀ tf ≤ T, Solves L f t0 tf Y := by
  have hF : ContDiff ℝ 1 fun y : Vec ι => L *ᵥ y + f y := by
    refine ContDiff.add (contDiff_pi.mpr fun i => ?_) (hf.of_le (by simp))
    simp only [mulVec, dotProduct]
    exact ContDiff.sum fun j _ => contDiff_const.mul (contDiff_apply ℝ ℂ j)
  obtain ⟨Y, h0, ε, hε, hY⟩ := ContDiffAt.exists_forall_mem_closedBall_exists_eq_forall_mem_Ioo_hasDerivAt₀
    (hF.contDiffAt (x := u0)) t0
  refine ⟨t0 + ε / 2, by linarith, Y, h0, fun tf htf => ⟨ε / 2, by linarith, fun t h1 h2 => ?_⟩⟩
  exact hY t ⟨by linarith, by linarith⟩

/-- **C59.** So constant-step runs on a smooth problem converge at order four from every initial array, on some interval. -/
theorem C59_converges (m : CSSolver ι) (hm : m.GoodContour) (hf : ContDiff ℝ ∞ f) (u0 : Vec ι) (t0 : ℝ) :
    ∃ T > t0, ∃ Y : ℝ → Vec ι, Y t0 = u0 ∧ Solves m.op.mat f t0 T Y ∧ ∀ tf, t0 < tf → tf ≤ T →
      ∃ (C η : ℝ) (N0 : ℕ), 0 < η ∧ ∀ (N n : ℕ), N0 ≤ N → (tf - t0) / n < η →
        ∀ (pyDiv storeData : Bool) (freq : ℤ) (s : (m.withPoints N).State) (fuel : ℕ), (pyDiv = true → tf ≠ 0) → freq ≠ 0 → 0 < n → n < fuel →
          ∃ v, ((m.withPoints N).evolve (total f) id pyDiv fuel u0 t0 tf ((tf - t0) / n) storeData freq s).1 = .ok (some v) ∧
            ‖v - Y tf‖ ≤ C * (((tf - t0) / n) ^ 4 + (1 / 2) ^ N) := by
  obtain ⟨T, hT, Y, h0, hY⟩ := C59_solution m.op.mat hf u0 t0
  refine ⟨T, hT, Y, h0, hY T le_rfl, fun tf h1 h2 => ?_⟩
  have := C56_at_tf m hm hf h1 (hY tf h2)
  rw [h0] at this
  exact this

/-- **C59.** Adaptive runs likewise, with the order of the method in the largest step. -/
theorem C59_converges_adaptive (m : ASSolver ι) (hm : m.GoodContour) (hf : ContDiff ℝ ∞ f) (u0 : Vec ι) (t0 : ℝ) :
    ∃ T > t0, ∃ Y : ℝ → Vec ι, Y t0 = u0 ∧ Solves m.op.mat f t0 T Y ∧ ∀ tf, t0 ≤ tf → tf ≤ T →
      ∃ (C η : ℝ) (N0 : ℕ), 0 < η ∧ ∀ (N : ℕ), N0 ≤ N →
        ∀ (cfg : SolverConfig ℝ) (hInit : Option ℝ) (pyDiv : Bool) (s : (m.withPoints N).State) (fuel : ℕ),
          cfg.decr_f < 1 → 0 < cfg.minh → (∀ h, hInit = some h → 0 < h) → ∀ H, 0 < H → H < η →
          ((m.withPoints N).evolve (total f) id pyDiv cfg fuel u0 t0 tf hInit true 1 s).2.t.IsChain (fun a b => b - a ≤ H) →
          ∀ v, ((m.withPoints N).evolve (total f) id pyDiv cfg fuel u0 t0 tf hInit true 1 s).1 = .ok (some v) →
            ‖v - Y tf‖ ≤ C * (H ^ m.orderOf + (1 / 2) ^ N) := by
  obtain ⟨T, hT, Y, h0, hY⟩ := C59_solution m.op.mat hf u0 t0
  refine ⟨T, hT, Y, h0, hY T le_rfl, fun tf h1 h2 => ?_⟩
  obtain ⟨C, η, N0, hη, h⟩ := C57_stored m hm hf h1 (hY tf h2)
  refine ⟨C, η, N0, hη, fun N hN cfg hInit pyDiv s fuel hd hmin hpos H H0 H1 hc v hv => ?_⟩
  have := (h N u0 hN (by rw [h0]; simpa using hη.le) cfg hInit pyDiv s fuel hd hmin hpos H H0 H1 hc).2 v hv
  rw [h0] at this
  simpa using this

/-- Burgers' equation with IF45DP, Allen-Cahn with ETD35 and a full matrix. -/
example (mu : ℝ) (u0 : Vec (Fin 5)) (kx : Fin 5 → ℝ) : ∃ g, burgersNl kx = total g ∧
    ∃ T > (0 : ℝ), ∃ Y : ℝ → Vec (Fin 5), Y 0 = u0 ∧ Solves (Matrix.diagonal (burgersLin kx mu)) g 0 T Y ∧ ∃ (C η : ℝ) (N0 : ℕ), 0 < η ∧
      ∀ N, N0 ≤ N → ∀ (fuel : ℕ) (H : ℝ), 0 < H → H < η →
        ((ASSolver.if45dp (burgersLin kx mu)).evolve (total g) id true ⟨1 / 10000, 5 / 4, 17 / 20, 4 / 5, 1 / 100, 1 / 10 ^ 16⟩ fuel u0 0 T
          none true 1 (ASSolver.if45dp (burgersLin kx mu)).new).2.t.IsChain (fun a b => b - a ≤ H) →
        ∀ v, ((ASSolver.if45dp (burgersLin kx mu)).evolve (total g) id true ⟨1 / 10000, 5 / 4, 17 / 20, 4 / 5, 1 / 100, 1 / 10 ^ 16⟩ fuel u0 0 T
          none true 1 (ASSolver.if45dp (burgersLin kx mu)).new).1 = .ok (some v) → ‖v - Y T‖ ≤ C * (H ^ 5 + (1 / 2) ^ N) := by
  obtain ⟨g, hg, hs⟩ := C59_burgers_smooth (M := 4) (by norm_num) kx
  refine ⟨g, hg, ?_⟩
  obtain ⟨T, hT, Y, h0, hY, h⟩ := C59_converges_adaptive (.if45dp (burgersLin kx mu)) trivial hs u0 0
  obtain ⟨C, η, N0, hη, h'⟩ := h T hT.le le_rfl
  exact ⟨T, hT, Y, h0, hY, C, η, N0, hη, fun N hN fuel H H0 H1 hc v hv => h' N hN ⟨1 / 10000, 5 / 4, 17 / 20, 4 / 5, 1 / 100, 1 / 10 ^ 16⟩
    none true _ fuel (by norm_num) (by norm_num) (by simp) H H0 H1 hc v hv⟩

example (L : Mat (Fin 3)) (u0 : Vec (Fin 3)) (x : Fin 5 → ℝ) : ∃ g, allenCahnNl x = total g ∧
    ∃ T > (0 : ℝ), ∃ Y : ℝ → Vec (Fin 3), Y 0 = u0 ∧ Solves L g 0 T Y := by
  obtain ⟨g, hg, hs⟩ := C59_allen_cahn_smooth (k := 3) x
  obtain ⟨T, hT, Y, h0, hY⟩ := C59_solution L hs u0 0
  exact ⟨g, hg, T, hT, Y, h0, hY T le_rfl⟩

/-- KdV on any grid, with ETD4 and the default contour, from any spectrum. -/
example (hM : M ≠ 0) (kx : Fin (M + 1) → ℝ) (u0 : Vec (Fin (M + 1))) :
    ∃ T > (0 : ℝ), ∃ Y : ℝ → Vec (Fin (M + 1)), Y 0 = u0 ∧ ∀ tf, 0 < tf → tf ≤ T →
      ∃ (C η : ℝ) (N0 : ℕ), 0 < η ∧ ∀ (N n : ℕ), N0 ≤ N → (tf - 0) / n < η → 0 < n →
        ∃ v, (((CSSolver.etd4 ⟨1 / 100, 32, 1⟩ (.diag (kdvLin kx))).withPoints N).evolve (kdvNl kx) id true (n + 1) u0 0 tf
          ((tf - 0) / n) true 1 ((CSSolver.etd4 ⟨1 / 100, 32, 1⟩ (.diag (kdvLin kx))).withPoints N).new).1 = .ok (some v) ∧
          ‖v - Y tf‖ ≤ C * (((tf - 0) / n) ^ 4 + (1 / 2) ^ N) := by
  obtain ⟨g, hg, hs⟩ := C59_kdv_smooth hM kx
  rw [hg]
  obtain ⟨T, hT, Y, h0, -, h⟩ := C59_converges (.etd4 ⟨1 / 100, 32, 1⟩ (.diag (kdvLin kx))) (by constructor <;> norm_num) hs u0 0
  refine ⟨T, hT, Y, h0, fun tf h1 h2 => ?_⟩
  obtain ⟨C, η, N0, hη, h3⟩ := h tf h1 h2
  exact ⟨C, η, N0, hη, fun N n hN hn hn0 => h3 N n hN hn true true 1 _ (n + 1) (fun _ => h1.ne') one_ne_zero hn0 (Nat.lt_succ_self n)⟩

end Verif
