import Verif.Lemmas.BLead
import Verif.Props.Exact

/-!
# Order of accuracy (property C35)

`f` is smooth, and `y q` are solutions of `y' = L y + f(y)` for the parameters `q ∈ K`, all on one interval around zero and inside one
compact set.  The bounds are uniform in the parameter.  The ETD solvers approximate their coefficients by a contour sum; for them the
bound holds once the number of contour points is large enough (how large may depend on the step size).
-/

set_option linter.unusedSectionVars false

namespace Verif

open Matrix Filter Topology Asymptotics
open scoped ContDiff

variable {ι : Type} [Fintype ι] [DecidableEq ι]

/-- Order of the local error (minus one) of an adaptive solver. -/
def ASSolver.orderOf : ASSolver ι → ℕ
  | if45dp _ => 5
  | _ => 4

variable {P : Type} {f : Vec ι → Vec ι} {K : Set P} {y : P → ℝ → Vec ι} {δ : ℝ} {K0 : Set (Vec ι)}

theorem CSSolver.exact_local (m : CSSolver ι) (hf : ContDiff ℝ ∞ f) (hy : Flows m.op.mat f K y δ K0) :
    (fun x : ℝ × P => ((m.exact x.1).run f (y x.2 0)).1 - y x.2 x.1) =O[small K] fun x => x.1 ^ 5 := by
  rcases m with L | ⟨cfg, L⟩ | ⟨cfg, L⟩
  · exact local_order hf hy (rk4_expands L.mat) rk4Q_hasOrder
  · exact local_order hf hy (krogstad_expands L.mat) krogstadQ_hasOrder
  · exact local_order hf hy (etd5_expands L.mat true) (etd5Q_hasOrder true)

theorem ASSolver.exact_local (m : ASSolver ι) (hf : ContDiff ℝ ∞ f) (hy : Flows m.op.mat f K y δ K0) :
    (fun x : ℝ × P => ((m.exact x.1).run f (y x.2 0)).1 - y x.2 x.1) =O[small K] fun x => x.1 ^ (m.orderOf + 1) := by
  rcases m with L | ⟨cfg, L⟩ | ⟨cfg, L⟩ | L
  · exact local_order hf hy (rk4_expands L.mat) rk4Q_hasOrder
  · exact local_order hf hy (krogstad_expands L.mat) krogstadQ_hasOrder
  · exact local_order hf hy (etd5_expands L.mat false) (etd5Q_hasOrder false)
  · refine local_order hf hy ?_ (dpQ_hasOrder (17 / 1920))
    have := dp_expands (17 / 1920) (Matrix.diagonal L)
    push_cast at this
    exact this

/-- Bounds for a limit hold, up to a little, eventually. -/
theorem Approaches.eventually_le {r : ℕ → Except PyErr (Vec ι)} {r0 w : Vec ι} {b c : ℝ} (h : Approaches r r0) (hb : ‖r0 - w‖ ≤ b)
    (hc : b < c) : ∀ᶠ N in atTop, ∃ u', r N = .ok u' ∧ ‖u' - w‖ ≤ c := by
  obtain ⟨x, hx, ht⟩ := h
  have h1 : ∀ᶠ N in atTop, ‖x N - w‖ < c := (ht.sub_const w).norm.eventually_lt_const (hb.trans_lt hc)
  filter_upwards [hx, h1] with N h2 h3
  exact ⟨x N, h2, h3.le⟩

theorem Approaches.eventually_gt {r : ℕ → Except PyErr (Vec ι)} {r0 w : Vec ι} {c : ℝ} (h : Approaches r r0) (hc : c < ‖r0 - w‖) :
    ∀ᶠ N in atTop, ∃ u', r N = .ok u' ∧ c < ‖u' - w‖ := by
  obtain ⟨x, hx, ht⟩ := h
  have h1 : ∀ᶠ N in atTop, c < ‖x N - w‖ := (ht.sub_const w).norm.eventually_const_lt hc
  filter_upwards [hx, h1] with N h2 h3
  exact ⟨x N, h2, h3⟩

theorem isBigO_small {V : Type} [NormedAddCommGroup V] {g : ℝ × P → V} {n : ℕ} (h : g =O[small K] fun x => x.1 ^ n) :
    ∃ C η : ℝ, 0 < η ∧ ∀ h, 0 < h → h < η → ∀ q ∈ K, ‖g (h, q)‖ ≤ C * h ^ n := by
  obtain ⟨C, hC⟩ := h.bound
  obtain ⟨η, hη, hC⟩ := eventually_small.1 hC
  refine ⟨C, η, hη, fun h h0 h1 q hq => ?_⟩
  have := hC h (by rwa [abs_of_pos h0]) q hq
  simpa [abs_of_pos h0] using this

/-- **C35.** One step of IF4, ETD4 or ETD5 has a local error of order `h^5`. -/
theorem C35_step (m : CSSolver ι) (hf : ContDiff ℝ ∞ f) (hy : Flows m.op.mat f K y δ K0) :
    ∃ C η : ℝ, 0 < η ∧ ∀ h, 0 < h → h < η → ∀ q ∈ K, m.Resolved h →
      ∀ᶠ N in atTop, ∃ u', ((m.withPoints N).step (total f) (y q 0) h (m.withPoints N).new).1 = .ok u' ∧
        ‖u' - y q h‖ ≤ C * h ^ 5 := by
  obtain ⟨C, η, hη, hC⟩ := isBigO_small (m.exact_local hf hy)
  refine ⟨C + 1, η, hη, fun h h0 h1 q hq hr => ?_⟩
  refine (C22_limit_step m f hf.continuous (y q 0) h h0.le hr).eventually_le (hC h h0 h1 q hq) ?_
  have := pow_pos h0 5
  linarith

/-- **C35.** For IF4 there is no contour: the bound holds for the solver as it is. -/
theorem C35_if4 (L : LinOp ι) (hf : ContDiff ℝ ∞ f) (hy : Flows L.mat f K y δ K0) :
    ∃ C η : ℝ, 0 < η ∧ ∀ h, 0 < h → h < η → ∀ q ∈ K,
      ∃ u', ((CSSolver.if4 L).step (total f) (y q 0) h (CSSolver.if4 L).new).1 = .ok u' ∧ ‖u' - y q h‖ ≤ C * h ^ 5 := by
  obtain ⟨C, η, hη, hC⟩ := C35_step (.if4 L) hf hy
  refine ⟨C, η, hη, fun h h0 h1 q hq => ?_⟩
  obtain ⟨N, hN⟩ := (hC h h0 h1 q hq trivial).exists
  exact hN

/-- **C35.** A trial of an adaptive solver has a local error of order `h^5`, for IF45DP of order `h^6`. -/
theorem C35_trial (m : ASSolver ι) (hf : ContDiff ℝ ∞ f) (hy : Flows m.op.mat f K y δ K0) :
    ∃ C η : ℝ, 0 < η ∧ ∀ h, 0 < h → h < η → ∀ q ∈ K, m.Resolved h →
      ∀ᶠ N in atTop, ∃ u' e, ((m.withPoints N).trial (total f) (y q 0) h (m.withPoints N).new).1 = .ok (u', e) ∧
        ‖u' - y q h‖ ≤ C * h ^ (m.orderOf + 1) := by
  obtain ⟨C, η, hη, hC⟩ := isBigO_small (m.exact_local hf hy)
  refine ⟨C + 1, η, hη, fun h h0 h1 q hq hr => ?_⟩
  obtain ⟨x, hx, ht⟩ := C22_limit_trial m f hf.continuous (y q 0) h hr
  have hp := pow_pos h0 (m.orderOf + 1)
  have h2 : ∀ᶠ N in atTop, ‖(x N).1 - y q h‖ < (C + 1) * h ^ (m.orderOf + 1) :=
    ((((continuous_fst.tendsto _).comp ht).sub_const (y q h)).norm).eventually_lt_const
      ((hC h h0 h1 q hq).trans_lt (by linarith))
  filter_upwards [hx, h2] with N h3 h4
  exact ⟨(x N).1, (x N).2, h3, h4.le⟩

/-- **C35.** For IF34 and IF45DP there is no contour: the bound holds for the solver as it is. -/
theorem C35_trial_if (m : ASSolver ι) (hm : ¬ m.IsETD) (hf : ContDiff ℝ ∞ f) (hy : Flows m.op.mat f K y δ K0) :
    ∃ C η : ℝ, 0 < η ∧ ∀ h, 0 < h → h < η → ∀ q ∈ K,
      ∃ u' e, (m.trial (total f) (y q 0) h m.new).1 = .ok (u', e) ∧ ‖u' - y q h‖ ≤ C * h ^ (m.orderOf + 1) := by
  obtain ⟨C, η, hη, hC⟩ := C35_trial m hf hy
  refine ⟨C, η, hη, fun h h0 h1 q hq => ?_⟩
  rcases m with L | ⟨cfg, L⟩ | ⟨cfg, L⟩ | L
  · obtain ⟨N, hN⟩ := (hC h h0 h1 q hq trivial).exists
    exact hN
  · exact absurd trivial hm
  · exact absurd trivial hm
  · obtain ⟨N, hN⟩ := (hC h h0 h1 q hq trivial).exists
    exact hN

/-! ### The fifth order method -/

/-- **C35.** The local error of ETD5 is `h^5` times the commutator of `L` with the derivative of `f`, applied to a certain vector, plus
a term of order `h^6`. -/
theorem C35_etd5_leading (cfg : ETDConfig ℝ) (L : LinOp ι) (hf : ContDiff ℝ ∞ f) (hy : Flows L.mat f K y δ K0) :
    ∃ C η : ℝ, 0 < η ∧ ∀ h, 0 < h → h < η → ∀ q ∈ K, (CSSolver.etd5 cfg L).Resolved h →
      ∀ᶠ N in atTop, ∃ u', (((CSSolver.etd5 cfg L).withPoints N).step (total f) (y q 0) h ((CSSolver.etd5 cfg L).withPoints N).new).1 =
          .ok u' ∧ ‖u' - (y q h + h ^ 5 • etd5Lead L.mat f (y q 0))‖ ≤ C * h ^ 6 := by
  obtain ⟨C, η, hη, hC⟩ := isBigO_small (etd5_leading true hf hy)
  refine ⟨C + 1, η, hη, fun h h0 h1 q hq hr => ?_⟩
  refine (C22_limit_step (.etd5 cfg L) f hf.continuous (y q 0) h h0.le hr).eventually_le (b := C * h ^ 6) ?_ ?_
  · rw [← sub_sub]
    exact hC h h0 h1 q hq
  · have := pow_pos h0 6
    linarith

/-- **C35.** The same for ETD35. -/
theorem C35_etd35_leading (cfg : ETDConfig ℝ) (L : ASOp ι) (hf : ContDiff ℝ ∞ f) (hy : Flows L.mat f K y δ K0) :
    ∃ C η : ℝ, 0 < η ∧ ∀ h, 0 < h → h < η → ∀ q ∈ K, (ASSolver.etd35 cfg L).Resolved h →
      ∀ᶠ N in atTop, ∃ u' e,
        (((ASSolver.etd35 cfg L).withPoints N).trial (total f) (y q 0) h ((ASSolver.etd35 cfg L).withPoints N).new).1 = .ok (u', e) ∧
          ‖u' - (y q h + h ^ 5 • etd5Lead L.mat f (y q 0))‖ ≤ C * h ^ 6 := by
  obtain ⟨C, η, hη, hC⟩ := isBigO_small (etd5_leading false hf hy)
  refine ⟨C + 1, η, hη, fun h h0 h1 q hq hr => ?_⟩
  obtain ⟨x, hx, ht⟩ := C22_limit_trial (.etd35 cfg L) f hf.continuous (y q 0) h hr
  have hp := pow_pos h0 6
  have h2 : ∀ᶠ N in atTop, ‖(x N).1 - (y q h + h ^ 5 • etd5Lead L.mat f (y q 0))‖ < (C + 1) * h ^ 6 := by
    refine ((((continuous_fst.tendsto _).comp ht).sub_const _).norm).eventually_lt_const ?_
    refine lt_of_le_of_lt ?_ (show C * h ^ 6 < _ by linarith)
    rw [← sub_sub]
    exact hC h h0 h1 q hq
  filter_upwards [hx, h2] with N h3 h4
  exact ⟨(x N).1, (x N).2, h3, h4.le⟩

theorem etd5Lead_commute {L : Mat ι} {f : Vec ι → Vec ι} {u : Vec ι}
    (h : ∀ w, fderiv ℝ f u (L *ᵥ w) = L *ᵥ fderiv ℝ f u w) : etd5Lead L f u = 0 := by
  simp only [etd5Lead, h, sub_self, smul_zero]

/-- **C35.** If `L` commutes with the derivative of `f` (for example if `L` is a multiple of the identity), the local error of ETD5 is of
order `h^6`. -/
theorem C35_etd5_commuting (cfg : ETDConfig ℝ) (L : LinOp ι) (hf : ContDiff ℝ ∞ f) (hy : Flows L.mat f K y δ K0)
    (hL : ∀ q ∈ K, ∀ w, fderiv ℝ f (y q 0) (L.mat *ᵥ w) = L.mat *ᵥ fderiv ℝ f (y q 0) w) :
    ∃ C η : ℝ, 0 < η ∧ ∀ h, 0 < h → h < η → ∀ q ∈ K, (CSSolver.etd5 cfg L).Resolved h →
      ∀ᶠ N in atTop, ∃ u', (((CSSolver.etd5 cfg L).withPoints N).step (total f) (y q 0) h ((CSSolver.etd5 cfg L).withPoints N).new).1 =
          .ok u' ∧ ‖u' - y q h‖ ≤ C * h ^ 6 := by
  obtain ⟨C, η, hη, hC⟩ := C35_etd5_leading cfg L hf hy
  refine ⟨C, η, hη, fun h h0 h1 q hq hr => ?_⟩
  have := hC h h0 h1 q hq hr
  rwa [etd5Lead_commute (hL q hq), smul_zero, add_zero] at this

/-- **C35.** The same for ETD35. -/
theorem C35_etd35_commuting (cfg : ETDConfig ℝ) (L : ASOp ι) (hf : ContDiff ℝ ∞ f) (hy : Flows L.mat f K y δ K0)
    (hL : ∀ q ∈ K, ∀ w, fderiv ℝ f (y q 0) (L.mat *ᵥ w) = L.mat *ᵥ fderiv ℝ f (y q 0) w) :
    ∃ C η : ℝ, 0 < η ∧ ∀ h, 0 < h → h < η → ∀ q ∈ K, (ASSolver.etd35 cfg L).Resolved h →
      ∀ᶠ N in atTop, ∃ u' e,
        (((ASSolver.etd35 cfg L).withPoints N).trial (total f) (y q 0) h ((ASSolver.etd35 cfg L).withPoints N).new).1 = .ok (u', e) ∧
          ‖u' - y q h‖ ≤ C * h ^ 6 := by
  obtain ⟨C, η, hη, hC⟩ := C35_etd35_leading cfg L hf hy
  refine ⟨C, η, hη, fun h h0 h1 q hq hr => ?_⟩
  have := hC h h0 h1 q hq hr
  rwa [etd5Lead_commute (hL q hq), smul_zero, add_zero] at this

end Verif
