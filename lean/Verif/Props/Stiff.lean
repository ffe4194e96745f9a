import Verif.Lemmas.StiffRun
import Verif.Lemmas.StiffStable
import Verif.Lemmas.StiffReduce
import Verif.Props.Convergence

/-!
# Stiff problems (properties C68–C70)

Constants that hold for all diagonal operators whose eigenvalues have real parts at most `ω`, whatever their size and number.
-/

set_option linter.unusedSectionVars false

namespace Verif

open Matrix Finset
open scoped Matrix.Norms.Operator

theorem CSSolver.Stiff.method {ι : Type} [Fintype ι] [DecidableEq ι] {m : CSSolver ι} {ω R : ℝ} (hω : 0 ≤ ω) (he : m.IsETD)
    (hm : m.Stiff ω R) : ∃ L : Vec ι, m.op.mat = Matrix.diagonal L ∧ (∀ i, (L i).re ≤ ω) ∧ ∀ N, 0 < N → (∀ h, (m.withPoints N).CoefOk h) ∧
      ∀ h, 0 < h → h ≤ 1 → ((m.withPoints N).method h).s < 8 ∧ ∃ x, ((m.withPoints N).method h).StiffOk L x (stiffBound ω R)
        (2 * Real.exp (3 * R) * (1 / 2) ^ N) h := by
  rcases m with (L | L) | ⟨cfg, L | L⟩ | ⟨cfg, L | L⟩
  · exact he.elim
  · exact he.elim
  · exact ⟨L, rfl, hm.2, fun N hN => ⟨fun h => trivial, fun h h0 h1 => ⟨by show 5 < 8; norm_num, krogstad_stiffOk hm.1 hω hm.2 hN h0.le h1⟩⟩⟩
  · exact hm.elim
  · exact ⟨L, rfl, hm.2, fun N hN => ⟨fun h => trivial, fun h h0 h1 => ⟨by show 7 < 8; norm_num, etd5_stiffOk true hm.1 hω hm.2 hN h0.le h1⟩⟩⟩
  · exact hm.elim

theorem ASSolver.Stiff.method {ι : Type} [Fintype ι] [DecidableEq ι] {m : ASSolver ι} {ω R : ℝ} (hω : 0 ≤ ω) (he : m.IsETD)
    (hm : m.Stiff ω R) : ∃ L : Vec ι, m.op.mat = Matrix.diagonal L ∧ (∀ i, (L i).re ≤ ω) ∧ ∀ N, 0 < N → (∀ h, (m.withPoints N).CoefOk h) ∧
      ∀ h, 0 < h → h ≤ 1 → ((m.withPoints N).userMethod h).s < 8 ∧ ∃ x, ((m.withPoints N).userMethod h).StiffOk L x (stiffBound ω R)
        (2 * Real.exp (3 * R) * (1 / 2) ^ N) h := by
  rcases m with (L | L | ⟨l, S, T, hS⟩) | ⟨cfg, L | L | ⟨l, S, T, hS⟩⟩ | ⟨cfg, L | L | ⟨l, S, T, hS⟩⟩ | L
  · exact he.elim
  · exact he.elim
  · exact he.elim
  · exact ⟨L, rfl, hm.2, fun N hN => ⟨fun h => trivial, fun h h0 h1 => ⟨by show 5 < 8; norm_num, krogstad_stiffOk hm.1 hω hm.2 hN h0.le h1⟩⟩⟩
  · exact hm.elim
  · exact hm.elim
  · exact ⟨L, rfl, hm.2, fun N hN => ⟨fun h => trivial, fun h h0 h1 => ⟨by show 6 < 8; norm_num, etd5_stiffOk false hm.1 hω hm.2 hN h0.le h1⟩⟩⟩
  · exact hm.elim
  · exact hm.elim
  · exact he.elim

/-! ### C68: stability -/

theorem CSSolver.Stiff.bounded {ι : Type} [Fintype ι] [DecidableEq ι] {m : CSSolver ι} {ω R : ℝ} (hω : 0 ≤ ω) (hm : m.Stiff ω R) {N : ℕ}
    (hN : 0 < N) : (∀ h, (m.withPoints N).CoefOk h) ∧
      ∀ h, 0 < h → h ≤ 1 → ((m.withPoints N).method h).s < 8 ∧ ((m.withPoints N).method h).Bounded (stableBound ω R) h := by
  by_cases he : m.IsETD
  · obtain ⟨L, -, hL, h1⟩ := hm.method hω he
    obtain ⟨h2, h3⟩ := h1 N hN
    refine ⟨h2, fun h h0 h1 => ?_⟩
    obtain ⟨a1, x, a2⟩ := h3 h h0 h1
    exact ⟨a1, a2.bounded hω hL h0.le h1⟩
  · rcases m with (L | L) | ⟨cfg, L⟩ | ⟨cfg, L⟩
    · exact ⟨fun h => trivial, fun h h0 h1 => ⟨by show 5 < 8; norm_num, lawson_stable rk4_stable hω hm h0.le h1 R⟩⟩
    · exact hm.elim
    · exact absurd trivial he
    · exact absurd trivial he

theorem ASSolver.Stiff.bounded {ι : Type} [Fintype ι] [DecidableEq ι] {m : ASSolver ι} {ω R : ℝ} (hω : 0 ≤ ω) (hm : m.Stiff ω R) {N : ℕ}
    (hN : 0 < N) : (∀ h, (m.withPoints N).CoefOk h) ∧
      ∀ h, 0 < h → h ≤ 1 → ((m.withPoints N).userMethod h).s < 8 ∧ ((m.withPoints N).userMethod h).Bounded (stableBound ω R) h := by
  by_cases he : m.IsETD
  · obtain ⟨L, -, hL, h1⟩ := hm.method hω he
    obtain ⟨h2, h3⟩ := h1 N hN
    refine ⟨h2, fun h h0 h1 => ?_⟩
    obtain ⟨a1, x, a2⟩ := h3 h h0 h1
    exact ⟨a1, a2.bounded hω hL h0.le h1⟩
  · rcases m with (L | L | ⟨l, S, T, hS⟩) | ⟨cfg, L⟩ | ⟨cfg, L⟩ | L
    · exact ⟨fun h => trivial, fun h h0 h1 => ⟨by show 5 < 8; norm_num, lawson_stable rk4_stable hω hm h0.le h1 R⟩⟩
    · exact hm.elim
    · exact hm.elim
    · exact absurd trivial he
    · exact absurd trivial he
    · exact ⟨fun h => trivial, fun h h0 h1 => ⟨by show 7 < 8; norm_num, lawson_stable (dp_stable _) hω hm h0.le h1 R⟩⟩

variable {ω R K ρ M0 M1 M2 : ℝ}

/-- A constant for methods with at most seven stages. -/
theorem run_stable_all (hω : 0 ≤ ω) (hK : 0 ≤ K) (R : ℝ) : ∃ C : ℝ, 0 ≤ C ∧ ∀ (ι : Type) [Fintype ι] [DecidableEq ι] (M : ERK ι)
    (f g : Vec ι → Vec ι) (h δ : ℝ) (u v : Vec ι), M.s < 8 → M.Bounded (stableBound ω R) h → 0 ≤ h →
      (∀ a b, ‖f a - f b‖ ≤ K * ‖a - b‖) → (∀ a, ‖g a - f a‖ ≤ δ) →
      ‖(M.run g v).1 - (M.run f u).1‖ ≤ (1 + C * h) * ‖v - u‖ + C * h * δ := by
  have hc := stableBound_nonneg hω R
  have hs : ∀ s, 0 ≤ stableConst (stableBound ω R) K s := stableConst_nonneg hc hK
  refine ⟨∑ s ∈ range 8, stableConst (stableBound ω R) K s, sum_nonneg fun s _ => hs s,
    fun ι _ _ M f g h δ u v h8 hM h0 hf hg => (run_stable hc hK h0 hM hf hg u v).trans ?_⟩
  have h1 : stableConst (stableBound ω R) K M.s ≤ ∑ s ∈ range 8, stableConst (stableBound ω R) K s :=
    single_le_sum (f := fun s => stableConst (stableBound ω R) K s) (fun s _ => hs s) (mem_range.mpr h8)
  have δ0 : 0 ≤ δ := (norm_nonneg _).trans (hg u)
  have h2 := mul_le_mul_of_nonneg_right h1 h0
  have h3 := mul_le_mul_of_nonneg_right h2 (norm_nonneg (v - u))
  have h4 := mul_le_mul_of_nonneg_right h2 δ0
  linarith

/-- **C68.** A step of IF4, ETD4, ETD5 changes little if its argument and the nonlinear function change little, with a constant that
depends neither on the size of the linear operator, nor on the number of modes, nor on the contour points. -/
theorem C68_step (hω : 0 ≤ ω) (hK : 0 ≤ K) (R : ℝ) : ∃ C : ℝ, 0 ≤ C ∧ ∀ (ι : Type) [Fintype ι] [DecidableEq ι] (m : CSSolver ι)
    (f g : Vec ι → Vec ι) (N : ℕ) (h δ : ℝ) (u v : Vec ι), m.Stiff ω R → 0 < N → 0 < h → h ≤ 1 →
      (∀ a b, ‖f a - f b‖ ≤ K * ‖a - b‖) → (∀ a, ‖g a - f a‖ ≤ δ) →
      ∃ u' v', ((m.withPoints N).step (total f) u h (m.withPoints N).new).1 = .ok u' ∧
        ((m.withPoints N).step (total g) v h (m.withPoints N).new).1 = .ok v' ∧
        ‖v' - u'‖ ≤ (1 + C * h) * ‖v - u‖ + C * h * δ := by
  obtain ⟨C, C0, hC⟩ := run_stable_all hω hK R
  refine ⟨C, C0, fun ι _ _ m f g N h δ u v hm hN h0 h1 hf hg => ?_⟩
  obtain ⟨hc, hb⟩ := hm.bounded hω hN
  obtain ⟨h8, hb⟩ := hb h h0 h1
  exact ⟨_, _, (m.withPoints N).step_run u h0.le (hc h), (m.withPoints N).step_run v h0.le (hc h), hC ι _ f g h δ u v h8 hb h0.le hf hg⟩

/-- **C68.** The same for a trial of IF34, ETD34, ETD35, IF45DP. -/
theorem C68_trial (hω : 0 ≤ ω) (hK : 0 ≤ K) (R : ℝ) : ∃ C : ℝ, 0 ≤ C ∧ ∀ (ι : Type) [Fintype ι] [DecidableEq ι] (m : ASSolver ι)
    (f g : Vec ι → Vec ι) (N : ℕ) (h δ : ℝ) (u v : Vec ι), m.Stiff ω R → 0 < N → 0 < h → h ≤ 1 →
      (∀ a b, ‖f a - f b‖ ≤ K * ‖a - b‖) → (∀ a, ‖g a - f a‖ ≤ δ) →
      ∃ u' v' e e', (m.withPoints N).oneTrial (total f) h u = .ok (u', e) ∧ (m.withPoints N).oneTrial (total g) h v = .ok (v', e') ∧
        ‖v' - u'‖ ≤ (1 + C * h) * ‖v - u‖ + C * h * δ := by
  obtain ⟨C, C0, hC⟩ := run_stable_all hω hK R
  refine ⟨C, C0, fun ι _ _ m f g N h δ u v hm hN h0 h1 hf hg => ?_⟩
  obtain ⟨hc, hb⟩ := hm.bounded hω hN
  obtain ⟨h8, hb⟩ := hb h h0 h1
  exact ⟨_, _, _, _, (m.withPoints N).oneTrial_run u (hc h), (m.withPoints N).oneTrial_run v (hc h), hC ι _ f g h δ u v h8 hb h0.le hf hg⟩

/-- **C68.** Runs of a constant-step solver with different initial arrays and nonlinear functions: both return, they store the same times,
and the arrays differ by at most `exp(C (tf - t0 + h)) (‖v - u‖ + δ)`. -/
theorem C68_evolve (hω : 0 ≤ ω) (hK : 0 ≤ K) (R : ℝ) : ∃ C : ℝ, 0 ≤ C ∧ ∀ (ι : Type) [Fintype ι] [DecidableEq ι] (m : CSSolver ι)
    (f g : Vec ι → Vec ι) (N : ℕ) (h δ t0 tf : ℝ) (u v : Vec ι), m.Stiff ω R → 0 < N → 0 < h → h ≤ 1 → t0 + h ≤ tf →
      (∀ a b, ‖f a - f b‖ ≤ K * ‖a - b‖) → (∀ a, ‖g a - f a‖ ≤ δ) →
      ∀ (pyDiv storeData : Bool) (freq : ℤ) (s s' : (m.withPoints N).State) (fuel : ℕ), (pyDiv = true → tf ≠ 0) → freq ≠ 0 →
        ⌈(tf - t0) / h⌉₊ < fuel →
        ∃ u' v', ((m.withPoints N).evolve (total f) id pyDiv fuel u t0 tf h storeData freq s).1 = .ok (some u') ∧
          ((m.withPoints N).evolve (total g) id pyDiv fuel v t0 tf h storeData freq s').1 = .ok (some v') ∧
          ‖v' - u'‖ ≤ Real.exp (C * (tf - t0 + h)) * (‖v - u‖ + δ) ∧
          ((m.withPoints N).evolve (total g) id pyDiv fuel v t0 tf h storeData freq s').2.t =
            ((m.withPoints N).evolve (total f) id pyDiv fuel u t0 tf h storeData freq s).2.t ∧
          ((m.withPoints N).evolve (total g) id pyDiv fuel v t0 tf h storeData freq s').2.u.length =
            ((m.withPoints N).evolve (total f) id pyDiv fuel u t0 tf h storeData freq s).2.u.length ∧
          ∀ p ∈ ((m.withPoints N).evolve (total f) id pyDiv fuel u t0 tf h storeData freq s).2.u.zip
            ((m.withPoints N).evolve (total g) id pyDiv fuel v t0 tf h storeData freq s').2.u,
            ‖p.2 - p.1‖ ≤ Real.exp (C * (tf - t0 + h)) * (‖v - u‖ + δ) := by
  obtain ⟨C, C0, hC⟩ := run_stable_all hω hK R
  refine ⟨C, C0, fun ι _ _ m f g N h δ t0 tf u v hm hN h0 h1 hspan hf hg pyDiv storeData freq s s' fuel hp hfr hfu => ?_⟩
  obtain ⟨hc, hb⟩ := hm.bounded hω hN
  obtain ⟨h8, hb⟩ := hb h h0 h1
  have δ0 : 0 ≤ δ := (norm_nonneg _).trans (hg u)
  have hrun := fun u v => hC ι _ f g h δ u v h8 hb h0.le hf hg
  generalize hm' : m.withPoints N = m' at *
  have hpy : pyDiv = true → tf = 0 → ⌈(tf - t0) / h⌉₊ < 100 := fun a b => absurd b (hp a)
  have hstep : ∀ (f : Vec ι → Vec ι) v, (m'.step (total f) v h m'.new).1 = .ok ((m'.method h).run f v).1 :=
    fun f v => m'.step_run v h0.le (hc h)
  have hret : ∀ (f : Vec ι → Vec ι) u s, ∃ v, (m'.evolve (total f) id pyDiv fuel u t0 tf h storeData freq s).1 = .ok (some v) := by
    intro f u s
    rw [C01_evolve_iterates _ _ _ _ _ _ _ _ _ h0 hspan (fun _ => hfr) hpy s fuel hfu, iterE_ok (hstep f)]
    exact ⟨_, rfl⟩
  obtain ⟨u', hu'⟩ := hret f u s
  obtain ⟨v', hv'⟩ := hret g v s'
  obtain ⟨st, s0, sn, hst, htl, hul⟩ := C02_stored m' (total f) pyDiv u u' t0 tf h storeData freq h0 hspan hfr hpy s fuel hfu hu'
  obtain ⟨st', s0', sn', hst', htl', hul'⟩ := C02_stored m' (total g) pyDiv v v' t0 tf h storeData freq h0 hspan hfr hpy s' fuel hfu hv'
  set n := ⌈(tf - t0) / h⌉₊ with hn
  have hnh : (n : ℝ) * h ≤ tf - t0 + h := by
    have := Nat.ceil_lt_add_one (a := (tf - t0) / h) (div_nonneg (by linarith) h0.le)
    calc (n : ℝ) * h ≤ ((tf - t0) / h + 1) * h := mul_le_mul_of_nonneg_right this.le h0.le
      _ = _ := by field_simp
  have hmono : ∀ k ≤ n, Real.exp (C * ((k : ℝ) * h - ((0 : ℕ) : ℝ) * h)) * (‖st' 0 - st 0‖ + δ) ≤
      Real.exp (C * (tf - t0 + h)) * (‖v - u‖ + δ) := by
    intro k hk
    rw [s0, s0']
    refine mul_le_mul_of_nonneg_right (Real.exp_le_exp.mpr (mul_le_mul_of_nonneg_left ?_ C0)) (by positivity)
    have : (k : ℝ) * h ≤ n * h := mul_le_mul_of_nonneg_right (by exact_mod_cast hk) h0.le
    rw [Nat.cast_zero, zero_mul, sub_zero]; linarith
  have key := gronwall_upTo (tm := fun k => (k : ℝ) * h) (e := fun k => ‖st' k - st k‖) (C := C) (d := δ)
    (θ := Real.exp (C * (tf - t0 + h)) * (‖v - u‖ + δ)) (n := n) δ0 (by
      intro k hk
      refine ⟨norm_nonneg _, fun _ => ?_⟩
      have a1 := hst k hk
      have a2 := hst' k hk
      rw [hstep] at a1 a2
      rw [← Except.ok.inj a1, ← Except.ok.inj a2]
      have e : ((k + 1 : ℕ) : ℝ) * h - (k : ℝ) * h = h := by push_cast; ring
      rw [e]
      exact hrun (st k) (st' k)) hmono
  have herr : ∀ k ≤ n, ‖st' k - st k‖ ≤ Real.exp (C * (tf - t0 + h)) * (‖v - u‖ + δ) := by
    intro k hk
    have := (key k hk).trans (hmono k hk)
    linarith
  refine ⟨u', v', hu', hv', ?_, ?_, ?_, ?_⟩
  · rw [← sn, ← sn']; exact herr n le_rfl
  · rw [htl, htl']
  · rw [hul, hul']; split <;> simp
  · rw [hul, hul']
    cases storeData with
    | false => simp
    | true =>
      intro p hp'
      rw [if_pos rfl, if_pos rfl, List.zip_map', List.mem_map] at hp'
      obtain ⟨j, hj, rfl⟩ := hp'
      refine herr _ ?_
      rwa [List.mem_range, Nat.lt_succ_iff, Nat.le_div_iff_mul_le (Int.natAbs_pos.mpr hfr)] at hj

/-! ### C69: convergence -/

/-- **C69.** ETD4 and ETD5 converge with order two, with a constant that depends neither on the size of the linear operator nor
on the number of modes: the returned array and every snapshot are within `C (‖u - Y(t0)‖ + h^2 + 2^-N)` of the exact solution. -/
theorem C69_evolve (hω : 0 ≤ ω) (hK : 0 ≤ K) (hρ : 0 < ρ) (h0 : 0 ≤ M0) (h1 : 0 ≤ M1) (h2 : 0 ≤ M2) (R T : ℝ) :
    ∃ (C η : ℝ) (N0 : ℕ), 0 < η ∧ ∀ (ι : Type) [Fintype ι] [DecidableEq ι] (m : CSSolver ι) (f : Vec ι → Vec ι) (t0 tf : ℝ)
      (Y : ℝ → Vec ι) (N : ℕ) (h : ℝ) (u : Vec ι), m.IsETD → m.Stiff ω R → N0 ≤ N → 0 < h → h < η → t0 + h ≤ tf → tf - t0 ≤ T →
      Regular m.op.mat f t0 (tf + h) Y K ρ M0 M1 M2 → ‖u - Y t0‖ ≤ η →
      ∀ (pyDiv storeData : Bool) (freq : ℤ) (s : (m.withPoints N).State) (fuel : ℕ), (pyDiv = true → tf ≠ 0) → freq ≠ 0 →
        ⌈(tf - t0) / h⌉₊ < fuel →
        (∃ v, ((m.withPoints N).evolve (total f) id pyDiv fuel u t0 tf h storeData freq s).1 = .ok (some v) ∧
          ‖v - Y ((m.withPoints N).evolve (total f) id pyDiv fuel u t0 tf h storeData freq s).2.tc‖ ≤
            C * (‖u - Y t0‖ + h ^ 2 + (1 / 2) ^ N)) ∧
        ((m.withPoints N).evolve (total f) id pyDiv fuel u t0 tf h storeData freq s).2.u.length =
          ((m.withPoints N).evolve (total f) id pyDiv fuel u t0 tf h storeData freq s).2.t.length ∧
        ∀ p ∈ ((m.withPoints N).evolve (total f) id pyDiv fuel u t0 tf h storeData freq s).2.t.zip
          ((m.withPoints N).evolve (total f) id pyDiv fuel u t0 tf h storeData freq s).2.u,
          ‖p.2 - Y p.1‖ ≤ C * (‖u - Y t0‖ + h ^ 2 + (1 / 2) ^ N) := by
  obtain ⟨C, η, N0, hC, hη, hη1, hN0, hrun⟩ := stiff_runs (R := R) hω hK hρ h0 h1 h2 (T + 1)
  refine ⟨C, η, N0, hη, fun ι _ _ m f t0 tf Y N h u he hm hN hh hh1 hspan hT hY hu pyDiv storeData freq s fuel hp hfr hfu => ?_⟩
  obtain ⟨L, hmat, hL, hmeth⟩ := hm.method hω he
  obtain ⟨hc, hok⟩ := hmeth N (by omega)
  rw [hmat] at hY
  refine (m.withPoints N).evolve_error u hh hspan (hc h) (fun st s0 hst k hk => ?_) pyDiv storeData freq s fuel hp hfr hfu
  rw [← s0]
  refine hrun ι L f t0 (tf + h) Y hL (by linarith) hY (fun h => (m.withPoints N).method h) N hN hok h _ (fun k => t0 + k * h) st hh hh1
    (by simp) (fun k hk => ?_) (by rw [s0]; exact hu) k hk
  have e : (t0 + ((k + 1 : ℕ) : ℝ) * h) - (t0 + (k : ℝ) * h) = h := by push_cast; ring
  rw [e]
  exact ⟨by linarith, by linarith [(hst k hk).1], le_rfl, (hst k hk).2⟩

/-- **C69.** The same along the trajectory behind a run of ETD34, ETD35, where `H` is the longest accepted step. -/
theorem C69_trajectory (hω : 0 ≤ ω) (hK : 0 ≤ K) (hρ : 0 < ρ) (h0 : 0 ≤ M0) (h1 : 0 ≤ M1) (h2 : 0 ≤ M2) (R T : ℝ) :
    ∃ (C η : ℝ) (N0 : ℕ), 0 < η ∧ ∀ (ι : Type) [Fintype ι] [DecidableEq ι] (m : ASSolver ι) (f : Vec ι → Vec ι) (t0 tf : ℝ)
      (Y : ℝ → Vec ι) (N : ℕ) (u : Vec ι), m.IsETD → m.Stiff ω R → N0 ≤ N → t0 ≤ tf → tf - t0 ≤ T →
      Regular m.op.mat f t0 tf Y K ρ M0 M1 M2 → ‖u - Y t0‖ ≤ η →
      ∀ (cfg : SolverConfig ℝ) (hInit : Option ℝ) (pyDiv storeData : Bool) (freq : ℤ) (s : (m.withPoints N).State) (fuel : ℕ),
        cfg.decr_f < 1 → 0 < cfg.minh → (∀ h, hInit = some h → 0 < h) → freq ≠ 0 →
        ∃ (n : ℕ) (tm : ℕ → ℝ) (st : ℕ → Vec ι) (hp hu hs : ℕ → ℝ),
          tm 0 = t0 ∧ st 0 = u ∧ FreshRun (m.withPoints N) (total f) cfg tf n tm st hp hu hs ∧
          ((m.withPoints N).evolve (total f) id pyDiv cfg fuel u t0 tf hInit storeData freq s).2.t =
            (if storeData then (List.range (n / freq.natAbs + 1)).map (fun j => tm (j * freq.natAbs)) else []) ∧
          ((m.withPoints N).evolve (total f) id pyDiv cfg fuel u t0 tf hInit storeData freq s).2.u =
            (if storeData then (List.range (n / freq.natAbs + 1)).map (fun j => st (j * freq.natAbs)) else []) ∧
          (∀ v, ((m.withPoints N).evolve (total f) id pyDiv cfg fuel u t0 tf hInit storeData freq s).1 = .ok (some v) →
            v = st n ∧ tm n = tf) ∧
          ∀ H, 0 < H → H < η → (∀ k < n, hu k ≤ H) → ∀ k ≤ n, ‖st k - Y (tm k)‖ ≤ C * (‖u - Y t0‖ + H ^ 2 + (1 / 2) ^ N) := by
  obtain ⟨C, η, N0, hC, hη, hη1, hN0, hrun⟩ := stiff_runs (R := R) hω hK hρ h0 h1 h2 T
  refine ⟨C, η, N0, hη, fun ι _ _ m f t0 tf Y N u he hm hN ht hT hY hu cfg hInit pyDiv storeData freq s fuel hd hmin hpos hfr => ?_⟩
  obtain ⟨L, hmat, hL, hmeth⟩ := hm.method hω he
  obtain ⟨hc, hok⟩ := hmeth N (by omega)
  rw [hmat] at hY
  obtain ⟨n, tm, st, hp, hu', hs, t1, t2, t3, t4, t5, t6, t7⟩ :=
    (m.withPoints N).evolve_method (f := f) (η := η) u ht (fun h _ _ => hc h) cfg hInit pyDiv storeData freq s fuel hd hmin hpos hfr
  refine ⟨n, tm, st, hp, hu', hs, t1, t2, t3, t4, t5, t6, fun H H0 H1 hH => ?_⟩
  rw [← t2]
  refine hrun ι L f t0 tf Y hL hT hY (fun h => (m.withPoints N).userMethod h) N hN hok H n tm st H0 H1 t1 (fun k hk => ?_)
    (by rw [t2]; exact hu)
  obtain ⟨a1, a2, a3, a4, a5⟩ := t7 k hk
  rw [a3]
  exact ⟨a2, a5, hH k hk, a4 ((hH k hk).trans_lt H1)⟩

/-- **C69.** The same in terms of `solver.t` and `solver.u` of a run that stores every step. -/
theorem C69_stored (hω : 0 ≤ ω) (hK : 0 ≤ K) (hρ : 0 < ρ) (h0 : 0 ≤ M0) (h1 : 0 ≤ M1) (h2 : 0 ≤ M2) (R T : ℝ) :
    ∃ (C η : ℝ) (N0 : ℕ), 0 < η ∧ ∀ (ι : Type) [Fintype ι] [DecidableEq ι] (m : ASSolver ι) (f : Vec ι → Vec ι) (t0 tf : ℝ)
      (Y : ℝ → Vec ι) (N : ℕ) (u : Vec ι), m.IsETD → m.Stiff ω R → N0 ≤ N → t0 ≤ tf → tf - t0 ≤ T →
      Regular m.op.mat f t0 tf Y K ρ M0 M1 M2 → ‖u - Y t0‖ ≤ η →
      ∀ (cfg : SolverConfig ℝ) (hInit : Option ℝ) (pyDiv : Bool) (s : (m.withPoints N).State) (fuel : ℕ),
        cfg.decr_f < 1 → 0 < cfg.minh → (∀ h, hInit = some h → 0 < h) → ∀ H, 0 < H → H < η →
        ((m.withPoints N).evolve (total f) id pyDiv cfg fuel u t0 tf hInit true 1 s).2.t.IsChain (fun a b => b - a ≤ H) →
        (∀ p ∈ ((m.withPoints N).evolve (total f) id pyDiv cfg fuel u t0 tf hInit true 1 s).2.t.zip
            ((m.withPoints N).evolve (total f) id pyDiv cfg fuel u t0 tf hInit true 1 s).2.u,
          ‖p.2 - Y p.1‖ ≤ C * (‖u - Y t0‖ + H ^ 2 + (1 / 2) ^ N)) ∧
        ∀ v, ((m.withPoints N).evolve (total f) id pyDiv cfg fuel u t0 tf hInit true 1 s).1 = .ok (some v) →
          ‖v - Y tf‖ ≤ C * (‖u - Y t0‖ + H ^ 2 + (1 / 2) ^ N) := by
  obtain ⟨C, η, N0, hη, key⟩ := C69_trajectory hω hK hρ h0 h1 h2 R T
  refine ⟨C, η, N0, hη, fun ι _ _ m f t0 tf Y N u he hm hN ht hT hY hu cfg hInit pyDiv s fuel hd hmin hpos H H0 H1 hch => ?_⟩
  obtain ⟨n, tm, st, hp, hu', hs, t1, t2, t3, t4, t5, t6, t7⟩ :=
    key ι m f t0 tf Y N u he hm hN ht hT hY hu cfg hInit pyDiv true 1 s fuel hd hmin hpos one_ne_zero
  simp only [if_true, Int.natAbs_one, mul_one, Nat.div_one] at t4 t5
  have herr := t7 H H0 H1 (by
    intro k hk
    rw [t4, List.isChain_iff_getElem] at hch
    have := hch k (by simpa using hk)
    simp only [List.getElem_map, List.getElem_range] at this
    rw [t3.time k hk] at this
    linarith)
  refine ⟨?_, fun v hv => ?_⟩
  · rw [t4, t5]
    intro p hp'
    rw [List.zip_map', List.mem_map] at hp'
    obtain ⟨j, hj, rfl⟩ := hp'
    exact herr j (Nat.lt_succ_iff.mp (List.mem_range.mp hj))
  · obtain ⟨rfl, e⟩ := t6 v hv
    rw [← e]; exact herr n le_rfl

/-! ### C70: order reduction of the integrating factor methods -/

/-- The equilibrium of `y' = -μ y + 1`. -/
theorem equilibrium_regular {ι : Type} [Fintype ι] [DecidableEq ι] {μ : ℝ} (hμ : μ ≠ 0) (t0 t1 : ℝ) :
    Regular (Matrix.diagonal fun _ : ι => -(μ : ℂ)) (fun _ => bc 1) t0 t1 (fun _ => bc ((1 / μ : ℝ) : ℂ)) 0 1 1 0 0 where
  deriv t _ := by
    have : (Matrix.diagonal fun _ : ι => -(μ : ℂ)) *ᵥ bc ((1 / μ : ℝ) : ℂ) + bc 1 = 0 := by
      funext i
      rw [Pi.add_apply, Matrix.mulVec_diagonal]
      simp [bc, hμ]
    rw [this]
    exact hasDerivWithinAt_const _ _ _
  lip t _ v _ := by simp
  value t _ := (pi_norm_le_iff_of_nonneg zero_le_one).mpr fun i => by simp [bc]
  smooth := ⟨0, fun t _ => ⟨hasDerivWithinAt_const _ _ _, by simp⟩, fun s _ t _ => by simp⟩

theorem bc_norm_ge {ι : Type} [Fintype ι] [Nonempty ι] (x y : ℝ) : x - y ≤ ‖(bc (x : ℂ) : Vec ι) - bc (y : ℂ)‖ := by
  obtain ⟨i⟩ := ‹Nonempty ι›
  refine le_trans ?_ (norm_le_pi_norm _ i)
  show _ ≤ ‖(x : ℂ) - (y : ℂ)‖
  rw [← Complex.ofReal_sub, Complex.norm_real]
  exact le_abs_self _

/-- **C70.** For the equilibrium of `y' = -μ y + 1` with `μ = 108 / h`, the error of a run of IF4 with step size `h` is at least `h / 12`, however
long the run is. -/
theorem C70_if4 {ι : Type} [Fintype ι] [DecidableEq ι] [Nonempty ι] {h t0 tf : ℝ} (h0 : 0 < h) (hspan : t0 + h ≤ tf)
    (m : CSSolver ι) (hm : m = .if4 (.diag fun _ => -((108 / h : ℝ) : ℂ)))
    (pyDiv storeData : Bool) (freq : ℤ) (s : m.State) (fuel : ℕ) (hp : pyDiv = true → tf ≠ 0) (hfr : freq ≠ 0)
    (hfu : ⌈(tf - t0) / h⌉₊ < fuel) :
    ∃ v, (m.evolve (total fun _ => bc 1) id pyDiv fuel (bc ((1 / (108 / h) : ℝ) : ℂ)) t0 tf h storeData freq s).1 = .ok (some v) ∧
      h / 12 ≤ ‖v - bc ((1 / (108 / h) : ℝ) : ℂ)‖ := by
  have hme : m.method h = lawson rk4 (Matrix.diagonal fun _ => -((108 / h : ℝ) : ℂ)) h := by rw [hm]; rfl
  have hc : m.CoefOk h := by rw [hm]; trivial
  have hpy : pyDiv = true → tf = 0 → ⌈(tf - t0) / h⌉₊ < 100 := fun a b => absurd b (hp a)
  have hstep : ∀ v, (m.step (total fun _ => bc 1) v h m.new).1 = .ok ((m.method h).run (fun _ => bc 1) v).1 :=
    fun v => m.step_run v h0.le hc
  obtain ⟨v, hret⟩ : ∃ v, (m.evolve (total fun _ => bc 1) id pyDiv fuel (bc ((1 / (108 / h) : ℝ) : ℂ)) t0 tf h storeData freq s).1 = .ok (some v) := by
    rw [C01_evolve_iterates _ _ _ _ _ _ _ _ _ h0 hspan (fun _ => hfr) hpy s fuel hfu, iterE_ok hstep]
    exact ⟨_, rfl⟩
  obtain ⟨st, s0, sn, hst, -, -⟩ := C02_stored m _ pyDiv _ v t0 tf h storeData freq h0 hspan hfr hpy s fuel hfu hret
  have hn : 0 < ⌈(tf - t0) / h⌉₊ := Nat.ceil_pos.mpr (div_pos (by linarith) h0)
  have e : 1 / (108 / h) = h / 108 := by field_simp
  rw [e] at s0
  have key : ∀ k ≤ ⌈(tf - t0) / h⌉₊, ∃ r : ℝ, st k = bc (r : ℂ) ∧ h / 108 ≤ r ∧ (0 < k → h / 108 + h / 12 ≤ r) := by
    intro k
    induction k with
    | zero => intro _; exact ⟨h / 108, s0, le_rfl, fun h => absurd h (lt_irrefl 0)⟩
    | succ k ih =>
      intro hk
      obtain ⟨r, r1, r2, -⟩ := ih (by omega)
      have a := hst k (by omega)
      rw [hstep, r1, hme] at a
      have a := (Except.ok.inj a).symm
      have b : st (k + 1) = _ := a.trans (lawson_const rk4 (108 / h) h r)
      have c := rk4_defect h0
      have d : Real.exp (-(108 / h * h)) * (h / 108) ≤ Real.exp (-(108 / h * h)) * r :=
        mul_le_mul_of_nonneg_left r2 (Real.exp_pos _).le
      exact ⟨_, b, by linarith, fun _ => by linarith⟩
  obtain ⟨r, r1, -, r3⟩ := key _ le_rfl
  refine ⟨v, hret, ?_⟩
  rw [← sn, r1, e]
  have := r3 hn
  exact le_trans (by linarith) (bc_norm_ge r (h / 108))

/-- **C70.** The same for a trial of IF34 and IF45DP. -/
theorem C70_trial {ι : Type} [Fintype ι] [DecidableEq ι] [Nonempty ι] {h : ℝ} (h0 : 0 < h)
    (m : ASSolver ι) (hm : m = .if34 (.diag fun _ => -((108 / h : ℝ) : ℂ)) ∨ m = .if45dp fun _ => -((108 / h : ℝ) : ℂ)) :
    ∃ v e, m.oneTrial (total fun _ => bc 1) h (bc ((1 / (108 / h) : ℝ) : ℂ)) = .ok (v, e) ∧
      h / 12 ≤ ‖v - bc ((1 / (108 / h) : ℝ) : ℂ)‖ := by
  have e : 1 / (108 / h) = h / 108 := by field_simp
  rw [e]
  rcases hm with rfl | rfl
  · refine ⟨_, _, ASSolver.oneTrial_run _ _ trivial, ?_⟩
    show h / 12 ≤ ‖((lawson rk4 (Matrix.diagonal fun _ => -((108 / h : ℝ) : ℂ)) h).run (fun _ => bc 1) _).1 - _‖
    rw [lawson_const]
    exact le_trans (by linarith [rk4_defect h0]) (bc_norm_ge _ _)
  · refine ⟨_, _, ASSolver.oneTrial_run _ _ trivial, ?_⟩
    show h / 12 ≤ ‖((lawson (dpWith _) (Matrix.diagonal fun _ => -((108 / h : ℝ) : ℂ)) h).run (fun _ => bc 1) _).1 - _‖
    rw [lawson_const]
    exact le_trans (by linarith [dp_defect (17 / 1920) h0]) (bc_norm_ge _ _)

/-- **C70.** So the integrating factor methods do not share C69: whatever `C` and `η`, there is a problem with the regularity of C69 and a step size
below `η` for which the error of IF4 at the end of the interval `[0, 1]` is more than `C h^2`. -/
theorem C70_reduction (C : ℝ) {η : ℝ} (hη : 0 < η) : ∃ (m : CSSolver (Fin 1)) (f : Vec (Fin 1) → Vec (Fin 1)) (Y : ℝ → Vec (Fin 1)) (h : ℝ),
    ¬ m.IsETD ∧ m.Stiff 0 0 ∧ 0 < h ∧ h < η ∧ h ≤ 1 ∧ Regular m.op.mat f 0 (1 + h) Y 0 1 1 0 0 ∧
    ∀ (pyDiv storeData : Bool) (freq : ℤ) (s : m.State) (fuel : ℕ), freq ≠ 0 → ⌈1 / h⌉₊ < fuel →
      ∃ v, (m.evolve (total f) id pyDiv fuel (Y 0) 0 1 h storeData freq s).1 = .ok (some v) ∧
        C * h ^ 2 < ‖v - Y (m.evolve (total f) id pyDiv fuel (Y 0) 0 1 h storeData freq s).2.tc‖ := by
  set h := min (η / 2) (min 1 (1 / (24 * (|C| + 1)))) with hh
  have c0 : 0 < 24 * (|C| + 1) := by have := abs_nonneg C; positivity
  have h0 : 0 < h := lt_min (by linarith) (lt_min one_pos (by positivity))
  have h1 : h ≤ 1 := (min_le_right _ _).trans (min_le_left _ _)
  have h2 : h ≤ 1 / (24 * (|C| + 1)) := (min_le_right _ _).trans (min_le_right _ _)
  have h3 : h < η := (min_le_left _ _).trans_lt (by linarith)
  refine ⟨.if4 (.diag fun _ => -((108 / h : ℝ) : ℂ)), fun _ => bc 1, fun _ => bc ((1 / (108 / h) : ℝ) : ℂ), h, fun h => h, fun i => ?_, h0, h3, h1,
    equilibrium_regular (by positivity) _ _, fun pyDiv storeData freq s fuel hfr hfu => ?_⟩
  · rw [Complex.neg_re, Complex.ofReal_re]
    have : 0 < 108 / h := by positivity
    linarith
  · obtain ⟨v, a1, a2⟩ := C70_if4 (t0 := 0) (tf := 1) h0 (by linarith) _ rfl pyDiv storeData freq s fuel (fun _ => one_ne_zero) hfr
      (by rw [sub_zero]; exact hfu)
    refine ⟨v, a1, lt_of_lt_of_le ?_ a2⟩
    rw [le_div_iff₀ c0] at h2
    have h4 : C * h ≤ |C| * h := mul_le_mul_of_nonneg_right (le_abs_self C) h0.le
    have h5 : C * h < 1 / 12 := by linarith
    calc C * h ^ 2 = C * h * h := by ring
      _ < 1 / 12 * h := mul_lt_mul_of_pos_right h5 h0
      _ = h / 12 := by ring

/-! ### Examples -/

/-- A problem with a slow solution and a fast mode of rate `μ`: `y0' = -y0`, `y1' = -μ y1 + y0^2`. -/
noncomputable def fastN : Vec (Fin 2) → Vec (Fin 2) := fun v => ![0, v 0 ^ 2]

noncomputable def fastY (μ : ℝ) (t : ℝ) : Vec (Fin 2) := ![(Real.exp (-t) : ℝ), ((Real.exp (-2 * t) / (μ - 2) : ℝ) : ℂ)]

theorem fast_norm_le {b : ℝ} {v : Vec (Fin 2)} (h0 : ‖v 0‖ ≤ b) (h1 : ‖v 1‖ ≤ b) : ‖v‖ ≤ b :=
  (pi_norm_le_iff_of_nonneg ((norm_nonneg _).trans h0)).mpr fun i => by fin_cases i; exacts [h0, h1]

theorem fast_deriv (c t : ℝ) : HasDerivAt (fun t : ℝ => ((Real.exp (c * t) : ℝ) : ℂ)) ((c * Real.exp (c * t) : ℝ) : ℂ) t := by
  have h1 := (((hasDerivAt_id' t).const_mul c).exp).ofReal_comp
  simpa [mul_comm] using h1

/-- The constants do not depend on `μ`. -/
theorem fast_regular {μ : ℝ} (hμ : 3 ≤ μ) {t1 : ℝ} :
    Regular (Matrix.diagonal ![-1, -(μ : ℂ)]) fastN 0 t1 (fastY μ) 4 1 1 2 4 := by
  have hf : ∀ t, fastN (fastY μ t) = ![0, ((Real.exp (-2 * t) : ℝ) : ℂ)] := by
    intro t
    have : ((Real.exp (-t) : ℝ) : ℂ) ^ 2 = ((Real.exp (-2 * t) : ℝ) : ℂ) := by
      rw [← Complex.ofReal_pow, ← Real.exp_nat_mul]; congr 2; push_cast; ring
    simp only [fastN, fastY, Matrix.cons_val_zero, this]
  have hexp : ∀ t, 0 ≤ t → Real.exp (-2 * t) ≤ 1 := fun t ht => Real.exp_le_one_iff.mpr (by linarith)
  have hne : μ - 2 ≠ 0 := by linarith
  refine ⟨fun t ht => HasDerivAt.hasDerivWithinAt ?_, fun t ht v hv => ?_, fun t ht => ?_,
    ![fun _ => 0, fun t => ((-2 * Real.exp (-2 * t) : ℝ) : ℂ)] |> fun a t i => a i t, fun t ht => ⟨HasDerivAt.hasDerivWithinAt ?_, ?_⟩, ?_⟩
  · rw [hf, hasDerivAt_pi]
    intro i
    fin_cases i
    · have := fast_deriv (-1) t
      simpa [fastY, Matrix.mulVec_diagonal] using this
    · have := (fast_deriv (-2) t).div_const ((μ - 2 : ℝ) : ℂ)
      have e : (((-2 * Real.exp (-2 * t) : ℝ) : ℂ)) / ((μ - 2 : ℝ) : ℂ) =
          (-(μ : ℂ)) * ((Real.exp (-2 * t) / (μ - 2) : ℝ) : ℂ) + ((Real.exp (-2 * t) : ℝ) : ℂ) := by
        rw [← Complex.ofReal_div, ← Complex.ofReal_neg, ← Complex.ofReal_mul, ← Complex.ofReal_add]
        congr 1
        field_simp
        ring
      rw [e] at this
      simpa [fastY, Matrix.mulVec_diagonal] using this
  · have hv0 : ‖v 0 - fastY μ t 0‖ ≤ ‖v - fastY μ t‖ := norm_le_pi_norm (v - fastY μ t) 0
    have hY0 : ‖fastY μ t 0‖ ≤ 1 := by
      simp only [fastY, Matrix.cons_val_zero, Complex.norm_real, Real.norm_eq_abs, Real.abs_exp]
      exact Real.exp_le_one_iff.mpr (by linarith [ht.1])
    refine fast_norm_le (by simp [fastN]) ?_
    have e : fastN v 1 - fastN (fastY μ t) 1 = (v 0 + fastY μ t 0) * (v 0 - fastY μ t 0) := by
      simp only [fastN, Matrix.cons_val_one, Matrix.cons_val_zero]; ring
    show ‖fastN v 1 - fastN (fastY μ t) 1‖ ≤ _
    rw [e, norm_mul]
    refine mul_le_mul ?_ hv0 (norm_nonneg _) (by norm_num)
    calc ‖v 0 + fastY μ t 0‖ = ‖(v 0 - fastY μ t 0) + 2 * fastY μ t 0‖ := by congr 1; ring
      _ ≤ ‖v 0 - fastY μ t 0‖ + 2 * ‖fastY μ t 0‖ := (norm_add_le _ _).trans (by rw [norm_mul]; simp)
      _ ≤ 4 := by linarith
  · rw [hf]
    refine fast_norm_le (by simp) ?_
    simp only [Matrix.cons_val_one, Matrix.cons_val_zero, Complex.norm_real, Real.norm_eq_abs, Real.abs_exp]
    exact hexp t ht.1
  · simp only [hf]
    rw [hasDerivAt_pi]
    intro i
    fin_cases i
    · exact hasDerivAt_const _ _
    · exact fast_deriv (-2) t
  · refine fast_norm_le (by simp) ?_
    show ‖((-2 * Real.exp (-2 * t) : ℝ) : ℂ)‖ ≤ 2
    rw [Complex.norm_real, Real.norm_eq_abs, abs_mul, Real.abs_exp]
    have := hexp t ht.1
    rw [show |(-2 : ℝ)| = 2 by norm_num]; linarith
  · intro s hs t ht
    refine fast_norm_le (by simp) ?_
    show ‖((-2 * Real.exp (-2 * s) : ℝ) : ℂ) - ((-2 * Real.exp (-2 * t) : ℝ) : ℂ)‖ ≤ _
    have := (convex_Icc 0 t1).norm_image_sub_le_of_norm_hasDerivWithin_le (f := fun t : ℝ => ((Real.exp (-2 * t) : ℝ) : ℂ))
      (f' := fun t => ((-2 * Real.exp (-2 * t) : ℝ) : ℂ)) (C := 2) (fun x _ => (fast_deriv (-2) x).hasDerivWithinAt)
      (fun x hx => by
        rw [Complex.norm_real, Real.norm_eq_abs, abs_mul, Real.abs_exp]
        have := hexp x hx.1
        rw [show |(-2 : ℝ)| = 2 by norm_num]; linarith) ht hs
    rw [Real.norm_eq_abs] at this
    calc _ = 2 * ‖((Real.exp (-2 * s) : ℝ) : ℂ) - ((Real.exp (-2 * t) : ℝ) : ℂ)‖ := by
          rw [← Complex.ofReal_sub, ← Complex.ofReal_sub, Complex.norm_real, Complex.norm_real, ← mul_sub, norm_mul]; norm_num
      _ ≤ _ := by linarith

/-- C69: one constant for all rates `μ ≥ 3` and ETD4 with the default contour. -/
example : ∃ (C η : ℝ) (N0 : ℕ), 0 < η ∧ ∀ (μ h : ℝ) (N : ℕ), 3 ≤ μ → N0 ≤ N → 0 < h → h < η → h ≤ 1 →
    ∃ v, (((CSSolver.etd4 ⟨1 / 100, 32, 1⟩ (.diag ![-1, -(μ : ℂ)])).withPoints N).evolve (total fastN) id true (⌈1 / h⌉₊ + 1) (fastY μ 0) 0 1
      h true 1 ((CSSolver.etd4 ⟨1 / 100, 32, 1⟩ (.diag ![-1, -(μ : ℂ)])).withPoints N).new).1 = .ok (some v) ∧
      ‖v - fastY μ (((CSSolver.etd4 ⟨1 / 100, 32, 1⟩ (.diag ![-1, -(μ : ℂ)])).withPoints N).evolve (total fastN) id true (⌈1 / h⌉₊ + 1)
        (fastY μ 0) 0 1 h true 1 ((CSSolver.etd4 ⟨1 / 100, 32, 1⟩ (.diag ![-1, -(μ : ℂ)])).withPoints N).new).2.tc‖ ≤
          C * (h ^ 2 + (1 / 2) ^ N) := by
  obtain ⟨C, η, N0, hη, key⟩ := C69_evolve (ω := 0) (K := 4) (ρ := 1) (M0 := 1) (M1 := 2) (M2 := 4) le_rfl (by norm_num) one_pos
    (by norm_num) (by norm_num) (by norm_num) 1 1
  refine ⟨C, η, N0, hη, fun μ h N hμ hN h0 h1 h2 => ?_⟩
  have := (key (Fin 2) (.etd4 ⟨1 / 100, 32, 1⟩ (.diag ![-1, -(μ : ℂ)])) fastN 0 1 (fastY μ) N h (fastY μ 0) trivial
    ⟨⟨by norm_num, by norm_num, le_rfl⟩, fun i => by fin_cases i <;> simp; linarith⟩ hN h0 h1 (by linarith) (by norm_num) (fast_regular hμ)
    (by simpa using hη.le) true true 1
    ((CSSolver.etd4 ⟨1 / 100, 32, 1⟩ (.diag ![-1, -(μ : ℂ)])).withPoints N).new (⌈1 / h⌉₊ + 1) (fun _ => one_ne_zero) one_ne_zero (by simp)).1
  simpa using this

/-- C69: the same for ETD35 with the default settings of the controller. -/
example : ∃ (C η : ℝ) (N0 : ℕ), 0 < η ∧ ∀ (μ H : ℝ) (N fuel : ℕ), 3 ≤ μ → N0 ≤ N → 0 < H → H < η →
    (((ASSolver.etd35 ⟨1 / 100, 32, 1⟩ (.diag ![-1, -(μ : ℂ)])).withPoints N).evolve (total fastN) id true
      ⟨1 / 10000, 5 / 4, 17 / 20, 4 / 5, 1 / 100, 1 / 10 ^ 16⟩ fuel (fastY μ 0) 0 1 none true 1
      ((ASSolver.etd35 ⟨1 / 100, 32, 1⟩ (.diag ![-1, -(μ : ℂ)])).withPoints N).new).2.t.IsChain (fun a b => b - a ≤ H) →
    ∀ v, (((ASSolver.etd35 ⟨1 / 100, 32, 1⟩ (.diag ![-1, -(μ : ℂ)])).withPoints N).evolve (total fastN) id true
      ⟨1 / 10000, 5 / 4, 17 / 20, 4 / 5, 1 / 100, 1 / 10 ^ 16⟩ fuel (fastY μ 0) 0 1 none true 1
      ((ASSolver.etd35 ⟨1 / 100, 32, 1⟩ (.diag ![-1, -(μ : ℂ)])).withPoints N).new).1 = .ok (some v) →
      ‖v - fastY μ 1‖ ≤ C * (H ^ 2 + (1 / 2) ^ N) := by
  obtain ⟨C, η, N0, hη, key⟩ := C69_stored (ω := 0) (K := 4) (ρ := 1) (M0 := 1) (M1 := 2) (M2 := 4) le_rfl (by norm_num) one_pos
    (by norm_num) (by norm_num) (by norm_num) 1 1
  refine ⟨C, η, N0, hη, fun μ H N fuel hμ hN H0 H1 hc v hv => ?_⟩
  have := (key (Fin 2) (.etd35 ⟨1 / 100, 32, 1⟩ (.diag ![-1, -(μ : ℂ)])) fastN 0 1 (fastY μ) N (fastY μ 0) trivial
    ⟨⟨by norm_num, by norm_num, le_rfl⟩, fun i => by fin_cases i <;> simp; linarith⟩ hN (by norm_num) (by norm_num) (fast_regular hμ)
    (by simpa using hη.le) _ none true _ fuel (by norm_num) (by norm_num) (by simp) H H0 H1 hc).2 v hv
  simpa using this

/-- C68: a constant for the operators `-k^2` with any number of modes, for IF4, with the nonlinear functions `|u|` and `|u| + δ`. -/
example : ∃ C : ℝ, 0 ≤ C ∧ ∀ (n : ℕ) (h δ : ℝ) (u v : Vec (Fin n)), 0 < h → h ≤ 1 → 0 ≤ δ →
    ∃ u' v', ((CSSolver.if4 (.diag fun k : Fin n => -((k : ℕ) : ℂ) ^ 2)).step (total fun w i => (‖w i‖ : ℂ)) u h (CSSolver.if4 (.diag _)).new).1 = .ok u' ∧
      ((CSSolver.if4 (.diag fun k : Fin n => -((k : ℕ) : ℂ) ^ 2)).step (total fun w i => ((‖w i‖ + δ : ℝ) : ℂ)) v h (CSSolver.if4 (.diag _)).new).1 = .ok v' ∧
      ‖v' - u'‖ ≤ (1 + C * h) * ‖v - u‖ + C * h * δ := by
  obtain ⟨C, C0, key⟩ := C68_step (ω := 0) (K := 1) le_rfl zero_le_one 1
  refine ⟨C, C0, fun n h δ u v h0 h1 hδ => key (Fin n) (.if4 (.diag fun k : Fin n => -((k : ℕ) : ℂ) ^ 2)) _ _ 1 h δ u v (fun i => ?_) one_pos h0 h1 (fun a b => ?_)
    (fun a => ?_)⟩
  · show (-((i : ℕ) : ℂ) ^ 2).re ≤ 0
    rw [← Nat.cast_pow, Complex.neg_re, Complex.natCast_re]
    have : (0 : ℝ) ≤ ((i : ℕ) ^ 2 : ℕ) := Nat.cast_nonneg _
    linarith
  · rw [one_mul]
    refine (pi_norm_le_iff_of_nonneg (norm_nonneg _)).mpr fun i => le_trans ?_ (norm_le_pi_norm (a - b) i)
    show ‖(‖a i‖ : ℂ) - (‖b i‖ : ℂ)‖ ≤ _
    rw [← Complex.ofReal_sub, Complex.norm_real]
    exact abs_norm_sub_norm_le _ _
  · refine (pi_norm_le_iff_of_nonneg hδ).mpr fun i => ?_
    show ‖((‖a i‖ + δ : ℝ) : ℂ) - (‖a i‖ : ℂ)‖ ≤ _
    rw [← Complex.ofReal_sub, Complex.norm_real, add_sub_cancel_left, Real.norm_of_nonneg hδ]

/-- C70: with `h = 1 / 100` on `[0, 1]`. -/
example : ∃ v : Vec (Fin 1), ((CSSolver.if4 (.diag fun _ : Fin 1 => -((108 / (1 / 100) : ℝ) : ℂ))).evolve (total fun _ => bc 1) id false 101
      (bc ((1 / (108 / (1 / 100)) : ℝ) : ℂ)) 0 1 (1 / 100) true 1 (CSSolver.if4 (.diag _)).new).1 = .ok (some v) ∧
    (1 / 100) / 12 ≤ ‖v - bc ((1 / (108 / (1 / 100)) : ℝ) : ℂ)‖ :=
  C70_if4 (by norm_num) (by norm_num) _ rfl false true 1 _ 101 (by simp) one_ne_zero (by
    rw [Nat.lt_succ_iff, Nat.ceil_le]; norm_num)

/-- C70 for a trial of IF34, and the reduction of the order at any constant. -/
example : (∃ v e, (ASSolver.if34 (.diag fun _ : Fin 1 => -((108 / (1 / 100) : ℝ) : ℂ))).oneTrial (total fun _ => bc 1) (1 / 100)
      (bc ((1 / (108 / (1 / 100)) : ℝ) : ℂ)) = .ok (v, e) ∧ (1 / 100 : ℝ) / 12 ≤ ‖v - bc ((1 / (108 / (1 / 100)) : ℝ) : ℂ)‖) ∧
    ∃ (m : CSSolver (Fin 1)) (f : Vec (Fin 1) → Vec (Fin 1)) (Y : ℝ → Vec (Fin 1)) (h : ℝ), ¬ m.IsETD ∧ 0 < h ∧ h < 1 ∧
      ∀ (s : m.State) (fuel : ℕ), ⌈1 / h⌉₊ < fuel → ∃ v, (m.evolve (total f) id true fuel (Y 0) 0 1 h true 1 s).1 = .ok (some v) ∧
        1000 * h ^ 2 < ‖v - Y (m.evolve (total f) id true fuel (Y 0) 0 1 h true 1 s).2.tc‖ := by
  refine ⟨C70_trial (by norm_num) _ (.inl rfl), ?_⟩
  obtain ⟨m, f, Y, h, a1, -, a2, a3, -, -, a4⟩ := C70_reduction 1000 (η := 1) one_pos
  exact ⟨m, f, Y, h, a1, a2, a3, fun s fuel hf => a4 true true 1 s fuel one_ne_zero hf⟩

/-- C68 for any number of modes `-k²`: constants that depend neither on the number of modes nor on the step size. -/
example : ∃ C : ℝ, 0 ≤ C ∧ ∀ (n : ℕ) (h : ℝ) (u v : Vec (Fin n)), 0 < h → h ≤ 1 →
    ∃ u' v' e e', (ASSolver.if34 (.diag fun k : Fin n => -((k : ℕ) : ℂ) ^ 2)).oneTrial (total id) h u = .ok (u', e) ∧
      (ASSolver.if34 (.diag fun k : Fin n => -((k : ℕ) : ℂ) ^ 2)).oneTrial (total id) h v = .ok (v', e') ∧
      ‖v' - u'‖ ≤ (1 + C * h) * ‖v - u‖ + C * h * 0 := by
  obtain ⟨C, C0, key⟩ := C68_trial (ω := 0) (K := 1) le_rfl zero_le_one 1
  refine ⟨C, C0, fun n h u v h0 h1 => key (Fin n) (.if34 (.diag fun k : Fin n => -((k : ℕ) : ℂ) ^ 2)) id id 1 h 0 u v (fun i => ?_) one_pos h0 h1
    (fun a b => by simp) (fun a => by simp)⟩
  show (-((i : ℕ) : ℂ) ^ 2).re ≤ 0
  rw [← Nat.cast_pow, Complex.neg_re, Complex.natCast_re]
  have : (0 : ℝ) ≤ ((i : ℕ) ^ 2 : ℕ) := Nat.cast_nonneg _
  linarith

example : ∃ C : ℝ, 0 ≤ C ∧ ∀ (n : ℕ) (u v : Vec (Fin n)) (s s' : (CSSolver.if4 (.diag fun k : Fin n => -((k : ℕ) : ℂ) ^ 2)).State),
    ∃ u' v', ((CSSolver.if4 (.diag fun k : Fin n => -((k : ℕ) : ℂ) ^ 2)).evolve (total id) id true 3 u 0 1 (1 / 2) true 1 s).1 = .ok (some u') ∧
      ((CSSolver.if4 (.diag fun k : Fin n => -((k : ℕ) : ℂ) ^ 2)).evolve (total id) id true 3 v 0 1 (1 / 2) true 1 s').1 = .ok (some v') ∧
      ‖v' - u'‖ ≤ Real.exp (C * (1 - 0 + 1 / 2)) * (‖v - u‖ + 0) := by
  obtain ⟨C, C0, key⟩ := C68_evolve (ω := 0) (K := 1) le_rfl zero_le_one 1
  refine ⟨C, C0, fun n u v s s' => ?_⟩
  obtain ⟨u', v', h1, h2, h3, -⟩ := key (Fin n) (.if4 (.diag fun k : Fin n => -((k : ℕ) : ℂ) ^ 2)) id id 1 (1 / 2) 0 0 1 u v (fun i => by
    show (-((i : ℕ) : ℂ) ^ 2).re ≤ 0
    rw [← Nat.cast_pow, Complex.neg_re, Complex.natCast_re]
    have : (0 : ℝ) ≤ ((i : ℕ) ^ 2 : ℕ) := Nat.cast_nonneg _
    linarith) one_pos (by norm_num) (by norm_num) (by norm_num) (fun a b => by simp) (fun a => by simp) true true 1 s s' 3 (by norm_num)
    one_ne_zero (by norm_num)
  exact ⟨u', v', h1, h2, h3⟩

end Verif
