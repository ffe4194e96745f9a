import Verif.Props.OperatorExamples
import Verif.Props.SettingsExamples
import Verif.Props.HistoryExamples
import Verif.Props.FloatCoefs
import Verif.Props.Rounded
import Verif.Props.Dtypes
import Verif.Props.Times
import Verif.Props.Intertwine
import Verif.Props.ModelOps
import Verif.Props.Amplitude
import Verif.Props.Adaptive
import Verif.Props.PeriodicGrid
import Verif.Props.Convergence

/-!
# More concrete cases

For theorems whose own files have none.
-/

set_option linter.unusedSectionVars false

namespace Verif

open Matrix
open scoped ContDiff

/-! ### C06, C58, C66, C74 -/

example : ((demo.cls fun x => .ok x).step id demoCfg 1 1 demo.new).2.trials ≤ demo.new.trials + 51 ∧
    demo.new.trials + 1 ≤ ((demo.cls fun x => .ok x).step id demoCfg 1 1 demo.new).2.trials ∧
    (demo.cls fun x => .ok x).step id demoCfg 1 (-1) demo.new = (.error .assertionError, demo.new) :=
  ⟨(C06_trials_any _ id demoCfg 1 1 demo.new).1, (C06_trials_any _ id demoCfg 1 1 demo.new).2.1 zero_le_one,
    (C06_trials_any _ id demoCfg 1 (-1) demo.new).2.2 (by norm_num)⟩

/-- A grid of 16 points on `[0, 1]`, a signal with a Nyquist component `γ`: the operator of `kdv_ops` is wrong there by `i (16 π)³ 16 γ`. -/
example (α β : ℕ → ℝ) (γ mu : ℝ) : ∃ x kx, constructXKxRfft id (.int 16) (0 : ℝ) 1 = .ok (x, kx) ∧
    kdvLin (waves kx 8) (Fin.last 8) * sampleSpec x 8 (realTrigPoly 8 0 1 α β γ) (Fin.last 8) =
      Complex.I * (2 * Real.pi * (8 : ℕ) / ((1 : ℝ) - (0 : ℝ))) ^ 3 * ((2 * 8 : ℕ) * γ) ∧
    burgersNl (waves kx 8) (sampleSpec x 8 (realTrigPoly 8 0 1 α β γ)) =
      .ok (sampleSpec x 8 fun y => -(realTrigPoly 8 0 1 α β γ y * deriv (realTrigPoly 8 0 1 α β γ) y)) := by
  have hg := C42_rfft 6 (a := (0 : ℝ)) (b := 1) (by norm_num)
  exact ⟨_, _, hg, (C58_kdv hg 8 (gridPoints_length _ _ _) α β γ).2.2.1, (C58_burgers hg 8 (gridPoints_length _ _ _) α β γ mu).1⟩

/-- An exchange between two components conserves their sum. -/
example (cfg : ETDConfig ℝ) (u v : Vec (Fin 2)) (rnd : ℝ → ℝ) (s : (CSSolver.etd4 cfg (.full exchange)).State)
    (hv : v ∈ ((CSSolver.etd4 cfg (.full exchange)).evolve (total fun v => ![v 0 * v 1, -(v 0 * v 1)]) rnd true 100 u 0 1 (1 / 8) true 2 s).2.u) :
    v 0 + v 1 = u 0 + u 1 := by
  have := (C66_conserved (.etd4 cfg (.full exchange)) (total fun v => ![v 0 * v 1, -(v 0 * v 1)]) ![1, 1]
    (by ext i; fin_cases i <;> simp [CSSolver.op, LinOp.mat, exchange, vecMul, dotProduct, Fin.sum_univ_two])
    (by rintro v n hn; cases hn; simp [dotProduct, Fin.sum_univ_two]) rnd true 100 u 0 1 (1 / 8) true 2 s).2 v hv
  simpa [dotProduct, Fin.sum_univ_two] using this

/-- The difference decays like `exp(-2 t)`. -/
example (u : Vec (Fin 2)) (s : (CSSolver.if4 (.full exchange)).State) :
    ∃ v, ((CSSolver.if4 (.full exchange)).evolve (total fun v => ![v 0 * v 1, v 0 * v 1]) id false 9 u 0 1 (1 / 8) true 2 s).1 = .ok (some v) ∧
      v 0 - v 1 = Complex.exp (-2) * (u 0 - u 1) := by
  obtain ⟨⟨v, h1, h2⟩, -⟩ := C66_exponential (.if4 (.full exchange)) (fun v => ![v 0 * v 1, v 0 * v 1]) ![1, -1] (-2)
    (by ext i; fin_cases i <;> simp [CSSolver.op, LinOp.mat, exchange, vecMul, dotProduct, Fin.sum_univ_two] <;> norm_num)
    (by intro v; simp [dotProduct, Fin.sum_univ_two]) u 0 1 (1 / 8) (by norm_num) (by norm_num) trivial 8
    ⟨by norm_num, fun n hn => by
      have : (1 : ℝ) ≤ 0 + n * (1 / 8) := hn
      have : (8 : ℝ) ≤ n := by linarith
      exact_mod_cast this⟩ true 2 (by norm_num) s 9 (by norm_num)
  refine ⟨v, h1, ?_⟩
  have h3 : ((((8 : ℕ) : ℝ) * (1 / 8) : ℝ) : ℂ) * (-2) = -2 := by push_cast; norm_num
  rw [h3] at h2
  simpa [dotProduct, Fin.sum_univ_two, sub_eq_add_neg] using h2

/-- Four samples of a signal, moved by one: the recorded samples are those of the other run, moved by one. -/
example (kx : Fin 3 → ℝ) (f : ℕ → ℝ) (s s' : (CSSolver.if4 (.diag (kdvLin kx))).State) :
    ((CSSolver.if4 (.diag (kdvLin kx))).evolve (kdvNl kx) id true 20 (spectrum 2 (roll 4 1 f)) 0 1 (1 / 8) true 1 s').2.u.map samples =
      ((CSSolver.if4 (.diag (kdvLin kx))).evolve (kdvNl kx) id true 20 (spectrum 2 f) 0 1 (1 / 8) true 1 s).2.u.map (roll 4 1 ∘ samples) :=
  (C74_translate (M := 2) (by norm_num) kx _ (.inl rfl) (.if4 (.diag (kdvLin kx))) rfl 1 f id true 20 0 1 (1 / 8) true 1 s s').2.2

/-! ### C65, C72 -/

/-- A new ETD4 whose settings are changed before the first step uses the new settings. -/
example (c c' : ETDConfig ℝ) (L u : Vec (Fin 2)) (nl : NlFunc (Fin 2)) :
    (((CSSolver.etd4 c (.diag L)).withEtd c').step nl u 1 ((CSSolver.etd4 c (.diag L)).keep c' (CSSolver.new _))).1 =
      ((CSSolver.etd4 c' (.diag L)).step nl u 1 (CSSolver.new _)).1 :=
  C65_step_cs ((CSSolver.etd4 c (.diag L)).withEtd c') nl u none _ (.assign c' (.new _ u)) 1

/-- After a step of size 1 with the old settings, a step of size 2 uses the new ones. -/
example (c c' : ETDConfig ℝ) (L u v : Vec (Fin 2)) (nl : NlFunc (Fin 2)) (s' : (CSSolver.etd4 c (.diag L)).State)
    (hs : (CSSolver.etd4 c (.diag L)).step nl u 1 (CSSolver.new _) = (.ok v, s')) :
    (((CSSolver.etd4 c (.diag L)).withEtd c').step nl v 2 ((CSSolver.etd4 c (.diag L)).keep c' s')).1 =
      ((CSSolver.etd4 c' (.diag L)).step nl v 2 (CSSolver.new _)).1 := by
  have := C65_step_cs ((CSSolver.etd4 c (.diag L)).withEtd c') nl v _ _ (.assign c' (.step (.new _ u) hs)) 2
  rwa [show inEffect ((CSSolver.etd4 c (.diag L)).withEtd c').etd
    (some (1, inEffect (CSSolver.etd4 c (.diag L)).etd none 1)) 2 = c' by simp [inEffect, CSSolver.withEtd, CSSolver.etd]] at this

/-- IF34, whose operator is replaced before the first step. -/
example (L L' u : Vec (Fin 2)) (nl : NlFunc (Fin 2)) (cfg : SolverConfig ℝ) :
    (((ASSolver.if34 (.diag L)).withHeld ⟨etdDefault, L', 0⟩).step nl id cfg u 1 ((ASSolver.if34 (.diag L)).hold _ (ASSolver.new _))).1 =
      ((ASSolver.if34 (.diag L')).step nl id cfg u 1 (ASSolver.new _)).1 :=
  C72_fresh_as ((ASSolver.if34 (.diag L)).withHeld ⟨etdDefault, L', 0⟩) nl u none _ (.assign _ (.new _ u)) id cfg 1 (by simp)

/-- The same with ETD35 and its settings. -/
example (c c' : ETDConfig ℝ) (L u : Vec (Fin 2)) (nl : NlFunc (Fin 2)) (cfg : SolverConfig ℝ) :
    (((ASSolver.etd35 c (.diag L)).withEtd c').step nl id cfg u 1 ((ASSolver.etd35 c (.diag L)).keep c' (ASSolver.new _))).1 =
      ((ASSolver.etd35 c' (.diag L)).step nl id cfg u 1 (ASSolver.new _)).1 ∧
    StepSpec (((ASSolver.etd35 c (.diag L)).withEtd c').mixedTrial nl 1 c' c') (((ASSolver.etd35 c (.diag L)).withEtd c').factor nl cfg) cfg id u 1
      (((ASSolver.etd35 c (.diag L)).withEtd c').step nl id cfg u 1 ((ASSolver.etd35 c (.diag L)).keep c' (ASSolver.new _))).1 :=
  ⟨C65_fresh_as ((ASSolver.etd35 c (.diag L)).withEtd c') nl u none _ (.assign c' (.new _ u)) id cfg 1 (by simp),
    C65_step_as ((ASSolver.etd35 c (.diag L)).withEtd c') nl u none _ (.assign c' (.new _ u)) id cfg 1 zero_le_one (.inr rfl)⟩

/-- IF4: the operator 0 becomes 1 after a step of size 1. -/
example (u : Vec (Fin 1)) : ∃ s' : (CSSolver.if4 (.diag (0 : Vec (Fin 1)))).State,
    (CSSolver.if4 (.diag (0 : Vec (Fin 1)))).step (total fun _ => 0) u 1 (CSSolver.new _) = (.ok u, s') ∧
    (((CSSolver.if4 (.diag (0 : Vec (Fin 1)))).withHeld ⟨etdDefault, 1, 1⟩).step (total fun _ => 0) u 1 (CSSolver.hold _ _ s')).1 = .ok u ∧
    (((CSSolver.if4 (.diag (0 : Vec (Fin 1)))).withHeld ⟨etdDefault, 1, 1⟩).step (total fun _ => 0) u 2 (CSSolver.hold _ _ s')).1 =
      .ok (Complex.exp 2 • u) := by
  have h0 : ((CSSolver.if4 (.diag (0 : Vec (Fin 1)))).step (total fun _ => 0) u 1 (CSSolver.new _)).1 = .ok u := by
    have := linear_one (.if4 (.diag 0)) 0 (by simp [CSSolver.op, LinOp.mat]) (h := 1) zero_le_one trivial u
    simpa using this
  have h2 : ((CSSolver.if4 (.diag (1 : Vec (Fin 1)))).step (total fun _ => 0) u 2 (CSSolver.new _)).1 = .ok (Complex.exp 2 • u) := by
    have := linear_one (.if4 (.diag 1)) 1 (by simp [CSSolver.op, LinOp.mat]) (h := 2) (by norm_num) trivial u
    simpa using this
  refine ⟨_, Prod.ext h0 rfl, ?_, ?_⟩
  · rw [C72_ignored_cs _ _ u u _ _ none (.new _ u) 1 (by simp) (Prod.ext h0 rfl) ⟨etdDefault, 1, 1⟩, h0]
  · rw [C72_step_cs ((CSSolver.if4 (.diag (0 : Vec (Fin 1)))).withHeld ⟨etdDefault, 1, 1⟩) _ u _ _
      (.assign _ (.step (.new _ u) (Prod.ext h0 rfl))) 2]
    simp only [inEffect]
    rw [if_neg (by norm_num)]
    exact h2

/-- IF45DP after `solver.lin_op = 1`, `solver.nl_func = f`; IF34 ignores both. -/
example (f nl : NlFunc (Fin 1)) (cfg : SolverConfig ℝ) (u : Vec (Fin 1)) (s : (ASSolver.if45dp (0 : Vec (Fin 1))).State)
    (s' : (ASSolver.if34 (.diag (0 : Vec (Fin 1)))).State) :
    (((ASSolver.if45dp (0 : Vec (Fin 1))).withHeld ((ASSolver.if45dp 0).heldRebind 1)).evolve ((ASSolver.if45dp (0 : Vec (Fin 1))).nlRebind f nl)
      id true cfg 9 u 0 1 none true 1 (ASSolver.hold _ _ s)).1 =
      ((ASSolver.if45dp (1 : Vec (Fin 1))).evolve f id true cfg 9 u 0 1 none true 1 (ASSolver.new _)).1 ∧
    (((ASSolver.if34 (.diag (0 : Vec (Fin 1)))).withHeld ((ASSolver.if34 (.diag 0)).heldRebind 1)).evolve
      ((ASSolver.if34 (.diag (0 : Vec (Fin 1)))).nlRebind f nl) id true cfg 9 u 0 1 none true 1 (ASSolver.hold _ _ s')).1 =
      ((ASSolver.if34 (.diag (0 : Vec (Fin 1)))).evolve nl id true cfg 9 u 0 1 none true 1 (ASSolver.new _)).1 :=
  ⟨C72_rebind_evolve (.if45dp 0) 1 f nl id true cfg 9 u 0 1 none true 1 s, C72_rebind_evolve (.if34 (.diag 0)) 1 f nl id true cfg 9 u 0 1 none true 1 s'⟩

/-! ### C67, C82: the logistic equation -/

/-- A step of ETD4 and a trial of ETD35, operations rounded by `x ↦ (1 + ρ) x`. -/
example : ∃ C η : ℝ, 0 < η ∧ ∀ (N : ℕ) (ρ h : ℝ), 0 < N → 0 < ρ → ρ ≤ η → 0 < h → h ≤ η →
    let m := (CSSolver.etd4 ⟨1 / 100, 32, 1⟩ (.diag ![-1])).withPoints N
    ∃ v v', (m.step (total logisticN) (logisticY 0) h m.new).1 = .ok v ∧
      (m.fpStep (m.env (Arith.numpy fun x => (1 + ρ) * x)) (roundedNl (fun x => (1 + ρ) * x) logisticN) (logisticY 0) h m.fpNew).1 = .ok v' ∧
      ‖v' - v‖ ≤ C * ρ := by
  obtain ⟨C, η, R, hη, h1⟩ := C67_step (.etd4 ⟨1 / 100, 32, 1⟩ (.diag ![-1])) ⟨by norm_num, by norm_num⟩ (logisticN_smooth.of_le (by simp))
    ‖logisticY 0‖ one_pos
  obtain ⟨K, hK, hacc⟩ := numpy_accurate (f := logisticN) (logisticN_smooth.of_le (by exact_mod_cast le_top)) R
  have hK1 : 1 ≤ max K 1 := le_max_right _ _
  refine ⟨C * max K 1, min η (1 / max K 1), by positivity, fun N ρ h hN hρ hρ1 hh hhη => ?_⟩
  have hle : K * ρ ≤ max K 1 * ρ := mul_le_mul_of_nonneg_right (le_max_left _ _) hρ.le
  have hρ2 : max K 1 * ρ ≤ 1 := by
    have := (le_div_iff₀ (by positivity)).1 (hρ1.trans (min_le_right _ _))
    linarith
  obtain ⟨a1, a2⟩ := hacc (fun x => (1 + ρ) * x) ρ hρ.le (by nlinarith) (fun x => le_of_eq (by
    rw [show (1 + ρ) * x - x = ρ * x by ring, abs_mul, abs_of_pos hρ]))
  obtain ⟨v, v', h2, h3, h4⟩ := h1 N (((CSSolver.etd4 ⟨1 / 100, 32, 1⟩ (.diag ![-1])).withPoints N).env (Arith.numpy fun x => (1 + ρ) * x))
    (roundedNl (fun x => (1 + ρ) * x) logisticN) (max K 1 * ρ) h (logisticY 0) hN (by positivity) hρ2
    (CSSolver.env_accurate _ (by positivity) (a1.of_le hle) (a2.of_le hle)) hh (hhη.trans (min_le_left _ _)) le_rfl
  exact ⟨v, v', h2, h3, by rw [mul_assoc]; exact h4⟩

/-- The coefficients of IF4 and IF45DP with operator `-1`, every real operation with relative error `ρ`. -/
example : ∃ K δ : ℝ, 0 < δ ∧ ∀ ρ, 0 < ρ → ρ ≤ δ → ∃ c c',
    (CSSolver.if4 (.full !![(-1 : ℂ)])).flCoefs (CArith.numpy (fun x => (1 + ρ) * x) (seqSum fun x => (1 + ρ) * x))
      (LinAlg.rounded fun x => (1 + ρ) * x) 1 = .ok c ∧
    (ASSolver.if45dp ![-1]).flCoefs (CArith.numpy (fun x => (1 + ρ) * x) (seqSum fun x => (1 + ρ) * x))
      (LinAlg.rounded fun x => (1 + ρ) * x) 1 = .ok c' ∧
    CoefNear (CSSolver.if4 (.full !![(-1 : ℂ)])).rprog.stages (K * ρ) ((CSSolver.if4 (.full !![(-1 : ℂ)])).coefsAt 1) c ∧
    CoefNear (ASSolver.if45dp ![-1]).rprog.stages (K * ρ) ((ASSolver.if45dp ![-1]).coefsAt 1) c' := by
  obtain ⟨K1, R1, δ1, hδ1, h1⟩ := C82_if4 (.full !![(-1 : ℂ)]) 1
  obtain ⟨K2, R2, δ2, hδ2, h2⟩ := C82_if45dp ![-1] 1
  refine ⟨max (120 * K1) (120 * K2), min (1 / 1000) (min δ1 δ2) / 120, by positivity, fun ρ hρ hle => ?_⟩
  have hr : ∀ x : ℝ, |(1 + ρ) * x - x| ≤ ρ * |x| := fun x => le_of_eq (by
    rw [show (1 + ρ) * x - x = ρ * x by ring, abs_mul, abs_of_pos hρ])
  have hle' : 120 * ρ ≤ min (1 / 1000) (min δ1 δ2) := by rw [le_div_iff₀ (by norm_num)] at hle; linarith
  have hA : ∀ R, (CArith.numpy (fun x => (1 + ρ) * x) (seqSum fun x => (1 + ρ) * x)).Within (120 * ρ) R :=
    fun R => CArith.numpy_within hr hρ.le (by linarith [min_le_left (1 / 1000) (min δ1 δ2)]) (seqSum_sumsTo _) R
  have hB : ∀ R, (LinAlg.rounded (ι := Fin 1) fun x => (1 + ρ) * x).Within (120 * ρ) R :=
    fun R => (LinAlg.rounded_within hr hρ.le R).of_le (by linarith)
  obtain ⟨c, a1, a2⟩ := h1 _ _ (120 * ρ) 1 (by positivity) (hle'.trans ((min_le_right _ _).trans (min_le_left _ _))) (hA R1) (hB R1) one_pos le_rfl
  obtain ⟨c', b1, b2⟩ := h2 _ _ (120 * ρ) 1 (by positivity) (hle'.trans ((min_le_right _ _).trans (min_le_right _ _))) (hA R2) (hB R2) one_pos le_rfl
  refine ⟨c, c', a1, b1, a2.of_le ?_, b2.of_le ?_⟩
  · calc K1 * (120 * ρ) = 120 * K1 * ρ := by ring
      _ ≤ _ := mul_le_mul_of_nonneg_right (le_max_left _ _) hρ.le
  · calc K2 * (120 * ρ) = 120 * K2 * ρ := by ring
      _ ≤ _ := mul_le_mul_of_nonneg_right (le_max_right _ _) hρ.le

/-! ### C83 -/

/-- A real operator and real data, but an `nl_func` that returns `complex128` arrays: the run returns a `complex128` array whose entries
are those of the run without dtypes. -/
example (s : (CSSolver.if4 (.diag (ι := Fin 2) ![-1, -4])).TySt (Vec (Fin 2))) (s' : (CSSolver.if4 (.diag (ι := Fin 2) ![-1, -4])).State)
    (w : Vec (Fin 2)) (hw : ((CSSolver.if4 (.diag (ι := Fin 2) ![-1, -4])).evolve (total fun v => v * v) id true 10 ![1, 2] 0 1 (3 / 10) true 2 s').1 =
      .ok (some w)) :
    ((CSSolver.if4 (.diag (ι := Fin 2) ![-1, -4])).tyEvolve .float64
      ⟨ArrOps.exact _, ((CSSolver.if4 (.diag (ι := Fin 2) ![-1, -4])).env Arith.exact).coefs⟩
      (fun x => .ok ⟨.complex128, x.val * x.val⟩) id true 10 ⟨.float64, ![1, 2]⟩ 0 1 (3 / 10) true 2 s).1 = .ok (some ⟨.complex128, w⟩) := by
  have h1 := (C83_values_cs (.if4 (.diag (ι := Fin 2) ![-1, -4])) .float64 (nl := fun x => .ok ⟨.complex128, x.val * x.val⟩)
    (nl' := total fun v => v * v) (fun x => rfl) id true 10 ⟨.float64, ![1, 2]⟩ 0 1 (3 / 10) true 2 s s').1
  have h2 := C83_complex_nl (.if4 (.diag (ι := Fin 2) ![-1, -4])) .float64
    ⟨ArrOps.exact _, ((CSSolver.if4 (.diag (ι := Fin 2) ![-1, -4])).env Arith.exact).coefs⟩ (nl := fun x => .ok ⟨.complex128, x.val * x.val⟩)
    (fun x v hv _ => by rw [← Except.ok.inj hv]) id true 10 ⟨.float64, ![1, 2]⟩ 0 1 (3 / 10) true 2 s
  have h3 := C83_dtype_cs (.if4 (.diag (ι := Fin 2) ![-1, -4])) .float64
    ⟨ArrOps.exact _, ((CSSolver.if4 (.diag (ι := Fin 2) ![-1, -4])).env Arith.exact).coefs⟩ (nl := fun x => .ok ⟨.complex128, x.val * x.val⟩)
    (ν := fun _ => .complex128) (fun _ _ _ => by exact DType.le_refl _) (fun x v hv => by rw [← Except.ok.inj hv]) id true 10
    ⟨.float64, ![1, 2]⟩ 0 1 (3 / 10) true 2 s
  rw [hw] at h1
  rcases h : ((CSSolver.if4 (.diag (ι := Fin 2) ![-1, -4])).tyEvolve .float64
      ⟨ArrOps.exact _, ((CSSolver.if4 (.diag (ι := Fin 2) ![-1, -4])).env Arith.exact).coefs⟩
      (fun x => .ok ⟨.complex128, x.val * x.val⟩) id true 10 ⟨.float64, ![1, 2]⟩ 0 1 (3 / 10) true 2 s).1 with e | _ | ⟨ty, val⟩
  · rw [h] at h1; simp [Except.map] at h1
  · rw [h] at h1; simp [Except.map] at h1
  · rw [h] at h1
    simp only [Except.map, Option.map, Except.ok.injEq, Option.some.injEq] at h1
    have h4 := ((h2.2.2 _ h).resolve_left fun h => h.2 one_pos)
    have h5 := ((h3.2.2 _ h).resolve_left fun h => h.2 one_pos)
    simp only at h4 h5
    rw [h1, h4]

/-- A step of ETD4 with integer data gives a `complex128` array. -/
example (cfg : ETDConfig ℝ) (F : AEnv (CSSolver.etd4 cfg (.diag (ι := Fin 2) ![-1, -4])).Coef (Fin 2) (Vec (Fin 2))) (u v : Vec (Fin 2)) (t : DType)
    (s : (CSSolver.etd4 cfg (.diag (ι := Fin 2) ![-1, -4])).TySt (Vec (Fin 2)))
    (hv : ((CSSolver.etd4 cfg (.diag (ι := Fin 2) ![-1, -4])).tyStep .int64 F (fun x => .ok x) ⟨.int64, u⟩ 1 s).1 = .ok ⟨t, v⟩) : t = .complex128 :=
  (C83_step_cs (.etd4 cfg (.diag (ι := Fin 2) ![-1, -4])) .int64 F hv).2.2 trivial

/-! ### C81 -/

/-- `SolverConfig(epsilon=inf)`, `SolverConfig(safety_f=nan)`. -/
example (u err : Fin 2 → CFl) :
    ¬ Acceptable (xComputeS (fun x => .fin x) 4 ⟨.pinf, .fin (5 / 4), .fin (17 / 20), .fin (4 / 5), .fin (1 / 100), .fin 0⟩ u err) ∧
    ¬ Acceptable (xComputeS (fun x => .fin x) 4 ⟨.fin 1, .fin (5 / 4), .fin (17 / 20), .nan, .fin (1 / 100), .fin 0⟩ u err) :=
  ⟨C81_setting_factor rfl 4 (.inl (by simp [Ext.IsFinite])) u err, C81_setting_factor rfl 4 (.inr (.inl (by simp [Ext.IsFinite]))) u err⟩

end Verif
