import Verif.Props.BesselHankel
import Verif.Props.Dtypes
import Verif.Props.FloatCases
import Verif.Props.HistoryExamples
import Verif.Props.NonFinite
import Verif.Props.Operator
import Verif.Props.Settings
import Verif.Props.Stiff
import Verif.Props.Times

/-!
# Concrete cases of theorems that have none beside them
-/

set_option linter.unusedSectionVars false

namespace Verif

open Matrix
open scoped Matrix.Norms.Operator

/-- C67 and C82: with exact operations, the run of `demo` with arrays and coefficients computed by them returns `65 / 24`. -/
example (s : demo.RSt) :
    (demo.fpEvolve (demo.env Arith.exact) (fun cfg v e => demo.factor (fun x => .ok x) cfg (v, e)) (fun x => .ok x) id true demoCfg 2 1 0 1 (some 1) true 1 s).1 =
      .ok (some ((65 / 24 : ℂ) • 1)) ∧
    (demo.fpEvolve (demo.flEnv Arith.exact CArith.exact LinAlg.exact) (fun cfg v e => demo.factor (fun x => .ok x) cfg (v, e)) (fun x => .ok x) id true demoCfg
      2 1 0 1 (some 1) true 1 s).1 = .ok (some ((65 / 24 : ℂ) • 1)) :=
  ⟨(C67_exact_as demo _ id true demoCfg 2 1 0 1 (some 1) true 1 s demo.new).1.trans (demo_evolve true true _),
    (C82_exact_as demo _ id true demoCfg 2 1 0 1 (some 1) true 1 s demo.new).1.trans (demo_evolve true true _)⟩

/-- The same for a constant-step solver with a matrix that cannot be inverted on the contour: whatever happens, it happens in both. -/
example (nl : NlFunc (Fin 2)) (s s') : let m := CSSolver.etd4 ⟨1 / 100, 4, 1⟩ (.full (ι := Fin 2) !![1, 0; 0, 2])
    (m.fpEvolve (m.flEnv Arith.exact CArith.exact LinAlg.exact) nl id true 10 1 0 1 1 true 1 s).1 = (m.evolve nl id true 10 1 0 1 1 true 1 s').1 ∧
    (m.fpEvolve (m.env Arith.exact) nl id true 10 1 0 1 1 true 1 s).1 = (m.evolve nl id true 10 1 0 1 1 true 1 s').1 :=
  ⟨(C82_exact_cs _ nl id true 10 1 0 1 1 true 1 s s').1, (C67_exact_cs _ nl id true 10 1 0 1 1 true 1 s s').1⟩

/-- C82: coefficients of ETD5 and ETD34 in double precision with 32 points, if the constants of the theorem permit it. -/
example : ∃ K R δ : ℝ, 0 < δ ∧ (32 * (120 * (1 / 2 ^ 53)) ≤ δ → ∀ h : ℝ, 0 < h → h ≤ 1 →
    ∃ c, (CSSolver.etd5 ⟨1 / 100, 32, 1⟩ (.diag (ι := Fin 2) ![-1, -4])).flCoefs A64 (LinAlg.rounded rnd64) h = .ok c ∧
      CoefNear (CSSolver.etd5 ⟨1 / 100, 32, 1⟩ (.diag (ι := Fin 2) ![-1, -4])).rprog.stages (K * (32 * (120 * (1 / 2 ^ 53)) + (1 / 2) ^ 32))
        ((CSSolver.etd5 ⟨1 / 100, 32, 1⟩ (.diag (ι := Fin 2) ![-1, -4])).coefsAt h) c) := by
  obtain ⟨K, R, δ, hδ, h1⟩ := C82_coefs_cs (.etd5 ⟨1 / 100, 32, 1⟩ (.diag (ι := Fin 2) ![-1, -4])) 1 (by constructor <;> norm_num)
  exact ⟨K, R, δ, hδ, fun hd h h0 h2 => h1 32 A64 (LinAlg.rounded rnd64) (120 * (1 / 2 ^ 53)) h (by norm_num) (by positivity) hd (A64_within _)
    ((LinAlg.rounded_within rnd64_error (by positivity) R).of_le (by norm_num)) h0 h2⟩

example : ∃ K R δ : ℝ, 0 < δ ∧ (32 * (120 * (1 / 2 ^ 53)) ≤ δ → ∀ h : ℝ, 0 < h → h ≤ 1 →
    ∃ c, (ASSolver.etd34 ⟨1 / 100, 32, 1⟩ (.diag (ι := Fin 2) ![-1, -4])).flCoefs A64 (LinAlg.rounded rnd64) h = .ok c ∧
      CoefNear (ASSolver.etd34 ⟨1 / 100, 32, 1⟩ (.diag (ι := Fin 2) ![-1, -4])).rprog.stages (K * (32 * (120 * (1 / 2 ^ 53)) + (1 / 2) ^ 32))
        ((ASSolver.etd34 ⟨1 / 100, 32, 1⟩ (.diag (ι := Fin 2) ![-1, -4])).coefsAt h) c) := by
  obtain ⟨K, R, δ, hδ, h1⟩ := C82_coefs_as (.etd34 ⟨1 / 100, 32, 1⟩ (.diag (ι := Fin 2) ![-1, -4])) 1 (by constructor <;> norm_num)
  exact ⟨K, R, δ, hδ, fun hd h h0 h2 => h1 32 A64 (LinAlg.rounded rnd64) (120 * (1 / 2 ^ 53)) h (by norm_num) (by positivity) hd (A64_within _)
    ((LinAlg.rounded_within rnd64_error (by positivity) R).of_le (by norm_num)) h0 h2⟩

/-- C82 for IF34 with exact operations: the coefficients are exact. -/
example (h : ℝ) (h0 : 0 < h) (h1 : h ≤ 1) : ∃ c, (ASSolver.if34 (.full (ι := Fin 2) !![0, 1; -1, 0])).flCoefs CArith.exact LinAlg.exact h = .ok c := by
  obtain ⟨K, R, δ, hδ, key⟩ := C82_if34 (.full (ι := Fin 2) !![0, 1; -1, 0]) 1
  obtain ⟨c, hc, -⟩ := key CArith.exact LinAlg.exact 0 h le_rfl hδ.le
    ⟨fun x y _ _ _ => by simp [CArith.exact], fun x y _ _ _ => by simp [CArith.exact], fun x y _ _ _ => by simp [CArith.exact],
      fun x y _ _ _ _ _ => by simp [CArith.exact], fun x n _ _ _ => by simp [CArith.exact], fun x _ _ => by simp [CArith.exact],
      fun x _ => by simp [CArith.exact], fun l _ _ => by simp [CArith.exact], by simp [CArith.exact]⟩
    ⟨fun M _ => by simp [LinAlg.exact], fun M h1 _ _ => ⟨M⁻¹, if_pos h1, by simp⟩⟩ h0 h1
  exact ⟨c, hc⟩

/-- C65: a solver of class ETD4 that was used with other settings. -/
example (nl : NlFunc (Fin 2)) (u : Vec (Fin 2)) (s) (a) (cfg : SolverConfig ℝ) :
    ((CSSolver.etd4 ⟨1 / 50, 64, 2⟩ (.diag (ι := Fin 2) ![-1, -4])).evolve nl id true 20 u 0 1 (1 / 10) true 1
      ((CSSolver.etd4 ⟨1 / 100, 32, 1⟩ (.diag (ι := Fin 2) ![-1, -4])).keep ⟨1 / 50, 64, 2⟩ s)).1 =
      ((CSSolver.etd4 ⟨1 / 50, 64, 2⟩ (.diag (ι := Fin 2) ![-1, -4])).evolve nl id true 20 u 0 1 (1 / 10) true 1 (CSSolver.new _)).1 ∧
    ((ASSolver.etd35 ⟨1 / 50, 64, 2⟩ (.diag (ι := Fin 2) ![-1, -4])).evolve nl id true cfg 20 u 0 1 none true 1
      ((ASSolver.etd35 ⟨1 / 100, 32, 1⟩ (.diag (ι := Fin 2) ![-1, -4])).keep ⟨1 / 50, 64, 2⟩ a)).1 =
      ((ASSolver.etd35 ⟨1 / 50, 64, 2⟩ (.diag (ι := Fin 2) ![-1, -4])).evolve nl id true cfg 20 u 0 1 none true 1 (ASSolver.new _)).1 :=
  ⟨C65_evolve_cs (.etd4 ⟨1 / 100, 32, 1⟩ (.diag (ι := Fin 2) ![-1, -4])) nl s ⟨1 / 50, 64, 2⟩ id true 20 u 0 1 (1 / 10) true 1,
    C65_evolve_as (.etd35 ⟨1 / 100, 32, 1⟩ (.diag (ι := Fin 2) ![-1, -4])) nl a ⟨1 / 50, 64, 2⟩ id true cfg 20 u 0 1 none true 1⟩

/-- C72: a real array that was given to ETD5 can be overwritten without effect; a complex one, or one given to IF4, cannot. -/
example (nl : NlFunc (Fin 2)) (u : Vec (Fin 2)) (s) (s4) :
    (((CSSolver.etd5 ⟨1 / 100, 32, 1⟩ (.diag ![-1, -4])).withHeld ((CSSolver.etd5 ⟨1 / 100, 32, 1⟩ (.diag ![-1, -4])).heldWrite false ![7, 8] 0)).evolve nl id true
      20 u 0 1 (1 / 10) true 1 ((CSSolver.etd5 ⟨1 / 100, 32, 1⟩ (.diag ![-1, -4])).hold _ s)).1 =
      ((CSSolver.etd5 ⟨1 / 100, 32, 1⟩ (.diag ![-1, -4])).evolve nl id true 20 u 0 1 (1 / 10) true 1 (CSSolver.new _)).1 ∧
    (((CSSolver.if4 (.diag ![-1, -4])).withHeld ((CSSolver.if4 (.diag ![-1, -4])).heldWrite false ![7, 8] 0)).evolve nl id true
      20 u 0 1 (1 / 10) true 1 ((CSSolver.if4 (.diag ![-1, -4])).hold _ s4)).1 =
      ((CSSolver.if4 (.diag ![7, 8])).evolve nl id true 20 u 0 1 (1 / 10) true 1 (CSSolver.new _)).1 :=
  ⟨(C72_write_etd ⟨1 / 100, 32, 1⟩ ![-1, -4] ![7, 8] 0 false nl id true 20 u 0 1 (1 / 10) true 1).2 s,
    (C72_write_if4 ![-1, -4] ![7, 8] 0 0 false nl id true 20 u 0 1 (1 / 10) true 1).1 s4⟩

example (nl : NlFunc (Fin 2)) (u : Vec (Fin 2)) (cfg : SolverConfig ℝ) (s) :
    (((ASSolver.if45dp ![-1, -4]).withHeld ((ASSolver.if45dp ![-1, -4]).heldWrite false ![7, 8] 0)).evolve nl id true cfg 20 u 0 1 none true 1
      ((ASSolver.if45dp ![-1, -4]).hold _ s)).1 = ((ASSolver.if45dp ![7, 8]).evolve nl id true cfg 20 u 0 1 none true 1 (ASSolver.new _)).1 :=
  C72_write_as (.if45dp ![-1, -4]) false ![7, 8] 0 nl id true cfg 20 u 0 1 none true 1 s

/-- C86: the zeros of `J₀` are those of the one triple. -/
example (B C : Bessel) (hB : B.IsTrue) (hC : C.IsTrue) (i : ℕ) : B.zero i = C.zero i := by rw [C86_exists.unique hB hC]

example : deriv besselJ0 0 = 0 := by
  rw [(C86_equation.2.1 0).deriv]
  have h := (C86_equation.2.2 0)
  simp [besselJ1]

example : ∃ B : Bessel, B.IsTrue ∧ B.Regular := by
  obtain ⟨B, hB, -⟩ := C86_exists
  exact ⟨B, hB, C86_regular hB⟩

/-- C81: `h_init = inf` on `[1, 3]` means 2. -/
example (u : ℝ) (s) : (steady (.fin 2)).evolve .fin true defaults 5 u (.fin 1) (.fin 3) (some .pinf) true 1 s =
    (steady (.fin 2)).evolve .fin true defaults 5 u (.fin 1) (.fin 3) (some (.fin 2)) true 1 s := by
  rw [C81_as_size_inf]
  norm_num [Ext.sub, Ext.neg, Ext.add]

/-- C80: the run of a constant-step solver with floats where nothing overflows. -/
example (s) (s') : let m := CSSolver.if4 (.diag (ι := Fin 2) ![-1, -4])
    (m.flEvolve .fin CFl.ofComplex (m.env Arith.exact).coefs .ok id true 10 (flArr ![1, 2]) 0 1 (3 / 10) true 2 s).1 =
      (m.evolve .ok id true 10 ![1, 2] 0 1 (3 / 10) true 2 s').1.map (Option.map flArr) :=
  (C80_exact_cs (.if4 (.diag (ι := Fin 2) ![-1, -4])) (fun _ => rfl) id true 10 ![1, 2] 0 1 (3 / 10) true 2 s s').1

/-- C83: adaptive solvers with integers as data. -/
example (t : DType) (s) : RunTail (fun v => v.ty = stepTy (demo.coefTy .int64 .float64) (fun d => d.promote t) .int64) (⟨.int64, 1⟩ : TArr (Vec (Fin 1))) true 0 1
    (demo.tyEvolve .int64 .float64 ⟨ArrOps.exact _, (demo.env Arith.exact).coefs⟩ (fun _ _ => .ok ()) (computeS 4)
      (fun x => .ok ⟨x.ty.promote t, x.val⟩) id true demoCfg 2 ⟨.int64, 1⟩ 0 1 (some 1) true 1 s).1
    (demo.tyEvolve .int64 .float64 ⟨ArrOps.exact _, (demo.env Arith.exact).coefs⟩ (fun _ _ => .ok ()) (computeS 4)
      (fun x => .ok ⟨x.ty.promote t, x.val⟩) id true demoCfg 2 ⟨.int64, 1⟩ 0 1 (some 1) true 1 s).2.u :=
  C83_dtype_as demo .int64 .float64 _ (ν := fun d => d.promote t) (fun a b => by cases a <;> cases b <;> cases t <;> simp [DType.promote, DType.le])
    (fun x v hv => by cases hv; rfl) id true demoCfg 2 ⟨.int64, 1⟩ 0 1 (some 1) true 1 s

example (s) : RunTail (fun v => v.ty = .complex128) (⟨.int64, 1⟩ : TArr (Vec (Fin 1))) true 0 1
    ((ASSolver.etd34 ⟨1 / 100, 32, 1⟩ (.diag 0)).tyEvolve .int64 .float64 ⟨ArrOps.exact _, ((ASSolver.etd34 ⟨1 / 100, 32, 1⟩ (.diag 0)).env Arith.exact).coefs⟩
      (fun _ _ => .ok ()) (computeS 4) .ok id true demoCfg 2 ⟨.int64, 1⟩ 0 1 (some 1) true 1 s).1
    ((ASSolver.etd34 ⟨1 / 100, 32, 1⟩ (.diag 0)).tyEvolve .int64 .float64 ⟨ArrOps.exact _, ((ASSolver.etd34 ⟨1 / 100, 32, 1⟩ (.diag 0)).env Arith.exact).coefs⟩
      (fun _ _ => .ok ()) (computeS 4) .ok id true demoCfg 2 ⟨.int64, 1⟩ 0 1 (some 1) true 1 s).2.u :=
  C83_complex_as _ .int64 .float64 _ id true demoCfg 2 ⟨.int64, 1⟩ 0 1 (some 1) true 1 s (.inl trivial)

example (s) : RunTail TArr.Fits (⟨.int64, 1⟩ : TArr (Vec (Fin 1))) true 0 1
    (demo.tyEvolve .int64 .float64 ⟨ArrOps.exact _, (demo.env Arith.exact).coefs⟩ (fun _ _ => .ok ()) (computeS 4) .ok id true demoCfg 2 ⟨.int64, 1⟩ 0 1
      (some 1) true 1 s).1
    (demo.tyEvolve .int64 .float64 ⟨ArrOps.exact _, (demo.env Arith.exact).coefs⟩ (fun _ _ => .ok ()) (computeS 4) .ok id true demoCfg 2 ⟨.int64, 1⟩ 0 1
      (some 1) true 1 s).2.u :=
  C83_entries_as demo (.inr fun i j => by simp [demo, ASSolver.op, ASOp.mat]) (fun x v hv hx => by cases hv; exact hx) id true demoCfg 2 (.inr fun i => by simp) 0 1
    (some 1) true 1 s

/-- C72: IF45DP after `nl_func` was replaced by a function with the same value at the array. -/
example (L u : Vec (Fin 2)) (f nl : NlFunc (Fin 2)) (hu : f u = nl u) (s : (ASSolver.if45dp L).State) :
    ((ASSolver.if45dp L).step f id demoCfg u 1 ((ASSolver.if45dp L).reset nl s).2).1 = ((ASSolver.if45dp L).step f id demoCfg u 1 (ASSolver.new _)).1 :=
  C72_rebind_step L f nl u _ (.reset u s) hu id demoCfg 1

/-- C72: after a step of size 1 and an assignment to the operator, trials of size 1 use the old operator. -/
example (c : Held (Fin 1)) (h : ℝ) (h0 : 0 < h) :
    StepSpec ((demo.withHeld c).mixedTrialH (fun x => .ok x) h
        (inEffect (demo.withHeld c).held (some (1, lastEffect demo.held none 1 1)) h) (demo.withHeld c).held) ((demo.withHeld c).factor (fun x => .ok x) demoCfg) demoCfg id
      ((65 / 24 : ℂ) • 1) h
      ((demo.withHeld c).step (fun x => .ok x) id demoCfg ((65 / 24 : ℂ) • 1) h (demo.hold c (demo.step (fun x => .ok x) id demoCfg 1 1 demo.new).2)).1 :=
  C72_step_as (demo.withHeld c) _ _ _ _ (.assign c (.step (.new demo 1) (.inl (shrinksFrom_id demoCfg (by norm_num [demoCfg]) (by norm_num [demoCfg]) one_pos))
    (Prod.ext demo_step rfl))) id demoCfg h h0.le (.inl (shrinksFrom_id demoCfg (by norm_num [demoCfg]) (by norm_num [demoCfg]) h0))

/-- C67: a trial of IF45DP for the logistic equation, with rounded operations. -/
example : ∃ C η K : ℝ, 0 < η ∧ ∀ (rnd : ℝ → ℝ) (ρ h : ℝ), 0 ≤ ρ → (∀ x, |rnd x - x| ≤ ρ * |x|) → ρ ≤ 1 → K * ρ ≤ 1 → 0 < h → h ≤ η →
    ∃ v v' : Vec (Fin 1) × Vec (Fin 1), ((ASSolver.if45dp ![-1]).trial (total logisticN) ![1 / 2] h (ASSolver.new _)).1 = .ok v ∧
      (((ASSolver.if45dp ![-1]).fpCls ((ASSolver.if45dp ![-1]).env (Arith.numpy rnd)) (fun _ _ _ => .nan) (roundedNl rnd logisticN)).trial ![1 / 2] h
        (ASSolver.fpNew _)).1 = .ok v' ∧ ‖v'.1 - v.1‖ ≤ C * (K * ρ) ∧ ‖v'.2 - v.2‖ ≤ C * (K * ρ) := by
  have hs : ContDiff ℝ 1 logisticN := logisticN_smooth.of_le (by exact_mod_cast le_top)
  obtain ⟨C, η, R, hη, h1⟩ := C67_trial (.if45dp ![-1]) trivial hs 1 one_pos
  obtain ⟨K, hK, hacc⟩ := numpy_accurate (f := logisticN) hs R
  refine ⟨C, η, K, hη, fun rnd ρ h hρ hr hρ1 hK1 h0 hh => ?_⟩
  obtain ⟨a1, a2⟩ := hacc rnd ρ hρ hρ1 hr
  exact h1 1 ((ASSolver.if45dp ![-1]).env (Arith.numpy rnd)) (fun _ _ _ => .nan) (roundedNl rnd logisticN) (K * ρ) h ![1 / 2] one_pos (by positivity) hK1
    ((ASSolver.if45dp ![-1]).env_accurate (by positivity) a1 a2) h0 hh
    ((pi_norm_le_iff_of_nonneg zero_le_one).2 fun i => by fin_cases i; norm_num)

/-- C67: a run of IF4 with rounded operations. -/
example : ∃ (η K : ℝ) (N0 : ℕ), 0 < η ∧ ∀ (rnd : ℝ → ℝ) (ρ h : ℝ), 0 ≤ ρ → (∀ x, |rnd x - x| ≤ ρ * |x|) → ρ ≤ 1 → 0 < h → h < η → K * ρ ≤ η * h →
    ∃ v, ((CSSolver.if4 (.diag ![-1])).fpEvolve ((CSSolver.if4 (.diag ![-1])).env (Arith.numpy rnd)) (roundedNl rnd logisticN) rnd true
      (⌈2 * (2 - 0) / h + 1⌉₊ + 1) (logisticY 0) 0 2 h true 1 (CSSolver.fpNew _)).1 = .ok (some v) := by
  obtain ⟨C, η, R, N0, hη, h1⟩ := C67_evolve (.if4 (.diag ![-1])) trivial logisticN_smooth (show (0 : ℝ) < 2 by norm_num) (logistic_solves 0 2) one_pos
  obtain ⟨K, hK, hacc⟩ := numpy_accurate (f := logisticN) (logisticN_smooth.of_le (by exact_mod_cast le_top)) R
  refine ⟨η, max K 1, N0, hη, fun rnd ρ h hρ hr hρ1 h0 hh hKh => ?_⟩
  obtain ⟨a1, a2⟩ := hacc rnd ρ hρ hρ1 hr
  have hle : K * ρ ≤ max K 1 * ρ := mul_le_mul_of_nonneg_right (le_max_left _ _) hρ
  have hle' : ρ ≤ max K 1 * ρ := by nlinarith [le_max_right K 1]
  obtain ⟨⟨v, hv, -⟩, -⟩ := h1 N0 ((CSSolver.if4 (.diag ![-1])).env (Arith.numpy rnd)) (roundedNl rnd logisticN) rnd (max K 1 * ρ) h (logisticY 0) le_rfl
    (by positivity) ((CSSolver.if4 (.diag ![-1])).env_accurate (by positivity) (a1.of_le hle) (a2.of_le hle))
    (fun x => (hr x).trans (mul_le_mul_of_nonneg_right hle' (abs_nonneg x))) h0 hh hKh (by rw [sub_self, norm_zero]; exact hη.le) true true 1
    (CSSolver.fpNew _) (⌈2 * (2 - 0) / h + 1⌉₊ + 1) (by norm_num) one_ne_zero (by push_cast; linarith [Nat.le_ceil (2 * (2 - 0) / h + 1)])
  exact ⟨v, hv⟩

/-- C67: the steps of an adaptive run with rounded operations have positive sizes. -/
example : ∃ K : ℝ, ∀ (rnd : ℝ → ℝ) (ρ : ℝ), 0 ≤ ρ → (∀ x, |rnd x - x| ≤ ρ * |x|) → ρ ≤ 1 → K * ρ < 1 → ∀ (fuel : ℕ) (s), ∃ (n : ℕ) (tm : ℕ → ℝ), tm 0 = 0 ∧
    ((ASSolver.if45dp ![-1]).fpEvolve ((ASSolver.if45dp ![-1]).env (Arith.numpy rnd)) (fun _ _ _ => .fin 2) (roundedNl rnd logisticN) rnd true
      ⟨1 / 10000, 5 / 4, 17 / 20, 4 / 5, 1 / 100, 1 / 10 ^ 16⟩ fuel (logisticY 0) 0 2 none true 3 s).2.t = (List.range (n / 3 + 1)).map fun j => tm (j * 3) := by
  obtain ⟨C, η, R, N0, hC, hη, h1⟩ := C67_trajectory (.if45dp ![-1]) trivial logisticN_smooth (show (0 : ℝ) ≤ 2 by norm_num) (logistic_solves 0 2) one_pos
  obtain ⟨K, hK, hacc⟩ := numpy_accurate (f := logisticN) (logisticN_smooth.of_le (by exact_mod_cast le_top)) R
  refine ⟨max K 1, fun rnd ρ hρ hr hρ1 hKh fuel s => ?_⟩
  obtain ⟨a1, a2⟩ := hacc rnd ρ hρ hρ1 hr
  have hle : K * ρ ≤ max K 1 * ρ := mul_le_mul_of_nonneg_right (le_max_left _ _) hρ
  have hle' : ρ ≤ max K 1 * ρ := by nlinarith [le_max_right K 1]
  obtain ⟨n, tm, -, -, -, e1, -, -, e2, -⟩ := h1 N0 ((ASSolver.if45dp ![-1]).env (Arith.numpy rnd)) (fun _ _ _ => .fin 2) (roundedNl rnd logisticN) rnd
    (max K 1 * ρ) (logisticY 0) le_rfl (by positivity) hKh ((ASSolver.if45dp ![-1]).env_accurate (by positivity) (a1.of_le hle) (a2.of_le hle))
    (fun x => (hr x).trans (mul_le_mul_of_nonneg_right hle' (abs_nonneg x))) (by rw [sub_self, norm_zero]; exact hη.le)
    ⟨1 / 10000, 5 / 4, 17 / 20, 4 / 5, 1 / 100, 1 / 10 ^ 16⟩ none true true 3 s fuel (by norm_num) (by simp) (by norm_num)
  exact ⟨n, tm, e1, e2⟩

/-- C69: the trajectory of ETD35 with the default settings for the fast mode. -/
example : ∃ (C η : ℝ) (N0 : ℕ), 0 < η ∧ ∀ (μ : ℝ) (N fuel : ℕ), 3 ≤ μ → N0 ≤ N → ∃ (n : ℕ) (tm : ℕ → ℝ) (st : ℕ → Vec (Fin 2)) (hu : ℕ → ℝ),
    tm 0 = 0 ∧ st 0 = fastY μ 0 ∧ ∀ H, 0 < H → H < η → (∀ k < n, hu k ≤ H) → ∀ k ≤ n, ‖st k - fastY μ (tm k)‖ ≤ C * (H ^ 2 + (1 / 2) ^ N) := by
  obtain ⟨C, η, N0, hη, key⟩ := C69_trajectory (ω := 0) (K := 4) (ρ := 1) (M0 := 1) (M1 := 2) (M2 := 4) le_rfl (by norm_num) one_pos
    (by norm_num) (by norm_num) (by norm_num) 1 1
  refine ⟨C, η, N0, hη, fun μ N fuel hμ hN => ?_⟩
  obtain ⟨n, tm, st, -, hu, -, e1, e2, -, -, -, -, e3⟩ := key (Fin 2) (.etd35 ⟨1 / 100, 32, 1⟩ (.diag ![-1, -(μ : ℂ)])) fastN 0 1 (fastY μ) N (fastY μ 0) trivial
    ⟨⟨by norm_num, by norm_num, le_rfl⟩, fun i => by fin_cases i <;> simp; linarith⟩ hN (by norm_num) (by norm_num) (fast_regular hμ)
    (by simpa using hη.le) ⟨1 / 10000, 5 / 4, 17 / 20, 4 / 5, 1 / 100, 1 / 10 ^ 16⟩ none true true 1 (ASSolver.new _) fuel (by norm_num) (by norm_num)
    (by simp) one_ne_zero
  exact ⟨n, tm, st, hu, e1, e2, fun H H0 H1 hc k hk => by simpa using e3 H H0 H1 hc k hk⟩

/-- C81: with a clock without overflow, the run of a constant-step solver is that of the other properties. -/
example (nl : NlFunc (Fin 2)) (other) (u : Vec (Fin 2)) (s : (CSSolver.if4 (.diag ![-1, -4])).State) (s') (hs : s'.sub = s.sub) :
    ((((CSSolver.if4 (.diag ![-1, -4])).cls nl).withSizes other).xEvolve .fin true 20 u (.fin 0) (.fin 1) (.fin (1 / 10)) true 1 s').1 =
      ((CSSolver.if4 (.diag ![-1, -4])).evolve nl id true 20 u 0 1 (1 / 10) true 1 s).1 :=
  (C81_tie_cs (rnd := .fin) ((CSSolver.if4 (.diag ![-1, -4])).cls nl) other (clk := id) (fun _ => rfl) true 20 u 0 1 (1 / 10) true 1 hs).1

example (c : IFCoef (Vec (Fin 2))) (other) (u : Fin 2 → CFl) (s : (ASSolver.if34 (.diag (ι := Fin 2) ![-1, -4])).FlSt) (s') (hs : s'.sub = s.sub)
    (ht : s'.trials = s.trials) (cfg : SolverConfig ℝ) :
    let m := ASSolver.if34 (.diag (ι := Fin 2) ![-1, -4])
    ((m.xCls .fin CFl.ofComplex (fun _ => .ok c) .ok other).evolve .fin true cfg.toExt 20 u (.fin 0) (.fin 1) (some (.fin (1 / 10))) true 1 s').1 =
      (m.flEvolve .fin CFl.ofComplex (fun _ => .ok c) .ok id true cfg 20 u 0 1 (some (1 / 10)) true 1 s).1 :=
  (C81_tie_as (rnd := .fin) (ASSolver.if34 (.diag (ι := Fin 2) ![-1, -4])) other (clk := id) (fun _ => rfl) (fun _ => rfl) true cfg 20 u 0 1
    (hInit := some (1 / 10)) (fun _ _ => rfl) true 1 hs ht).1

/-- C82: a run of ETD5 for the logistic equation in double precision. -/
example : ∃ (η : ℝ) (N0 : ℕ), 0 < η ∧ ∀ (N : ℕ) (h : ℝ), N0 ≤ N → 0 < h → h < η → N * (1000 * (1 / 2 ^ 53)) + (1 / 2) ^ N ≤ η * h →
    ∃ v, (((CSSolver.etd5 ⟨1 / 100, 32, 1⟩ (.diag ![-1])).withPoints N).fpEvolve (CSSolver.flEnv _ (Arith.numpy rnd64) A64 (LinAlg.rounded rnd64))
      (total logisticN) rnd64 true (⌈2 * (2 - 0) / h + 1⌉₊ + 1) (logisticY 0) 0 2 h true 1 (CSSolver.fpNew _)).1 = .ok (some v) := by
  obtain ⟨C, η, R, N0, hη, h1⟩ := C82_evolve (.etd5 ⟨1 / 100, 32, 1⟩ (.diag ![-1])) (by constructor <;> norm_num) logisticN_smooth
    (show (0 : ℝ) < 2 by norm_num) (logistic_solves 0 2)
  refine ⟨η, N0, hη, fun N h hN h0 hh hg => ?_⟩
  obtain ⟨⟨v, hv, -⟩, -⟩ := h1 N (Arith.numpy rnd64) A64 (LinAlg.rounded rnd64) (total logisticN) rnd64 (1000 * (1 / 2 ^ 53)) h (logisticY 0) hN (by positivity)
    ((Arith.numpy_within rnd64_error (by positivity) (by norm_num) R).of_le (by simp [dotFactor]; norm_num)) ((A64_within _).of_le (by norm_num))
    ((LinAlg.rounded_within rnd64_error (by positivity) R).of_le (by norm_num)) (fun v _ => ⟨_, rfl, by rw [sub_self, norm_zero]; positivity⟩)
    (fun x => (rnd64_error x).trans (mul_le_mul_of_nonneg_right (by norm_num) (abs_nonneg x))) h0 hh hg (by rw [sub_self, norm_zero]; exact hη.le)
    true true 1 (CSSolver.fpNew _) (⌈2 * (2 - 0) / h + 1⌉₊ + 1) (by norm_num) one_ne_zero (by push_cast; linarith [Nat.le_ceil (2 * (2 - 0) / h + 1)])
  exact ⟨v, hv⟩

/-- C82 and C84: adaptive runs of ETD34 for the logistic equation in double precision, with the operator and with one that is off by a rounding. -/
example (δ : ℝ) (hδ : |δ| ≤ 1 / 2 ^ 53) : ∃ (C η : ℝ) (N0 : ℕ), 0 < η ∧ ∀ N, N0 ≤ N → (N : ℝ) * (1000 * (1 / 2 ^ 53)) + (1 / 2) ^ N ≤ η * (η / 2) →
    ∀ fuel v, ∀ r, r = ((ASSolver.etd34 ⟨1 / 100, 32, 1⟩ (.diag ![-1 + (δ : ℂ)])).withPoints N).fpEvolve (ASSolver.flEnv _ (Arith.numpy rnd64) A64 (LinAlg.rounded rnd64))
      (fun cfg v e => computeS 4 cfg v e) (total logisticN) rnd64 true ⟨1 / 10000, 5 / 4, 17 / 20, 4 / 5, 1 / 100, 1 / 10 ^ 16⟩ fuel (logisticY 0) 0 2 none true 1
      (ASSolver.fpNew _) → r.2.t.IsChain (fun a b => b - a ≤ η / 2) → r.2.t.length * ((N : ℝ) * (1000 * (1 / 2 ^ 53)) + (1 / 2) ^ N) ≤ η →
      r.1 = .ok (some v) → 2 ≤ r.2.tc ∧ ‖v - logisticY r.2.tc‖ ≤ C * ((η / 2) ^ 4 + r.2.t.length * (N * (1000 * (1 / 2 ^ 53)) + (1 / 2) ^ N)) := by
  obtain ⟨C, η, R, N0, hη, h1⟩ := C84_stored (.etd34 ⟨1 / 100, 32, 1⟩ (.diag ![-1])) (by constructor <;> norm_num) logisticN_smooth
    (show (0 : ℝ) ≤ 2 by norm_num) (logistic_solves 0 2)
  refine ⟨C, η, N0, hη, fun N hN hg fuel v r hr hc hl hv => ?_⟩
  subst hr
  have := (h1 (.etd34 ⟨1 / 100, 32, 1⟩ (.diag ![-1 + (δ : ℂ)])) N (Arith.numpy rnd64) A64 (LinAlg.rounded rnd64) (fun cfg v e => computeS 4 cfg v e)
    (total logisticN) rnd64 (1000 * (1 / 2 ^ 53)) (logisticY 0) hN (by positivity)
    (.etd34 (.diag ((pi_norm_le_iff_of_nonneg (by positivity)).2 fun i => by
      fin_cases i
      simp
      linarith)))
    ((Arith.numpy_within rnd64_error (by positivity) (by norm_num) R).of_le (by simp [dotFactor]; norm_num)) ((A64_within _).of_le (by norm_num))
    ((LinAlg.rounded_within rnd64_error (by positivity) R).of_le (by norm_num)) (fun v _ => ⟨_, rfl, by rw [sub_self, norm_zero]; positivity⟩)
    (fun x => (rnd64_error x).trans (mul_le_mul_of_nonneg_right (by norm_num) (abs_nonneg x))) (by rw [sub_self, norm_zero]; exact hη.le)
    _ none true (ASSolver.fpNew _) fuel (by norm_num) (by simp) (η / 2) hg (by linarith) (by linarith) hc hl).2 v hv
  refine ⟨this.1, this.2.trans (le_of_eq ?_)⟩
  rw [sub_self, norm_zero, zero_add]
  rfl

example : ∃ (C η : ℝ) (N0 : ℕ), 0 < η ∧ ∀ N, N0 ≤ N → (N : ℝ) * (1000 * (1 / 2 ^ 53)) + (1 / 2) ^ N ≤ η * (η / 2) →
    ∀ fuel v, ∀ r, r = ((ASSolver.etd34 ⟨1 / 100, 32, 1⟩ (.diag ![-1])).withPoints N).fpEvolve (ASSolver.flEnv _ (Arith.numpy rnd64) A64 (LinAlg.rounded rnd64))
      (fun cfg v e => computeS 4 cfg v e) (total logisticN) rnd64 true ⟨1 / 10000, 5 / 4, 17 / 20, 4 / 5, 1 / 100, 1 / 10 ^ 16⟩ fuel (logisticY 0) 0 2 none true 1
      (ASSolver.fpNew _) → r.2.t.IsChain (fun a b => b - a ≤ η / 2) → r.2.t.length * ((N : ℝ) * (1000 * (1 / 2 ^ 53)) + (1 / 2) ^ N) ≤ η →
      r.1 = .ok (some v) → 2 ≤ r.2.tc := by
  obtain ⟨C, η, R, N0, hη, h1⟩ := C82_stored (.etd34 ⟨1 / 100, 32, 1⟩ (.diag ![-1])) (by constructor <;> norm_num) logisticN_smooth
    (show (0 : ℝ) ≤ 2 by norm_num) (logistic_solves 0 2)
  refine ⟨C, η, N0, hη, fun N hN hg fuel v r hr hc hl hv => ?_⟩
  subst hr
  exact ((h1 N (Arith.numpy rnd64) A64 (LinAlg.rounded rnd64) (fun cfg v e => computeS 4 cfg v e)
    (total logisticN) rnd64 (1000 * (1 / 2 ^ 53)) (logisticY 0) hN (by positivity)
    ((Arith.numpy_within rnd64_error (by positivity) (by norm_num) R).of_le (by simp [dotFactor]; norm_num)) ((A64_within _).of_le (by norm_num))
    ((LinAlg.rounded_within rnd64_error (by positivity) R).of_le (by norm_num)) (fun v _ => ⟨_, rfl, by rw [sub_self, norm_zero]; positivity⟩)
    (fun x => (rnd64_error x).trans (mul_le_mul_of_nonneg_right (by norm_num) (abs_nonneg x))) (by rw [sub_self, norm_zero]; exact hη.le)
    _ none true (ASSolver.fpNew _) fuel (by norm_num) (by simp) (η / 2) hg (by linarith) (by linarith) hc hl).2 v hv).1

end Verif
