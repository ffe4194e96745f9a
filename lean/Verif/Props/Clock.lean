import Verif.Lemmas.Clock
import Verif.Lemmas.Float64
import Verif.Lemmas.Witness
import Verif.Props.ConstStep
import Verif.Props.History

/-!
# Units and origin of time (property C73)

Measuring time in another unit and from another origin, `t' = a t + b`, changes nothing but the numbers on the clock: the solver for
`u' = (L u + N(u)) / a` returns the same arrays, and all times and sizes in the new unit.  The only setting that carries a unit
of time is `minh`.
-/

set_option linter.unusedSectionVars false

namespace Verif

open Matrix

variable {ι : Type} [Fintype ι] [DecidableEq ι]

/-! ### Constant steps -/

/-- **C73.** A step of size `a h` of the slower problem is the step of size `h` of the problem. -/
theorem C73_step {a : ℝ} (ha : 0 < a) (m : CSSolver ι) (nl : NlFunc ι) (u : Vec ι) (h : ℝ) (s : m.State)
    (s' : (m.scale (1 / a)).State) (hs : m.Follows nl u s) (hs' : (m.scale (1 / a)).Follows (scaleNl (1 / a) nl) u s') :
    ((m.scale (1 / a)).step (scaleNl (1 / a) nl) u (a * h) s').1 = (m.step nl u h s).1 := by
  have hc : a * (1 / a) = 1 := mul_one_div_cancel ha.ne'
  by_cases hh : 0 ≤ h
  · have hh' : 0 ≤ a * h := mul_nonneg ha.le hh
    unfold CSSolver.step
    rw [CSClass.step_apply _ _ hh, CSClass.step_apply _ _ hh']
    simp only
    rw [(m.lawful nl).result _ _ _ hs.inv, ((m.scale (1 / a)).lawful (scaleNl (1 / a) nl)).result _ _ _ hs'.inv]
    exact m.oneStep_scale hc nl h u
  · have hh' : a * h < 0 := mul_neg_of_pos_of_neg ha (not_le.mp hh)
    rw [m.step_neg nl u h (not_le.mp hh), (m.scale (1 / a)).step_neg (scaleNl (1 / a) nl) u (a * h) hh']

/-- From seconds to milliseconds. -/
example (u : Vec (Fin 1)) :
    let m := CSSolver.if4 (.diag fun _ : Fin 1 => -1)
    ((m.scale (1 / 1000)).step (scaleNl (1 / 1000) fun x => .ok (x * x)) u (1000 * (1 / 3)) (m.scale (1 / 1000)).new).1 =
      (m.step (fun x => .ok (x * x)) u (1 / 3) m.new).1 :=
  C73_step (by norm_num) _ _ u (1 / 3) _ _ (.new _) (.new _)

/-- **C73.** Constant-step runs: the same result or exception and the same snapshots, at the converted times. -/
theorem C73_evolve {a b : ℝ} {rnd rnd' : ℝ → ℝ} (hc : ClockMap a b rnd rnd') (m : CSSolver ι) (nl : NlFunc ι) (pyDiv : Bool)
    (fuel : ℕ) (u : Vec ι) (t0 tf h : ℝ) (hz : pyDiv = true → (a * tf + b = 0 ↔ tf = 0)) (storeData : Bool) (freq : ℤ)
    (s : m.State) (s' : (m.scale (1 / a)).State) :
    ((m.scale (1 / a)).evolve (scaleNl (1 / a) nl) rnd' pyDiv fuel u (a * t0 + b) (a * tf + b) (a * h) storeData freq s').1 =
      (m.evolve nl rnd pyDiv fuel u t0 tf h storeData freq s).1 ∧
    ((m.scale (1 / a)).evolve (scaleNl (1 / a) nl) rnd' pyDiv fuel u (a * t0 + b) (a * tf + b) (a * h) storeData freq s').2.t =
      (m.evolve nl rnd pyDiv fuel u t0 tf h storeData freq s).2.t.map (fun x => a * x + b) ∧
    ((m.scale (1 / a)).evolve (scaleNl (1 / a) nl) rnd' pyDiv fuel u (a * t0 + b) (a * tf + b) (a * h) storeData freq s').2.u =
      (m.evolve nl rnd pyDiv fuel u t0 tf h storeData freq s).2.u :=
  CSClass.evolve_clock (m.lawful nl) ((m.scale (1 / a)).lawful (scaleNl (1 / a) nl)) hc pyDiv fuel u t0 tf h
    (fun u => m.oneStep_scale (mul_one_div_cancel hc.pos.ne') nl h u) hz storeData freq s s'

/-! ### Adaptive steps -/

/-- The factor for the step size does not depend on the unit of time. -/
theorem ASSolver.factor_scale (a c : ℝ) (m : ASSolver ι) (nl nl' : NlFunc ι) (cfg : SolverConfig ℝ) :
    (m.scale c).factor nl' (cfg.inUnit a) = m.factor nl cfg := by
  rcases m with (L | L | ⟨l, S, T, hS⟩) | ⟨cfg, L | L | ⟨l, S, T, hS⟩⟩ | ⟨cfg, L | L | ⟨l, S, T, hS⟩⟩ | L <;> rfl

/-- **C73.** An adaptive step of the slower problem: the same array or exception, both sizes in the new unit. -/
theorem C73_adaptive_step {a : ℝ} {rnd rnd' : ℝ → ℝ} (hc : ClockMap a 0 rnd rnd') (m : ASSolver ι) (nl : NlFunc ι)
    (cfg : SolverConfig ℝ) (u : Vec ι) (h : ℝ) (s : m.State) (s' : (m.scale (1 / a)).State) (hs : m.Follows nl u s)
    (hs' : (m.scale (1 / a)).Follows (scaleNl (1 / a) nl) u s') :
    ((m.scale (1 / a)).step (scaleNl (1 / a) nl) rnd' (cfg.inUnit a) u (a * h) s').1 =
      (m.step nl rnd cfg u h s).1.map fun r => (r.1, a * r.2.1, a * r.2.2) :=
  ASClass.step_clock (m.lawful nl) ((m.scale (1 / a)).lawful (scaleNl (1 / a) nl)) hc
    (fun h u => m.oneTrial_scale (mul_one_div_cancel hc.pos.ne') nl h u) cfg (m.factor_scale a (1 / a) nl _ cfg) u h s s'
    hs.ready hs'.ready

/-- **C73.** Adaptive runs. -/
theorem C73_adaptive_evolve {a b : ℝ} {rnd rnd' : ℝ → ℝ} (hc : ClockMap a b rnd rnd') (m : ASSolver ι) (nl : NlFunc ι)
    (pyDiv : Bool) (cfg : SolverConfig ℝ) (fuel : ℕ) (u : Vec ι) (t0 tf : ℝ) (hInit : Option ℝ)
    (hz : pyDiv = true → (a * tf + b = 0 ↔ tf = 0)) (storeData : Bool) (freq : ℤ) (s : m.State) (s' : (m.scale (1 / a)).State) :
    ((m.scale (1 / a)).evolve (scaleNl (1 / a) nl) rnd' pyDiv (cfg.inUnit a) fuel u (a * t0 + b) (a * tf + b)
        (hInit.map (a * ·)) storeData freq s').1 =
      (m.evolve nl rnd pyDiv cfg fuel u t0 tf hInit storeData freq s).1 ∧
    ((m.scale (1 / a)).evolve (scaleNl (1 / a) nl) rnd' pyDiv (cfg.inUnit a) fuel u (a * t0 + b) (a * tf + b)
        (hInit.map (a * ·)) storeData freq s').2.t =
      (m.evolve nl rnd pyDiv cfg fuel u t0 tf hInit storeData freq s).2.t.map (fun x => a * x + b) ∧
    ((m.scale (1 / a)).evolve (scaleNl (1 / a) nl) rnd' pyDiv (cfg.inUnit a) fuel u (a * t0 + b) (a * tf + b)
        (hInit.map (a * ·)) storeData freq s').2.u =
      (m.evolve nl rnd pyDiv cfg fuel u t0 tf hInit storeData freq s).2.u :=
  ASClass.evolve_clock (m.lawful nl) ((m.scale (1 / a)).lawful (scaleNl (1 / a) nl)) hc
    (fun h u => m.oneTrial_scale (mul_one_div_cancel hc.pos.ne') nl h u) pyDiv cfg (m.factor_scale a (1 / a) nl _ cfg) fuel u
    t0 tf hInit hz storeData freq s s'

/-! ### Another origin -/

theorem ClockMap.shift (b : ℝ) : ClockMap 1 b id id := ⟨one_pos, fun _ => rfl, fun _ => rfl⟩

/-- **C73.** With exact times, a run started at `t0 + b` instead of `t0`: same solver, same function, other times.  (If the times
are Python floats the progress message divides by `tf`: then neither end must be 0, or both.) -/
theorem C73_shift (m : CSSolver ι) (nl : NlFunc ι) (pyDiv : Bool) (fuel : ℕ) (u : Vec ι) (t0 tf h b : ℝ)
    (hz : pyDiv = true → (tf + b = 0 ↔ tf = 0)) (storeData : Bool) (freq : ℤ) (s s' : m.State) :
    (m.evolve nl id pyDiv fuel u (t0 + b) (tf + b) h storeData freq s').1 =
      (m.evolve nl id pyDiv fuel u t0 tf h storeData freq s).1 ∧
    (m.evolve nl id pyDiv fuel u (t0 + b) (tf + b) h storeData freq s').2.t =
      (m.evolve nl id pyDiv fuel u t0 tf h storeData freq s).2.t.map (· + b) ∧
    (m.evolve nl id pyDiv fuel u (t0 + b) (tf + b) h storeData freq s').2.u =
      (m.evolve nl id pyDiv fuel u t0 tf h storeData freq s).2.u := by
  have := CSClass.evolve_clock (m.lawful nl) (m.lawful nl) (ClockMap.shift b) pyDiv fuel u t0 tf h
    (fun u => by rw [one_mul]) (by simpa using hz) storeData freq s s'
  simp only [one_mul] at this
  exact this

/-- **C73.** The same for adaptive runs. -/
theorem C73_adaptive_shift (m : ASSolver ι) (nl : NlFunc ι) (pyDiv : Bool) (cfg : SolverConfig ℝ) (fuel : ℕ) (u : Vec ι)
    (t0 tf b : ℝ) (hInit : Option ℝ) (hz : pyDiv = true → (tf + b = 0 ↔ tf = 0)) (storeData : Bool) (freq : ℤ) (s s' : m.State) :
    (m.evolve nl id pyDiv cfg fuel u (t0 + b) (tf + b) hInit storeData freq s').1 =
      (m.evolve nl id pyDiv cfg fuel u t0 tf hInit storeData freq s).1 ∧
    (m.evolve nl id pyDiv cfg fuel u (t0 + b) (tf + b) hInit storeData freq s').2.t =
      (m.evolve nl id pyDiv cfg fuel u t0 tf hInit storeData freq s).2.t.map (· + b) ∧
    (m.evolve nl id pyDiv cfg fuel u (t0 + b) (tf + b) hInit storeData freq s').2.u =
      (m.evolve nl id pyDiv cfg fuel u t0 tf hInit storeData freq s).2.u := by
  have hcfg : cfg.inUnit 1 = cfg := by simp [SolverConfig.inUnit]
  have := ASClass.evolve_clock (m.lawful nl) (m.lawful nl) (ClockMap.shift b) (fun h u => by rw [one_mul]) pyDiv cfg
    (by rw [hcfg]) fuel u t0 tf hInit (by simpa using hz) storeData freq s s'
  simp only [one_mul, hcfg, Option.map_id_fun', id] at this
  exact this

/-- The run of `demo` over `[5, 6]`, and two constant steps over `[1, 2]` and `[2, 3]`. -/
example (s : demo.State) (L u : Vec (Fin 2)) :
    (demo.evolve (fun x => .ok x) id true demoCfg 2 1 (0 + 5) (1 + 5) (some 1) true 1 s).1 = .ok (some ((65 / 24 : ℂ) • 1)) ∧
    let m := CSSolver.if4 (.diag L)
    (m.evolve (fun x => .ok (x * x)) id true 5 u (1 + 1) (2 + 1) (1 / 2) true 1 m.new).2.u =
      (m.evolve (fun x => .ok (x * x)) id true 5 u 1 2 (1 / 2) true 1 m.new).2.u := by
  refine ⟨?_, (C73_shift (.if4 (.diag L)) _ true 5 u 1 2 (1 / 2) 1 (by norm_num) true 1 _ _).2.2⟩
  rw [(C73_adaptive_shift demo (fun x => .ok x) true demoCfg 2 1 0 1 5 (some 1) (by norm_num) true 1 demo.new s).1]
  exact demo_evolve true true demo.new

/-! ### Binary64 clocks -/

/-- Rounding to 53 bits goes along with powers of two. -/
theorem rnd64_mul_zpow (k : ℤ) (x : ℝ) : rnd64 ((2 : ℝ) ^ k * x) = (2 : ℝ) ^ k * rnd64 x := by
  rcases eq_or_ne x 0 with rfl | hx
  · simp [rnd64_zero]
  have hl : Int.log 2 |(2 : ℝ) ^ k * x| = k + Int.log 2 |x| := by
    have hp : (0 : ℝ) < (2 : ℝ) ^ k := zpow_pos two_pos _
    have hx' : 0 < |x| := abs_pos.mpr hx
    rw [abs_mul, abs_of_pos hp]
    apply le_antisymm
    · apply Int.lt_add_one_iff.mp
      rw [← Int.lt_zpow_iff_log_lt one_lt_two (mul_pos hp hx')]
      have h1 := Int.lt_zpow_succ_log_self (b := 2) one_lt_two |x|
      push_cast at h1 ⊢
      rw [show k + Int.log 2 |x| + 1 = k + (Int.log 2 |x| + 1) by ring, zpow_add₀ two_ne_zero]
      exact mul_lt_mul_of_pos_left h1 hp
    · rw [← Int.zpow_le_iff_le_log one_lt_two (mul_pos hp hx')]
      have h1 := Int.zpow_log_le_self (b := 2) one_lt_two hx'
      push_cast at h1 ⊢
      rw [zpow_add₀ two_ne_zero]
      exact mul_le_mul_of_nonneg_left h1 hp.le
  simp only [rnd64]
  rw [hl, show k + Int.log 2 |x| - 52 = k + (Int.log 2 |x| - 52) by ring, zpow_add₀ two_ne_zero,
    mul_div_mul_left _ _ (zpow_pos two_pos k).ne']
  ring

theorem ClockMap.binary64 (k : ℤ) : ClockMap ((2 : ℝ) ^ k) 0 rnd64 rnd64 :=
  ⟨zpow_pos two_pos _, rnd64_mul_zpow k, fun x => by rw [add_zero, add_zero, rnd64_mul_zpow]⟩

/-- **C73.** With binary64 times: a unit of time `2^k` times smaller gives bit for bit the same constant-step run, every time
multiplied by `2^k`.  (With other factors the rounded clocks can make different numbers of steps.) -/
theorem C73_binary64 (k : ℤ) (m : CSSolver ι) (nl : NlFunc ι) (pyDiv : Bool) (fuel : ℕ) (u : Vec ι) (t0 tf h : ℝ) (storeData : Bool)
    (freq : ℤ) (s : m.State) (s' : (m.scale (1 / 2 ^ k)).State) :
    ((m.scale (1 / 2 ^ k)).evolve (scaleNl (1 / 2 ^ k) nl) rnd64 pyDiv fuel u (2 ^ k * t0) (2 ^ k * tf) (2 ^ k * h) storeData freq s').1 =
      (m.evolve nl rnd64 pyDiv fuel u t0 tf h storeData freq s).1 ∧
    ((m.scale (1 / 2 ^ k)).evolve (scaleNl (1 / 2 ^ k) nl) rnd64 pyDiv fuel u (2 ^ k * t0) (2 ^ k * tf) (2 ^ k * h) storeData freq s').2.t =
      (m.evolve nl rnd64 pyDiv fuel u t0 tf h storeData freq s).2.t.map ((2 : ℝ) ^ k * ·) ∧
    ((m.scale (1 / 2 ^ k)).evolve (scaleNl (1 / 2 ^ k) nl) rnd64 pyDiv fuel u (2 ^ k * t0) (2 ^ k * tf) (2 ^ k * h) storeData freq s').2.u =
      (m.evolve nl rnd64 pyDiv fuel u t0 tf h storeData freq s).2.u := by
  have := C73_evolve (ClockMap.binary64 k) m nl pyDiv fuel u t0 tf h
    (fun _ => by simp [(zpow_pos (two_pos : (0 : ℝ) < 2) k).ne']) storeData freq s s'
  simp only [add_zero] at this
  exact this

/-- **C73.** The same for adaptive runs, `minh` in the new unit. -/
theorem C73_adaptive_binary64 (k : ℤ) (m : ASSolver ι) (nl : NlFunc ι) (pyDiv : Bool) (cfg : SolverConfig ℝ) (fuel : ℕ)
    (u : Vec ι) (t0 tf : ℝ) (hInit : Option ℝ) (storeData : Bool) (freq : ℤ) (s : m.State) (s' : (m.scale (1 / 2 ^ k)).State) :
    ((m.scale (1 / 2 ^ k)).evolve (scaleNl (1 / 2 ^ k) nl) rnd64 pyDiv { cfg with minh := 2 ^ k * cfg.minh } fuel u (2 ^ k * t0)
        (2 ^ k * tf) (hInit.map ((2 : ℝ) ^ k * ·)) storeData freq s').1 =
      (m.evolve nl rnd64 pyDiv cfg fuel u t0 tf hInit storeData freq s).1 ∧
    ((m.scale (1 / 2 ^ k)).evolve (scaleNl (1 / 2 ^ k) nl) rnd64 pyDiv { cfg with minh := 2 ^ k * cfg.minh } fuel u (2 ^ k * t0)
        (2 ^ k * tf) (hInit.map ((2 : ℝ) ^ k * ·)) storeData freq s').2.t =
      (m.evolve nl rnd64 pyDiv cfg fuel u t0 tf hInit storeData freq s).2.t.map ((2 : ℝ) ^ k * ·) ∧
    ((m.scale (1 / 2 ^ k)).evolve (scaleNl (1 / 2 ^ k) nl) rnd64 pyDiv { cfg with minh := 2 ^ k * cfg.minh } fuel u (2 ^ k * t0)
        (2 ^ k * tf) (hInit.map ((2 : ℝ) ^ k * ·)) storeData freq s').2.u =
      (m.evolve nl rnd64 pyDiv cfg fuel u t0 tf hInit storeData freq s).2.u := by
  have := C73_adaptive_evolve (ClockMap.binary64 k) m nl pyDiv cfg fuel u t0 tf hInit
    (fun _ => by simp [(zpow_pos (two_pos : (0 : ℝ) < 2) k).ne']) storeData freq s s'
  simp only [add_zero] at this
  exact this

/-- Time in units of `1/1024`, in binary64. -/
example (u : Vec (Fin 1)) (e : ETDConfig ℝ) (cfg : SolverConfig ℝ) :
    let m := CSSolver.etd4 e (.diag fun _ : Fin 1 => -1)
    let m' := ASSolver.etd34 e (.diag fun _ : Fin 1 => -1)
    ((m.scale (1 / 2 ^ (10 : ℤ))).evolve (scaleNl (1 / 2 ^ (10 : ℤ)) fun x => .ok (x * x)) rnd64 true 20 u (2 ^ (10 : ℤ) * 0) (2 ^ (10 : ℤ) * 1)
      (2 ^ (10 : ℤ) * (1 / 10)) true 1 (m.scale _).new).2.u = (m.evolve (fun x => .ok (x * x)) rnd64 true 20 u 0 1 (1 / 10) true 1 m.new).2.u ∧
    ((m'.scale (1 / 2 ^ (10 : ℤ))).evolve (scaleNl (1 / 2 ^ (10 : ℤ)) fun x => .ok (x * x)) rnd64 true { cfg with minh := 2 ^ (10 : ℤ) * cfg.minh }
      20 u (2 ^ (10 : ℤ) * 0) (2 ^ (10 : ℤ) * 1) ((none : Option ℝ).map ((2 : ℝ) ^ (10 : ℤ) * ·)) true 1 (m'.scale _).new).2.u =
      (m'.evolve (fun x => .ok (x * x)) rnd64 true cfg 20 u 0 1 none true 1 m'.new).2.u :=
  ⟨(C73_binary64 10 _ _ true 20 u 0 1 (1 / 10) true 1 _ _).2.2, (C73_adaptive_binary64 10 _ _ true cfg 20 u 0 1 none true 1 _ _).2.2⟩

/-! ### Examples -/

theorem ClockMap.unit {a : ℝ} (ha : 0 < a) (b : ℝ) : ClockMap a b id id := ⟨ha, fun _ => rfl, fun _ => rfl⟩

/-- Seconds and milliseconds: `u' = u² - u` on `[0, 1]`, in steps of 1/3. -/
example (m : CSSolver (Fin 1)) (hm : m = .if4 (.diag fun _ => -1)) (s : m.State) (s' : (m.scale (1 / 1000)).State) :
    (∃ v, (m.evolve (fun x => .ok (x * x)) id true 10 1 0 1 (1 / 3) true 2 s).1 = .ok (some v) ∧
      ((m.scale (1 / 1000)).evolve (scaleNl (1 / 1000) fun x => .ok (x * x)) id true 10 1 (1000 * 0 + 0) (1000 * 1 + 0) (1000 * (1 / 3))
        true 2 s').1 = .ok (some v)) ∧
    (m.scale (1 / 1000)).op.mat = diagonal fun _ => -1 / 1000 := by
  have h1 := C73_evolve (ClockMap.unit (a := 1000) (by norm_num) 0) m (fun x => .ok (x * x)) true 10 1 0 1 (1 / 3) (by norm_num) true 2 s s'
  have hn : ⌈((1 : ℝ) - 0) / (1 / 3)⌉₊ = 3 := by rw [Nat.ceil_eq_iff (by norm_num)]; norm_num
  refine ⟨?_, ?_⟩
  · rw [h1.1]
    obtain ⟨v, hv⟩ := (C04_zeroDivision_iff m (fun x => .ok (x * x)) (fun x => ⟨_, rfl⟩) true 1 0 1 (1 / 3) true 2 (by norm_num)
      (by norm_num) (by subst hm; trivial) s 10 (by rw [hn]; norm_num)).2 (by norm_num)
    exact ⟨v, hv, hv⟩
  · subst hm
    simp only [CSSolver.scale, LinOp.scale, CSSolver.op, LinOp.mat]
    congr 1
    funext i
    simp; ring

/-- An adaptive step that grows by the factor 4, in thousandths of the unit. -/
example (s' : (demo.scale (1 / 1000)).State) (hs' : (demo.scale (1 / 1000)).Follows (scaleNl (1 / 1000) fun x => .ok x) 1 s') :
    ((demo.scale (1 / 1000)).step (scaleNl (1 / 1000) fun x => .ok x) id { demoCfg with minh := 1000 * demoCfg.minh } 1 (1000 * 1) s').1 =
      .ok ((65 / 24 : ℂ) • 1, 1000, 4000) := by
  have h1 := C73_adaptive_step (ClockMap.unit (a := 1000) (by norm_num) 0) demo (fun x => .ok x) demoCfg 1 1 demo.new s'
    (.new _) hs'
  rw [demo_step] at h1
  simp only [Except.map] at h1
  norm_num at h1 ⊢
  exact h1

/-- The condition on the ends: a run of 100 steps on `[-1, 0]` raises `ZeroDivisionError`, on `[0, 1]` it returns. -/
example (L u : Vec (Fin 1)) (s : (CSSolver.if4 (.diag L)).State) :
    ((CSSolver.if4 (.diag L)).evolve (fun x => .ok (x * x)) id true 101 u (-1) 0 (1 / 100) false 1 s).1 =
      .error .zeroDivisionError ∧
    ((CSSolver.if4 (.diag L)).evolve (fun x => .ok (x * x)) id true 101 u (-1 + 1) (0 + 1) (1 / 100) false 1 s).1 ≠
      .error .zeroDivisionError := by
  have h1 : ⌈((0 : ℝ) - -1) / (1 / 100)⌉₊ = 100 := by rw [Nat.ceil_eq_iff (by norm_num)]; norm_num
  have h2 : ⌈((0 : ℝ) + 1 - (-1 + 1)) / (1 / 100)⌉₊ = 100 := by rw [Nat.ceil_eq_iff (by norm_num)]; norm_num
  constructor
  · refine (C04_zeroDivision_iff (.if4 (.diag L)) _ (fun x => ⟨_, rfl⟩) true u (-1) 0 (1 / 100) false 1 (by norm_num)
      (by norm_num) trivial s 101 (by rw [h1]; norm_num)).1 (.inl ⟨rfl, rfl, by rw [h1]⟩)
  · obtain ⟨v, hv⟩ := (C04_zeroDivision_iff (.if4 (.diag L)) (fun x => .ok (x * x)) (fun x => ⟨_, rfl⟩) true u (-1 + 1) (0 + 1) (1 / 100)
      false 1 (by norm_num) (by norm_num) trivial s 101 (by rw [h2]; norm_num)).2 (by norm_num)
    rw [hv]; simp

/-- The run of `demo` over `[0, 1]` in milliseconds. -/
example (s' : (demo.scale (1 / 1000)).State) :
    ((demo.scale (1 / 1000)).evolve (scaleNl (1 / 1000) fun x => .ok x) id true (demoCfg.inUnit 1000) 2 1 (1000 * 0 + 0) (1000 * 1 + 0)
      ((some 1).map ((1000 : ℝ) * ·)) true 1 s').1 = .ok (some ((65 / 24 : ℂ) • 1)) := by
  rw [(C73_adaptive_evolve (ClockMap.unit (a := 1000) (by norm_num) 0) demo (fun x => .ok x) true demoCfg 2 1 0 1 (some 1)
    (by norm_num) true 1 demo.new s').1]
  exact demo_evolve true true demo.new

end Verif
