import Verif.Lemmas.Restart
import Verif.Props.ConstStep
import Verif.Props.History

/-!
# Stopping and resuming a constant-step run (property C75)

A run of a constant-step solver may be interrupted at any intermediate time and resumed, on the same object or on another one,
from the returned array and the time reached: the pieces together do exactly what a single run does.  The clock may be rounded
in any way.
-/

set_option linter.unusedSectionVars false

namespace Verif

open Matrix

variable {ι : Type} [Fintype ι] [DecidableEq ι]

/-- **C75.** If `evolve(u, t0, t1, h)` returns `v` at time `T` (in `k` steps), then `evolve(v, T, tf, h)` ends exactly like
`evolve(u, t0, tf, h)`: same array or same exception, same time.  The two recordings joined (without repeating the first entry
of the second) are the recording of the single run when the storing frequency divides `k`; then `T` and `v` are the last
recorded entries of the first run. -/
theorem C75_resume (m : CSSolver ι) (nl : NlFunc ι) (rnd : ℝ → ℝ) (pyDiv : Bool) (fuel : ℕ) (u v : Vec ι) (t0 t1 tf h : ℝ)
    (storeData : Bool) (freq : ℤ) (s s' s'' : m.State) (hle : t1 ≤ tf) (hp : pyDiv = true → tf ≠ 0)
    (hr : (m.evolve nl rnd pyDiv fuel u t0 t1 h storeData freq s).1 = .ok (some v))
    (hroom : rnd ((m.evolve nl rnd pyDiv fuel u t0 t1 h storeData freq s).2.tc + h) ≤ tf) :
    ∃ k, k < fuel ∧
      (storeData = true → freq = 1 →
        (m.evolve nl rnd pyDiv fuel u t0 t1 h storeData freq s).2.t.length = k + 1) ∧
      (storeData = true → freq ∣ (k : ℤ) → t0 < t1 →
        (m.evolve nl rnd pyDiv fuel u t0 t1 h storeData freq s).2.t.getLast? =
            some (m.evolve nl rnd pyDiv fuel u t0 t1 h storeData freq s).2.tc ∧
        (m.evolve nl rnd pyDiv fuel u t0 t1 h storeData freq s).2.u.getLast? = some v) ∧
      ∀ d,
        let one := m.evolve nl rnd pyDiv fuel u t0 t1 h storeData freq s
        let two := m.evolve nl rnd pyDiv d v one.2.tc tf h storeData freq s'
        let all := m.evolve nl rnd pyDiv (k + d) u t0 tf h storeData freq s''
        all.1 = two.1 ∧ all.2.tc = two.2.tc ∧
        (storeData = true → freq ∣ (k : ℤ) →
          all.2.t = one.2.t ++ two.2.t.tail ∧ all.2.u = one.2.u ++ two.2.u.tail) :=
  CSClass.evolve_restart (m.lawful nl) rnd pyDiv fuel u v t0 t1 tf h storeData freq s s' s'' hle hp hr hroom

/-- **C75.** If the first run already overshoots `tf`, there is nothing left: the single run to `tf` is the same run. -/
theorem C75_past (m : CSSolver ι) (nl : NlFunc ι) (rnd : ℝ → ℝ) (pyDiv : Bool) (fuel : ℕ) (u v : Vec ι) (t0 t1 tf h : ℝ)
    (storeData : Bool) (freq : ℤ) (s s' : m.State) (hle : t1 ≤ tf) (hp : pyDiv = true → tf ≠ 0)
    (hr : (m.evolve nl rnd pyDiv fuel u t0 t1 h storeData freq s).1 = .ok (some v))
    (hpast : tf ≤ (m.evolve nl rnd pyDiv fuel u t0 t1 h storeData freq s).2.tc) :
    let one := m.evolve nl rnd pyDiv fuel u t0 t1 h storeData freq s
    let all := m.evolve nl rnd pyDiv fuel u t0 tf h storeData freq s'
    all.1 = .ok (some v) ∧ all.2.tc = one.2.tc ∧ all.2.t = one.2.t ∧ all.2.u = one.2.u :=
  CSClass.evolve_past (m.lawful nl) rnd pyDiv fuel u v t0 t1 tf h storeData freq s s' hle hp hr hpast

/-- **C75.** If the first run raises before reaching `t1`, the single run to a later `tf` raises the same exception at the same
time, with the same recording. -/
theorem C75_raise (m : CSSolver ι) (nl : NlFunc ι) (rnd : ℝ → ℝ) (pyDiv : Bool) (fuel : ℕ) (u : Vec ι) (t0 t1 tf h : ℝ)
    (storeData : Bool) (freq : ℤ) (s s' : m.State) (hle : t1 ≤ tf) (hp1 : pyDiv = true → t1 ≠ 0) (hp : pyDiv = true → tf ≠ 0)
    (hroom : rnd (t0 + h) ≤ t1) (e : PyErr) (hr : (m.evolve nl rnd pyDiv fuel u t0 t1 h storeData freq s).1 = .error e) :
    let one := m.evolve nl rnd pyDiv fuel u t0 t1 h storeData freq s
    let all := m.evolve nl rnd pyDiv fuel u t0 tf h storeData freq s'
    all.1 = .error e ∧ all.2.tc = one.2.tc ∧ all.2.t = one.2.t ∧ all.2.u = one.2.u := by
  have h1 := CSClass.evolve_unfinished (m.lawful nl) rnd pyDiv fuel u t0 t1 tf h storeData freq s s' hle hp1 hp hroom
    (by intro v hv; exact absurd (hr.symm.trans hv) (by simp))
  exact ⟨h1.1.trans hr, h1.2⟩

/-! ### Instances -/

/-- Steps of `1` from `0`, stopped at `1` and resumed on another object to `2`. -/
example (L u : Vec (Fin 1)) (s s' s'' : (CSSolver.if4 (.diag L)).State) :
    ∃ v w, ((CSSolver.if4 (.diag L)).evolve (fun x => .ok (x * x)) id true 5 u 0 1 1 true 1 s).1 = .ok (some v) ∧
      ((CSSolver.if4 (.diag L)).evolve (fun x => .ok (x * x)) id true 5 v 1 2 1 true 1 s').1 = .ok (some w) ∧
      ∃ k, ((CSSolver.if4 (.diag L)).evolve (fun x => .ok (x * x)) id true (k + 5) u 0 2 1 true 1 s'').1 = .ok (some w) := by
  have n1 : ⌈((1 : ℝ) - 0) / 1⌉₊ = 1 := by rw [Nat.ceil_eq_iff (by norm_num)]; norm_num
  have n2 : ⌈((2 : ℝ) - 1) / 1⌉₊ = 1 := by rw [Nat.ceil_eq_iff (by norm_num)]; norm_num
  obtain ⟨v, hv⟩ := (C04_zeroDivision_iff (.if4 (.diag L)) (fun x => .ok (x * x)) (fun x => ⟨_, rfl⟩) true u 0 1 1 true 1
    (by norm_num) (by norm_num) trivial s 5 (by rw [n1]; norm_num)).2 (by norm_num)
  obtain ⟨w, hw⟩ := (C04_zeroDivision_iff (.if4 (.diag L)) (fun x => .ok (x * x)) (fun x => ⟨_, rfl⟩) true v 1 2 1 true 1
    (by norm_num) (by norm_num) trivial s' 5 (by rw [n2]; norm_num)).2 (by norm_num)
  have ht := (C01_time_reached (.if4 (.diag L)) (fun x => .ok (x * x)) true u v 0 1 1 true 1 (by norm_num) (by norm_num)
    (by norm_num) (by norm_num) s 5 (by rw [n1]; norm_num) hv).1
  rw [n1] at ht
  norm_num at ht
  obtain ⟨k, -, -, -, hk⟩ := C75_resume (.if4 (.diag L)) (fun x => .ok (x * x)) id true 5 u v 0 1 2 1 true 1 s s' s'' (by norm_num)
    (by norm_num) hv (by rw [ht]; norm_num)
  refine ⟨v, w, hv, hw, k, ?_⟩
  rw [(hk 5).1, ht]
  exact hw

/-- Why room for a step is needed: with steps of `2/5` a first run to `1/2` ends at `4/5`.  Resuming from there to `1` raises
`ValueError`; the single run to `1` returns (at `6/5`). -/
example (L u : Vec (Fin 1)) (s s' s'' : (CSSolver.if4 (.diag L)).State) :
    ∃ v w, ((CSSolver.if4 (.diag L)).evolve (fun x => .ok (x * x)) id true 5 u 0 (1 / 2) (2 / 5) false 1 s).1 = .ok (some v) ∧
      ((CSSolver.if4 (.diag L)).evolve (fun x => .ok (x * x)) id true 5 u 0 (1 / 2) (2 / 5) false 1 s).2.tc = 4 / 5 ∧
      ((CSSolver.if4 (.diag L)).evolve (fun x => .ok (x * x)) id true 5 v (4 / 5) 1 (2 / 5) false 1 s').1 = .error .valueError ∧
      ((CSSolver.if4 (.diag L)).evolve (fun x => .ok (x * x)) id true 5 u 0 1 (2 / 5) false 1 s'').1 = .ok (some w) := by
  have n1 : ⌈((1 / 2 : ℝ) - 0) / (2 / 5)⌉₊ = 2 := by rw [Nat.ceil_eq_iff (by norm_num)]; norm_num
  have n2 : ⌈((1 : ℝ) - 0) / (2 / 5)⌉₊ = 3 := by rw [Nat.ceil_eq_iff (by norm_num)]; norm_num
  obtain ⟨v, hv⟩ := (C04_zeroDivision_iff (.if4 (.diag L)) (fun x => .ok (x * x)) (fun x => ⟨_, rfl⟩) true u 0 (1 / 2) (2 / 5) false 1
    (by norm_num) (by norm_num) trivial s 5 (by rw [n1]; norm_num)).2 (by norm_num)
  obtain ⟨w, hw⟩ := (C04_zeroDivision_iff (.if4 (.diag L)) (fun x => .ok (x * x)) (fun x => ⟨_, rfl⟩) true u 0 1 (2 / 5) false 1
    (by norm_num) (by norm_num) trivial s'' 5 (by rw [n2]; norm_num)).2 (by norm_num)
  have ht := (C01_time_reached (.if4 (.diag L)) (fun x => .ok (x * x)) true u v 0 (1 / 2) (2 / 5) false 1 (by norm_num) (by norm_num)
    (by norm_num) (by norm_num) s 5 (by rw [n1]; norm_num) hv).1
  rw [n1] at ht
  refine ⟨v, w, hv, by rw [ht]; norm_num, ?_, hw⟩
  rw [CSSolver.evolve, CSClass.evolve_apply, if_pos (by norm_num)]

/-- The first run overshoots the second end: steps of `2/5`, ends `1/2` and `7/10`. -/
example (L u : Vec (Fin 1)) (s s' : (CSSolver.if4 (.diag L)).State) :
    ∃ v, ((CSSolver.if4 (.diag L)).evolve (fun x => .ok (x * x)) id true 5 u 0 (1 / 2) (2 / 5) true 2 s).1 = .ok (some v) ∧
      ((CSSolver.if4 (.diag L)).evolve (fun x => .ok (x * x)) id true 5 u 0 (7 / 10) (2 / 5) true 2 s').1 = .ok (some v) := by
  have n1 : ⌈((1 / 2 : ℝ) - 0) / (2 / 5)⌉₊ = 2 := by rw [Nat.ceil_eq_iff (by norm_num)]; norm_num
  obtain ⟨v, hv⟩ := (C04_zeroDivision_iff (.if4 (.diag L)) (fun x => .ok (x * x)) (fun x => ⟨_, rfl⟩) true u 0 (1 / 2) (2 / 5) true 2
    (by norm_num) (by norm_num) trivial s 5 (by rw [n1]; norm_num)).2 (by norm_num)
  have ht := (C01_time_reached (.if4 (.diag L)) (fun x => .ok (x * x)) true u v 0 (1 / 2) (2 / 5) true 2 (by norm_num) (by norm_num)
    (by norm_num) (by norm_num) s 5 (by rw [n1]; norm_num) hv).1
  rw [n1] at ht
  exact ⟨v, hv, (C75_past (.if4 (.diag L)) _ id true 5 u v 0 (1 / 2) (7 / 10) (2 / 5) true 2 s s' (by norm_num) (by norm_num) hv
    (by rw [ht]; norm_num)).1⟩

/-- A nonlinearity that raises: whatever the end of the run, the first call ends it. -/
example (L u : Vec (Fin 1)) (s s' : (CSSolver.if4 (.diag L)).State) :
    ((CSSolver.if4 (.diag L)).evolve (fun _ => .error (.nlFunc 7)) id true 5 u 0 3 1 true 1 s').1 =
      .error (.nlFunc 7) := by
  have n1 : ⌈((1 : ℝ) - 0) / 1⌉₊ = 1 := by rw [Nat.ceil_eq_iff (by norm_num)]; norm_num
  refine (C75_raise (.if4 (.diag L)) _ id true 5 u 0 1 3 1 true 1 s s' (by norm_num) (by norm_num) (by norm_num) (by norm_num)
    (.nlFunc 7) ?_).1
  rw [C01_evolve_iterates _ _ _ _ _ _ _ _ _ (by norm_num) (by norm_num) (by norm_num) (by norm_num) _ _ (by rw [n1]; norm_num), n1]
  have h1 : ((CSSolver.if4 (.diag L)).step (fun _ => .error (.nlFunc 7)) u 1 (CSSolver.if4 (.diag L)).new).1 = .error (.nlFunc 7) := by
    rw [CSSolver.step_new _ _ _ _ (by norm_num)]
    simp [CSSolver.oneStep, CSSolver.CoefOk, ERK.step, ERK.stages, CSSolver.method, lawson, rk4]
    rfl
  simp [iterE, h1, Except.map]

end Verif
