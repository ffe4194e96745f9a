import Verif.Lemmas.ApiCS
import Mathlib.Algebra.Order.Floor.Ring
import Mathlib.Algebra.Order.Floor.Semiring

/-!
# Constant-step solvers: `evolve` (properties C01–C04)

The one-step map of a solver is what `step` returns on a newly constructed object,
`fun v => (m.step nl v h m.new).1`.  `s : m.State` is the state in which `evolve` finds the object: arbitrary.
-/

set_option linter.unusedSectionVars false

namespace Verif

variable {ι : Type} [Fintype ι] [DecidableEq ι]

theorem isLeast_ceil (t0 tf h : ℝ) (hh : 0 < h) : IsLeast {n : ℕ | tf ≤ t0 + n * h} ⌈(tf - t0) / h⌉₊ := by
  constructor
  · have := Nat.le_ceil ((tf - t0) / h)
    rw [div_le_iff₀ hh] at this
    show tf ≤ t0 + (⌈(tf - t0) / h⌉₊ : ℝ) * h
    linarith
  · intro n hn
    apply Nat.ceil_le.mpr
    rw [div_le_iff₀ hh]
    have : tf ≤ t0 + n * h := hn
    linarith

/-- **C01.** `evolve` applies the one-step map `⌈(tf - t0)/h⌉` times, the least number of steps that reaches `tf`. -/
theorem C01_evolve_iterates (m : CSSolver ι) (nl : NlFunc ι) (pyDiv : Bool) (u : Vec ι) (t0 tf h : ℝ) (storeData : Bool)
    (freq : ℤ) (hh : 0 < h) (hspan : t0 + h ≤ tf) (hf : storeData = true → freq ≠ 0)
    (hp : pyDiv = true → tf = 0 → ⌈(tf - t0) / h⌉₊ < 100) (s : m.State) (fuel : ℕ) (hfuel : ⌈(tf - t0) / h⌉₊ < fuel) :
    (m.evolve nl id pyDiv fuel u t0 tf h storeData freq s).1 =
      (iterE (fun v => (m.step nl v h m.new).1) ⌈(tf - t0) / h⌉₊ u).map some := by
  rw [m.freshStep_eq nl h hh.le]
  exact m.evolve_result nl pyDiv u t0 tf h storeData freq hh hspan hf _ (isLeast_ceil t0 tf h hh) hp s fuel hfuel

/-- **C01.** The time reached by a run that returns: the first of the times `t0 + k h` that is not before `tf`. -/
theorem C01_time_reached (m : CSSolver ι) (nl : NlFunc ι) (pyDiv : Bool) (u v : Vec ι) (t0 tf h : ℝ) (storeData : Bool)
    (freq : ℤ) (hh : 0 < h) (hspan : t0 + h ≤ tf) (hf : storeData = true → freq ≠ 0)
    (hp : pyDiv = true → tf = 0 → ⌈(tf - t0) / h⌉₊ < 100) (s : m.State) (fuel : ℕ) (hfuel : ⌈(tf - t0) / h⌉₊ < fuel)
    (hret : (m.evolve nl id pyDiv fuel u t0 tf h storeData freq s).1 = .ok (some v)) :
    let tc := (m.evolve nl id pyDiv fuel u t0 tf h storeData freq s).2.tc
    tc = t0 + (⌈(tf - t0) / h⌉₊ : ℝ) * h ∧ tf ≤ tc ∧ tc < tf + h ∧ (tc = tf ↔ ∃ k : ℕ, tf - t0 = k * h) := by
  have hn := isLeast_ceil t0 tf h hh
  set n := ⌈(tf - t0) / h⌉₊ with hndef
  have htc : (m.evolve nl id pyDiv fuel u t0 tf h storeData freq s).2.tc = t0 + n * h := by
    rcases iterE_cases (m.oneStep nl h) u n with ⟨st, h0, hok, hr⟩ | ⟨k, st, e, hk, h0, hok, he, hr⟩
    · exact (m.evolve_ok nl pyDiv u t0 tf h storeData freq hh hspan hf n hn hp st h0 hok s fuel hfuel).2.2.2.1
    · rw [(m.evolve_err nl pyDiv u t0 tf h storeData freq hh hspan hf n hn k hk (fun a b => by have := hp a b; omega) st e
        h0 hok he s fuel hfuel).1] at hret
      simp at hret
  have h1 : tf ≤ t0 + n * h := hn.1
  have hn1 : 0 < n := by
    rw [Nat.pos_iff_ne_zero]; intro h0
    rw [h0] at h1; simp at h1; linarith
  refine ⟨htc, by rw [htc]; exact h1, ?_, ?_⟩
  · rw [htc]
    by_contra hc
    have : tf ≤ t0 + ((n - 1 : ℕ) : ℝ) * h := by
      rw [Nat.cast_sub hn1]; push_cast; linarith
    exact absurd (hn.2 this) (by omega)
  · rw [htc]
    constructor
    · intro e; exact ⟨n, by linarith⟩
    · rintro ⟨k, hk⟩
      have : n ≤ k := hn.2 (show tf ≤ t0 + k * h by linarith)
      have h2 : (n : ℝ) ≤ k := by exact_mod_cast this
      have := mul_le_mul_of_nonneg_right h2 hh.le
      linarith

/-- The hypotheses of C01 are met by a run that overshoots: `t0 = 0`, `tf = 1`, `h = 3/10` makes four steps. -/
example (nl : NlFunc (Fin 2)) (u : Vec (Fin 2)) (L : Vec (Fin 2)) (s : (CSSolver.if4 (.diag L)).State) :
    ((CSSolver.if4 (.diag L)).evolve nl id true 10 u 0 1 (3 / 10) true 2 s).1 =
      (iterE (fun v => ((CSSolver.if4 (.diag L)).step nl v (3 / 10) (CSSolver.if4 (.diag L)).new).1) 4 u).map some := by
  have hn : ⌈((1 : ℝ) - 0) / (3 / 10)⌉₊ = 4 := by rw [Nat.ceil_eq_iff (by norm_num)]; norm_num
  have := C01_evolve_iterates (.if4 (.diag L)) nl true u 0 1 (3 / 10) true 2 (by norm_num) (by norm_num) (by norm_num)
    (by norm_num) s 10 (by rw [hn]; norm_num)
  rwa [hn] at this

/-- **C02.** What a returning run leaves in `solver.t` and `solver.u`: the states after `0, f, 2f, …` steps. -/
theorem C02_stored (m : CSSolver ι) (nl : NlFunc ι) (pyDiv : Bool) (u v : Vec ι) (t0 tf h : ℝ) (storeData : Bool)
    (freq : ℤ) (hh : 0 < h) (hspan : t0 + h ≤ tf) (hf : freq ≠ 0)
    (hp : pyDiv = true → tf = 0 → ⌈(tf - t0) / h⌉₊ < 100) (s : m.State) (fuel : ℕ) (hfuel : ⌈(tf - t0) / h⌉₊ < fuel)
    (hret : (m.evolve nl id pyDiv fuel u t0 tf h storeData freq s).1 = .ok (some v)) :
    ∃ st : ℕ → Vec ι, st 0 = u ∧ st ⌈(tf - t0) / h⌉₊ = v ∧
      (∀ k, k < ⌈(tf - t0) / h⌉₊ → (m.step nl (st k) h m.new).1 = .ok (st (k + 1))) ∧
      (m.evolve nl id pyDiv fuel u t0 tf h storeData freq s).2.t =
        (if storeData then (List.range (⌈(tf - t0) / h⌉₊ / freq.natAbs + 1)).map
          (fun j : ℕ => t0 + ((j * freq.natAbs : ℕ) : ℝ) * h) else []) ∧
      (m.evolve nl id pyDiv fuel u t0 tf h storeData freq s).2.u =
        (if storeData then (List.range (⌈(tf - t0) / h⌉₊ / freq.natAbs + 1)).map
          (fun j : ℕ => st (j * freq.natAbs)) else []) := by
  have hn := isLeast_ceil t0 tf h hh
  set n := ⌈(tf - t0) / h⌉₊ with hndef
  rcases iterE_cases (m.oneStep nl h) u n with ⟨st, h0, hok, hr⟩ | ⟨k, st, e, hk, h0, hok, he, hr⟩
  · obtain ⟨a1, a2, a3, -⟩ := m.evolve_ok nl pyDiv u t0 tf h storeData freq hh hspan (fun _ => hf) n hn hp st h0 hok s
      fuel hfuel
    rw [a1] at hret
    refine ⟨st, h0, by simpa using hret, fun k hk => by rw [m.step_new nl _ h hh.le]; exact hok k hk, ?_, ?_⟩
    · rw [a2, storedUpTo_closed _ hf, List.map_map]; rfl
    · rw [a3, storedUpTo_closed _ hf, List.map_map]; rfl
  · rw [(m.evolve_err nl pyDiv u t0 tf h storeData freq hh hspan (fun _ => hf) n hn k hk
      (fun a b => by have := hp a b; omega) st e h0 hok he s fuel hfuel).1] at hret
    simp at hret

/-- **C02.** If a step raises, the lists hold what was stored before, and the exception is that of a step. -/
theorem C02_stored_crash (m : CSSolver ι) (nl : NlFunc ι) (pyDiv : Bool) (u : Vec ι) (t0 tf h : ℝ) (storeData : Bool)
    (freq : ℤ) (hh : 0 < h) (hspan : t0 + h ≤ tf) (hf : freq ≠ 0)
    (hp : pyDiv = true → tf = 0 → ⌈(tf - t0) / h⌉₊ < 100) (s : m.State) (fuel : ℕ) (hfuel : ⌈(tf - t0) / h⌉₊ < fuel)
    (e : PyErr) (hret : (m.evolve nl id pyDiv fuel u t0 tf h storeData freq s).1 = .error e) :
    ∃ (n : ℕ) (st : ℕ → Vec ι), n < ⌈(tf - t0) / h⌉₊ ∧ st 0 = u ∧
      (∀ k, k < n → (m.step nl (st k) h m.new).1 = .ok (st (k + 1))) ∧ (m.step nl (st n) h m.new).1 = .error e ∧
      (m.evolve nl id pyDiv fuel u t0 tf h storeData freq s).2.t =
        (if storeData then (List.range (n / freq.natAbs + 1)).map
          (fun j : ℕ => t0 + ((j * freq.natAbs : ℕ) : ℝ) * h) else []) ∧
      (m.evolve nl id pyDiv fuel u t0 tf h storeData freq s).2.u =
        (if storeData then (List.range (n / freq.natAbs + 1)).map (fun j : ℕ => st (j * freq.natAbs)) else []) := by
  have hn := isLeast_ceil t0 tf h hh
  set n := ⌈(tf - t0) / h⌉₊ with hndef
  rcases iterE_cases (m.oneStep nl h) u n with ⟨st, h0, hok, hr⟩ | ⟨k, st, e', hk, h0, hok, he, hr⟩
  · rw [(m.evolve_ok nl pyDiv u t0 tf h storeData freq hh hspan (fun _ => hf) n hn hp st h0 hok s
      fuel hfuel).1] at hret
    simp at hret
  · obtain ⟨a1, a2, a3⟩ := m.evolve_err nl pyDiv u t0 tf h storeData freq hh hspan (fun _ => hf) n hn k hk
      (fun a b => by have := hp a b; omega) st e' h0 hok he s fuel hfuel
    rw [a1] at hret
    obtain rfl : e' = e := by simpa using hret
    refine ⟨k, st, hk, h0, fun j hj => by rw [m.step_new nl _ h hh.le]; exact hok j hj,
      by rw [m.step_new nl _ h hh.le]; exact he, ?_, ?_⟩
    · rw [a2, storedUpTo_closed _ hf, List.map_map]; rfl
    · rw [a3, storedUpTo_closed _ hf, List.map_map]; rfl

/-- A nonlinearity that raises at once: only the initial array is recorded. -/
example (L u : Vec (Fin 2)) (s : (CSSolver.if4 (.diag L)).State) :
    ((CSSolver.if4 (.diag L)).evolve (fun _ => .error (.nlFunc 7)) id true 9 u 0 1 (1 / 4) true 2 s).2.t = [0] := by
  have n1 : ⌈((1 : ℝ) - 0) / (1 / 4)⌉₊ = 4 := by rw [Nat.ceil_eq_iff (by norm_num)]; norm_num
  have h1 : ∀ w, ((CSSolver.if4 (.diag L)).step (fun _ => .error (.nlFunc 7)) w (1 / 4) (CSSolver.if4 (.diag L)).new).1 = .error (.nlFunc 7) := by
    intro w
    rw [CSSolver.step_new _ _ _ _ (by norm_num)]
    simp [CSSolver.oneStep, CSSolver.CoefOk, ERK.step, ERK.stages, CSSolver.method, lawson, rk4]
    rfl
  have hret : ((CSSolver.if4 (.diag L)).evolve (fun _ => .error (.nlFunc 7)) id true 9 u 0 1 (1 / 4) true 2 s).1 =
      .error (.nlFunc 7) := by
    rw [C01_evolve_iterates _ _ _ _ _ _ _ _ _ (by norm_num) (by norm_num) (by norm_num) (by norm_num) _ _ (by rw [n1]; norm_num), n1]
    simp only [iterE, h1, Except.map]
  obtain ⟨n, st, -, -, h2, -, h3, -⟩ := C02_stored_crash (.if4 (.diag L)) _ true u 0 1 (1 / 4) true 2 (by norm_num) (by norm_num) (by norm_num)
    (by norm_num) s 9 (by rw [n1]; norm_num) _ hret
  have hn : n = 0 := by
    by_contra hc
    have := h2 0 (by omega)
    rw [h1] at this
    simp at this
  rw [h3, hn]
  simp

/-- **C02.** The list of stored times is strictly increasing, whatever the outcome was, and as long as the list of
stored states; with `store_data=False` both are empty; the final state is stored iff `f` divides the number of
steps. -/
theorem C02_times (m : CSSolver ι) (nl : NlFunc ι) (pyDiv : Bool) (u v : Vec ι) (t0 tf h : ℝ) (storeData : Bool)
    (freq : ℤ) (hh : 0 < h) (hspan : t0 + h ≤ tf) (hf : freq ≠ 0)
    (hp : pyDiv = true → tf = 0 → ⌈(tf - t0) / h⌉₊ < 100) (s : m.State) (fuel : ℕ) (hfuel : ⌈(tf - t0) / h⌉₊ < fuel)
    (hret : (m.evolve nl id pyDiv fuel u t0 tf h storeData freq s).1 = .ok (some v)) :
    let s' := (m.evolve nl id pyDiv fuel u t0 tf h storeData freq s).2
    s'.t.Pairwise (· < ·) ∧ s'.u.length = s'.t.length ∧ (storeData = false → s'.t = [] ∧ s'.u = []) ∧
      (storeData = true → (t0 ∈ s'.t ∧ s'.u.head? = some u) ∧ (s'.tc ∈ s'.t ↔ freq ∣ (⌈(tf - t0) / h⌉₊ : ℤ)) ∧
        (freq ∣ (⌈(tf - t0) / h⌉₊ : ℤ) → s'.u.getLast? = some v)) := by
  obtain ⟨st, h0, h1, -, ht, hu⟩ := C02_stored m nl pyDiv u v t0 tf h storeData freq hh hspan hf hp s fuel hfuel hret
  obtain ⟨htc, -⟩ := C01_time_reached m nl pyDiv u v t0 tf h storeData freq hh hspan (fun _ => hf) hp s fuel hfuel hret
  simp only
  rw [ht, hu, htc]
  set n := ⌈(tf - t0) / h⌉₊ with hndef
  have hpos : 0 < freq.natAbs := Int.natAbs_pos.mpr hf
  have hdvd : freq ∣ (n : ℤ) ↔ freq.natAbs ∣ n := by
    rw [← Int.natAbs_dvd_natAbs, Int.natAbs_natCast]
  cases storeData with
  | false => simp
  | true =>
    simp only [if_true]
    refine ⟨?_, by simp, by simp, fun _ => ⟨⟨?_, ?_⟩, ?_, ?_⟩⟩
    · rw [List.pairwise_map]
      refine List.pairwise_lt_range.imp ?_
      intro a b hab
      have : ((a * freq.natAbs : ℕ) : ℝ) < ((b * freq.natAbs : ℕ) : ℝ) := by
        exact_mod_cast Nat.mul_lt_mul_of_pos_right hab hpos
      have := mul_lt_mul_of_pos_right this hh
      linarith
    · exact List.mem_map.mpr ⟨0, by simp, by simp⟩
    · rw [List.range_succ_eq_map]; simp [h0]
    · rw [hdvd, List.mem_map]
      constructor
      · rintro ⟨j, -, hj⟩
        have : ((j * freq.natAbs : ℕ) : ℝ) = n := by
          have h2 : ((j * freq.natAbs : ℕ) : ℝ) * h = n * h := by linarith
          exact mul_right_cancel₀ hh.ne' h2
        exact ⟨j, by rw [mul_comm]; exact_mod_cast this.symm⟩
      · intro hd
        refine ⟨n / freq.natAbs, by simp, ?_⟩
        rw [Nat.div_mul_cancel hd]
    · intro hd
      rw [hdvd] at hd
      rw [List.range_succ, List.map_append, List.map_singleton, List.getLast?_concat, Nat.div_mul_cancel hd, h1]

theorem CSSolver.oneStep_total (m : CSSolver ι) (nl : NlFunc ι) (hnl : ∀ x, ∃ y, nl x = .ok y) (h : ℝ)
    (hc : m.CoefOk h) (u : Vec ι) : ∃ v, m.oneStep nl h u = .ok v := by
  obtain ⟨r, hr⟩ := ERK.step_total (m.method h) nl u hnl
  exact ⟨r.1, by simp [CSSolver.oneStep, hc, hr, Except.map]⟩

/-- The hypotheses of C02 are met: three steps of IF4 for `u' = -u`, every second state stored. -/
example (s : (CSSolver.if4 (.diag fun _ : Fin 1 => -1)).State) :
    ∃ v, ((CSSolver.if4 (.diag fun _ : Fin 1 => -1)).evolve (fun _ => .ok 0) id true 10 1 0 1 (1 / 3) true 2 s).1 =
      .ok (some v) ∧
      ((CSSolver.if4 (.diag fun _ : Fin 1 => -1)).evolve (fun _ => .ok 0) id true 10 1 0 1 (1 / 3) true 2 s).2.t =
        [0, 2 / 3] := by
  have hn : ⌈((1 : ℝ) - 0) / (1 / 3)⌉₊ = 3 := by rw [Nat.ceil_eq_iff (by norm_num)]; norm_num
  have htot := (CSSolver.if4 (.diag fun _ : Fin 1 => -1)).oneStep_total (fun _ => .ok 0) (fun x => ⟨0, rfl⟩) (1 / 3)
    trivial
  obtain ⟨v, hv⟩ : ∃ v, ((CSSolver.if4 (.diag fun _ : Fin 1 => -1)).evolve (fun _ => .ok 0) id true 10 1 0 1 (1 / 3) true 2
      s).1 = .ok (some v) := by
    rw [C01_evolve_iterates _ _ _ _ _ _ _ _ _ (by norm_num) (by norm_num) (by norm_num) (by norm_num) _ _
      (by rw [hn]; norm_num), CSSolver.freshStep_eq _ _ _ (by norm_num)]
    rcases iterE_cases ((CSSolver.if4 (.diag fun _ : Fin 1 => -1)).oneStep (fun _ => .ok 0) (1 / 3)) 1
      ⌈((1 : ℝ) - 0) / (1 / 3)⌉₊ with ⟨st, -, -, hr⟩ | ⟨k, st, e, hk, h0, hok, he, hr⟩
    · exact ⟨_, by rw [hr]; rfl⟩
    · obtain ⟨w, hw⟩ := htot (st k)
      rw [hw] at he; simp at he
  refine ⟨v, hv, ?_⟩
  obtain ⟨st, -, -, -, ht, -⟩ := C02_stored _ _ _ _ _ _ _ _ _ _ (by norm_num) (by norm_num) (by norm_num) (by norm_num) _ _
    (by rw [hn]; norm_num) hv
  rw [ht, hn]
  simp [List.range_succ]
  norm_num

/-- What `step` can raise: an exception of `nl_func`, or `LinAlgError` from the coefficients. -/
theorem CSSolver.oneStep_error (m : CSSolver ι) (nl : NlFunc ι) (h : ℝ) (u : Vec ι) (e : PyErr)
    (he : m.oneStep nl h u = .error e) : e = .linAlgError ∨ ∃ x, nl x = .error e := by
  unfold CSSolver.oneStep at he
  split at he
  · cases hs : (m.method h).step nl u with
    | ok r => rw [hs] at he; simp [Except.map] at he
    | error e' =>
      rw [hs] at he; simp only [Except.map, Except.error.injEq] at he; subst he
      exact .inr (ERK.step_error _ _ _ hs)
  · simp only [Except.error.injEq] at he; exact .inl he.symm

/-- **C03.** `ValueError` is raised iff `t0 + h > tf` (unless the user's `nl_func` itself raises `ValueError`). -/
theorem C03_valueError_iff (m : CSSolver ι) (nl : NlFunc ι) (hnl : ∀ x, nl x ≠ .error .valueError) (pyDiv : Bool)
    (u : Vec ι) (t0 tf h : ℝ) (storeData : Bool) (freq : ℤ) (s : m.State) (fuel : ℕ) :
    (m.evolve nl id pyDiv fuel u t0 tf h storeData freq s).1 = .error .valueError ↔ tf < t0 + h := by
  unfold CSSolver.evolve
  rw [CSClass.evolve_apply]
  simp only [id]
  split
  · rename_i hlt; simp [hlt]
  · rename_i hlt
    simp only [hlt, iff_false]
    intro he
    rcases CSClass.loop_error (m.lawful nl) id pyDiv h storeData freq _ fuel u 0 _ ((m.lawful nl).reset_inv _ _) he with
      ⟨h1, -⟩ | h1 | ⟨v, hv⟩
    · simp at h1
    · simp at h1
    · rcases m.oneStep_error nl h v _ hv with h1 | ⟨x, hx⟩
      · simp at h1
      · exact hnl x hx

/-- One step too long; with steps of `1` the run is accepted. -/
example (L u : Vec (Fin 2)) (s : (CSSolver.if4 (.diag L)).State) :
    ((CSSolver.if4 (.diag L)).evolve (fun x => .ok (x * x)) id true 5 u 0 1 (11 / 10) true 2 s).1 = .error .valueError ∧
    ((CSSolver.if4 (.diag L)).evolve (fun x => .ok (x * x)) id true 5 u 0 1 1 true 2 s).1 ≠ .error .valueError := by
  rw [Ne, C03_valueError_iff _ _ (by simp), C03_valueError_iff _ _ (by simp)]
  norm_num

/-- **C03.** When `evolve` refuses the interval, the initial state is already in the lists, and `nl_func` was not
called. -/
theorem C03_refused_lists (m : CSSolver ι) (nl : NlFunc ι) (pyDiv : Bool) (u : Vec ι) (t0 tf h : ℝ) (storeData : Bool)
    (freq : ℤ) (s : m.State) (fuel : ℕ) (hlt : tf < t0 + h) :
    (m.evolve nl id pyDiv fuel u t0 tf h storeData freq s).1 = .error .valueError ∧
    (m.evolve nl id pyDiv fuel u t0 tf h storeData freq s).2.t = (if storeData then [t0] else []) ∧
    (m.evolve nl id pyDiv fuel u t0 tf h storeData freq s).2.u = (if storeData then [u] else []) ∧
    CSSolver.evals (m.evolve nl id pyDiv fuel u t0 tf h storeData freq s).2 = CSSolver.evals s := by
  unfold CSSolver.evolve
  rw [CSClass.evolve_apply, if_pos (by simpa using hlt)]
  refine ⟨rfl, rfl, rfl, ?_⟩
  rcases m with (_ | _) | ⟨_, _ | _⟩ | ⟨_, _ | _⟩ <;> rfl

example (L u : Vec (Fin 2)) (s : (CSSolver.if4 (.diag L)).State) :
    ((CSSolver.if4 (.diag L)).evolve (fun x => .ok (x * x)) id true 5 u 0 1 (11 / 10) true 2 s).2.u = [u] :=
  (C03_refused_lists _ _ true u 0 1 (11 / 10) true 2 s 5 (by norm_num)).2.2.1

/-- **C03.** A negative step size: `AssertionError`, before `nl_func` is called. -/
theorem C03_negative_step (m : CSSolver ι) (nl : NlFunc ι) (pyDiv : Bool) (u : Vec ι) (t0 tf h : ℝ) (storeData : Bool)
    (freq : ℤ) (s : m.State) (fuel : ℕ) (hfuel : 0 < fuel) (hh : h < 0) (hlt : t0 < tf) :
    (m.evolve nl id pyDiv fuel u t0 tf h storeData freq s).1 = .error .assertionError ∧
    (m.evolve nl id pyDiv fuel u t0 tf h storeData freq s).2.t = (if storeData then [t0] else []) ∧
    (m.evolve nl id pyDiv fuel u t0 tf h storeData freq s).2.u = (if storeData then [u] else []) ∧
    CSSolver.evals (m.evolve nl id pyDiv fuel u t0 tf h storeData freq s).2 = CSSolver.evals s := by
  obtain ⟨d, rfl⟩ : ∃ d, fuel = d + 1 := ⟨fuel - 1, by omega⟩
  unfold CSSolver.evolve
  rw [CSClass.evolve_apply, if_neg (by simp only [id]; linarith),
    CSClass.loop_step_error (hlt := by exact hlt) (hr := CSClass.step_neg _ _ (by linarith) _)]
  refine ⟨rfl, rfl, rfl, ?_⟩
  rcases m with (_ | _) | ⟨_, _ | _⟩ | ⟨_, _ | _⟩ <;> rfl

example (L u : Vec (Fin 2)) (s : (CSSolver.if4 (.diag L)).State) :
    ((CSSolver.if4 (.diag L)).evolve (fun x => .ok (x * x)) id true 5 u 0 1 (-1 / 10) true 2 s).1 = .error .assertionError :=
  (C03_negative_step _ _ true u 0 1 (-1 / 10) true 2 s 5 (by norm_num) (by norm_num) (by norm_num)).1

/-- **C03.** An empty interval: the given array is returned, without a step. -/
theorem C03_empty_interval (m : CSSolver ι) (nl : NlFunc ι) (pyDiv : Bool) (u : Vec ι) (t0 tf h : ℝ) (storeData : Bool)
    (freq : ℤ) (s : m.State) (fuel : ℕ) (hfuel : 0 < fuel) (hle : tf ≤ t0) (hspan : t0 + h ≤ tf) :
    (m.evolve nl id pyDiv fuel u t0 tf h storeData freq s).1 = .ok (some u) ∧
    CSSolver.evals (m.evolve nl id pyDiv fuel u t0 tf h storeData freq s).2 = CSSolver.evals s := by
  obtain ⟨d, rfl⟩ : ∃ d, fuel = d + 1 := ⟨fuel - 1, by omega⟩
  unfold CSSolver.evolve
  rw [CSClass.evolve_apply, if_neg (by simpa using hspan), CSClass.loop_done (hge := by exact not_lt.mpr hle)]
  refine ⟨rfl, ?_⟩
  rcases m with (_ | _) | ⟨_, _ | _⟩ | ⟨_, _ | _⟩ <;> rfl

/-- Backwards with a negative step: nothing is done. -/
example (L u : Vec (Fin 2)) (s : (CSSolver.if4 (.diag L)).State) :
    ((CSSolver.if4 (.diag L)).evolve (fun x => .ok (x * x)) id true 5 u 1 0 (-1) true 2 s).1 = .ok (some u) :=
  (C03_empty_interval _ _ true u 1 0 (-1) true 2 s 5 (by norm_num) (by norm_num) (by norm_num)).1

/-- **C03.** A zero step size never returns, for any amount of fuel. -/
theorem C03_zero_step_never_returns (m : CSSolver ι) (nl : NlFunc ι) (pyDiv : Bool) (u v : Vec ι) (t0 tf : ℝ)
    (storeData : Bool) (freq : ℤ) (s : m.State) (fuel : ℕ) (hlt : t0 < tf) :
    (m.evolve nl id pyDiv fuel u t0 tf 0 storeData freq s).1 ≠ .ok (some v) := by
  unfold CSSolver.evolve
  rw [CSClass.evolve_apply, if_neg (by simpa using hlt.le)]
  exact CSClass.loop_zero_no_return pyDiv storeData freq v fuel u 0 _ hlt

example (L u v : Vec (Fin 2)) (s : (CSSolver.if4 (.diag L)).State) (fuel : ℕ) :
    ((CSSolver.if4 (.diag L)).evolve (fun x => .ok (x * x)) id true fuel u 0 1 0 true 2 s).1 ≠ .ok (some v) :=
  C03_zero_step_never_returns _ _ true u v 0 1 true 2 s fuel (by norm_num)

/-- **C03.** With a zero step size the loop runs forever if nothing raises. -/
theorem C03_zero_step_runs_forever (m : CSSolver ι) (nl : NlFunc ι) (hnl : ∀ x, ∃ y, nl x = .ok y) (hc : m.CoefOk 0)
    (pyDiv : Bool) (u : Vec ι) (t0 tf : ℝ) (storeData : Bool) (freq : ℤ) (hf : storeData = true → freq ≠ 0)
    (hp : pyDiv = false ∨ tf ≠ 0) (s : m.State) (fuel : ℕ) (hlt : t0 < tf) :
    (m.evolve nl id pyDiv fuel u t0 tf 0 storeData freq s).1 = .ok none :=
  CSClass.evolve_zero_step (m.lawful nl) pyDiv u t0 tf storeData freq hf hlt hp
    (fun v => m.oneStep_total nl hnl 0 hc v) s fuel

/-- The coefficients for `h = 0` can be computed as soon as the contour radius is not zero. -/
theorem CSSolver.coefOk_zero (m : CSSolver ι) (hR : ∀ cfg L, m = .etd4 cfg L ∨ m = .etd5 cfg L →
    cfg.contour_radius ≠ 0) : m.CoefOk 0 := by
  have key : ∀ (cfg : ETDConfig ℝ) (cs : List ℝ) (L : Mat ι), cfg.contour_radius ≠ 0 →
      ContourOk cfg.contour_radius cfg.contour_points.toNat L cs 0 := by
    intro cfg cs L hc c _ k _
    simp [node, hc, isUnit_iff_ne_zero]
  rcases m with (_ | _) | ⟨cfg, _ | L⟩ | ⟨cfg, _ | L⟩
  · trivial
  · trivial
  · trivial
  · exact key cfg _ L (hR cfg _ (.inl rfl))
  · trivial
  · exact key cfg _ L (hR cfg _ (.inr rfl))

/-- C03 cases that occur: `h = 0` for a full-matrix ETD4 object with the default radius. -/
example (L : Mat (Fin 2)) (u : Vec (Fin 2)) (cfg : ETDConfig ℝ) (hr : cfg.contour_radius = 1)
    (s : (CSSolver.etd4 cfg (.full L)).State) (fuel : ℕ) :
    ((CSSolver.etd4 cfg (.full L)).evolve (fun x => .ok (x * x)) id true fuel u 0 1 0 true 1 s).1 = .ok none :=
  C03_zero_step_runs_forever _ _ (fun x => ⟨_, rfl⟩)
    (CSSolver.coefOk_zero _ (by rintro cfg' L' (h | h) <;> simp at h; rw [← h.1, hr]; norm_num))
    true u 0 1 true 1 (by norm_num) (by norm_num) s fuel (by norm_num)

/-- **C04.** A run in which no step raises ends in `ZeroDivisionError` exactly in two situations, and returns
otherwise. -/
theorem C04_zeroDivision_iff (m : CSSolver ι) (nl : NlFunc ι) (hnl : ∀ x, ∃ y, nl x = .ok y) (pyDiv : Bool)
    (u : Vec ι) (t0 tf h : ℝ) (storeData : Bool) (freq : ℤ) (hh : 0 < h) (hspan : t0 + h ≤ tf) (hc : m.CoefOk h)
    (s : m.State) (fuel : ℕ) (hfuel : ⌈(tf - t0) / h⌉₊ < fuel) :
    let r := (m.evolve nl id pyDiv fuel u t0 tf h storeData freq s).1
    let bad := (pyDiv = true ∧ tf = 0 ∧ 100 ≤ ⌈(tf - t0) / h⌉₊) ∨ (storeData = true ∧ freq = 0)
    (bad → r = .error .zeroDivisionError) ∧ (¬ bad → ∃ v, r = .ok (some v)) := by
  have hn := isLeast_ceil t0 tf h hh
  set n := ⌈(tf - t0) / h⌉₊ with hndef
  have htot := m.oneStep_total nl hnl h hc
  choose g hg using htot
  have hlt : ∀ k, k < n → t0 + k * h < tf := by
    intro k hk; by_contra hcon
    exact absurd (hn.2 (show tf ≤ t0 + k * h by linarith)) (by omega)
  by_cases hsf : storeData = true → freq ≠ 0
  · refine ⟨?_, ?_⟩
    · rintro (⟨hpd, htf, h100⟩ | ⟨h1, h2⟩)
      · exact CSClass.evolve_progress_raises (m.lawful nl) id pyDiv u t0 tf h storeData freq hh.le (by simpa using hspan)
          hsf (fun k => g^[k] u) rfl 99 (fun k hk => by rw [timeAt_id]; exact hlt k (by omega))
          (fun k _ => by simp only [hg, Function.iterate_succ_apply'])
          (fun k h1 h2 hr => by have := hr.1; omega) ⟨by norm_num, hpd, htf⟩ s fuel (by omega)
      · exact absurd h2 (hsf h1)
    · intro hbad
      rw [not_or] at hbad
      exact ⟨_, (m.evolve_ok nl pyDiv u t0 tf h storeData freq hh hspan hsf n hn
        (fun a b => by by_contra hcon; exact hbad.1 ⟨a, b, by omega⟩) (fun k => g^[k] u) rfl
        (fun k _ => by simp only [hg, Function.iterate_succ_apply']) s fuel hfuel).1⟩
  · obtain ⟨rfl, rfl⟩ : storeData = true ∧ freq = 0 := by
      constructor
      · by_contra hc; exact hsf fun h => absurd h hc
      · by_contra hc; exact hsf fun _ => hc
    refine ⟨fun _ => ?_, fun hbad => absurd (Or.inr ⟨rfl, rfl⟩) hbad⟩
    exact CSClass.evolve_store_raises (m.lawful nl) id pyDiv u t0 tf h hh.le (by simpa using hspan) (by linarith) _
      (hg u) s fuel (by omega)

/-- Both alternatives of C04 occur: from `-1` to `0` with 100 steps, and with 50 steps. -/
example (L : Vec (Fin 1)) (u : Vec (Fin 1)) (s : (CSSolver.if4 (.diag L)).State) :
    ((CSSolver.if4 (.diag L)).evolve (fun x => .ok (x * x)) id true 101 u (-1) 0 (1 / 100) false 1 s).1 =
      .error .zeroDivisionError ∧
    ∃ v, ((CSSolver.if4 (.diag L)).evolve (fun x => .ok (x * x)) id true 101 u (-1) 0 (1 / 50) false 1 s).1 =
      .ok (some v) := by
  have h1 : ⌈((0 : ℝ) - -1) / (1 / 100)⌉₊ = 100 := by rw [Nat.ceil_eq_iff (by norm_num)]; norm_num
  have h2 : ⌈((0 : ℝ) - -1) / (1 / 50)⌉₊ = 50 := by rw [Nat.ceil_eq_iff (by norm_num)]; norm_num
  constructor
  · refine (C04_zeroDivision_iff (.if4 (.diag L)) _ (fun x => ⟨_, rfl⟩) true u (-1) 0 (1 / 100) false 1 (by norm_num)
      (by norm_num) trivial s 101 (by rw [h1]; norm_num)).1 (.inl ⟨rfl, rfl, by rw [h1]⟩)
  · refine (C04_zeroDivision_iff (.if4 (.diag L)) _ (fun x => ⟨_, rfl⟩) true u (-1) 0 (1 / 50) false 1 (by norm_num)
      (by norm_num) trivial s 101 (by rw [h2]; norm_num)).2 (by rw [h2]; norm_num)

/-- `C02_times` applied: four steps of `3/10` on `[0, 1]`, every second stored: the last time `6/5` is recorded, the array returned too. -/
example (L u : Vec (Fin 2)) (s : (CSSolver.if4 (.diag L)).State) :
    ∃ v, ((CSSolver.if4 (.diag L)).evolve (fun x => .ok (x * x)) id true 10 u 0 1 (3 / 10) true 2 s).1 = .ok (some v) ∧
      ((CSSolver.if4 (.diag L)).evolve (fun x => .ok (x * x)) id true 10 u 0 1 (3 / 10) true 2 s).2.u.getLast? = some v := by
  have n1 : ⌈((1 : ℝ) - 0) / (3 / 10)⌉₊ = 4 := by rw [Nat.ceil_eq_iff (by norm_num)]; norm_num
  obtain ⟨v, hv⟩ := (C04_zeroDivision_iff (.if4 (.diag L)) (fun x => .ok (x * x)) (fun x => ⟨_, rfl⟩) true u 0 1 (3 / 10) true 2
    (by norm_num) (by norm_num) trivial s 10 (by rw [n1]; norm_num)).2 (by norm_num)
  refine ⟨v, hv, ?_⟩
  have := (C02_times (.if4 (.diag L)) _ true u v 0 1 (3 / 10) true 2 (by norm_num) (by norm_num) (by norm_num) (by norm_num) s 10
    (by rw [n1]; norm_num) hv).2.2.2 rfl
  exact this.2.2 (by rw [n1]; norm_num)

end Verif
