import Verif.Props.ConstStep
import Verif.Lemmas.Binary64

/-!
# C05: constant-step runs with a rounded clock

The additions `tc += h` are rounded by an arbitrary function `rnd`; `timeAt rnd h t0 k` is the clock after `k` of them.
-/

set_option linter.unusedSectionVars false

namespace Verif

namespace CSClass

variable {K V Sub : Type} [Field K] [LinearOrder K] {C : CSClass K V Sub}

/-- If the loop returns, the clock has reached `tf`. -/
theorem loop_return (rnd : K → K) (pyDiv : Bool) (h t0 : K) (hh : 0 ≤ h) (storeData : Bool) (freq : ℤ) (w : V) :
    ∀ (fuel : ℕ) (u : V) (c : ℕ) (s : CSState K V Sub), s.tc = timeAt rnd h t0 c →
      (C.loop rnd pyDiv h storeData freq fuel u c s).1 = .ok (some w) → ∃ n, s.tf ≤ timeAt rnd h t0 n := by
  intro fuel
  induction fuel with
  | zero => intro u c s _ he; simp [loop] at he
  | succ fuel ih =>
    intro u c s hc he
    by_cases hlt : s.tc < s.tf
    swap
    · exact ⟨c, by rw [← hc]; exact not_lt.1 hlt⟩
    rcases hr : C.updateStages u h s.sub with ⟨r, sub⟩
    cases r with
    | error e =>
      rw [loop_step_error (hlt := hlt) (e := e) (s' := { s with sub := sub })
          (hr := by rw [step_apply _ _ hh, hr])] at he
      simp at he
    | ok v =>
      rw [loop] at he
      simp only [PyM.bind_get_apply, hlt, if_true] at he
      rw [PyM.bind_ok (a := v) (s' := { s with sub := sub }) (by rw [step_apply _ _ hh, hr])] at he
      simp only [PyM.bind_modify_apply] at he
      by_cases hp : ProgressRaises pyDiv s.tf (c + 1)
      · rw [PyM.bind_error (progress_raises pyDiv (c + 1) s.tf _ hp)] at he
        simp at he
      rw [PyM.bind_ok (progress_apply pyDiv (c + 1) s.tf _ hp)] at he
      by_cases hf : storeData = true → freq ≠ 0
      · rw [PyM.bind_ok (store_apply storeData freq (c + 1) v _ hf)] at he
        split at he
        · obtain ⟨n, hn⟩ := ih v (c + 1) _ (by simp [timeAt, hc]) he
          exact ⟨n, hn⟩
        · obtain ⟨n, hn⟩ := ih v (c + 1) _ (by simp [timeAt, hc]) he
          exact ⟨n, hn⟩
      · obtain ⟨rfl, rfl⟩ : storeData = true ∧ freq = 0 := by
          constructor
          · by_contra hc; exact hf fun h => absurd h hc
          · by_contra hc; exact hf fun _ => hc
        rw [PyM.bind_error (e := .zeroDivisionError) (by rfl)] at he
        simp at he

end CSClass

variable {ι : Type} [Fintype ι] [DecidableEq ι]

/-- **C05.** With any rounding of the clock `evolve` applies the one-step map as often as it takes the rounded clock to reach
`tf`. -/
theorem C05_iterates (m : CSSolver ι) (nl : NlFunc ι) (rnd : ℝ → ℝ) (pyDiv : Bool) (u : Vec ι) (t0 tf h : ℝ) (storeData : Bool)
    (freq : ℤ) (hh : 0 ≤ h) (hspan : rnd (t0 + h) ≤ tf) (hf : storeData = true → freq ≠ 0) (n : ℕ)
    (hn : IsLeast {n | tf ≤ timeAt rnd h t0 n} n) (hp : pyDiv = true → tf = 0 → n < 100) (s : m.State) (fuel : ℕ)
    (hfuel : n < fuel) :
    (m.evolve nl rnd pyDiv fuel u t0 tf h storeData freq s).1 =
      (iterE (fun v => (m.step nl v h m.new).1) n u).map some := by
  rw [m.freshStep_eq nl h hh]
  have hlt : ∀ k, k < n → timeAt rnd h t0 k < tf := fun k hk => by
    by_contra hc
    exact absurd (hn.2 (show tf ≤ timeAt rnd h t0 k from not_lt.1 hc)) (by omega)
  rcases iterE_cases (m.oneStep nl h) u n with ⟨st, h0, hok, hr⟩ | ⟨k, st, e, hk, h0, hok, he, hr⟩
  · rw [hr]
    exact (CSClass.evolve_complete (m.lawful nl) rnd pyDiv u t0 tf h storeData freq hh hspan hf st h0 n hlt hn.1 hok
      (fun k h1 h2 ⟨h3, h4, h5⟩ => by have := hp h4 h5; omega) s fuel hfuel).1
  · rw [hr]
    exact (CSClass.evolve_crash (m.lawful nl) rnd pyDiv u t0 tf h storeData freq hh hspan hf st h0 k
      (fun j hj => hlt j (by omega)) hok e he
      (fun j h1 h2 ⟨h3, h4, h5⟩ => by have := hp h4 h5; omega) s fuel (by omega)).1

/-- **C05.** The clock and the stored times of a run that returns. -/
theorem C05_times (m : CSSolver ι) (nl : NlFunc ι) (rnd : ℝ → ℝ) (pyDiv : Bool) (u v : Vec ι) (t0 tf h : ℝ) (storeData : Bool)
    (freq : ℤ) (hh : 0 ≤ h) (hspan : rnd (t0 + h) ≤ tf) (hf : freq ≠ 0) (n : ℕ)
    (hn : IsLeast {n | tf ≤ timeAt rnd h t0 n} n) (hp : pyDiv = true → tf = 0 → n < 100) (s : m.State) (fuel : ℕ)
    (hfuel : n < fuel) (hret : (m.evolve nl rnd pyDiv fuel u t0 tf h storeData freq s).1 = .ok (some v)) :
    (m.evolve nl rnd pyDiv fuel u t0 tf h storeData freq s).2.tc = timeAt rnd h t0 n ∧
    (m.evolve nl rnd pyDiv fuel u t0 tf h storeData freq s).2.t =
      (if storeData then (List.range (n / freq.natAbs + 1)).map fun j => timeAt rnd h t0 (j * freq.natAbs) else []) := by
  have hlt : ∀ k, k < n → timeAt rnd h t0 k < tf := fun k hk => by
    by_contra hc
    exact absurd (hn.2 (show tf ≤ timeAt rnd h t0 k from not_lt.1 hc)) (by omega)
  rcases iterE_cases (m.oneStep nl h) u n with ⟨st, h0, hok, hr⟩ | ⟨k, st, e, hk, h0, hok, he, hr⟩
  · have key := CSClass.evolve_complete (m.lawful nl) rnd pyDiv u t0 tf h storeData freq hh hspan (fun _ => hf) st h0 n hlt
      hn.1 hok (fun k h1 h2 ⟨h3, h4, h5⟩ => by have := hp h4 h5; omega) s fuel hfuel
    refine ⟨key.2.2.2.1, ?_⟩
    rw [show (m.evolve nl rnd pyDiv fuel u t0 tf h storeData freq s).2.t = _ from key.2.1, storedUpTo_closed _ hf,
      List.map_map]
    rfl
  · rw [show (m.evolve nl rnd pyDiv fuel u t0 tf h storeData freq s).1 = _ from
      (CSClass.evolve_crash (m.lawful nl) rnd pyDiv u t0 tf h storeData freq hh hspan (fun _ => hf) st h0 k
      (fun j hj => hlt j (by omega)) hok e he
      (fun j h1 h2 ⟨h3, h4, h5⟩ => by have := hp h4 h5; omega) s fuel (by omega)).1] at hret
    simp at hret

/-- **C05.** At least one step is made, unless `t0` is already `tf` or later. -/
theorem C05_one_step {rnd : ℝ → ℝ} {t0 tf h : ℝ} {n : ℕ} (hlt : t0 < tf) (hn : IsLeast {n | tf ≤ timeAt rnd h t0 n} n) :
    1 ≤ n := by
  rcases Nat.eq_zero_or_pos n with rfl | h
  · exact absurd hn.1 (not_le.2 hlt)
  · exact h

/-- **C05.** A run returns only if the rounded clock reaches `tf`. -/
theorem C05_never_returns (m : CSSolver ι) (nl : NlFunc ι) (rnd : ℝ → ℝ) (pyDiv : Bool) (u v : Vec ι) (t0 tf h : ℝ)
    (storeData : Bool) (freq : ℤ) (hh : 0 ≤ h) (hlt : ∀ n, timeAt rnd h t0 n < tf) (s : m.State) (fuel : ℕ) :
    (m.evolve nl rnd pyDiv fuel u t0 tf h storeData freq s).1 ≠ .ok (some v) := by
  intro he
  have he' : ((m.cls nl).evolve rnd pyDiv fuel u t0 tf h storeData freq s).1 = .ok (some v) := he
  rw [CSClass.evolve_apply] at he'
  split at he'
  · simp at he'
  · obtain ⟨n, hn⟩ := CSClass.loop_return rnd pyDiv h t0 hh storeData freq v fuel u 0 _ rfl he'
    exact absurd hn (not_le.2 (hlt n))

/-- **C05.** A step too small for the clock to change: in any arithmetic with `t0 + h` rounded to `t0` the run does not
return. -/
theorem C05_stagnation (m : CSSolver ι) (nl : NlFunc ι) (rnd : ℝ → ℝ) (pyDiv : Bool) (u v : Vec ι) (t0 tf h : ℝ)
    (storeData : Bool) (freq : ℤ) (hh : 0 ≤ h) (hr : rnd (t0 + h) = t0) (hlt : t0 < tf) (s : m.State) (fuel : ℕ) :
    (m.evolve nl rnd pyDiv fuel u t0 tf h storeData freq s).1 ≠ .ok (some v) := by
  apply C05_never_returns m nl rnd pyDiv u v t0 tf h storeData freq hh
  intro n
  have : timeAt rnd h t0 n = t0 := by
    induction n with
    | zero => rfl
    | succ n ih => rw [timeAt, ih, hr]
  rw [this]; exact hlt

/-- With binary64 times the step `2 ^ (-60)` does not advance a clock that shows `1`. -/
example (nl : NlFunc (Fin 2)) (u v : Vec (Fin 2)) (m : CSSolver (Fin 2)) (s : m.State) (fuel : ℕ) :
    (m.evolve nl rnd64 true fuel u 1 2 (1 / 2 ^ 60) true 1 s).1 ≠ .ok (some v) := by
  refine C05_stagnation m nl rnd64 true u v 1 2 _ true 1 (by positivity) ?_ (by norm_num) s fuel
  rw [rnd64_eq (N := 2 ^ 52) (-52) (by norm_num) (by norm_num) (by norm_num) (by norm_num)]
  norm_num

namespace Tenths

/-- The double nearest to one tenth. -/
noncomputable def tenth : ℝ := 3602879701896397 / 2 ^ 55

theorem tenth_eq : tenth = rnd64 (1 / 10) := by
  rw [rnd64_eq (N := 7205759403792794) (-56) (by norm_num) (by norm_num) (by norm_num) (by norm_num), tenth]
  norm_num

theorem t1 : timeAt rnd64 tenth 0 1 = (7205759403792794 : ℝ) * 2 ^ (-56 : ℤ) := by
  rw [timeAt, timeAt, tenth, rnd64_eq (N := 7205759403792794) (-56) (by norm_num) (by norm_num) (by norm_num) (by norm_num)]
  norm_num

theorem t2 : timeAt rnd64 tenth 0 2 = (7205759403792794 : ℝ) * 2 ^ (-55 : ℤ) := by
  rw [timeAt, t1, tenth, rnd64_eq (N := 7205759403792794) (-55) (by norm_num) (by norm_num) (by norm_num) (by norm_num)]
  norm_num

theorem t3 : timeAt rnd64 tenth 0 3 = (5404319552844596 : ℝ) * 2 ^ (-54 : ℤ) := by
  rw [timeAt, t2, tenth, rnd64_eq_even (N := 5404319552844596) (-54) (by decide) (by norm_num) (by norm_num) (by norm_num) (by norm_num)]
  norm_num

theorem t4 : timeAt rnd64 tenth 0 4 = (7205759403792794 : ℝ) * 2 ^ (-54 : ℤ) := by
  rw [timeAt, t3, tenth, rnd64_eq_even (N := 7205759403792794) (-54) (by decide) (by norm_num) (by norm_num) (by norm_num) (by norm_num)]
  norm_num

theorem t5 : timeAt rnd64 tenth 0 5 = (4503599627370496 : ℝ) * 2 ^ (-53 : ℤ) := by
  rw [timeAt, t4, tenth, rnd64_eq (N := 4503599627370496) (-53) (by norm_num) (by norm_num) (by norm_num) (by norm_num)]
  norm_num

theorem t6 : timeAt rnd64 tenth 0 6 = (5404319552844595 : ℝ) * 2 ^ (-53 : ℤ) := by
  rw [timeAt, t5, tenth, rnd64_eq (N := 5404319552844595) (-53) (by norm_num) (by norm_num) (by norm_num) (by norm_num)]
  norm_num

theorem t7 : timeAt rnd64 tenth 0 7 = (6305039478318694 : ℝ) * 2 ^ (-53 : ℤ) := by
  rw [timeAt, t6, tenth, rnd64_eq (N := 6305039478318694) (-53) (by norm_num) (by norm_num) (by norm_num) (by norm_num)]
  norm_num

theorem t8 : timeAt rnd64 tenth 0 8 = (7205759403792793 : ℝ) * 2 ^ (-53 : ℤ) := by
  rw [timeAt, t7, tenth, rnd64_eq (N := 7205759403792793) (-53) (by norm_num) (by norm_num) (by norm_num) (by norm_num)]
  norm_num

theorem t9 : timeAt rnd64 tenth 0 9 = (8106479329266892 : ℝ) * 2 ^ (-53 : ℤ) := by
  rw [timeAt, t8, tenth, rnd64_eq (N := 8106479329266892) (-53) (by norm_num) (by norm_num) (by norm_num) (by norm_num)]
  norm_num

theorem t10 : timeAt rnd64 tenth 0 10 = (9007199254740991 : ℝ) * 2 ^ (-53 : ℤ) := by
  rw [timeAt, t9, tenth, rnd64_eq (N := 9007199254740991) (-53) (by norm_num) (by norm_num) (by norm_num) (by norm_num)]
  norm_num

theorem t11 : timeAt rnd64 tenth 0 11 = (4953959590107545 : ℝ) * 2 ^ (-52 : ℤ) := by
  rw [timeAt, t10, tenth, rnd64_eq (N := 4953959590107545) (-52) (by norm_num) (by norm_num) (by norm_num) (by norm_num)]
  norm_num

theorem steps : IsLeast {n | (1 : ℝ) ≤ timeAt rnd64 tenth 0 n} 11 := by
  constructor
  · show (1 : ℝ) ≤ timeAt rnd64 tenth 0 11
    rw [t11]; norm_num
  · intro n hn
    by_contra hc
    have hn' : (1 : ℝ) ≤ timeAt rnd64 tenth 0 n := hn
    have : n < 11 := not_le.1 hc
    interval_cases n
    · norm_num [timeAt] at hn'
    · rw [t1] at hn'; norm_num at hn'
    · rw [t2] at hn'; norm_num at hn'
    · rw [t3] at hn'; norm_num at hn'
    · rw [t4] at hn'; norm_num at hn'
    · rw [t5] at hn'; norm_num at hn'
    · rw [t6] at hn'; norm_num at hn'
    · rw [t7] at hn'; norm_num at hn'
    · rw [t8] at hn'; norm_num at hn'
    · rw [t9] at hn'; norm_num at hn'
    · rw [t10] at hn'; norm_num at hn'

end Tenths

/-- Accumulated rounding of the clock until it reaches `tf`. -/
theorem timeAt_error {t0 tf h M : ℝ} (hh : 0 < h) (hM0 : |t0| + h ≤ M) (hMf : |tf| + h ≤ M) {k : ℕ}
    (hk : ∀ j, j < k → timeAt rnd64 h t0 j < tf) (hE : (k : ℝ) * (M / 2 ^ 53) ≤ h) :
    |timeAt rnd64 h t0 k - (t0 + k * h)| ≤ k * (M / 2 ^ 53) := by
  have hM : 0 ≤ M := by linarith [abs_nonneg t0]
  induction k with
  | zero => simp [timeAt]
  | succ k ih =>
    have hE' : (k : ℝ) * (M / 2 ^ 53) ≤ h := by
      have : 0 ≤ M / 2 ^ 53 := by positivity
      push_cast at hE; linarith
    have i1 := ih (fun j hj => hk j (by omega)) hE'
    have i2 := rnd64_error (timeAt rnd64 h t0 k + h)
    have i3 : |timeAt rnd64 h t0 k + h| ≤ M := by
      rw [abs_le] at i1 ⊢
      have a1 := neg_abs_le t0
      have a2 := le_abs_self tf
      have a3 := hk k (by omega)
      have a4 : 0 ≤ (k : ℝ) * h := by positivity
      exact ⟨by linarith [i1.1], by linarith⟩
    have i4 : 1 / 2 ^ 53 * |timeAt rnd64 h t0 k + h| ≤ M / 2 ^ 53 := by
      rw [div_mul_eq_mul_div, one_mul]
      exact div_le_div_of_nonneg_right i3 (by positivity)
    rw [timeAt]
    calc |rnd64 (timeAt rnd64 h t0 k + h) - (t0 + ((k + 1 : ℕ) : ℝ) * h)|
        = |(rnd64 (timeAt rnd64 h t0 k + h) - (timeAt rnd64 h t0 k + h)) + (timeAt rnd64 h t0 k - (t0 + k * h))| := by
          push_cast; ring_nf
      _ ≤ M / 2 ^ 53 + k * (M / 2 ^ 53) := (abs_add_le _ _).trans (add_le_add (i2.trans i4) i1)
      _ = _ := by push_cast; ring

/-- **C05.** In binary64 the number of steps differs by at most one from the exact number `N`, as long as
`(N + 1) (max(|t0|, |tf|) + h) / 2^53` is not larger than `h`. -/
theorem C05_steps_near {t0 tf h M : ℝ} (hh : 0 < h) (hM0 : |t0| + h ≤ M) (hMf : |tf| + h ≤ M) {N : ℕ}
    (hN : IsLeast {n : ℕ | tf ≤ t0 + n * h} N) (hE : ((N : ℝ) + 1) * (M / 2 ^ 53) ≤ h) :
    ∃ n, IsLeast {n | tf ≤ timeAt rnd64 h t0 n} n ∧ N ≤ n + 1 ∧ n ≤ N + 1 := by
  classical
  have hM : 0 ≤ M / 2 ^ 53 := by have := abs_nonneg t0; have : 0 ≤ M := by linarith
                                 positivity
  have hex : ∃ n, n ≤ N + 1 ∧ tf ≤ timeAt rnd64 h t0 n := by
    by_contra hc
    push Not at hc
    have e := timeAt_error hh hM0 hMf (k := N + 1) (fun j hj => hc j (by omega)) (by push_cast; exact hE)
    rw [abs_le] at e
    have h1 := hc (N + 1) le_rfl
    have h2 : tf ≤ t0 + N * h := hN.1
    push_cast at e
    linarith [e.1]
  obtain ⟨n', hn', hn''⟩ := hex
  have hex' : ∃ n, tf ≤ timeAt rnd64 h t0 n := ⟨n', hn''⟩
  refine ⟨Nat.find hex', ⟨Nat.find_spec hex', fun k hk => Nat.find_min' hex' hk⟩, ?_, (Nat.find_min' hex' hn'').trans hn'⟩
  by_contra hc
  set n := Nat.find hex' with hn
  have h0 : n ≤ N - 2 := by omega
  have e := timeAt_error hh hM0 hMf (k := n) (fun j hj => not_le.mp (Nat.find_min hex' hj)) (by
    have : (n : ℝ) ≤ N + 1 := by exact_mod_cast (by omega : n ≤ N + 1)
    exact (mul_le_mul_of_nonneg_right this hM).trans hE)
  rw [abs_le] at e
  have h1 : tf ≤ timeAt rnd64 h t0 n := Nat.find_spec hex'
  have h2 : ¬ tf ≤ t0 + ((N - 1 : ℕ) : ℝ) * h := fun hcc => by have := hN.2 (show N - 1 ∈ {n : ℕ | tf ≤ t0 + n * h} from hcc); omega
  have h3 : (n : ℝ) + 1 ≤ ((N - 1 : ℕ) : ℝ) := by exact_mod_cast (by omega : n + 1 ≤ N - 1)
  have h4 : (n : ℝ) * (M / 2 ^ 53) ≤ h := by
    have : (n : ℝ) ≤ N + 1 := by exact_mod_cast (by omega : n ≤ N + 1)
    exact (mul_le_mul_of_nonneg_right this hM).trans hE
  have h5 := mul_le_mul_of_nonneg_right h3 hh.le
  linarith [e.2]

/-- **C05.** So a run in binary64 makes `N - 1`, `N` or `N + 1` steps. -/
theorem C05_near (m : CSSolver ι) (nl : NlFunc ι) (pyDiv : Bool) (u : Vec ι) (t0 tf h M : ℝ) (storeData : Bool) (freq : ℤ)
    (hh : 0 < h) (hspan : rnd64 (t0 + h) ≤ tf) (hf : storeData = true → freq ≠ 0) (hp : pyDiv = true → tf ≠ 0)
    (hM0 : |t0| + h ≤ M) (hMf : |tf| + h ≤ M) {N : ℕ} (hN : IsLeast {n : ℕ | tf ≤ t0 + n * h} N)
    (hE : ((N : ℝ) + 1) * (M / 2 ^ 53) ≤ h) (s : m.State) (fuel : ℕ) (hfuel : N + 1 < fuel) :
    ∃ n, N ≤ n + 1 ∧ n ≤ N + 1 ∧ (m.evolve nl rnd64 pyDiv fuel u t0 tf h storeData freq s).1 =
      (iterE (fun v => (m.step nl v h m.new).1) n u).map some := by
  obtain ⟨n, h1, h2, h3⟩ := C05_steps_near hh hM0 hMf hN hE
  exact ⟨n, h2, h3, C05_iterates m nl rnd64 pyDiv u t0 tf h storeData freq hh.le hspan hf n h1 (fun a b => absurd b (hp a)) s fuel
    (by omega)⟩

/-- From 0 to 1 with the binary64 number nearest to a tenth (which is larger than a tenth): 9, 10 or 11 steps. -/
example (m : CSSolver ι) (nl : NlFunc ι) (u : Vec ι) (s : m.State) :
    ∃ n, 10 ≤ n + 1 ∧ n ≤ 11 ∧ (m.evolve nl rnd64 true 12 u 0 1 Tenths.tenth true 1 s).1 =
      (iterE (fun v => (m.step nl v Tenths.tenth m.new).1) n u).map some := by
  refine C05_near m nl true u 0 1 Tenths.tenth 2 true 1 (by norm_num [Tenths.tenth])
    (by rw [show rnd64 (0 + Tenths.tenth) = _ from Tenths.t1]; norm_num) (by simp) (by simp) (by norm_num [Tenths.tenth])
    (by norm_num [Tenths.tenth]) ⟨?_, fun n hn => ?_⟩ (by norm_num [Tenths.tenth]) s 12 (by norm_num)
  · show (1 : ℝ) ≤ 0 + (10 : ℕ) * Tenths.tenth
    norm_num [Tenths.tenth]
  · by_contra hc
    have h1 : (n : ℝ) ≤ 9 := by exact_mod_cast (by omega : n ≤ 9)
    have h2 : (1 : ℝ) ≤ 0 + n * Tenths.tenth := hn
    have h3 := mul_le_mul_of_nonneg_right h1 (show (0 : ℝ) ≤ Tenths.tenth by norm_num [Tenths.tenth])
    norm_num [Tenths.tenth] at h2 h3
    linarith

/-- **C05.** In binary64, `evolve(u, t0=0, tf=1, h=0.1)` makes 11 steps, not 10, for every solver and nonlinearity, … -/
theorem C05_binary64 (m : CSSolver ι) (nl : NlFunc ι) (pyDiv : Bool) (u : Vec ι) (storeData : Bool)
    (freq : ℤ) (hf : storeData = true → freq ≠ 0) (s : m.State) (fuel : ℕ) (hfuel : 11 < fuel) :
    (m.evolve nl rnd64 pyDiv fuel u 0 1 (rnd64 (1 / 10)) storeData freq s).1 =
      (iterE (fun v => (m.step nl v (rnd64 (1 / 10)) m.new).1) 11 u).map some := by
  rw [← Tenths.tenth_eq]
  exact C05_iterates m nl rnd64 pyDiv u 0 1 _ storeData freq (by norm_num [Tenths.tenth])
    (by rw [show rnd64 (0 + Tenths.tenth) = _ from Tenths.t1]; norm_num) hf 11 Tenths.steps (by norm_num) s fuel hfuel

/-- **C05.** … and the clock ends beyond `tf`, at the double `1.0999999999999999`. -/
theorem C05_binary64_time (m : CSSolver ι) (nl : NlFunc ι) (pyDiv : Bool) (u v : Vec ι) (storeData : Bool)
    (freq : ℤ) (hf : freq ≠ 0) (s : m.State) (fuel : ℕ) (hfuel : 11 < fuel)
    (hret : (m.evolve nl rnd64 pyDiv fuel u 0 1 (rnd64 (1 / 10)) storeData freq s).1 = .ok (some v)) :
    (m.evolve nl rnd64 pyDiv fuel u 0 1 (rnd64 (1 / 10)) storeData freq s).2.tc = rnd64 (10999999999999999 / 10 ^ 16) ∧
    1 < (m.evolve nl rnd64 pyDiv fuel u 0 1 (rnd64 (1 / 10)) storeData freq s).2.tc := by
  rw [← Tenths.tenth_eq] at hret ⊢
  obtain ⟨h1, -⟩ := C05_times m nl rnd64 pyDiv u v 0 1 _ storeData freq (by norm_num [Tenths.tenth])
    (by rw [show rnd64 (0 + Tenths.tenth) = _ from Tenths.t1]; norm_num) hf 11 Tenths.steps (by norm_num) s fuel hfuel hret
  rw [h1, Tenths.t11]
  constructor
  · rw [rnd64_eq (N := 4953959590107545) (-52) (by norm_num) (by norm_num) (by norm_num) (by norm_num)]
    norm_num
  · norm_num

example (nl : NlFunc (Fin 2)) (u L : Vec (Fin 2)) (s : (CSSolver.if4 (.diag L)).State) :
    ((CSSolver.if4 (.diag L)).evolve nl rnd64 true 20 u 0 1 (rnd64 (1 / 10)) true 5 s).1 =
      (iterE (fun v => ((CSSolver.if4 (.diag L)).step nl v (rnd64 (1 / 10)) (CSSolver.if4 (.diag L)).new).1) 11 u).map some :=
  C05_binary64 _ nl true u true 5 (by norm_num) s 20 (by norm_num)

/-- A clock that does not round: three steps of size 1 from 0 to 3. -/
example (m : CSSolver ι) (nl : NlFunc ι) (u : Vec ι) (s : m.State) :
    (m.evolve nl id true 4 u 0 3 1 true 1 s).1 = (iterE (fun v => (m.step nl v 1 m.new).1) 3 u).map some ∧
    ∀ v, (m.evolve nl id true 4 u 0 3 1 true 1 s).1 = .ok (some v) → (m.evolve nl id true 4 u 0 3 1 true 1 s).2.tc = 3 ∧
      (m.evolve nl id true 4 u 0 3 1 true 1 s).2.t = [0, 1, 2, 3] := by
  have hn : IsLeast {n : ℕ | (3 : ℝ) ≤ timeAt id 1 0 n} 3 := by
    refine ⟨?_, fun n hn => ?_⟩
    · show (3 : ℝ) ≤ timeAt id 1 0 3
      rw [timeAt_id]; norm_num
    · have h : (3 : ℝ) ≤ timeAt id 1 0 n := hn
      rw [timeAt_id] at h
      have h' : (3 : ℝ) ≤ n := by linarith
      exact_mod_cast h'
  refine ⟨C05_iterates m nl id true u 0 3 1 true 1 (by norm_num) (by norm_num) (by simp) 3 hn (by simp) s 4 (by norm_num), fun v hv => ?_⟩
  obtain ⟨h1, h2⟩ := C05_times m nl id true u v 0 3 1 true 1 (by norm_num) (by norm_num) (by simp) 3 hn (by simp) s 4 (by norm_num) hv
  refine ⟨by rw [h1, timeAt_id]; norm_num, ?_⟩
  rw [h2]
  simp [List.range_succ, timeAt_id]

/-- A clock that rounds every time to a multiple of ten stays at zero. -/
example (m : CSSolver ι) (nl : NlFunc ι) (u v : Vec ι) (s : m.State) (fuel : ℕ) :
    (m.evolve nl (fun _ => 0) true fuel u 0 3 1 true 1 s).1 ≠ .ok (some v) :=
  C05_never_returns m nl (fun _ => 0) true u v 0 3 1 true 1 zero_le_one (fun n => by
    cases n with
    | zero => norm_num [timeAt]
    | succ n => norm_num [timeAt]) s fuel

example : ∃ n, IsLeast {n | (1 : ℝ) ≤ timeAt rnd64 (1 / 2) 0 n} n ∧ 2 ≤ n + 1 ∧ n ≤ 3 ∧ 1 ≤ n := by
  obtain ⟨n, h1, h2, h3⟩ := C05_steps_near (t0 := 0) (tf := 1) (h := 1 / 2) (M := 2) (N := 2) (by norm_num) (by norm_num) (by norm_num)
    ⟨by norm_num, fun n hn => by
      have h : (1 : ℝ) ≤ 0 + n * (1 / 2) := hn
      have h' : (2 : ℝ) ≤ n := by linarith
      exact_mod_cast h'⟩ (by norm_num)
  exact ⟨n, h1, h2, h3, C05_one_step one_pos h1⟩

example (L u v : Vec ι) (f : Vec ι → Vec ι) (s : (CSSolver.if4 (.diag L)).State)
    (hv : ((CSSolver.if4 (.diag L)).evolve (fun x => .ok (f x)) rnd64 true 20 u 0 1 (rnd64 (1 / 10)) true 5 s).1 = .ok (some v)) :
    1 < ((CSSolver.if4 (.diag L)).evolve (fun x => .ok (f x)) rnd64 true 20 u 0 1 (rnd64 (1 / 10)) true 5 s).2.tc :=
  (C05_binary64_time _ _ true u v true 5 (by norm_num) s 20 (by norm_num) hv).2

end Verif
