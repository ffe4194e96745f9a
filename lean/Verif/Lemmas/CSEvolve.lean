import Verif.Lemmas.CS
import Mathlib.Order.Bounds.Basic
import Mathlib.Algebra.Order.Archimedean.Basic

/-!
# Generic theorems about constant-step `evolve`
-/

set_option linter.unusedSectionVars false

namespace Verif

section iterE
variable {V : Type}

theorem iterE_of_traj (f : V → Except PyErr V) (st : ℕ → V) (n : ℕ)
    (h : ∀ k, k < n → f (st k) = .ok (st (k + 1))) : iterE f n (st 0) = .ok (st n) := by
  induction n with
  | zero => rfl
  | succ n ih =>
    simp only [iterE, ih (fun k hk => h k (by omega))]
    exact h n (by omega)

/-- Either all of the first `n` iterates exist, or there is a first raising one. -/
theorem iterE_cases (f : V → Except PyErr V) (u : V) (n : ℕ) :
    (∃ st : ℕ → V, st 0 = u ∧ (∀ k, k < n → f (st k) = .ok (st (k + 1))) ∧ iterE f n u = .ok (st n)) ∨
    (∃ (m : ℕ) (st : ℕ → V) (e : PyErr), m < n ∧ st 0 = u ∧ (∀ k, k < m → f (st k) = .ok (st (k + 1))) ∧
      f (st m) = .error e ∧ iterE f n u = .error e) := by
  induction n with
  | zero => exact .inl ⟨fun _ => u, rfl, by simp, rfl⟩
  | succ n ih =>
    rcases ih with ⟨st, h0, hk, hn⟩ | ⟨m, st, e, hm, h0, hk, he, hn⟩
    · cases hf : f (st n) with
      | error e =>
        exact .inr ⟨n, st, e, by omega, h0, hk, hf, by simp [iterE, hn, hf]⟩
      | ok v =>
        refine .inl ⟨fun k => if k ≤ n then st k else v, by simp [h0], ?_, by simp [iterE, hn, hf]⟩
        intro k hk'
        by_cases hkn : k < n
        · simp [hk k hkn, show k ≤ n by omega, show k + 1 ≤ n by omega]
        · have : k = n := by omega
          subst this
          simp [hf]
    · exact .inr ⟨m, st, e, by omega, h0, hk, he, by simp [iterE, hn]⟩

theorem iterE_ok_le (f : V → Except PyErr V) (u v : V) (n : ℕ) (h : iterE f n u = .ok v) (k : ℕ) (hk : k ≤ n) :
    ∃ w, iterE f k u = .ok w := by
  induction n generalizing v with
  | zero => obtain rfl : k = 0 := by omega
            exact ⟨u, rfl⟩
  | succ n ih =>
    rcases Nat.lt_or_ge n k with hlt | hle
    · obtain rfl : k = n + 1 := by omega
      exact ⟨v, h⟩
    · cases hn : iterE f n u with
      | error e => simp [iterE, hn] at h
      | ok w => exact ih w hn hle

end iterE

theorem storedUpTo_eq (f : ℤ) (n : ℕ) : storedUpTo f n = 0 :: CSClass.stored true f 0 n := by
  simp [storedUpTo, CSClass.stored, List.range_succ_eq_map, List.range'_eq_map_range, List.filter_map,
    Function.comp_def]
  simp [add_comm]

theorem storedUpTo_closed (f : ℤ) (hf : f ≠ 0) (n : ℕ) :
    storedUpTo f n = (List.range (n / f.natAbs + 1)).map fun j => j * f.natAbs := by
  have hpos : 0 < f.natAbs := Int.natAbs_pos.mpr hf
  induction n with
  | zero => simp [storedUpTo]
  | succ n ih =>
    have e : storedUpTo f (n + 1) = storedUpTo f n ++ (if f.natAbs ∣ n + 1 then [n + 1] else []) := by
      unfold storedUpTo
      rw [List.range_succ, List.filter_append, List.filter_singleton]
      have : (f ∣ ((n + 1 : ℕ) : ℤ)) ↔ f.natAbs ∣ n + 1 := by
        rw [← Int.natAbs_dvd_natAbs, Int.natAbs_natCast]
      by_cases hd : f.natAbs ∣ n + 1
      · simp only [decide_eq_true (this.mpr hd), if_pos hd]; rfl
      · simp only [decide_eq_false (fun h => hd (this.mp h)), if_neg hd]; rfl
    rw [e, ih, Nat.succ_div]
    split
    · rename_i hd
      rw [List.range_succ (n := n / f.natAbs + 1), List.map_append]
      congr 1
      simp only [List.map_cons, List.map_nil, List.cons.injEq, and_true]
      obtain ⟨q, hq⟩ := hd
      have : n / f.natAbs + 1 = (n + 1) / f.natAbs := by rw [Nat.succ_div, if_pos ⟨q, hq⟩]
      rw [this, hq, Nat.mul_div_cancel_left _ hpos, mul_comm]
    · simp

variable {K V Sub : Type} [Field K] [LinearOrder K]

namespace CSClass

variable {C : CSClass K V Sub}

/-- State in which the loop of `evolve` starts. -/
def start (C : CSClass K V Sub) (u : V) (t0 tf : K) (storeData : Bool) (s : CSState K V Sub) : CSState K V Sub :=
  { t := if storeData then [t0] else [], u := if storeData then [u] else [], tf := tf, tc := t0,
    sub := C.reset s.sub }

theorem evolve_apply (rnd : K → K) (pyDiv : Bool) (fuel : ℕ) (u : V) (t0 tf h : K) (storeData : Bool) (freq : ℤ)
    (s : CSState K V Sub) :
    C.evolve rnd pyDiv fuel u t0 tf h storeData freq s =
      if tf < rnd (t0 + h) then (.error .valueError, C.start u t0 tf storeData s)
      else C.loop rnd pyDiv h storeData freq fuel u 0 (C.start u t0 tf storeData s) := by
  unfold evolve resetM start
  cases storeData <;> simp <;> split_ifs <;> simp

theorem stored_false (freq : ℤ) (c m : ℕ) : stored false freq c m = [] := by
  simp [stored]

theorem start_lists {α : Type} (storeData : Bool) (freq : ℤ) (n : ℕ) (g : ℕ → α) (a : α) (ha : g 0 = a) :
    (if storeData then [a] else []) ++ (stored storeData freq 0 n).map g =
      if storeData then (storedUpTo freq n).map g else [] := by
  cases storeData
  · simp [stored_false]
  · simp [storedUpTo_eq, ha]

/-- A run of `n` steps that all succeed. -/
theorem evolve_complete_with {Φ : K → V → Except PyErr V} (L : LawfulCS C Φ) (rnd : K → K) (pyDiv : Bool)
    (u : V) (t0 tf h : K) (storeData : Bool) (freq : ℤ) (hh : 0 ≤ h) (hspan : rnd (t0 + h) ≤ tf)
    (hf : storeData = true → freq ≠ 0) (st : ℕ → V) (h0 : st 0 = u) (n : ℕ)
    (hlt : ∀ k, k < n → timeAt rnd h t0 k < tf) (hge : tf ≤ timeAt rnd h t0 n)
    (hok : ∀ k, k < n → Φ h (st k) = .ok (st (k + 1)))
    (hp : ∀ k, 0 < k → k ≤ n → ¬ ProgressRaises pyDiv tf k)
    (s : CSState K V Sub) (fuel : ℕ) (hfuel : n < fuel) (P : ℕ → Sub → Prop)
    (hP : ∀ k s, L.Inv s (st k) → Φ h (st k) = .ok (st (k + 1)) → P k s → P (k + 1) (C.updateStages (st k) h s).2)
    (hP0 : P 0 (C.reset s.sub)) :
    (C.evolve rnd pyDiv fuel u t0 tf h storeData freq s).1 = .ok (some (st n)) ∧
    (C.evolve rnd pyDiv fuel u t0 tf h storeData freq s).2.t =
      (if storeData then (storedUpTo freq n).map (timeAt rnd h t0) else []) ∧
    (C.evolve rnd pyDiv fuel u t0 tf h storeData freq s).2.u =
      (if storeData then (storedUpTo freq n).map st else []) ∧
    (C.evolve rnd pyDiv fuel u t0 tf h storeData freq s).2.tc = timeAt rnd h t0 n ∧
    L.Inv (C.evolve rnd pyDiv fuel u t0 tf h storeData freq s).2.sub (st n) ∧
    P n (C.evolve rnd pyDiv fuel u t0 tf h storeData freq s).2.sub := by
  obtain ⟨d, rfl⟩ : ∃ d, fuel = (d + 1) + n := ⟨fuel - n - 1, by omega⟩
  rw [evolve_apply, if_neg (not_lt.mpr hspan)]
  subst h0
  obtain ⟨s', e, h1, h2, h3, h4, h5, h6⟩ := loop_unroll_with L rnd pyDiv h t0 storeData freq hh hf st P hP n (d + 1) 0
    (C.start (st 0) t0 tf storeData s) (L.reset_inv _ _) hP0 rfl
    (fun k _ hk => hlt k (by omega)) (fun k _ hk => hok k (by omega)) (fun k hk hk' => hp k hk (by omega))
  rw [e, loop_done]
  · refine ⟨by simp, ?_, ?_, by simpa using h1, by simpa using h3, by simpa using h6⟩
    · simp only [h4, start]; exact start_lists _ _ _ _ _ rfl
    · simp only [h5, start]; exact start_lists _ _ _ _ _ rfl
  · rw [h1, h2]; simpa [start] using hge

/-- A run of `n` steps that all succeed. -/
theorem evolve_complete {Φ : K → V → Except PyErr V} (L : LawfulCS C Φ) (rnd : K → K) (pyDiv : Bool)
    (u : V) (t0 tf h : K) (storeData : Bool) (freq : ℤ) (hh : 0 ≤ h) (hspan : rnd (t0 + h) ≤ tf)
    (hf : storeData = true → freq ≠ 0) (st : ℕ → V) (h0 : st 0 = u) (n : ℕ)
    (hlt : ∀ k, k < n → timeAt rnd h t0 k < tf) (hge : tf ≤ timeAt rnd h t0 n)
    (hok : ∀ k, k < n → Φ h (st k) = .ok (st (k + 1)))
    (hp : ∀ k, 0 < k → k ≤ n → ¬ ProgressRaises pyDiv tf k)
    (s : CSState K V Sub) (fuel : ℕ) (hfuel : n < fuel) :
    (C.evolve rnd pyDiv fuel u t0 tf h storeData freq s).1 = .ok (some (st n)) ∧
    (C.evolve rnd pyDiv fuel u t0 tf h storeData freq s).2.t =
      (if storeData then (storedUpTo freq n).map (timeAt rnd h t0) else []) ∧
    (C.evolve rnd pyDiv fuel u t0 tf h storeData freq s).2.u =
      (if storeData then (storedUpTo freq n).map st else []) ∧
    (C.evolve rnd pyDiv fuel u t0 tf h storeData freq s).2.tc = timeAt rnd h t0 n ∧
    L.Inv (C.evolve rnd pyDiv fuel u t0 tf h storeData freq s).2.sub (st n) := by
  obtain ⟨a1, a2, a3, a4, a5, -⟩ := evolve_complete_with L rnd pyDiv u t0 tf h storeData freq hh hspan hf st h0 n hlt hge
    hok hp s fuel hfuel (fun _ _ => True) (fun _ _ _ _ _ => trivial) trivial
  exact ⟨a1, a2, a3, a4, a5⟩

/-- A run in which the step after `m` successful steps raises. -/
theorem evolve_crash {Φ : K → V → Except PyErr V} (L : LawfulCS C Φ) (rnd : K → K) (pyDiv : Bool)
    (u : V) (t0 tf h : K) (storeData : Bool) (freq : ℤ) (hh : 0 ≤ h) (hspan : rnd (t0 + h) ≤ tf)
    (hf : storeData = true → freq ≠ 0) (st : ℕ → V) (h0 : st 0 = u) (m : ℕ)
    (hlt : ∀ k, k ≤ m → timeAt rnd h t0 k < tf)
    (hok : ∀ k, k < m → Φ h (st k) = .ok (st (k + 1))) (e : PyErr) (he : Φ h (st m) = .error e)
    (hp : ∀ k, 0 < k → k ≤ m → ¬ ProgressRaises pyDiv tf k)
    (s : CSState K V Sub) (fuel : ℕ) (hfuel : m < fuel) :
    (C.evolve rnd pyDiv fuel u t0 tf h storeData freq s).1 = .error e ∧
    (C.evolve rnd pyDiv fuel u t0 tf h storeData freq s).2.t =
      (if storeData then (storedUpTo freq m).map (timeAt rnd h t0) else []) ∧
    (C.evolve rnd pyDiv fuel u t0 tf h storeData freq s).2.u =
      (if storeData then (storedUpTo freq m).map st else []) := by
  obtain ⟨d, rfl⟩ : ∃ d, fuel = (d + 1) + m := ⟨fuel - m - 1, by omega⟩
  rw [evolve_apply, if_neg (not_lt.mpr hspan)]
  subst h0
  obtain ⟨s', e', h1, h2, h3, h4, h5⟩ := loop_unroll L rnd pyDiv h t0 storeData freq hh hf st m (d + 1) 0
    (C.start (st 0) t0 tf storeData s) (L.reset_inv _ _) rfl
    (fun k _ hk => hlt k (by omega)) (fun k _ hk => hok k (by omega)) (fun k hk hk' => hp k hk (by omega))
  have hlt' : s'.tc < s'.tf := by rw [h1, h2]; simpa [start] using hlt m le_rfl
  rw [e', loop_step_error (hlt := hlt') (e := e) (s' := { s' with sub := (C.updateStages (st (0 + m)) h s'.sub).2 })]
  · refine ⟨rfl, ?_, ?_⟩
    · simp only [h4, start]; exact start_lists _ _ _ _ _ rfl
    · simp only [h5, start]; exact start_lists _ _ _ _ _ rfl
  · rw [step_apply _ _ hh, L.result _ _ _ h3]; simp [he]

/-- A run in which the progress message of step `m + 1` raises. -/
theorem evolve_progress_raises {Φ : K → V → Except PyErr V} (L : LawfulCS C Φ) (rnd : K → K) (pyDiv : Bool)
    (u : V) (t0 tf h : K) (storeData : Bool) (freq : ℤ) (hh : 0 ≤ h) (hspan : rnd (t0 + h) ≤ tf)
    (hf : storeData = true → freq ≠ 0) (st : ℕ → V) (h0 : st 0 = u) (m : ℕ)
    (hlt : ∀ k, k ≤ m → timeAt rnd h t0 k < tf)
    (hok : ∀ k, k ≤ m → Φ h (st k) = .ok (st (k + 1)))
    (hp : ∀ k, 0 < k → k ≤ m → ¬ ProgressRaises pyDiv tf k) (hr : ProgressRaises pyDiv tf (m + 1))
    (s : CSState K V Sub) (fuel : ℕ) (hfuel : m < fuel) :
    (C.evolve rnd pyDiv fuel u t0 tf h storeData freq s).1 = .error .zeroDivisionError := by
  obtain ⟨d, rfl⟩ : ∃ d, fuel = (d + 1) + m := ⟨fuel - m - 1, by omega⟩
  rw [evolve_apply, if_neg (not_lt.mpr hspan)]
  subst h0
  obtain ⟨s', e', h1, h2, h3, h4, h5⟩ := loop_unroll L rnd pyDiv h t0 storeData freq hh hf st m (d + 1) 0
    (C.start (st 0) t0 tf storeData s) (L.reset_inv _ _) rfl
    (fun k _ hk => hlt k (by omega)) (fun k _ hk => hok k (by omega)) (fun k hk hk' => hp k hk (by omega))
  have hlt' : s'.tc < s'.tf := by rw [h1, h2]; simpa [start] using hlt m le_rfl
  rw [e', loop]
  simp only [PyM.bind_get_apply, hlt', if_true]
  rw [PyM.bind_ok (a := st (m + 1)) (s' := { s' with sub := (C.updateStages (st (0 + m)) h s'.sub).2 })
    (by rw [step_apply _ _ hh, L.result _ _ _ h3]; simp [hok m le_rfl])]
  simp only [PyM.bind_modify_apply]
  have htf : s'.tf = tf := by rw [h2]; rfl
  rw [PyM.bind_error (progress_raises pyDiv (0 + m + 1) s'.tf _ (by rw [htf]; simpa using hr))]

/-- With `store_freq = 0` the first stored step raises. -/
theorem evolve_store_raises {Φ : K → V → Except PyErr V} (L : LawfulCS C Φ) (rnd : K → K) (pyDiv : Bool)
    (u : V) (t0 tf h : K) (hh : 0 ≤ h) (hspan : rnd (t0 + h) ≤ tf) (hlt : t0 < tf) (v : V) (hok : Φ h u = .ok v)
    (s : CSState K V Sub) (fuel : ℕ) (hfuel : 0 < fuel) :
    (C.evolve rnd pyDiv fuel u t0 tf h true 0 s).1 = .error .zeroDivisionError := by
  obtain ⟨d, rfl⟩ : ∃ d, fuel = d + 1 := ⟨fuel - 1, by omega⟩
  rw [evolve_apply, if_neg (not_lt.mpr hspan)]
  have hlt' : (C.start u t0 tf true s).tc < (C.start u t0 tf true s).tf := hlt
  have hres : (C.updateStages u h (C.start u t0 tf true s).sub).1 = .ok v :=
    (L.result (C.start u t0 tf true s).sub u h (L.reset_inv _ _)).trans hok
  rw [loop]
  simp only [PyM.bind_get_apply, hlt', if_true]
  rw [PyM.bind_ok (a := v) (s' := { C.start u t0 tf true s with
      sub := (C.updateStages u h (C.start u t0 tf true s).sub).2 })
    (by rw [step_apply _ _ hh, hres])]
  simp only [PyM.bind_modify_apply]
  rw [PyM.bind_ok (progress_apply pyDiv (0 + 1) _ _ (by simp [ProgressRaises]))]
  rfl

/-- Never enough fuel: with `h = 0` and `t0 < tf` the loop does not end (exact arithmetic). -/
theorem evolve_zero_step {Φ : K → V → Except PyErr V} (L : LawfulCS C Φ) (pyDiv : Bool)
    (u : V) (t0 tf : K) (storeData : Bool) (freq : ℤ) (hf : storeData = true → freq ≠ 0) (hlt : t0 < tf)
    (hp : pyDiv = false ∨ tf ≠ 0)
    (hok : ∀ v, ∃ w, Φ 0 v = .ok w) (s : CSState K V Sub) (fuel : ℕ) :
    (C.evolve id pyDiv fuel u t0 tf 0 storeData freq s).1 = .ok none := by
  choose g hg using hok
  rw [evolve_apply, if_neg (by simpa using hlt.le)]
  obtain ⟨s', e, -⟩ := loop_unroll L id pyDiv 0 t0 storeData freq le_rfl hf (fun k => g^[k] u) fuel 0 0
    (C.start u t0 tf storeData s) (L.reset_inv _ _) rfl
    (fun k _ _ => by simpa [timeAt_id, start] using hlt)
    (fun k _ _ => by simp only [hg, Function.iterate_succ_apply'])
    (fun k _ _ hr => by rcases hp with hp | hp <;> simp [ProgressRaises, start, hp] at hr)
  have e' : C.loop id pyDiv 0 storeData freq fuel u 0 (C.start u t0 tf storeData s) =
    C.loop id pyDiv 0 storeData freq 0 (g^[0 + fuel] u) (0 + fuel) s' := by simpa using e
  rw [e', loop]
  rfl

/-- Two coherent objects run the loop alike. -/
theorem loop_congr {Φ : K → V → Except PyErr V} (L : LawfulCS C Φ) (rnd : K → K) (pyDiv : Bool) (h : K)
    (storeData : Bool) (freq : ℤ) : ∀ (fuel : ℕ) (u : V) (c : ℕ) (s s' : CSState K V Sub), L.Inv s.sub u →
      L.Inv s'.sub u → s.t = s'.t → s.u = s'.u → s.tf = s'.tf → s.tc = s'.tc →
      (C.loop rnd pyDiv h storeData freq fuel u c s).1 = (C.loop rnd pyDiv h storeData freq fuel u c s').1 ∧
      (C.loop rnd pyDiv h storeData freq fuel u c s).2.t = (C.loop rnd pyDiv h storeData freq fuel u c s').2.t ∧
      (C.loop rnd pyDiv h storeData freq fuel u c s).2.u = (C.loop rnd pyDiv h storeData freq fuel u c s').2.u := by
  intro fuel
  induction fuel with
  | zero => intro u c s s' _ _ ht hu _ _; exact ⟨rfl, ht, hu⟩
  | succ fuel ih =>
    intro u c s s' hi hi' ht hu htf htc
    by_cases hlt : s.tc < s.tf
    swap
    · rw [loop_done _ _ _ _ _ _ _ _ _ hlt, loop_done _ _ _ _ _ _ _ _ _ (by rw [← htc, ← htf]; exact hlt)]
      exact ⟨rfl, ht, hu⟩
    have hlt' : s'.tc < s'.tf := by rw [← htc, ← htf]; exact hlt
    by_cases hh : 0 ≤ h
    swap
    · rw [loop_step_error (hlt := hlt) (hr := step_neg _ _ hh _), loop_step_error (hlt := hlt') (hr := step_neg _ _ hh _)]
      exact ⟨rfl, ht, hu⟩
    have r := L.result s.sub u h hi
    have r' := L.result s'.sub u h hi'
    cases hΦ : Φ h u with
    | error e =>
      rw [hΦ] at r r'
      rw [loop_step_error (hlt := hlt) (e := e) (s' := { s with sub := (C.updateStages u h s.sub).2 })
          (hr := by rw [step_apply _ _ hh, r]),
        loop_step_error (hlt := hlt') (e := e) (s' := { s' with sub := (C.updateStages u h s'.sub).2 })
          (hr := by rw [step_apply _ _ hh, r'])]
      exact ⟨rfl, ht, hu⟩
    | ok v =>
      rw [hΦ] at r r'
      rw [loop]
      simp only [PyM.bind_get_apply, hlt, hlt', if_true]
      rw [PyM.bind_ok (a := v) (s' := { s with sub := (C.updateStages u h s.sub).2 })
        (by rw [step_apply _ _ hh, r]), PyM.bind_ok (a := v) (s' := { s' with sub := (C.updateStages u h s'.sub).2 })
        (by rw [step_apply _ _ hh, r'])]
      simp only [PyM.bind_modify_apply]
      by_cases hp : ProgressRaises pyDiv s.tf (c + 1)
      · rw [PyM.bind_error (progress_raises pyDiv (c + 1) s.tf _ hp),
          PyM.bind_error (progress_raises pyDiv (c + 1) s'.tf _ (by rw [← htf]; exact hp))]
        exact ⟨rfl, ht, hu⟩
      rw [PyM.bind_ok (progress_apply pyDiv (c + 1) s.tf _ hp),
        PyM.bind_ok (progress_apply pyDiv (c + 1) s'.tf _ (by rw [← htf]; exact hp))]
      by_cases hf : storeData = true → freq ≠ 0
      · rw [PyM.bind_ok (store_apply storeData freq (c + 1) v _ hf), PyM.bind_ok (store_apply storeData freq (c + 1) v _ hf)]
        have i := L.inv_ok s.sub u h v hi hΦ
        have i' := L.inv_ok s'.sub u h v hi' hΦ
        split
        · exact ih v (c + 1) _ _ i i' (by simp [ht, htc]) (by simp [hu]) htf (by simp [htc])
        · exact ih v (c + 1) _ _ i i' ht hu htf (by simp [htc])
      · obtain ⟨rfl, rfl⟩ : storeData = true ∧ freq = 0 := by
          constructor
          · by_contra hc; exact hf fun h => absurd h hc
          · by_contra hc; exact hf fun _ => hc
        rw [PyM.bind_error (e := .zeroDivisionError) (by rfl), PyM.bind_error (e := .zeroDivisionError) (by rfl)]
        exact ⟨rfl, ht, hu⟩

/-- `evolve` does not depend on the state it starts from. -/
theorem evolve_congr {Φ : K → V → Except PyErr V} (L : LawfulCS C Φ) (rnd : K → K) (pyDiv : Bool) (fuel : ℕ)
    (u : V) (t0 tf h : K) (storeData : Bool) (freq : ℤ) (s s' : CSState K V Sub) :
    (C.evolve rnd pyDiv fuel u t0 tf h storeData freq s).1 = (C.evolve rnd pyDiv fuel u t0 tf h storeData freq s').1 ∧
    (C.evolve rnd pyDiv fuel u t0 tf h storeData freq s).2.t =
      (C.evolve rnd pyDiv fuel u t0 tf h storeData freq s').2.t ∧
    (C.evolve rnd pyDiv fuel u t0 tf h storeData freq s).2.u =
      (C.evolve rnd pyDiv fuel u t0 tf h storeData freq s').2.u := by
  rw [evolve_apply, evolve_apply]
  split
  · exact ⟨rfl, rfl, rfl⟩
  · exact loop_congr L rnd pyDiv h storeData freq fuel u 0 _ _ (L.reset_inv _ _) (L.reset_inv _ _) rfl rfl rfl rfl

/-- Where an exception of the loop comes from. -/
theorem loop_error {Φ : K → V → Except PyErr V} (L : LawfulCS C Φ) (rnd : K → K) (pyDiv : Bool) (h : K)
    (storeData : Bool) (freq : ℤ) (e : PyErr) : ∀ (fuel : ℕ) (u : V) (c : ℕ) (s : CSState K V Sub), L.Inv s.sub u →
      (C.loop rnd pyDiv h storeData freq fuel u c s).1 = .error e →
      (e = .assertionError ∧ h < 0) ∨ (e = .zeroDivisionError) ∨ ∃ v, Φ h v = .error e := by
  intro fuel
  induction fuel with
  | zero => intro u c s _ he; simp [loop] at he
  | succ fuel ih =>
    intro u c s hi he
    by_cases hlt : s.tc < s.tf
    swap
    · rw [loop_done _ _ _ _ _ _ _ _ _ hlt] at he; simp at he
    by_cases hh : 0 ≤ h
    swap
    · rw [loop_step_error (hlt := hlt) (hr := step_neg _ _ hh _)] at he
      left; simp only [Except.error.injEq] at he; exact ⟨he.symm, not_le.mp hh⟩
    have r := L.result s.sub u h hi
    cases hΦ : Φ h u with
    | error e' =>
      rw [hΦ] at r
      rw [loop_step_error (hlt := hlt) (e := e') (s' := { s with sub := (C.updateStages u h s.sub).2 })
          (hr := by rw [step_apply _ _ hh, r])] at he
      simp only [Except.error.injEq] at he; subst he
      exact .inr (.inr ⟨u, hΦ⟩)
    | ok v =>
      rw [hΦ] at r
      rw [loop] at he
      simp only [PyM.bind_get_apply, hlt, if_true] at he
      rw [PyM.bind_ok (a := v) (s' := { s with sub := (C.updateStages u h s.sub).2 })
        (by rw [step_apply _ _ hh, r])] at he
      simp only [PyM.bind_modify_apply] at he
      by_cases hp : ProgressRaises pyDiv s.tf (c + 1)
      · rw [PyM.bind_error (progress_raises pyDiv (c + 1) s.tf _ hp)] at he
        simp only [Except.error.injEq] at he; exact .inr (.inl he.symm)
      rw [PyM.bind_ok (progress_apply pyDiv (c + 1) s.tf _ hp)] at he
      by_cases hf : storeData = true → freq ≠ 0
      · rw [PyM.bind_ok (store_apply storeData freq (c + 1) v _ hf)] at he
        have i := L.inv_ok s.sub u h v hi hΦ
        split at he
        · exact ih v (c + 1) _ (by exact i) he
        · exact ih v (c + 1) _ (by exact i) he
      · obtain ⟨rfl, rfl⟩ : storeData = true ∧ freq = 0 := by
          constructor
          · by_contra hc; exact hf fun h => absurd h hc
          · by_contra hc; exact hf fun _ => hc
        rw [PyM.bind_error (e := .zeroDivisionError) (by rfl)] at he
        simp only [Except.error.injEq] at he; exact .inr (.inl he.symm)

/-- With `h = 0` in exact arithmetic the loop never returns. -/
theorem loop_zero_no_return (pyDiv : Bool) (storeData : Bool) (freq : ℤ) (w : V) :
    ∀ (fuel : ℕ) (u : V) (c : ℕ) (s : CSState K V Sub), s.tc < s.tf →
      (C.loop id pyDiv 0 storeData freq fuel u c s).1 ≠ .ok (some w) := by
  intro fuel
  induction fuel with
  | zero => intro u c s _ he; simp [loop] at he
  | succ fuel ih =>
    intro u c s hlt he
    rcases hr : C.updateStages u 0 s.sub with ⟨r, sub⟩
    cases r with
    | error e =>
      rw [loop_step_error (hlt := hlt) (e := e) (s' := { s with sub := sub })
          (hr := by rw [step_apply _ _ le_rfl, hr])] at he
      simp at he
    | ok v =>
      rw [loop] at he
      simp only [PyM.bind_get_apply, hlt, if_true] at he
      rw [PyM.bind_ok (a := v) (s' := { s with sub := sub }) (by rw [step_apply _ _ le_rfl, hr])] at he
      simp only [PyM.bind_modify_apply] at he
      by_cases hp : ProgressRaises pyDiv s.tf (c + 1)
      · rw [PyM.bind_error (progress_raises pyDiv (c + 1) s.tf _ hp)] at he
        simp at he
      rw [PyM.bind_ok (progress_apply pyDiv (c + 1) s.tf _ hp)] at he
      by_cases hf : storeData = true → freq ≠ 0
      · rw [PyM.bind_ok (store_apply storeData freq (c + 1) v _ hf)] at he
        split at he
        · exact ih v (c + 1) _ (by simpa using hlt) he
        · exact ih v (c + 1) _ (by simpa using hlt) he
      · obtain ⟨rfl, rfl⟩ : storeData = true ∧ freq = 0 := by
          constructor
          · by_contra hc; exact hf fun h => absurd h hc
          · by_contra hc; exact hf fun _ => hc
        rw [PyM.bind_error (e := .zeroDivisionError) (by rfl)] at he
        simp at he

theorem exists_isLeast_steps [Archimedean K] [IsStrictOrderedRing K] (t0 tf h : K) (hh : 0 < h) :
    ∃ n : ℕ, IsLeast {n : ℕ | tf ≤ t0 + n * h} n := by
  classical
  have hex : ∃ n : ℕ, tf ≤ t0 + n * h := by
    obtain ⟨n, hn⟩ := Archimedean.arch (tf - t0) hh
    exact ⟨n, by rw [nsmul_eq_mul] at hn; linarith⟩
  exact ⟨Nat.find hex, Nat.find_spec hex, fun m hm => Nat.find_min' hex hm⟩

end CSClass

end Verif
