import Verif.Lemmas.RelLoop
import Verif.Lemmas.CSEvolve

/-!
# Splitting the loop of a constant-step run

`loop_prefix`: a loop towards `s.tf` that returns is a prefix of the loop towards any later time.
`loop_shift`: the loop does not depend on where its step counter starts, apart from what is stored.
-/

set_option linter.unusedSectionVars false

namespace Verif

variable {K V Sub : Type} [Field K] [LinearOrder K]

namespace CSClass

variable {C : CSClass K V Sub} {Φ : K → V → Except PyErr V}

theorem loop_prefix (L : LawfulCS C Φ) (rnd : K → K) (pyDiv : Bool) (h tf : K) (storeData : Bool) (freq : ℤ)
    (hp : pyDiv = true → tf ≠ 0) :
    ∀ (fuel : ℕ) (u v : V) (c : ℕ) (s s1 : CSState K V Sub), s.tf ≤ tf → L.Inv s.sub u →
      C.loop rnd pyDiv h storeData freq fuel u c s = (.ok (some v), s1) →
      s1.tf = s.tf ∧ s1.tf ≤ s1.tc ∧ L.Inv s1.sub v ∧
      ∃ k, k < fuel ∧ (s.tc < s.tf → 0 < k ∧ (storeData = true → freq ≠ 0)) ∧
        (∃ l, s1.t = s.t ++ l ∧ (storeData = true → freq = 1 → l.length = k) ∧ (storeData = false → l = []) ∧
          (storeData = true → freq ∣ ((c + k : ℕ) : ℤ) → 0 < k → l.getLast? = some s1.tc)) ∧
        (∃ l, s1.u = s.u ++ l ∧ (storeData = true → freq = 1 → l.length = k) ∧ (storeData = false → l = []) ∧
          (storeData = true → freq ∣ ((c + k : ℕ) : ℤ) → 0 < k → l.getLast? = some v)) ∧
        (k = 0 → s1 = s ∧ v = u) ∧
        ∀ d, C.loop rnd pyDiv h storeData freq (k + d) u c { s with tf := tf } =
          C.loop rnd pyDiv h storeData freq d v (c + k) { s1 with tf := tf } := by
  intro fuel
  induction fuel with
  | zero => intro u v c s s1 _ _ hr; exact absurd hr (by simp [loop])
  | succ fuel ih =>
    intro u v c s s1 hle hi hr
    by_cases hlt : s.tc < s.tf
    swap
    · rw [loop_done _ _ _ _ _ _ _ _ _ hlt] at hr
      simp only [Prod.mk.injEq, Except.ok.injEq, Option.some.injEq] at hr
      obtain ⟨rfl, rfl⟩ := hr
      exact ⟨rfl, not_lt.mp hlt, hi, 0, by omega, fun h => absurd h hlt, ⟨[], by simp⟩, ⟨[], by simp⟩, fun _ => ⟨rfl, rfl⟩, fun d => by simp⟩
    by_cases hh : 0 ≤ h
    swap
    · rw [loop_step_error (hlt := hlt) (hr := step_neg _ _ hh _)] at hr
      simp at hr
    have r := L.result s.sub u h hi
    cases hΦu : Φ h u with
    | error e =>
      rw [hΦu] at r
      rw [loop_step_error (hlt := hlt) (e := e) (s' := { s with sub := (C.updateStages u h s.sub).2 })
          (hr := by rw [step_apply _ _ hh, r])] at hr
      simp at hr
    | ok w =>
      rw [hΦu] at r
      have i := L.inv_ok s.sub u h w hi hΦu
      rw [loop] at hr
      simp only [PyM.bind_get_apply, hlt, if_true] at hr
      rw [PyM.bind_ok (a := w) (s' := { s with sub := (C.updateStages u h s.sub).2 })
        (by rw [step_apply _ _ hh, r])] at hr
      simp only [PyM.bind_modify_apply] at hr
      by_cases hp1 : ProgressRaises pyDiv s.tf (c + 1)
      · rw [PyM.bind_error (progress_raises pyDiv (c + 1) s.tf _ hp1)] at hr
        simp at hr
      rw [PyM.bind_ok (progress_apply pyDiv (c + 1) s.tf _ hp1)] at hr
      by_cases hf : storeData = true → freq ≠ 0
      swap
      · obtain ⟨rfl, rfl⟩ : storeData = true ∧ freq = 0 := by
          constructor
          · by_contra hc; exact hf fun h => absurd h hc
          · by_contra hc; exact hf fun _ => hc
        rw [PyM.bind_error (e := .zeroDivisionError) (by rfl)] at hr
        simp at hr
      rw [PyM.bind_ok (store_apply storeData freq (c + 1) w _ hf)] at hr
      have hbig : ∀ d, C.loop rnd pyDiv h storeData freq (d + 1) u c { s with tf := tf } =
          C.loop rnd pyDiv h storeData freq d w (c + 1)
            (if storeData && decide (freq ∣ ((c + 1 : ℕ) : ℤ)) then
              { t := s.t ++ [rnd (s.tc + h)], u := s.u ++ [w], tf := tf, tc := rnd (s.tc + h),
                sub := (C.updateStages u h s.sub).2 }
             else { s with tf := tf, tc := rnd (s.tc + h), sub := (C.updateStages u h s.sub).2 }) := by
        intro d
        rw [loop]
        simp only [PyM.bind_get_apply, hlt.trans_le hle, if_true]
        rw [PyM.bind_ok (a := w) (s' := { s with tf := tf, sub := (C.updateStages u h s.sub).2 })
          (by rw [step_apply _ _ hh, r])]
        simp only [PyM.bind_modify_apply]
        rw [PyM.bind_ok (progress_apply pyDiv (c + 1) tf _ fun ⟨_, h1, h2⟩ => hp h1 h2),
          PyM.bind_ok (store_apply storeData freq (c + 1) w _ hf)]
      have hk : ∀ k d, k + 1 + d = k + d + 1 := fun k d => by omega
      have hc : ∀ k, c + 1 + k = c + (k + 1) := fun k => by omega
      split at hr
      · rename_i hst
        obtain ⟨e1, e2, e3, k, hkl, hk0, ⟨l, hl, hl1, _, hl3⟩, ⟨l', hl', hl1', _, hl3'⟩, hz, hrest⟩ := ih w v (c + 1) _ s1 (by exact hle) i hr
        have hsd : storeData = true := by simp_all
        refine ⟨e1, e2, e3, k + 1, by omega, fun _ => ⟨by omega, hf⟩, ⟨rnd (s.tc + h) :: l, by rw [hl]; simp, ?_, ?_, ?_⟩,
          ⟨w :: l', by rw [hl']; simp, ?_, ?_, ?_⟩, by omega, fun d => ?_⟩
        · intro a b; simp [hl1 a b]
        · simp [hsd]
        · intro a b _
          rcases Nat.eq_zero_or_pos k with rfl | h0
          · obtain ⟨rfl, rfl⟩ := hz rfl
            have : l = [] := by simpa using hl
            simp [this]
          · rw [List.getLast?_cons, hl3 a (by rw [hc]; exact b) h0]; rfl
        · intro a b; simp [hl1' a b]
        · simp [hsd]
        · intro a b _
          rcases Nat.eq_zero_or_pos k with rfl | h0
          · obtain ⟨rfl, rfl⟩ := hz rfl
            have : l' = [] := by simpa using hl'
            simp [this]
          · rw [List.getLast?_cons, hl3' a (by rw [hc]; exact b) h0]; rfl
        · rw [hk, hbig, if_pos hst, ← hc k, ← hrest]
      · rename_i hst
        obtain ⟨e1, e2, e3, k, hkl, hk0, ⟨l, hl, hl1, hl2, hl3⟩, ⟨l', hl', hl1', hl2', hl3'⟩, hz, hrest⟩ := ih w v (c + 1) _ s1 (by exact hle) i hr
        refine ⟨e1, e2, e3, k + 1, by omega, fun _ => ⟨by omega, hf⟩, ⟨l, hl, ?_, hl2, ?_⟩,
          ⟨l', hl', ?_, hl2', ?_⟩, by omega, fun d => ?_⟩
        · intro a b; simp [a, b] at hst
        · intro a b _
          rcases Nat.eq_zero_or_pos k with rfl | h0
          · simp [a] at hst; exact absurd b (by simpa using hst)
          · exact hl3 a (by rw [hc]; exact b) h0
        · intro a b; simp [a, b] at hst
        · intro a b _
          rcases Nat.eq_zero_or_pos k with rfl | h0
          · simp [a] at hst; exact absurd b (by simpa using hst)
          · exact hl3' a (by rw [hc]; exact b) h0
        · rw [hk, hbig, if_neg hst, ← hc k, ← hrest]

theorem loop_shift (L : LawfulCS C Φ) (rnd : K → K) (pyDiv : Bool) (h tf : K) (storeData : Bool) (freq : ℤ)
    (hp : pyDiv = true → tf ≠ 0) :
    ∀ (fuel : ℕ) (u : V) (c c' : ℕ) (s s' : CSState K V Sub), L.Inv s.sub u → L.Inv s'.sub u →
      s.tf = tf → s'.tf = tf → s.tc = s'.tc →
      (C.loop rnd pyDiv h storeData freq fuel u c s).1 = (C.loop rnd pyDiv h storeData freq fuel u c' s').1 ∧
      (C.loop rnd pyDiv h storeData freq fuel u c s).2.tc = (C.loop rnd pyDiv h storeData freq fuel u c' s').2.tc ∧
      ((storeData = true → freq ∣ (c : ℤ) - c') →
        (∃ l, (C.loop rnd pyDiv h storeData freq fuel u c s).2.t = s.t ++ l ∧
          (C.loop rnd pyDiv h storeData freq fuel u c' s').2.t = s'.t ++ l) ∧
        ∃ l, (C.loop rnd pyDiv h storeData freq fuel u c s).2.u = s.u ++ l ∧
          (C.loop rnd pyDiv h storeData freq fuel u c' s').2.u = s'.u ++ l) := by
  intro fuel
  induction fuel with
  | zero => intro u c c' s s' _ _ _ _ htc; exact ⟨rfl, htc, fun _ => ⟨⟨[], by simp [loop]⟩, ⟨[], by simp [loop]⟩⟩⟩
  | succ fuel ih =>
    intro u c c' s s' hi hi' htf htf' htc
    by_cases hlt : s.tc < s.tf
    swap
    · rw [loop_done _ _ _ _ _ _ _ _ _ hlt, loop_done _ _ _ _ _ _ _ _ _ (by rw [← htc, htf', ← htf]; exact hlt)]
      exact ⟨rfl, htc, fun _ => ⟨⟨[], by simp⟩, ⟨[], by simp⟩⟩⟩
    have hlt' : s'.tc < s'.tf := by rw [← htc, htf', ← htf]; exact hlt
    by_cases hh : 0 ≤ h
    swap
    · rw [loop_step_error (hlt := hlt) (hr := step_neg _ _ hh _), loop_step_error (hlt := hlt') (hr := step_neg _ _ hh _)]
      exact ⟨rfl, htc, fun _ => ⟨⟨[], by simp⟩, ⟨[], by simp⟩⟩⟩
    have r := L.result s.sub u h hi
    have r' := L.result s'.sub u h hi'
    cases hΦu : Φ h u with
    | error e =>
      rw [hΦu] at r r'
      rw [loop_step_error (hlt := hlt) (e := e) (s' := { s with sub := (C.updateStages u h s.sub).2 })
          (hr := by rw [step_apply _ _ hh, r]),
        loop_step_error (hlt := hlt') (e := e) (s' := { s' with sub := (C.updateStages u h s'.sub).2 })
          (hr := by rw [step_apply _ _ hh, r'])]
      exact ⟨rfl, htc, fun _ => ⟨⟨[], by simp⟩, ⟨[], by simp⟩⟩⟩
    | ok w =>
      rw [hΦu] at r r'
      have i := L.inv_ok s.sub u h w hi hΦu
      have i' := L.inv_ok s'.sub u h w hi' hΦu
      rw [loop, loop]
      simp only [PyM.bind_get_apply, hlt, hlt', if_true]
      rw [PyM.bind_ok (a := w) (s' := { s with sub := (C.updateStages u h s.sub).2 })
        (by rw [step_apply _ _ hh, r]), PyM.bind_ok (a := w) (s' := { s' with sub := (C.updateStages u h s'.sub).2 })
        (by rw [step_apply _ _ hh, r'])]
      simp only [PyM.bind_modify_apply]
      rw [PyM.bind_ok (progress_apply pyDiv (c + 1) s.tf _ fun ⟨_, h1, h2⟩ => hp h1 (htf ▸ h2)),
        PyM.bind_ok (progress_apply pyDiv (c' + 1) s'.tf _ fun ⟨_, h1, h2⟩ => hp h1 (htf' ▸ h2))]
      by_cases hf : storeData = true → freq ≠ 0
      swap
      · obtain ⟨rfl, rfl⟩ : storeData = true ∧ freq = 0 := by
          constructor
          · by_contra hc; exact hf fun h => absurd h hc
          · by_contra hc; exact hf fun _ => hc
        rw [PyM.bind_error (e := .zeroDivisionError) (by rfl), PyM.bind_error (e := .zeroDivisionError) (by rfl)]
        exact ⟨rfl, by simp [htc], fun _ => ⟨⟨[], by simp⟩, ⟨[], by simp⟩⟩⟩
      rw [PyM.bind_ok (store_apply storeData freq (c + 1) w _ hf), PyM.bind_ok (store_apply storeData freq (c' + 1) w _ hf)]
      have key := ih w (c + 1) (c' + 1)
        (if storeData && decide (freq ∣ ((c + 1 : ℕ) : ℤ)) then
              { t := s.t ++ [rnd (s.tc + h)], u := s.u ++ [w], tf := s.tf, tc := rnd (s.tc + h),
                sub := (C.updateStages u h s.sub).2 }
             else { s with tc := rnd (s.tc + h), sub := (C.updateStages u h s.sub).2 })
        (if storeData && decide (freq ∣ ((c' + 1 : ℕ) : ℤ)) then
              { t := s'.t ++ [rnd (s'.tc + h)], u := s'.u ++ [w], tf := s'.tf, tc := rnd (s'.tc + h),
                sub := (C.updateStages u h s'.sub).2 }
             else { s' with tc := rnd (s'.tc + h), sub := (C.updateStages u h s'.sub).2 })
        (by split <;> exact i) (by split <;> exact i') (by split <;> exact htf) (by split <;> exact htf')
        (by split <;> split <;> simp [htc])
      refine ⟨key.1, key.2.1, fun hd => ?_⟩
      obtain ⟨⟨l, k1, k2⟩, ⟨l', k3, k4⟩⟩ := key.2.2 (fun hs => by
        have := hd hs
        push_cast
        simpa using this)
      have hiff : (storeData && decide (freq ∣ ((c + 1 : ℕ) : ℤ))) = (storeData && decide (freq ∣ ((c' + 1 : ℕ) : ℤ))) := by
        cases storeData with
        | false => rfl
        | true =>
          have := hd rfl
          have e : ((c + 1 : ℕ) : ℤ) = ((c : ℤ) - c') + ((c' + 1 : ℕ) : ℤ) := by push_cast; ring
          rw [Bool.true_and, Bool.true_and, e]
          exact decide_eq_decide.mpr (Int.dvd_add_right this)
      rw [hiff] at k1 k3 ⊢
      by_cases hst : (storeData && decide (freq ∣ ((c' + 1 : ℕ) : ℤ))) = true
      · simp only [hst, if_true] at k1 k2 k3 k4 ⊢
        exact ⟨⟨rnd (s'.tc + h) :: l, by rw [k1, htc]; simp, by rw [k2]; simp⟩, ⟨w :: l', by rw [k3]; simp, by rw [k4]; simp⟩⟩
      · simp only [hst, if_false] at k1 k2 k3 k4 ⊢
        exact ⟨⟨l, by simpa using k1, by simpa using k2⟩, ⟨l', by simpa using k3, by simpa using k4⟩⟩

theorem loop_unfinished (rnd : K → K) (pyDiv : Bool) (h tf : K) (storeData : Bool) (freq : ℤ)
    (hp : pyDiv = true → tf ≠ 0) :
    ∀ (fuel : ℕ) (u : V) (c : ℕ) (s : CSState K V Sub), (pyDiv = true → s.tf ≠ 0) → s.tf ≤ tf →
      (∀ v, (C.loop rnd pyDiv h storeData freq fuel u c s).1 ≠ .ok (some v)) →
      C.loop rnd pyDiv h storeData freq fuel u c { s with tf := tf } =
        ((C.loop rnd pyDiv h storeData freq fuel u c s).1,
          { (C.loop rnd pyDiv h storeData freq fuel u c s).2 with tf := tf }) := by
  intro fuel
  induction fuel with
  | zero => intro u c s _ _ _; rfl
  | succ fuel ih =>
    intro u c s hps hle hr
    by_cases hlt : s.tc < s.tf
    swap
    · rw [loop_done _ _ _ _ _ _ _ _ _ hlt] at hr
      exact absurd rfl (hr u)
    have hlt' : s.tc < tf := hlt.trans_le hle
    by_cases hh : 0 ≤ h
    swap
    · rw [loop_step_error (hlt := hlt) (hr := step_neg _ _ hh _), loop_step_error (hlt := hlt') (hr := step_neg _ _ hh _)]
    cases r : (C.updateStages u h s.sub).1 with
    | error e =>
      rw [loop_step_error (hlt := hlt) (e := e) (s' := { s with sub := (C.updateStages u h s.sub).2 })
          (hr := by rw [step_apply _ _ hh, r]),
        loop_step_error (hlt := hlt') (e := e) (s' := { s with tf := tf, sub := (C.updateStages u h s.sub).2 })
          (hr := by rw [step_apply _ _ hh, r])]
    | ok w =>
      rw [loop] at hr ⊢
      simp only [PyM.bind_get_apply, hlt, hlt', if_true] at hr ⊢
      rw [PyM.bind_ok (a := w) (s' := { s with sub := (C.updateStages u h s.sub).2 })
        (by rw [step_apply _ _ hh, r])] at hr
      rw [PyM.bind_ok (a := w) (s' := { s with tf := tf, sub := (C.updateStages u h s.sub).2 })
        (by rw [step_apply _ _ hh, r]), PyM.bind_ok (a := w) (s' := { s with sub := (C.updateStages u h s.sub).2 })
        (by rw [step_apply _ _ hh, r])]
      simp only [PyM.bind_modify_apply] at hr ⊢
      rw [PyM.bind_ok (progress_apply pyDiv (c + 1) s.tf _ fun ⟨_, h1, h2⟩ => hps h1 h2)] at hr
      rw [PyM.bind_ok (progress_apply pyDiv (c + 1) tf _ fun ⟨_, h1, h2⟩ => hp h1 h2),
        PyM.bind_ok (progress_apply pyDiv (c + 1) s.tf _ fun ⟨_, h1, h2⟩ => hps h1 h2)]
      by_cases hf : storeData = true → freq ≠ 0
      swap
      · obtain ⟨rfl, rfl⟩ : storeData = true ∧ freq = 0 := by
          constructor
          · by_contra hc; exact hf fun h => absurd h hc
          · by_contra hc; exact hf fun _ => hc
        rw [PyM.bind_error (e := .zeroDivisionError) (by rfl), PyM.bind_error (e := .zeroDivisionError) (by rfl)]
      rw [PyM.bind_ok (store_apply storeData freq (c + 1) w _ hf)] at hr
      rw [PyM.bind_ok (store_apply storeData freq (c + 1) w _ hf), PyM.bind_ok (store_apply storeData freq (c + 1) w _ hf)]
      split at hr
      · rename_i hst
        rw [if_pos hst, if_pos hst]
        exact ih w (c + 1) _ (by exact hps) (by exact hle) hr
      · rename_i hst
        rw [if_neg hst, if_neg hst]
        exact ih w (c + 1) _ (by exact hps) (by exact hle) hr

theorem evolve_restart (L : LawfulCS C Φ) (rnd : K → K) (pyDiv : Bool) (fuel : ℕ) (u v : V) (t0 t1 tf h : K)
    (storeData : Bool) (freq : ℤ) (s s' s'' : CSState K V Sub) (hle : t1 ≤ tf) (hp : pyDiv = true → tf ≠ 0)
    (hr : (C.evolve rnd pyDiv fuel u t0 t1 h storeData freq s).1 = .ok (some v))
    (hroom : rnd ((C.evolve rnd pyDiv fuel u t0 t1 h storeData freq s).2.tc + h) ≤ tf) :
    ∃ k, k < fuel ∧
      (storeData = true → freq = 1 →
        (C.evolve rnd pyDiv fuel u t0 t1 h storeData freq s).2.t.length = k + 1) ∧
      (storeData = true → freq ∣ (k : ℤ) → t0 < t1 →
        (C.evolve rnd pyDiv fuel u t0 t1 h storeData freq s).2.t.getLast? =
            some (C.evolve rnd pyDiv fuel u t0 t1 h storeData freq s).2.tc ∧
        (C.evolve rnd pyDiv fuel u t0 t1 h storeData freq s).2.u.getLast? = some v) ∧
      ∀ d,
        let one := C.evolve rnd pyDiv fuel u t0 t1 h storeData freq s
        let two := C.evolve rnd pyDiv d v one.2.tc tf h storeData freq s'
        let all := C.evolve rnd pyDiv (k + d) u t0 tf h storeData freq s''
        all.1 = two.1 ∧ all.2.tc = two.2.tc ∧
        (storeData = true → freq ∣ (k : ℤ) →
          all.2.t = one.2.t ++ two.2.t.tail ∧ all.2.u = one.2.u ++ two.2.u.tail) := by
  have h0 : ¬ t1 < rnd (t0 + h) := by
    intro hc
    rw [evolve_apply, if_pos hc] at hr
    simp at hr
  have h1 : ¬ tf < rnd (t0 + h) := fun hc => h0 (hle.trans_lt hc)
  set one := C.evolve rnd pyDiv fuel u t0 t1 h storeData freq s with hone
  have hone' : C.loop rnd pyDiv h storeData freq fuel u 0 (C.start u t0 t1 storeData s) = (.ok (some v), one.2) := by
    rw [← hr, hone, evolve_apply, if_neg h0]
  obtain ⟨e1, e2, e3, k, hk, hk0, ⟨l, hl, hl1, hl2, hl3⟩, ⟨l', hl', hl1', hl2', hl3'⟩, -, hrest⟩ := loop_prefix L rnd pyDiv h tf storeData freq hp fuel u v 0
    (C.start u t0 t1 storeData s) one.2 (by simpa [start] using hle) (L.reset_inv _ _) hone'
  refine ⟨k, hk, ?_, ?_, fun d => ?_⟩
  · intro a b
    rw [hl]
    simp [start, hl1 a b, a]
  · intro a b hlt
    have := hk0 hlt
    rw [hl, hl', List.getLast?_append, List.getLast?_append, hl3 a (by simpa using b) this.1, hl3' a (by simpa using b) this.1]
    exact ⟨rfl, rfl⟩
  simp only
  rw [evolve_apply rnd pyDiv (k + d), if_neg h1, evolve_apply rnd pyDiv d, if_neg (not_lt.mpr hroom)]
  obtain ⟨a1, a2, a3⟩ := loop_shift L rnd pyDiv h tf storeData freq hp (k + d) u 0 0 (C.start u t0 tf storeData s'')
    (C.start u t0 tf storeData s) (L.reset_inv _ _) (L.reset_inv _ _) rfl rfl rfl
  obtain ⟨b1, b2, b3⟩ := loop_shift L rnd pyDiv h tf storeData freq hp d v (0 + k) 0 { one.2 with tf := tf }
    (C.start v one.2.tc tf storeData s') (by exact e3) (L.reset_inv _ _) rfl rfl rfl
  have hmid : C.loop rnd pyDiv h storeData freq (k + d) u 0 (C.start u t0 tf storeData s) =
      C.loop rnd pyDiv h storeData freq d v (0 + k) { one.2 with tf := tf } := hrest d
  rw [hmid] at a1 a2 a3
  refine ⟨a1.trans b1, a2.trans b2, fun hs hd => ?_⟩
  obtain ⟨⟨m, m1, m2⟩, ⟨m', m1', m2'⟩⟩ := a3 (fun _ => by simp)
  obtain ⟨⟨n, n1, n2⟩, ⟨n', n1', n2'⟩⟩ := b3 (fun _ => by simpa using hd)
  constructor
  · rw [m1, n2, show (C.start u t0 tf storeData s'').t = (C.start u t0 tf storeData s).t from rfl, ← m2, n1]
    simp [start, hs]
  · rw [m1', n2', show (C.start u t0 tf storeData s'').u = (C.start u t0 tf storeData s).u from rfl, ← m2', n1']
    simp [start, hs]

theorem evolve_past (L : LawfulCS C Φ) (rnd : K → K) (pyDiv : Bool) (fuel : ℕ) (u v : V) (t0 t1 tf h : K)
    (storeData : Bool) (freq : ℤ) (s s' : CSState K V Sub) (hle : t1 ≤ tf) (hp : pyDiv = true → tf ≠ 0)
    (hr : (C.evolve rnd pyDiv fuel u t0 t1 h storeData freq s).1 = .ok (some v))
    (hpast : tf ≤ (C.evolve rnd pyDiv fuel u t0 t1 h storeData freq s).2.tc) :
    let one := C.evolve rnd pyDiv fuel u t0 t1 h storeData freq s
    let all := C.evolve rnd pyDiv fuel u t0 tf h storeData freq s'
    all.1 = .ok (some v) ∧ all.2.tc = one.2.tc ∧ all.2.t = one.2.t ∧ all.2.u = one.2.u := by
  have h0 : ¬ t1 < rnd (t0 + h) := by
    intro hc
    rw [evolve_apply, if_pos hc] at hr
    simp at hr
  have h1 : ¬ tf < rnd (t0 + h) := fun hc => h0 (hle.trans_lt hc)
  set one := C.evolve rnd pyDiv fuel u t0 t1 h storeData freq s with hone
  have hone' : C.loop rnd pyDiv h storeData freq fuel u 0 (C.start u t0 t1 storeData s) = (.ok (some v), one.2) := by
    rw [← hr, hone, evolve_apply, if_neg h0]
  obtain ⟨-, -, -, k, hk, -, -, -, -, hrest⟩ := loop_prefix L rnd pyDiv h tf storeData freq hp fuel u v 0
    (C.start u t0 t1 storeData s) one.2 (by simpa [start] using hle) (L.reset_inv _ _) hone'
  obtain ⟨d, rfl⟩ : ∃ d, fuel = k + (d + 1) := ⟨fuel - k - 1, by omega⟩
  have hmid : C.loop rnd pyDiv h storeData freq (k + (d + 1)) u 0 (C.start u t0 tf storeData s) =
      (.ok (some v), { one.2 with tf := tf }) := by
    refine (hrest (d + 1)).trans (loop_done _ _ _ _ _ _ _ _ _ (not_lt.mpr hpast))
  simp only
  rw [evolve_apply, if_neg h1]
  obtain ⟨a1, a2, a3⟩ := loop_shift L rnd pyDiv h tf storeData freq hp (k + (d + 1)) u 0 0 (C.start u t0 tf storeData s')
    (C.start u t0 tf storeData s) (L.reset_inv _ _) (L.reset_inv _ _) rfl rfl rfl
  rw [hmid] at a1 a2 a3
  obtain ⟨⟨m, m1, m2⟩, ⟨m', m1', m2'⟩⟩ := a3 (fun _ => by simp)
  refine ⟨a1, a2, ?_, ?_⟩
  · rw [m1, show (C.start u t0 tf storeData s').t = (C.start u t0 tf storeData s).t from rfl, ← m2]
  · rw [m1', show (C.start u t0 tf storeData s').u = (C.start u t0 tf storeData s).u from rfl, ← m2']

theorem evolve_unfinished (L : LawfulCS C Φ) (rnd : K → K) (pyDiv : Bool) (fuel : ℕ) (u : V) (t0 t1 tf h : K)
    (storeData : Bool) (freq : ℤ) (s s' : CSState K V Sub) (hle : t1 ≤ tf) (hp1 : pyDiv = true → t1 ≠ 0)
    (hp : pyDiv = true → tf ≠ 0) (hroom : rnd (t0 + h) ≤ t1)
    (hr : ∀ v, (C.evolve rnd pyDiv fuel u t0 t1 h storeData freq s).1 ≠ .ok (some v)) :
    let one := C.evolve rnd pyDiv fuel u t0 t1 h storeData freq s
    let all := C.evolve rnd pyDiv fuel u t0 tf h storeData freq s'
    all.1 = one.1 ∧ all.2.tc = one.2.tc ∧ all.2.t = one.2.t ∧ all.2.u = one.2.u := by
  simp only
  rw [evolve_apply, if_neg (not_lt.mpr hroom)] at hr
  rw [evolve_apply, if_neg (not_lt.mpr (hroom.trans hle)), evolve_apply, if_neg (not_lt.mpr hroom)]
  obtain ⟨a1, a2, a3⟩ := loop_shift L rnd pyDiv h tf storeData freq hp fuel u 0 0 (C.start u t0 tf storeData s')
    (C.start u t0 tf storeData s) (L.reset_inv _ _) (L.reset_inv _ _) rfl rfl rfl
  have hmid := loop_unfinished (C := C) rnd pyDiv h tf storeData freq hp fuel u 0 (C.start u t0 t1 storeData s) hp1
    (by exact hle) hr
  have hmid' : C.loop rnd pyDiv h storeData freq fuel u 0 (C.start u t0 tf storeData s) = _ := hmid
  rw [hmid'] at a1 a2 a3
  obtain ⟨⟨m, m1, m2⟩, ⟨m', m1', m2'⟩⟩ := a3 (fun _ => by simp)
  refine ⟨a1, a2, ?_, ?_⟩
  · rw [m1, show (C.start u t0 tf storeData s').t = (C.start u t0 tf storeData s).t from rfl, ← m2]
  · rw [m1', show (C.start u t0 tf storeData s').u = (C.start u t0 tf storeData s).u from rfl, ← m2']

end CSClass

end Verif
