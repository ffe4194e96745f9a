import Verif.Model.SolverCS
import Verif.Spec.Run
import Mathlib.Tactic.Ring
import Mathlib.Tactic.Linarith

/-!
# Generic lemmas about constant-step solvers

`LawfulCS` is the interface law that each concrete strategy class is shown to satisfy: the stateful
`_update_stages` computes a pure one-step map `Φ h u` as long as the state is coherent with `u`.
-/

set_option linter.unusedSectionVars false

namespace Verif

variable {K V Sub : Type} [Field K] [LinearOrder K]

/-- Interface law for a constant-step solver class `C` with one-step map `Φ`.
`Inv s u`: the subclass state `s` is coherent for continuing from `u`. `CoefOk h`: the coefficient computation for
`h` does not raise. -/
structure LawfulCS (C : CSClass K V Sub) (Φ : K → V → Except PyErr V) where
  Inv : Sub → V → Prop
  CoefOk : K → Prop
  reset_inv : ∀ s u, Inv (C.reset s) u
  result : ∀ s u h, Inv s u → (C.updateStages u h s).1 = Φ h u
  inv_ok : ∀ s u h v, Inv s u → Φ h u = .ok v → Inv (C.updateStages u h s).2 v
  inv_err : ∀ s u h e, Inv s u → CoefOk h → Φ h u = .error e → Inv (C.updateStages u h s).2 u

namespace CSClass

variable {C : CSClass K V Sub}

theorem step_apply (u : V) (h : K) (hh : 0 ≤ h) (s : CSState K V Sub) :
    C.step u h s = ((C.updateStages u h s.sub).1, { s with sub := (C.updateStages u h s.sub).2 }) := by
  simp [step, hh]

theorem step_neg (u : V) (h : K) (hh : ¬ 0 ≤ h) (s : CSState K V Sub) :
    C.step u h s = (.error .assertionError, s) := by
  simp [step, hh]

/-- The progress message raises exactly on these step numbers. -/
def ProgressRaises (pyDiv : Bool) (tf : K) (count : ℕ) : Prop := count % 100 = 0 ∧ pyDiv = true ∧ tf = 0

theorem progress_apply {σ : Type} (pyDiv : Bool) (count : ℕ) (tf : K) (s : σ)
    (h : ¬ ProgressRaises pyDiv tf count) : progress pyDiv count tf s = (.ok (), s) := by
  unfold progress
  unfold ProgressRaises at h
  split_ifs with h1 h2
  · exact absurd ⟨h1, h2⟩ h
  · rfl
  · rfl

theorem progress_raises {σ : Type} (pyDiv : Bool) (count : ℕ) (tf : K) (s : σ)
    (h : ProgressRaises pyDiv tf count) : progress pyDiv count tf s = (.error .zeroDivisionError, s) := by
  unfold progress
  unfold ProgressRaises at h
  simp [h]

/-- The step numbers in `(c, c+m]` that are stored. -/
def stored (storeData : Bool) (freq : ℤ) (c m : ℕ) : List ℕ :=
  (List.range' (c + 1) m).filter fun k => storeData && decide (freq ∣ (k : ℤ))

theorem stored_zero (storeData : Bool) (freq : ℤ) (c : ℕ) : stored storeData freq c 0 = [] := by
  simp [stored]

theorem stored_succ (storeData : Bool) (freq : ℤ) (c m : ℕ) :
    stored storeData freq c (m + 1) =
      (if storeData && decide (freq ∣ ((c + 1 : ℕ) : ℤ)) then [c + 1] else []) ++ stored storeData freq (c + 1) m := by
  simp only [stored, List.range'_succ, List.filter_cons]
  split <;> simp

theorem store_apply (storeData : Bool) (freq : ℤ) (count : ℕ) (u : V) (s : CSState K V Sub)
    (hf : storeData = true → freq ≠ 0) :
    store storeData freq count u s =
      (.ok (), if storeData && decide (freq ∣ (count : ℤ)) then
        { s with t := s.t ++ [s.tc], u := s.u ++ [u] } else s) := by
  unfold store
  cases storeData with
  | false => simp
  | true =>
    have : freq ≠ 0 := hf rfl
    simp only [if_true, this, if_false, Bool.true_and]
    by_cases hd : freq ∣ (count : ℤ)
    · simp [hd, Int.emod_eq_zero_of_dvd hd]
    · have : ¬ ((count : ℤ) % freq = 0) := fun h => hd (Int.dvd_of_emod_eq_zero h)
      simp [hd, this]

/-- One iteration of the loop when nothing raises. -/
theorem loop_succ_ok (rnd : K → K) (pyDiv : Bool) (h : K) (storeData : Bool) (freq : ℤ) (fuel : ℕ) (u v : V)
    (c : ℕ) (s : CSState K V Sub) (hh : 0 ≤ h) (hlt : s.tc < s.tf)
    (hr : (C.updateStages u h s.sub).1 = .ok v)
    (hp : ¬ ProgressRaises pyDiv s.tf (c + 1)) (hf : storeData = true → freq ≠ 0) :
    C.loop rnd pyDiv h storeData freq (fuel + 1) u c s =
      C.loop rnd pyDiv h storeData freq fuel v (c + 1)
        (let s' : CSState K V Sub :=
            { s with tc := rnd (s.tc + h), sub := (C.updateStages u h s.sub).2 }
         if storeData && decide (freq ∣ ((c + 1 : ℕ) : ℤ)) then
            { s' with t := s'.t ++ [s'.tc], u := s'.u ++ [v] } else s') := by
  rw [loop]
  simp only [PyM.bind_get_apply, hlt, if_true]
  rw [PyM.bind_ok (a := v) (s' := { s with sub := (C.updateStages u h s.sub).2 })
    (by rw [step_apply _ _ hh, hr])]
  simp only [PyM.bind_modify_apply]
  rw [PyM.bind_ok (progress_apply pyDiv (c + 1) s.tf _ hp)]
  rw [PyM.bind_ok (store_apply storeData freq (c + 1) v _ hf)]

theorem loop_done (rnd : K → K) (pyDiv : Bool) (h : K) (storeData : Bool) (freq : ℤ) (fuel : ℕ) (u : V)
    (c : ℕ) (s : CSState K V Sub) (hge : ¬ s.tc < s.tf) :
    C.loop rnd pyDiv h storeData freq (fuel + 1) u c s = (.ok (some u), s) := by
  rw [loop]
  simp [hge]

theorem loop_step_error (rnd : K → K) (pyDiv : Bool) (h : K) (storeData : Bool) (freq : ℤ) (fuel : ℕ) (u : V)
    (c : ℕ) (s : CSState K V Sub) (hlt : s.tc < s.tf) (e : PyErr) (s' : CSState K V Sub)
    (hr : C.step u h s = (.error e, s')) :
    C.loop rnd pyDiv h storeData freq (fuel + 1) u c s = (.error e, s') := by
  rw [loop]
  simp only [PyM.bind_get_apply, hlt, if_true]
  rw [PyM.bind_error hr]

/-- Unrolling `m` successful iterations; `P k` is any further invariant of the subclass state after `k` steps. -/
theorem loop_unroll_with {Φ : K → V → Except PyErr V} (L : LawfulCS C Φ) (rnd : K → K) (pyDiv : Bool) (h t0 : K)
    (storeData : Bool) (freq : ℤ) (hh : 0 ≤ h) (hf : storeData = true → freq ≠ 0) (st : ℕ → V) (P : ℕ → Sub → Prop)
    (hP : ∀ k s, L.Inv s (st k) → Φ h (st k) = .ok (st (k + 1)) → P k s → P (k + 1) (C.updateStages (st k) h s).2) :
    ∀ (m fuel c : ℕ) (s : CSState K V Sub), L.Inv s.sub (st c) → P c s.sub → s.tc = timeAt rnd h t0 c →
      (∀ k, c ≤ k → k < c + m → timeAt rnd h t0 k < s.tf) →
      (∀ k, c ≤ k → k < c + m → Φ h (st k) = .ok (st (k + 1))) →
      (∀ k, c < k → k ≤ c + m → ¬ ProgressRaises pyDiv s.tf k) →
      ∃ s' : CSState K V Sub,
        C.loop rnd pyDiv h storeData freq (fuel + m) (st c) c s =
          C.loop rnd pyDiv h storeData freq fuel (st (c + m)) (c + m) s' ∧
        s'.tc = timeAt rnd h t0 (c + m) ∧ s'.tf = s.tf ∧ L.Inv s'.sub (st (c + m)) ∧
        s'.t = s.t ++ (stored storeData freq c m).map (timeAt rnd h t0) ∧
        s'.u = s.u ++ (stored storeData freq c m).map st ∧ P (c + m) s'.sub := by
  intro m
  induction m with
  | zero =>
    intro fuel c s hi hPc htc _ _ _
    exact ⟨s, by simp, by simpa using htc, rfl, by simpa using hi, by simp [stored_zero], by simp [stored_zero], hPc⟩
  | succ m ih =>
    intro fuel c s hi hPc htc hlt hok hp
    have hok0 : Φ h (st c) = .ok (st (c + 1)) := hok c le_rfl (by omega)
    have hr : (C.updateStages (st c) h s.sub).1 = .ok (st (c + 1)) := by rw [L.result _ _ _ hi, hok0]
    have hlt0 : s.tc < s.tf := by rw [htc]; exact hlt c le_rfl (by omega)
    have e1 := loop_succ_ok (C := C) rnd pyDiv h storeData freq (fuel + m) (st c) (st (c + 1)) c s hh hlt0 hr
      (hp (c + 1) (by omega) (by omega)) hf
    set s1 : CSState K V Sub := (let s' : CSState K V Sub :=
            { s with tc := rnd (s.tc + h), sub := (C.updateStages (st c) h s.sub).2 }
         if storeData && decide (freq ∣ ((c + 1 : ℕ) : ℤ)) then
            { s' with t := s'.t ++ [s'.tc], u := s'.u ++ [st (c + 1)] } else s') with hs1
    have htc1 : s1.tc = timeAt rnd h t0 (c + 1) := by
      rw [hs1]; simp only []; split <;> simp [timeAt, htc]
    have htf1 : s1.tf = s.tf := by rw [hs1]; simp only []; split <;> rfl
    have hi1 : L.Inv s1.sub (st (c + 1)) := by
      have := L.inv_ok s.sub (st c) h (st (c + 1)) hi hok0
      rw [hs1]; simp only []; split <;> exact this
    have hP1 : P (c + 1) s1.sub := by
      have := hP c s.sub hi hok0 hPc
      rw [hs1]; simp only []; split <;> exact this
    have ht1 : s1.t = s.t ++ (if storeData && decide (freq ∣ ((c + 1 : ℕ) : ℤ)) then [c + 1] else []).map
        (timeAt rnd h t0) := by
      rw [hs1]; simp only []; split <;> simp [timeAt, htc]
    have hu1 : s1.u = s.u ++ (if storeData && decide (freq ∣ ((c + 1 : ℕ) : ℤ)) then [c + 1] else []).map st := by
      rw [hs1]; simp only []; split <;> simp
    obtain ⟨s', h1, h2, h3, h4, h5, h6, h7⟩ := ih fuel (c + 1) s1 hi1 hP1 htc1
      (fun k hk1 hk2 => by rw [htf1]; exact hlt k (by omega) (by omega))
      (fun k hk1 hk2 => hok k (by omega) (by omega))
      (fun k hk1 hk2 => by rw [htf1]; exact hp k (by omega) (by omega))
    refine ⟨s', ?_, ?_, ?_, ?_, ?_, ?_, ?_⟩
    · rw [show c + (m + 1) = c + 1 + m by ring, ← add_assoc fuel m 1, e1, h1]
    · rw [h2]; congr 1; ring
    · rw [h3, htf1]
    · rw [show c + (m + 1) = c + 1 + m by ring]; exact h4
    · rw [h5, ht1, stored_succ, List.map_append, List.append_assoc]
    · rw [h6, hu1, stored_succ, List.map_append, List.append_assoc]
    · rw [show c + (m + 1) = c + 1 + m by ring]; exact h7

/-- Unrolling `m` successful iterations. -/
theorem loop_unroll {Φ : K → V → Except PyErr V} (L : LawfulCS C Φ) (rnd : K → K) (pyDiv : Bool) (h t0 : K)
    (storeData : Bool) (freq : ℤ) (hh : 0 ≤ h) (hf : storeData = true → freq ≠ 0) (st : ℕ → V)
    (m fuel c : ℕ) (s : CSState K V Sub) (hi : L.Inv s.sub (st c)) (htc : s.tc = timeAt rnd h t0 c)
    (h1 : ∀ k, c ≤ k → k < c + m → timeAt rnd h t0 k < s.tf)
    (h2 : ∀ k, c ≤ k → k < c + m → Φ h (st k) = .ok (st (k + 1)))
    (h3 : ∀ k, c < k → k ≤ c + m → ¬ ProgressRaises pyDiv s.tf k) :
      ∃ s' : CSState K V Sub,
        C.loop rnd pyDiv h storeData freq (fuel + m) (st c) c s =
          C.loop rnd pyDiv h storeData freq fuel (st (c + m)) (c + m) s' ∧
        s'.tc = timeAt rnd h t0 (c + m) ∧ s'.tf = s.tf ∧ L.Inv s'.sub (st (c + m)) ∧
        s'.t = s.t ++ (stored storeData freq c m).map (timeAt rnd h t0) ∧
        s'.u = s.u ++ (stored storeData freq c m).map st := by
  obtain ⟨s', a1, a2, a3, a4, a5, a6, -⟩ := loop_unroll_with L rnd pyDiv h t0 storeData freq hh hf st (fun _ _ => True)
    (fun _ _ _ _ _ => trivial) m fuel c s hi trivial htc h1 h2 h3
  exact ⟨s', a1, a2, a3, a4, a5, a6⟩

end CSClass
end Verif
