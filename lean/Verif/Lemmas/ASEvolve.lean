import Verif.Lemmas.AS
import Verif.Lemmas.CSEvolve

/-!
# Generic theorems about adaptive `evolve`
-/

set_option linter.unusedSectionVars false

namespace Verif

variable {K V Sub : Type} [Field K] [LinearOrder K]

/-- Prepend a value to a sequence. -/
def consSeq {α : Type} (a : α) (f : ℕ → α) : ℕ → α
  | 0 => a
  | k + 1 => f k

/-- Offsets `i` such that step `c + 1 + i` is stored, among the next `n` steps. -/
def storedOff (storeData : Bool) (freq : ℤ) (c n : ℕ) : List ℕ :=
  (List.range n).filter fun i => storeData && decide (freq ∣ ((c + 1 + i : ℕ) : ℤ))

theorem storedOff_succ (storeData : Bool) (freq : ℤ) (c n : ℕ) :
    storedOff storeData freq c (n + 1) =
      (if storeData && decide (freq ∣ ((c + 1 : ℕ) : ℤ)) then [0] else []) ++
        (storedOff storeData freq (c + 1) n).map Nat.succ := by
  simp only [storedOff, List.range_succ_eq_map, List.filter_cons, List.filter_map, Function.comp_def, add_zero]
  have : (fun x : ℕ => storeData && decide (freq ∣ ((c + 1 + x.succ : ℕ) : ℤ))) =
      fun x => storeData && decide (freq ∣ ((c + 1 + 1 + x : ℕ) : ℤ)) := by
    funext x; rw [show c + 1 + x.succ = c + 1 + 1 + x by rw [Nat.succ_eq_add_one]; ring]
  rw [this]
  split <;> rfl

theorem storedOff_false (freq : ℤ) (c n : ℕ) : storedOff false freq c n = [] := by simp [storedOff]

theorem start_listsAS {α : Type} (storeData : Bool) (freq : ℤ) (n : ℕ) (g : ℕ → α) (a : α) (ha : g 0 = a) :
    (if storeData then [a] else []) ++ (storedOff storeData freq 0 n).map (fun i => g (i + 1)) =
      if storeData then (storedUpTo freq n).map g else [] := by
  cases storeData
  · simp [storedOff_false]
  · simp [storedUpTo, storedOff, List.range_succ_eq_map, ha, List.filter_map, Function.comp_def, add_comm]

namespace ASClass

variable {C : ASClass K V Sub}

theorem store_apply (storeData : Bool) (freq : ℤ) (count : ℕ) (u : V) (s : ASState K V Sub)
    (hf : storeData = true → freq ≠ 0) :
    store storeData freq count u s =
      (.ok (), if storeData && decide (freq ∣ (count : ℤ)) then
        { s with t := s.t ++ [s.tc], u := s.u ++ [u] } else s) := by
  unfold store
  cases storeData with
  | false => simp
  | true =>
    have : freq ≠ 0 := hf rfl
    simp only [if_true, this, if_false, Bool.true_and]
    by_cases hd : freq ∣ (count : ℤ)
    · simp [hd, Int.emod_eq_zero_of_dvd hd]
    · have : ¬ ((count : ℤ) % freq = 0) := fun h => hd (Int.dvd_of_emod_eq_zero h)
      simp [hd, this]

theorem store_raises (count : ℕ) (u : V) (s : ASState K V Sub) :
    store true 0 count u s = (.error .zeroDivisionError, s) := rfl

open CSClass (ProgressRaises progress_apply progress_raises)

/-- How a run of the `evolve` loop can end, after `n` completed steps. -/
inductive LoopEnd (Φ : K → V → Except PyErr (V × V)) (S : V × V → Ext K) (cfg : SolverConfig K) (rnd : K → K)
    (pyDiv storeData : Bool) (freq : ℤ) (fuel c : ℕ) (tf : K) (n : ℕ) (t : K) (v : V) (h : K) :
    Except PyErr (Option V) → Prop
  | running : n = fuel → LoopEnd Φ S cfg rnd pyDiv storeData freq fuel c tf n t v h (.ok none)
  | returned : n < fuel → ¬ t < tf → LoopEnd Φ S cfg rnd pyDiv storeData freq fuel c tf n t v h (.ok (some v))
  | stepRaised {e : PyErr} : n < fuel → t < tf → 0 ≤ h → StepSpec Φ S cfg rnd v h (.error e) →
      LoopEnd Φ S cfg rnd pyDiv storeData freq fuel c tf n t v h (.error e)
  | negative : n < fuel → t < tf → h < 0 →
      LoopEnd Φ S cfg rnd pyDiv storeData freq fuel c tf n t v h (.error .assertionError)
  | zeroDiv {w : V} {hu hs : K} : n < fuel → t < tf → 0 ≤ h → StepSpec Φ S cfg rnd v h (.ok (w, hu, hs)) →
      (ProgressRaises pyDiv tf (c + n + 1) ∨ (storeData = true ∧ freq = 0)) →
      LoopEnd Φ S cfg rnd pyDiv storeData freq fuel c tf n t v h (.error .zeroDivisionError)

theorem loop_run_with {Φ : K → V → Except PyErr (V × V)} (L : LawfulAS C Φ) (rnd : K → K) (pyDiv : Bool)
    (cfg : SolverConfig K) (storeData : Bool) (freq : ℤ) (P : ℕ → Sub → Bool → ℕ → Prop)
    (hP : ∀ k u h (s s1 : ASState K V Sub) r, L.Ready s.sub s.accept u → P k s.sub s.accept s.trials →
      C.step rnd cfg u h s = (.ok r, s1) → P (k + 1) s1.sub s1.accept s1.trials) :
    ∀ (fuel : ℕ) (u : V) (h : K) (c : ℕ) (s : ASState K V Sub), L.Ready s.sub s.accept u →
      P c s.sub s.accept s.trials →
      ∃ (n : ℕ) (tm : ℕ → K) (st : ℕ → V) (hp hu : ℕ → K),
        tm 0 = s.tc ∧ st 0 = u ∧ hp 0 = h ∧
        AdaptiveRun Φ (C.factor cfg) cfg rnd s.tf n tm st hp hu ∧
        (C.loop rnd pyDiv cfg storeData freq fuel u h c s).2.t =
          s.t ++ (storedOff storeData freq c n).map (fun i => tm (i + 1)) ∧
        (C.loop rnd pyDiv cfg storeData freq fuel u h c s).2.u =
          s.u ++ (storedOff storeData freq c n).map (fun i => st (i + 1)) ∧
        LoopEnd Φ (C.factor cfg) cfg rnd pyDiv storeData freq fuel c s.tf n (tm n) (st n) (hp n)
          (C.loop rnd pyDiv cfg storeData freq fuel u h c s).1 ∧
        (∀ v, (C.loop rnd pyDiv cfg storeData freq fuel u h c s).1 = .ok (some v) →
          (C.loop rnd pyDiv cfg storeData freq fuel u h c s).2.tc = tm n) ∧
        (∀ v, (C.loop rnd pyDiv cfg storeData freq fuel u h c s).1 = .ok (some v) →
          L.Ready (C.loop rnd pyDiv cfg storeData freq fuel u h c s).2.sub
            (C.loop rnd pyDiv cfg storeData freq fuel u h c s).2.accept v ∧
          P (c + n) (C.loop rnd pyDiv cfg storeData freq fuel u h c s).2.sub
            (C.loop rnd pyDiv cfg storeData freq fuel u h c s).2.accept
            (C.loop rnd pyDiv cfg storeData freq fuel u h c s).2.trials) ∧
        (∀ e, (C.loop rnd pyDiv cfg storeData freq fuel u h c s).1 = .error e → e ≠ .zeroDivisionError →
          ∃ s0 : ASState K V Sub, L.Ready s0.sub s0.accept (st n) ∧ P (c + n) s0.sub s0.accept s0.trials ∧
            C.step rnd cfg (st n) (hp n) s0 = (.error e, (C.loop rnd pyDiv cfg storeData freq fuel u h c s).2)) := by
  intro fuel
  induction fuel with
  | zero =>
    intro u h c s hi hPs
    refine ⟨0, fun _ => s.tc, fun _ => u, fun _ => h, fun _ => 0, rfl, rfl, rfl, ⟨by simp, by simp⟩, ?_, ?_, ?_, ?_, ?_, ?_⟩
    · simp [loop, storedOff]
    · simp [loop, storedOff]
    · exact .running rfl
    · simp [loop]
    · simp [loop]
    · simp [loop]
  | succ fuel ih =>
    intro u h c s hi hPs
    by_cases hlt : s.tc < s.tf
    swap
    · have e : C.loop rnd pyDiv cfg storeData freq (fuel + 1) u h c s = (.ok (some u), s) := by
        rw [loop]; simp [hlt]
      refine ⟨0, fun _ => s.tc, fun _ => u, fun _ => h, fun _ => 0, rfl, rfl, rfl, ⟨by simp, by simp⟩, ?_, ?_, ?_, ?_, ?_, ?_⟩
      · simp [e, storedOff]
      · simp [e, storedOff]
      · rw [e]; exact .returned (by omega) hlt
      · simp [e]
      · rw [e]; rintro v ⟨⟩; exact ⟨hi, hPs⟩
      · simp [e]
    by_cases hh : 0 ≤ h
    swap
    · have e : C.loop rnd pyDiv cfg storeData freq (fuel + 1) u h c s = (.error .assertionError, s) := by
        rw [loop]
        simp only [PyM.bind_get_apply, hlt, if_true]
        rw [PyM.bind_error (step_neg rnd cfg u h hh s)]
      refine ⟨0, fun _ => s.tc, fun _ => u, fun _ => h, fun _ => 0, rfl, rfl, rfl, ⟨by simp, by simp⟩, ?_, ?_, ?_, ?_, ?_, ?_⟩
      · simp [e, storedOff]
      · simp [e, storedOff]
      · rw [e]; exact .negative (by omega) hlt (not_le.mp hh)
      · simp [e]
      · simp [e]
      · rw [e]; rintro e' ⟨⟩ _; exact ⟨s, hi, hPs, step_neg rnd cfg u h hh s⟩
    obtain ⟨hspec, hpub, hok, -⟩ := step_spec L rnd cfg u h hh s hi
    obtain ⟨p1, p2, p3, p4⟩ := hpub
    rcases hst : C.step rnd cfg u h s with ⟨res, s1⟩
    rw [hst] at hspec p1 p2 p3 p4 hok
    simp only at hspec p1 p2 p3 p4 hok
    cases res with
    | error e =>
      have e' : C.loop rnd pyDiv cfg storeData freq (fuel + 1) u h c s = (.error e, s1) := by
        rw [loop]
        simp only [PyM.bind_get_apply, hlt, if_true]
        rw [PyM.bind_error hst]
      refine ⟨0, fun _ => s.tc, fun _ => u, fun _ => h, fun _ => 0, rfl, rfl, rfl, ⟨by simp, by simp⟩, ?_, ?_, ?_, ?_, ?_, ?_⟩
      · simp [e', storedOff, p1]
      · simp [e', storedOff, p2]
      · rw [e']; exact .stepRaised (by omega) hlt hh hspec
      · simp [e']
      · simp [e']
      · rw [e']; rintro e'' ⟨⟩ _; exact ⟨s, hi, hPs, hst⟩
    | ok r =>
      obtain ⟨v, hu, hs⟩ := r
      obtain ⟨ha, hready⟩ := hok v hu hs rfl
      by_cases hpr : ProgressRaises pyDiv s.tf (c + 1)
      · have e' : C.loop rnd pyDiv cfg storeData freq (fuel + 1) u h c s =
            (.error .zeroDivisionError, { s1 with tc := rnd (s1.tc + hu) }) := by
          rw [loop]
          simp only [PyM.bind_get_apply, hlt, if_true]
          rw [PyM.bind_ok hst]
          simp only [PyM.bind_modify_apply]
          rw [PyM.bind_error (progress_raises pyDiv (c + 1) s.tf _ hpr)]
        refine ⟨0, fun _ => s.tc, fun _ => u, fun _ => h, fun _ => 0, rfl, rfl, rfl, ⟨by simp, by simp⟩, ?_, ?_, ?_, ?_, ?_, ?_⟩
        · simp [e', storedOff, p1]
        · simp [e', storedOff, p2]
        · rw [e']; exact .zeroDiv (by omega) hlt hh hspec (.inl (by simpa using hpr))
        · simp [e']
        · simp [e']
        · rw [e']; rintro e'' ⟨⟩ hne; exact absurd rfl hne
      by_cases hf : storeData = true ∧ freq = 0
      · have e' : C.loop rnd pyDiv cfg storeData freq (fuel + 1) u h c s =
            (.error .zeroDivisionError, { s1 with tc := rnd (s1.tc + hu) }) := by
          rw [loop]
          simp only [PyM.bind_get_apply, hlt, if_true]
          rw [PyM.bind_ok hst]
          simp only [PyM.bind_modify_apply]
          rw [PyM.bind_ok (progress_apply pyDiv (c + 1) s.tf _ hpr)]
          simp only [PyM.bind_get_apply, hf.1, hf.2]
          rw [PyM.bind_error (store_raises _ _ _)]
        refine ⟨0, fun _ => s.tc, fun _ => u, fun _ => h, fun _ => 0, rfl, rfl, rfl, ⟨by simp, by simp⟩, ?_, ?_, ?_, ?_, ?_, ?_⟩
        · simp [e', storedOff, p1]
        · simp [e', storedOff, p2]
        · rw [e']; exact .zeroDiv (by omega) hlt hh hspec (.inr hf)
        · simp [e']
        · simp [e']
        · rw [e']; rintro e'' ⟨⟩ hne; exact absurd rfl hne
      have hf' : storeData = true → freq ≠ 0 := fun h1 h2 => hf ⟨h1, h2⟩
      set s2 : ASState K V Sub :=
        (if storeData && decide (freq ∣ ((c + 1 : ℕ) : ℤ)) then
          { { s1 with tc := rnd (s1.tc + hu) } with t := s1.t ++ [rnd (s1.tc + hu)], u := s1.u ++ [v] }
         else { s1 with tc := rnd (s1.tc + hu) }) with hs2
      have e' : C.loop rnd pyDiv cfg storeData freq (fuel + 1) u h c s =
          C.loop rnd pyDiv cfg storeData freq fuel v (clip rnd (rnd (s1.tc + hu)) s1.tf hs) (c + 1) s2 := by
        rw [loop]
        simp only [PyM.bind_get_apply, hlt, if_true]
        rw [PyM.bind_ok hst]
        simp only [PyM.bind_modify_apply]
        rw [PyM.bind_ok (progress_apply pyDiv (c + 1) s.tf _ hpr)]
        simp only [PyM.bind_get_apply]
        rw [PyM.bind_ok (store_apply storeData freq (c + 1) v _ hf')]
      have htc2 : s2.tc = rnd (s.tc + hu) := by rw [hs2]; split <;> simp [p4]
      have htf2 : s2.tf = s.tf := by rw [hs2]; split <;> simp [p3]
      have hr2 : L.Ready s2.sub s2.accept v := by
        rw [hs2]; split <;> (simp only [ha]; exact hready)
      have hP2 : P (c + 1) s2.sub s2.accept s2.trials := by
        have := hP c u h s s1 _ hi hPs hst
        rw [hs2]; split <;> exact this
      have ht2 : s2.t = s.t ++ (if storeData && decide (freq ∣ ((c + 1 : ℕ) : ℤ)) then [s2.tc] else []) := by
        rw [htc2, hs2]; split <;> simp [p1, p4]
      have hu2 : s2.u = s.u ++ (if storeData && decide (freq ∣ ((c + 1 : ℕ) : ℤ)) then [v] else []) := by
        rw [hs2]; split <;> simp [p2]
      obtain ⟨n, tm, st, hp, hus, i1, i2, i3, i4, i5, i6, i7, i8, i9, i10⟩ :=
        ih v (clip rnd (rnd (s1.tc + hu)) s1.tf hs) (c + 1) s2 hr2 hP2
      refine ⟨n + 1, consSeq s.tc tm, consSeq u st, consSeq h hp, consSeq hu hus, rfl, rfl, rfl, ?_, ?_, ?_, ?_, ?_, ?_, ?_⟩
      · constructor
        · intro k hk
          cases k with
          | zero => exact hlt
          | succ k => rw [← htf2]; exact i4.before_end k (by omega)
        · intro k hk
          cases k with
          | zero =>
            refine ⟨hh, hs, ?_, ?_, ?_⟩
            · show StepSpec Φ (C.factor cfg) cfg rnd u h (.ok (st 0, hu, hs))
              rw [i2]; exact hspec
            · show tm 0 = rnd (s.tc + hu)
              rw [i1, htc2]
            · show hp 0 = limitTo rnd (tm 0) s.tf hs
              rw [i3, i1, htc2, p3, p4]; rfl
          | succ k =>
            obtain ⟨j1, hs', j2, j3, j4⟩ := i4.step k (by omega)
            refine ⟨j1, hs', j2, j3, ?_⟩
            show hp (k + 1) = limitTo rnd (tm (k + 1)) s.tf hs'
            rw [j4, htf2]
      · rw [e', i5, ht2, storedOff_succ, List.map_append, List.map_map, List.append_assoc, ← i1]
        congr 2
        split <;> rfl
      · rw [e', i6, hu2, storedOff_succ, List.map_append, List.map_map, List.append_assoc, ← i2]
        congr 2
        split <;> rfl
      · rw [e']
        rw [htf2] at i7
        show LoopEnd Φ (C.factor cfg) cfg rnd pyDiv storeData freq (fuel + 1) c s.tf (n + 1) (tm n) (st n) (hp n) _
        generalize (C.loop rnd pyDiv cfg storeData freq fuel v (clip rnd (rnd (s1.tc + hu)) s1.tf hs) (c + 1) s2).1
          = R at i7 ⊢
        cases i7 with
        | running h => exact .running (by omega)
        | returned h1 h2 => exact .returned (by omega) h2
        | stepRaised h1 h2 h3 h4 => exact .stepRaised (by omega) h2 h3 h4
        | negative h1 h2 h3 => exact .negative (by omega) h2 h3
        | zeroDiv h1 h2 h3 h4 h5 =>
          refine .zeroDiv (by omega) h2 h3 h4 ?_
          rw [show c + (n + 1) + 1 = c + 1 + n + 1 by ring]; exact h5
      · intro v' hv'
        rw [e'] at hv' ⊢
        exact i8 v' hv'
      · intro v' hv'
        rw [e'] at hv' ⊢
        rw [show c + (n + 1) = c + 1 + n by ring]
        exact i9 v' hv'
      · intro e'' he''
        rw [e'] at he'' ⊢
        rw [show c + (n + 1) = c + 1 + n by ring]
        exact i10 e'' he''

theorem loop_run {Φ : K → V → Except PyErr (V × V)} (L : LawfulAS C Φ) (rnd : K → K) (pyDiv : Bool)
    (cfg : SolverConfig K) (storeData : Bool) (freq : ℤ) :
    ∀ (fuel : ℕ) (u : V) (h : K) (c : ℕ) (s : ASState K V Sub), L.Ready s.sub s.accept u →
      ∃ (n : ℕ) (tm : ℕ → K) (st : ℕ → V) (hp hu : ℕ → K),
        tm 0 = s.tc ∧ st 0 = u ∧ hp 0 = h ∧
        AdaptiveRun Φ (C.factor cfg) cfg rnd s.tf n tm st hp hu ∧
        (C.loop rnd pyDiv cfg storeData freq fuel u h c s).2.t =
          s.t ++ (storedOff storeData freq c n).map (fun i => tm (i + 1)) ∧
        (C.loop rnd pyDiv cfg storeData freq fuel u h c s).2.u =
          s.u ++ (storedOff storeData freq c n).map (fun i => st (i + 1)) ∧
        LoopEnd Φ (C.factor cfg) cfg rnd pyDiv storeData freq fuel c s.tf n (tm n) (st n) (hp n)
          (C.loop rnd pyDiv cfg storeData freq fuel u h c s).1 ∧
        (∀ v, (C.loop rnd pyDiv cfg storeData freq fuel u h c s).1 = .ok (some v) →
          (C.loop rnd pyDiv cfg storeData freq fuel u h c s).2.tc = tm n) := by
  intro fuel u h c s hi
  obtain ⟨n, tm, st, hp, hu, h1, h2, h3, h4, h5, h6, h7, h8, -⟩ := loop_run_with L rnd pyDiv cfg storeData freq
    (fun _ _ _ _ => True) (by intros; trivial) fuel u h c s hi trivial
  exact ⟨n, tm, st, hp, hu, h1, h2, h3, h4, h5, h6, h7, h8⟩

/-- State in which the loop of `evolve` starts. -/
def start (C : ASClass K V Sub) (u : V) (t0 tf : K) (storeData : Bool) (s : ASState K V Sub) : ASState K V Sub :=
  { t := if storeData then [t0] else [], u := if storeData then [u] else [], tf := tf, tc := t0, accept := false,
    sub := C.reset s.sub, trials := s.trials }

/-- The first proposed step size: the given one, or a hundredth of the interval, limited to the interval. -/
def firstSize (rnd : K → K) (t0 tf : K) (hInit : Option K) : K :=
  limitTo rnd t0 tf (hInit.getD (rnd (rnd (tf - t0) / 100)))

theorem evolve_apply (rnd : K → K) (pyDiv : Bool) (cfg : SolverConfig K) (fuel : ℕ) (u : V) (t0 tf : K)
    (hInit : Option K) (storeData : Bool) (freq : ℤ) (s : ASState K V Sub) :
    C.evolve rnd pyDiv cfg fuel u t0 tf hInit storeData freq s =
      C.loop rnd pyDiv cfg storeData freq fuel u (firstSize rnd t0 tf hInit) 0 (C.start u t0 tf storeData s) := by
  unfold evolve resetM start firstSize
  cases storeData <;> cases hInit <;> simp <;> rfl

/-- Master theorem on adaptive `evolve`: whatever happens, the object holds a prefix of a consistent run. -/
theorem evolve_run {Φ : K → V → Except PyErr (V × V)} (L : LawfulAS C Φ) (rnd : K → K) (pyDiv : Bool)
    (cfg : SolverConfig K) (fuel : ℕ) (u : V) (t0 tf : K) (hInit : Option K) (storeData : Bool) (freq : ℤ)
    (s : ASState K V Sub) :
    ∃ (n : ℕ) (tm : ℕ → K) (st : ℕ → V) (hp hu : ℕ → K),
      tm 0 = t0 ∧ st 0 = u ∧ hp 0 = firstSize rnd t0 tf hInit ∧
      AdaptiveRun Φ (C.factor cfg) cfg rnd tf n tm st hp hu ∧
      (C.evolve rnd pyDiv cfg fuel u t0 tf hInit storeData freq s).2.t =
        (if storeData then (storedUpTo freq n).map tm else []) ∧
      (C.evolve rnd pyDiv cfg fuel u t0 tf hInit storeData freq s).2.u =
        (if storeData then (storedUpTo freq n).map st else []) ∧
      LoopEnd Φ (C.factor cfg) cfg rnd pyDiv storeData freq fuel 0 tf n (tm n) (st n) (hp n)
        (C.evolve rnd pyDiv cfg fuel u t0 tf hInit storeData freq s).1 ∧
      (∀ v, (C.evolve rnd pyDiv cfg fuel u t0 tf hInit storeData freq s).1 = .ok (some v) →
        (C.evolve rnd pyDiv cfg fuel u t0 tf hInit storeData freq s).2.tc = tm n) := by
  rw [evolve_apply]
  obtain ⟨n, tm, st, hp, hu, h1, h2, h3, h4, h5, h6, h7, h8⟩ := loop_run L rnd pyDiv cfg storeData freq fuel u
    (firstSize rnd t0 tf hInit) 0 (C.start u t0 tf storeData s) (L.reset_ready _ _)
  refine ⟨n, tm, st, hp, hu, h1, h2, h3, h4, ?_, ?_, h7, h8⟩
  · rw [h5]; exact start_listsAS _ _ _ _ _ h1
  · rw [h6]; exact start_listsAS _ _ _ _ _ h2

end ASClass

end Verif
