import Verif.Model.SolverAS
import Verif.Spec.Adaptive
import Verif.Lemmas.CS
import Mathlib.Tactic.Ring
import Mathlib.Tactic.Linarith
import Mathlib.Tactic.Positivity

/-!
# Generic lemmas about adaptive-step solvers
-/

set_option linter.unusedSectionVars false

namespace Verif

variable {K V Sub : Type} [Field K] [LinearOrder K]

/-- Interface law for an adaptive solver class `C` with trial map `Φ`.
`Ready s a u`: subclass state `s` together with the flag `_accept = a` is coherent for a trial from `u`. -/
structure LawfulAS (C : ASClass K V Sub) (Φ : K → V → Except PyErr (V × V)) where
  Ready : Sub → Bool → V → Prop
  CoefOk : K → Prop
  reset_ready : ∀ s u, Ready (C.reset s) false u
  result : ∀ s a u h, Ready s a u → (C.updateStages u h a s).1 = Φ h u
  ready_ok : ∀ s a u h r, Ready s a u → Φ h u = .ok r →
    Ready (C.updateStages u h a s).2 false u ∧ Ready (C.updateStages u h a s).2 true r.1
  ready_err : ∀ s a u h e, Ready s a u → CoefOk h → Φ h u = .error e → Ready (C.updateStages u h a s).2 a u

namespace ASClass

variable {C : ASClass K V Sub}

/-- The error factor of a trial result. -/
def factor (C : ASClass K V Sub) (cfg : SolverConfig K) (r : V × V) : Ext K := C.computeS cfg r.1 r.2

/-- State after one call of `_update_stages`. -/
def afterTrial (C : ASClass K V Sub) (u : V) (h : K) (s : ASState K V Sub) : ASState K V Sub :=
  { s with trials := s.trials + 1, sub := (C.updateStages u h s.accept s.sub).2 }

theorem trial_apply (u : V) (h : K) (s : ASState K V Sub) :
    C.trial u h s = ((C.updateStages u h s.accept s.sub).1, C.afterTrial u h s) := rfl

theorem acceptStepSize_apply (cfg : SolverConfig K) (x h : K) (s : ASState K V Sub) :
    acceptStepSize cfg x h s = (.ok (grow cfg.incr_f x h), { s with accept := true }) := by
  simp only [acceptStepSize, grow, PyM.bind_modify_apply]
  by_cases hc : cfg.incr_f < min x 4
  · simp only [hc, if_true]; rfl
  · simp only [hc, if_false]; rfl

theorem rejectStepSize_apply (cfg : SolverConfig K) (x : Ext K) (h : K) (s : ASState K V Sub) :
    rejectStepSize cfg x h s = (.ok (shrink cfg.decr_f x * h), { s with accept := false }) := by
  cases x <;> rfl

theorem stepLoop_accept (rnd : K → K) (cfg : SolverConfig K) (u : V) (n : ℕ) (h : K) (s : ASState K V Sub)
    (r : V × V) (hr : (C.updateStages u h s.accept s.sub).1 = .ok r) (x : K)
    (hx : C.factor cfg r = .fin x) (h1 : 1 ≤ x) :
    C.stepLoop rnd cfg u n h s =
      (.ok (r.1, h, rnd (grow cfg.incr_f x h)), { C.afterTrial u h s with accept := true }) := by
  rw [stepLoop]
  rw [PyM.bind_ok (by rw [trial_apply, hr])]
  unfold factor at hx
  simp only [hx, not_lt.mpr h1, if_false]
  rw [PyM.bind_ok (acceptStepSize_apply cfg x h _)]
  rfl

theorem stepLoop_error (rnd : K → K) (cfg : SolverConfig K) (u : V) (n : ℕ) (h : K) (s : ASState K V Sub)
    (e : PyErr) (hr : (C.updateStages u h s.accept s.sub).1 = .error e) :
    C.stepLoop rnd cfg u n h s = (.error e, C.afterTrial u h s) := by
  rw [stepLoop]
  rw [PyM.bind_error (by rw [trial_apply, hr])]

theorem stepLoop_reject (rnd : K → K) (cfg : SolverConfig K) (u : V) (n : ℕ) (h : K) (s : ASState K V Sub)
    (r : V × V) (hr : (C.updateStages u h s.accept s.sub).1 = .ok r)
    (hx : ¬ Acceptable (C.factor cfg r)) :
    C.stepLoop rnd cfg u n h s =
      if n + 1 > MAX_LOOPS then (.error .maxLoopsExceeded, { C.afterTrial u h s with accept := false })
      else if rnd (shrink cfg.decr_f (C.factor cfg r) * h) < cfg.minh then
        (.error .minimumStepReached, { C.afterTrial u h s with accept := false })
      else C.stepLoop rnd cfg u (n + 1) (rnd (shrink cfg.decr_f (C.factor cfg r) * h))
        { C.afterTrial u h s with accept := false } := by
  rw [stepLoop]
  rw [PyM.bind_ok (by rw [trial_apply, hr])]
  unfold factor at hx ⊢
  cases hs : C.computeS cfg r.1 r.2 with
  | fin x =>
    have hlt : x < 1 := by
      by_contra hc
      exact hx ⟨x, hs, not_lt.mp hc⟩
    simp only [hlt, if_true]
    rw [PyM.bind_ok (rejectStepSize_apply cfg (.fin x) h _)]
    by_cases h1 : n + 1 > MAX_LOOPS
    · simp [h1]
    · by_cases h2 : rnd (shrink cfg.decr_f (.fin x) * h) < cfg.minh <;> simp [h1, h2]
  | nan =>
    simp only
    rw [PyM.bind_ok (rejectStepSize_apply cfg .nan h _)]
    by_cases h1 : n + 1 > MAX_LOOPS
    · simp [h1]
    · by_cases h2 : rnd (shrink cfg.decr_f .nan * h) < cfg.minh <;> simp [h1, h2]
  | pinf =>
    simp only
    rw [PyM.bind_ok (rejectStepSize_apply cfg .pinf h _)]
    by_cases h1 : n + 1 > MAX_LOOPS
    · simp [h1]
    · by_cases h2 : rnd (shrink cfg.decr_f .pinf * h) < cfg.minh <;> simp [h1, h2]
  | ninf =>
    simp only
    rw [PyM.bind_ok (rejectStepSize_apply cfg .ninf h _)]
    by_cases h1 : n + 1 > MAX_LOOPS
    · simp [h1]
    · by_cases h2 : rnd (shrink cfg.decr_f .ninf * h) < cfg.minh <;> simp [h1, h2]

/-- The public part of the state is untouched by trials. -/
def SamePublic (s s' : ASState K V Sub) : Prop := s'.t = s.t ∧ s'.u = s.u ∧ s'.tf = s.tf ∧ s'.tc = s.tc

/-- Everything about the trial loop. -/
theorem stepLoop_spec {Φ : K → V → Except PyErr (V × V)} (L : LawfulAS C Φ) (rnd : K → K) (cfg : SolverConfig K)
    (u : V) (h0 : K) :
    ∀ (d n : ℕ) (h : K) (s : ASState K V Sub), MAX_LOOPS - n = d → n ≤ MAX_LOOPS →
      L.Ready s.sub s.accept u → RejectsTo Φ (C.factor cfg) cfg rnd u n h0 h →
      StepSpec Φ (C.factor cfg) cfg rnd u h0 (C.stepLoop rnd cfg u n h s).1 ∧
      SamePublic s (C.stepLoop rnd cfg u n h s).2 ∧
      (∀ v hu hs, (C.stepLoop rnd cfg u n h s).1 = .ok (v, hu, hs) →
        (C.stepLoop rnd cfg u n h s).2.accept = true ∧ L.Ready (C.stepLoop rnd cfg u n h s).2.sub true v) ∧
      ((∀ h, L.CoefOk h) → ∀ e, (C.stepLoop rnd cfg u n h s).1 = .error e →
        L.Ready (C.stepLoop rnd cfg u n h s).2.sub (C.stepLoop rnd cfg u n h s).2.accept u) := by
  intro d
  induction d with
  | zero =>
    intro n h s hd hn hi hrej
    have hn50 : n = MAX_LOOPS := by omega
    cases hΦ : Φ h u with
    | error e =>
      have hr : (C.updateStages u h s.accept s.sub).1 = .error e := by rw [L.result _ _ _ _ hi, hΦ]
      rw [stepLoop_error rnd cfg u n h s e hr]
      refine ⟨.raised (j := n) (by simpa [MAX_LOOPS] using hn) hrej hΦ, ⟨rfl, rfl, rfl, rfl⟩, by simp, ?_⟩
      intro hc e' _
      exact L.ready_err _ _ _ _ _ hi (hc h) hΦ
    | ok r =>
      have hr : (C.updateStages u h s.accept s.sub).1 = .ok r := by rw [L.result _ _ _ _ hi, hΦ]
      obtain ⟨hr1, hr2⟩ := L.ready_ok _ _ _ _ _ hi hΦ
      by_cases hacc : Acceptable (C.factor cfg r)
      · obtain ⟨x, hx, h1⟩ := hacc
        rw [stepLoop_accept rnd cfg u n h s r hr x hx h1]
        refine ⟨.accept (j := n) (by simpa [MAX_LOOPS] using hn) hrej hΦ hx h1, ⟨rfl, rfl, rfl, rfl⟩, ?_, by simp⟩
        intro v hu hs heq
        simp only [Except.ok.injEq, Prod.mk.injEq] at heq
        exact ⟨rfl, heq.1 ▸ hr2⟩
      · rw [stepLoop_reject rnd cfg u n h s r hr hacc, if_pos (by omega)]
        refine ⟨.maxLoops (by simpa [hn50, MAX_LOOPS] using hrej) hΦ hacc, ⟨rfl, rfl, rfl, rfl⟩, by simp, ?_⟩
        intro _ _ _
        exact hr1
  | succ d ih =>
    intro n h s hd hn hi hrej
    cases hΦ : Φ h u with
    | error e =>
      have hr : (C.updateStages u h s.accept s.sub).1 = .error e := by rw [L.result _ _ _ _ hi, hΦ]
      rw [stepLoop_error rnd cfg u n h s e hr]
      refine ⟨.raised (j := n) (by simpa [MAX_LOOPS] using hn) hrej hΦ, ⟨rfl, rfl, rfl, rfl⟩, by simp, ?_⟩
      intro hc e' _
      exact L.ready_err _ _ _ _ _ hi (hc h) hΦ
    | ok r =>
      have hr : (C.updateStages u h s.accept s.sub).1 = .ok r := by rw [L.result _ _ _ _ hi, hΦ]
      obtain ⟨hr1, hr2⟩ := L.ready_ok _ _ _ _ _ hi hΦ
      by_cases hacc : Acceptable (C.factor cfg r)
      · obtain ⟨x, hx, h1⟩ := hacc
        rw [stepLoop_accept rnd cfg u n h s r hr x hx h1]
        refine ⟨.accept (j := n) (by simpa [MAX_LOOPS] using hn) hrej hΦ hx h1, ⟨rfl, rfl, rfl, rfl⟩, ?_, by simp⟩
        intro v hu hs heq
        simp only [Except.ok.injEq, Prod.mk.injEq] at heq
        exact ⟨rfl, heq.1 ▸ hr2⟩
      · rw [stepLoop_reject rnd cfg u n h s r hr hacc, if_neg (by omega)]
        by_cases hmin : rnd (shrink cfg.decr_f (C.factor cfg r) * h) < cfg.minh
        · rw [if_pos hmin]
          refine ⟨.minStep (j := n) (by simp [MAX_LOOPS] at hd hn; omega) hrej hΦ hacc hmin,
            ⟨rfl, rfl, rfl, rfl⟩, by simp, ?_⟩
          intro _ _ _
          exact hr1
        · rw [if_neg hmin]
          obtain ⟨i1, i2, i3, i4⟩ := ih (n + 1) (rnd (shrink cfg.decr_f (C.factor cfg r) * h))
            { C.afterTrial u h s with accept := false } (by omega) (by omega) hr1
            (.succ hrej hΦ hacc (not_lt.mp hmin))
          exact ⟨i1, i2, i3, i4⟩

/-- Number of trials made by the loop. -/
theorem stepLoop_trials (rnd : K → K) (cfg : SolverConfig K) (u : V) :
    ∀ (d n : ℕ) (h : K) (s : ASState K V Sub), MAX_LOOPS - n = d → n ≤ MAX_LOOPS →
      (C.stepLoop rnd cfg u n h s).2.trials ≤ s.trials + (d + 1) ∧
      s.trials + 1 ≤ (C.stepLoop rnd cfg u n h s).2.trials := by
  intro d
  induction d with
  | zero =>
    intro n h s hd hn
    cases hr : (C.updateStages u h s.accept s.sub).1 with
    | error e => rw [stepLoop_error rnd cfg u n h s e hr]; simp [afterTrial]
    | ok r =>
      by_cases hacc : Acceptable (C.factor cfg r)
      · obtain ⟨x, hx, h1⟩ := hacc
        rw [stepLoop_accept rnd cfg u n h s r hr x hx h1]; simp [afterTrial]
      · rw [stepLoop_reject rnd cfg u n h s r hr hacc, if_pos (by omega)]; simp [afterTrial]
  | succ d ih =>
    intro n h s hd hn
    cases hr : (C.updateStages u h s.accept s.sub).1 with
    | error e => rw [stepLoop_error rnd cfg u n h s e hr]; simp [afterTrial]
    | ok r =>
      by_cases hacc : Acceptable (C.factor cfg r)
      · obtain ⟨x, hx, h1⟩ := hacc
        rw [stepLoop_accept rnd cfg u n h s r hr x hx h1]; simp [afterTrial]
      · rw [stepLoop_reject rnd cfg u n h s r hr hacc, if_neg (by omega)]
        split_ifs with hmin
        · simp [afterTrial]
        · have := ih (n + 1) (rnd (shrink cfg.decr_f (C.factor cfg r) * h))
            { C.afterTrial u h s with accept := false } (by omega) (by omega)
          simp only [afterTrial] at this ⊢
          omega

theorem step_nonneg (rnd : K → K) (cfg : SolverConfig K) (u : V) (h : K) (hh : 0 ≤ h) (s : ASState K V Sub) :
    C.step rnd cfg u h s = C.stepLoop rnd cfg u 0 h s := by
  simp [step, hh]

theorem step_neg (rnd : K → K) (cfg : SolverConfig K) (u : V) (h : K) (hh : ¬ 0 ≤ h) (s : ASState K V Sub) :
    C.step rnd cfg u h s = (.error .assertionError, s) := by
  simp [step, hh]

theorem step_spec {Φ : K → V → Except PyErr (V × V)} (L : LawfulAS C Φ) (rnd : K → K) (cfg : SolverConfig K)
    (u : V) (h : K) (hh : 0 ≤ h) (s : ASState K V Sub) (hi : L.Ready s.sub s.accept u) :
    StepSpec Φ (C.factor cfg) cfg rnd u h (C.step rnd cfg u h s).1 ∧
    SamePublic s (C.step rnd cfg u h s).2 ∧
    (∀ v hu hs, (C.step rnd cfg u h s).1 = .ok (v, hu, hs) →
      (C.step rnd cfg u h s).2.accept = true ∧ L.Ready (C.step rnd cfg u h s).2.sub true v) ∧
    ((∀ h, L.CoefOk h) → ∀ e, (C.step rnd cfg u h s).1 = .error e →
      L.Ready (C.step rnd cfg u h s).2.sub (C.step rnd cfg u h s).2.accept u) := by
  rw [step_nonneg _ _ _ _ hh]
  exact stepLoop_spec L rnd cfg u h MAX_LOOPS 0 h s rfl (Nat.zero_le _) hi (.zero h)

end ASClass

/-! ### The specification is deterministic -/

section det
variable {Φ : K → V → Except PyErr (V × V)} {S : V × V → Ext K} {cfg : SolverConfig K} {rnd : K → K} {u : V}

theorem RejectsTo.det {j : ℕ} {h a b : K} (h1 : RejectsTo Φ S cfg rnd u j h a)
    (h2 : RejectsTo Φ S cfg rnd u j h b) : a = b := by
  induction h1 generalizing b with
  | zero => cases h2; rfl
  | succ _ hok _ _ ih =>
    cases h2 with
    | succ hr hok' _ _ =>
      have := ih hr
      subst this
      rw [hok] at hok'
      cases hok'
      rfl

/-- A prefix of a sequence of rejections. -/
theorem RejectsTo.prefix {j : ℕ} {h a : K} (h1 : RejectsTo Φ S cfg rnd u j h a) (i : ℕ) (hi : i ≤ j) :
    ∃ b, RejectsTo Φ S cfg rnd u i h b ∧ (i < j → ∃ r, Φ b u = .ok r ∧ ¬ Acceptable (S r) ∧
      cfg.minh ≤ rnd (shrink cfg.decr_f (S r) * b)) := by
  induction h1 with
  | zero =>
    obtain rfl : i = 0 := by omega
    exact ⟨_, .zero _, by simp⟩
  | @succ j h h' r hr hok hacc hmin ih =>
    rcases Nat.lt_or_ge j i with hlt | hle
    · obtain rfl : i = j + 1 := by omega
      exact ⟨_, .succ hr hok hacc hmin, by simp⟩
    · obtain ⟨b, hb, hb'⟩ := ih hle
      refine ⟨b, hb, fun _ => ?_⟩
      rcases Nat.lt_or_ge i j with h1 | h1
      · exact hb' h1
      · obtain rfl : i = j := by omega
        have := hb.det hr
        subst this
        exact ⟨r, hok, hacc, hmin⟩

theorem StepSpec.det {h : K} {r1 r2 : Except PyErr (V × K × K)} (h1 : StepSpec Φ S cfg rnd u h r1)
    (h2 : StepSpec Φ S cfg rnd u h r2) : r1 = r2 := by
  -- every outcome is determined by the first trial at which something other than a plain rejection happens
  have key : ∀ {i j : ℕ} {a b : K}, RejectsTo Φ S cfg rnd u i h a → RejectsTo Φ S cfg rnd u j h b →
      (∀ r, Φ a u = .ok r → Acceptable (S r) ∨ rnd (shrink cfg.decr_f (S r) * a) < cfg.minh) → j ≤ i := by
    intro i j a b hi hj ha
    by_contra hlt
    obtain ⟨b', hb', hb''⟩ := hj.prefix i (by omega)
    obtain rfl := hi.det hb'
    obtain ⟨r, hr, hna, hm⟩ := hb'' (by omega)
    rcases ha r hr with h | h
    · exact hna h
    · exact absurd hm (not_le.mpr h)
  have bound : ∀ {j : ℕ} {b : K}, RejectsTo Φ S cfg rnd u j h b → True := fun _ => trivial
  cases h1 with
  | @accept i a x r hi50 hi hok hx hx1 =>
    have stop1 : ∀ r', Φ a u = .ok r' → Acceptable (S r') ∨ rnd (shrink cfg.decr_f (S r') * a) < cfg.minh := by
      intro r' h'; rw [hok] at h'; cases h'; exact .inl ⟨x, hx, hx1⟩
    cases h2 with
    | @accept j b y r' hj50 hj hok' hy hy1 =>
      have h1 := key hi hj stop1
      have h2 := key hj hi (by intro r'' h'; rw [hok'] at h'; cases h'; exact .inl ⟨y, hy, hy1⟩)
      obtain rfl : i = j := by omega
      obtain rfl := hi.det hj
      rw [hok] at hok'; cases hok'
      rw [hx] at hy; cases hy; rfl
    | @minStep j b r' hj50 hj hok' hna hm =>
      have h1 := key hi hj stop1
      have h2 := key hj hi (by intro r'' h'; rw [hok'] at h'; cases h'; exact .inr hm)
      obtain rfl : i = j := by omega
      obtain rfl := hi.det hj
      rw [hok] at hok'; cases hok'
      exact absurd ⟨x, hx, hx1⟩ hna
    | @maxLoops b r' hj hok' hna =>
      have h1 := key hi hj stop1
      obtain rfl : i = 50 := by omega
      obtain rfl := hi.det hj
      rw [hok] at hok'; cases hok'
      exact absurd ⟨x, hx, hx1⟩ hna
    | @raised j b e hj50 hj he =>
      have h1 := key hi hj stop1
      have h2 := key hj hi (by intro r'' h'; rw [he] at h'; cases h')
      obtain rfl : i = j := by omega
      obtain rfl := hi.det hj
      rw [hok] at he; cases he
  | @minStep i a r hi50 hi hok hna hm =>
    have stop1 : ∀ r', Φ a u = .ok r' → Acceptable (S r') ∨ rnd (shrink cfg.decr_f (S r') * a) < cfg.minh := by
      intro r' h'; rw [hok] at h'; cases h'; exact .inr hm
    cases h2 with
    | @accept j b y r' hj50 hj hok' hy hy1 =>
      have h1 := key hi hj stop1
      have h2 := key hj hi (by intro r'' h'; rw [hok'] at h'; cases h'; exact .inl ⟨y, hy, hy1⟩)
      obtain rfl : i = j := by omega
      obtain rfl := hi.det hj
      rw [hok] at hok'; cases hok'
      exact absurd ⟨y, hy, hy1⟩ hna
    | minStep => rfl
    | @maxLoops b r' hj hok' hna' =>
      have h1 := key hi hj stop1
      omega
    | @raised j b e hj50 hj he =>
      have h1 := key hi hj stop1
      have h2 := key hj hi (by intro r'' h'; rw [he] at h'; cases h')
      obtain rfl : i = j := by omega
      obtain rfl := hi.det hj
      rw [hok] at he; cases he
  | @maxLoops a r hi hok hna =>
    cases h2 with
    | @accept j b y r' hj50 hj hok' hy hy1 =>
      have h2 := key hj hi (by intro r'' h'; rw [hok'] at h'; cases h'; exact .inl ⟨y, hy, hy1⟩)
      obtain rfl : j = 50 := by omega
      obtain rfl := hi.det hj
      rw [hok] at hok'; cases hok'
      exact absurd ⟨y, hy, hy1⟩ hna
    | @minStep j b r' hj50 hj hok' hna' hm =>
      have h2 := key hj hi (by intro r'' h'; rw [hok'] at h'; cases h'; exact .inr hm)
      omega
    | maxLoops => rfl
    | @raised j b e hj50 hj he =>
      have h2 := key hj hi (by intro r'' h'; rw [he] at h'; cases h')
      obtain rfl : j = 50 := by omega
      obtain rfl := hi.det hj
      rw [hok] at he; cases he
  | @raised i a e hi50 hi he =>
    have stop1 : ∀ r', Φ a u = .ok r' → Acceptable (S r') ∨ rnd (shrink cfg.decr_f (S r') * a) < cfg.minh := by
      intro r' h'; rw [he] at h'; cases h'
    cases h2 with
    | @accept j b y r' hj50 hj hok' hy hy1 =>
      have h1 := key hi hj stop1
      have h2 := key hj hi (by intro r'' h'; rw [hok'] at h'; cases h'; exact .inl ⟨y, hy, hy1⟩)
      obtain rfl : i = j := by omega
      obtain rfl := hi.det hj
      rw [he] at hok'; cases hok'
    | @minStep j b r' hj50 hj hok' hna hm =>
      have h1 := key hi hj stop1
      have h2 := key hj hi (by intro r'' h'; rw [hok'] at h'; cases h'; exact .inr hm)
      obtain rfl : i = j := by omega
      obtain rfl := hi.det hj
      rw [he] at hok'; cases hok'
    | @maxLoops b r' hj hok' hna =>
      have h1 := key hi hj stop1
      obtain rfl : i = 50 := by omega
      obtain rfl := hi.det hj
      rw [he] at hok'; cases hok'
    | @raised j b e' hj50 hj he' =>
      have h1 := key hi hj stop1
      have h2 := key hj hi (by intro r'' h'; rw [he'] at h'; cases h')
      obtain rfl : i = j := by omega
      obtain rfl := hi.det hj
      rw [he] at he'; cases he'; rfl

end det

end Verif
