import Verif.Lemmas.RawAS

/-!
# The trial loop under a predicate that involves the size of the next trial
-/

set_option linter.unusedSectionVars false

namespace Verif

namespace ASClass

variable {K V Sub : Type} [Field K] [LinearOrder K] {C : ASClass K V Sub}

/-- The trial loop computes what the specification says for a trial map `Φ`, and ends in the state after some trial. -/
theorem stepLoop_sized {Φ : K → V → Except PyErr (V × V)} (P : Sub → Bool → K → Prop) (rnd : K → K)
    (cfg : SolverConfig K) (u : V) (hres : ∀ s a k, P s a k → (C.updateStages u k a s).1 = Φ k u)
    (hok : ∀ s a k r, P s a k → Φ k u = .ok r → ¬ Acceptable (C.factor cfg r) →
      P (C.updateStages u k a s).2 false (rnd (shrink cfg.decr_f (C.factor cfg r) * k))) (h0 : K) :
    ∀ (d n : ℕ) (h : K) (s : ASState K V Sub), MAX_LOOPS - n = d → n ≤ MAX_LOOPS →
      P s.sub s.accept h → RejectsTo Φ (C.factor cfg) cfg rnd u n h0 h →
      StepSpec Φ (C.factor cfg) cfg rnd u h0 (C.stepLoop rnd cfg u n h s).1 ∧
      ∃ k a s0, P s0 a k ∧ (C.stepLoop rnd cfg u n h s).2.sub = (C.updateStages u k a s0).2 ∧
        ((∃ r, Φ k u = .ok r ∧
          ((∃ v, (C.stepLoop rnd cfg u n h s).1 = .ok (r.1, k, v)) ∧ (C.stepLoop rnd cfg u n h s).2.accept = true ∨
           (∃ e, (C.stepLoop rnd cfg u n h s).1 = .error e) ∧ (C.stepLoop rnd cfg u n h s).2.accept = false)) ∨
         (∃ e, Φ k u = .error e ∧ (C.stepLoop rnd cfg u n h s).1 = .error e ∧
           (C.stepLoop rnd cfg u n h s).2.accept = a)) := by
  intro d
  induction d with
  | zero =>
    intro n h s hd hn hi hrej
    have hn50 : n = MAX_LOOPS := by omega
    have hr := hres _ _ h hi
    cases hΦ : Φ h u with
    | error e =>
      rw [hΦ] at hr
      rw [stepLoop_error rnd cfg u n h s e hr]
      exact ⟨.raised (j := n) (by simpa [MAX_LOOPS] using hn) hrej hΦ, h, s.accept, s.sub, hi, rfl,
        .inr ⟨e, hΦ, rfl, rfl⟩⟩
    | ok r =>
      rw [hΦ] at hr
      by_cases hacc : Acceptable (C.factor cfg r)
      · obtain ⟨x, hx, h1⟩ := hacc
        rw [stepLoop_accept rnd cfg u n h s r hr x hx h1]
        exact ⟨.accept (j := n) (by simpa [MAX_LOOPS] using hn) hrej hΦ hx h1, h, s.accept, s.sub, hi, rfl,
          .inl ⟨r, hΦ, .inl ⟨⟨_, rfl⟩, rfl⟩⟩⟩
      · rw [stepLoop_reject rnd cfg u n h s r hr hacc, if_pos (by omega)]
        exact ⟨.maxLoops (by simpa [hn50, MAX_LOOPS] using hrej) hΦ hacc, h, s.accept, s.sub, hi, rfl,
          .inl ⟨r, hΦ, .inr ⟨⟨_, rfl⟩, rfl⟩⟩⟩
  | succ d ih =>
    intro n h s hd hn hi hrej
    have hr := hres _ _ h hi
    cases hΦ : Φ h u with
    | error e =>
      rw [hΦ] at hr
      rw [stepLoop_error rnd cfg u n h s e hr]
      exact ⟨.raised (j := n) (by simpa [MAX_LOOPS] using hn) hrej hΦ, h, s.accept, s.sub, hi, rfl,
        .inr ⟨e, hΦ, rfl, rfl⟩⟩
    | ok r =>
      rw [hΦ] at hr
      by_cases hacc : Acceptable (C.factor cfg r)
      · obtain ⟨x, hx, h1⟩ := hacc
        rw [stepLoop_accept rnd cfg u n h s r hr x hx h1]
        exact ⟨.accept (j := n) (by simpa [MAX_LOOPS] using hn) hrej hΦ hx h1, h, s.accept, s.sub, hi, rfl,
          .inl ⟨r, hΦ, .inl ⟨⟨_, rfl⟩, rfl⟩⟩⟩
      · rw [stepLoop_reject rnd cfg u n h s r hr hacc, if_neg (by omega)]
        by_cases hmin : rnd (shrink cfg.decr_f (C.factor cfg r) * h) < cfg.minh
        · rw [if_pos hmin]
          exact ⟨.minStep (j := n) (by simp [MAX_LOOPS] at hd hn; omega) hrej hΦ hacc hmin, h, s.accept, s.sub, hi, rfl,
            .inl ⟨r, hΦ, .inr ⟨⟨_, rfl⟩, rfl⟩⟩⟩
        · rw [if_neg hmin]
          exact ih (n + 1) (rnd (shrink cfg.decr_f (C.factor cfg r) * h))
            { C.afterTrial u h s with accept := false } (by omega) (by omega) (hok _ _ _ _ hi hΦ hacc)
            (.succ hrej hΦ hacc (not_lt.mp hmin))

end ASClass

end Verif
