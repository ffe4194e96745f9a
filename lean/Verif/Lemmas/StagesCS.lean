import Verif.Lemmas.WrapCS
import Verif.Lemmas.Expm

/-!
# Stage code of constant-step strategies implements the specified method
-/

set_option linter.unusedSectionVars false

namespace Verif

open Matrix

variable {ι : Type} [Fintype ι] [DecidableEq ι] {Coef : Type}

/-- Effect of a call on the strategy state. -/
def CSMethod.tick (s : CSMethod Coef ι) : CSMethod Coef ι := { s with evals := s.evals + 1 }

theorem CSMethod.tick_iterate (s : CSMethod Coef ι) (j : ℕ) :
    CSMethod.tick^[j] s = { s with evals := s.evals + j } := by
  induction j generalizing s with
  | zero => rfl
  | succ j ih => rw [Function.iterate_succ_apply, ih]; simp [CSMethod.tick]; omega

theorem CSMethod.call_eq (nl : NlFunc ι) (x : Vec ι) (s : CSMethod Coef ι) :
    CSMethod.call nl x s = (nl x, CSMethod.tick s) := rfl

/-- The last stage of `M` (stage `s - 1`) is evaluated at the new solution. -/
structure IsFSAL (M : ERK ι) (k : ℕ) : Prop where
  s_eq : M.s = k + 1
  first : M.E 0 = 1
  Eout : M.Eout = M.E k
  B : ∀ j, j < k → M.B j = M.A k j
  Blast : M.B k = 0

theorem cs_stages4 {nl : NlFunc ι} {M : ERK ι} (hM : IsFSAL M 4) {u n1 : Vec ι}
    (f1 : Vec ι) (f2 : Vec ι → Vec ι) (f3 : Vec ι → Vec ι → Vec ι) (f4 : Vec ι → Vec ι → Vec ι → Vec ι)
    (e1 : f1 = M.E 1 *ᵥ u + M.A 1 0 *ᵥ n1)
    (e2 : ∀ a, f2 a = M.E 2 *ᵥ u + (M.A 2 0 *ᵥ n1 + M.A 2 1 *ᵥ a))
    (e3 : ∀ a b, f3 a b = M.E 3 *ᵥ u + (M.A 3 0 *ᵥ n1 + M.A 3 1 *ᵥ a + M.A 3 2 *ᵥ b))
    (e4 : ∀ a b c, f4 a b c = M.E 4 *ᵥ u + (M.A 4 0 *ᵥ n1 + M.A 4 1 *ᵥ a + M.A 4 2 *ᵥ b + M.A 4 3 *ᵥ c))
    (s : CSMethod Coef ι) (prog : PyM (CSMethod Coef ι) (Vec ι))
    (hprog : prog s = (do
      let a ← CSMethod.call nl f1
      let b ← CSMethod.call nl (f2 a)
      let c ← CSMethod.call nl (f3 a b)
      let d ← CSMethod.call nl (f4 a b c)
      PyM.modify fun s => { s with NL1 := d }
      pure (f4 a b c) : PyM (CSMethod Coef ι) (Vec ι)) s) :
    (∀ r, M.stepFrom nl n1 u = .ok r → ∃ n, prog s = (.ok r.1, ⟨s.coef, n, s.evals + 4⟩) ∧ nl r.1 = .ok n) ∧
    (∀ e, M.stepFrom nl n1 u = .error e → ∃ j, j ≤ 4 ∧ prog s = (.error e, { s with evals := s.evals + j })) := by
  obtain rfl : f2 = _ := funext e2
  obtain rfl : f3 = _ := funext fun a => funext (e3 a)
  obtain rfl : f4 = _ := funext fun a => funext fun b => funext (e4 a b)
  subst e1
  have h5 := M.stages_five nl u n1
  obtain ⟨c1, c2⟩ := call4 (CSMethod.call_eq (Coef := Coef) nl) _ _ _ _
    (fun a b c d => (do PyM.modify fun s => { s with NL1 := d }
                        pure (M.E 4 *ᵥ u + (M.A 4 0 *ᵥ n1 + M.A 4 1 *ᵥ a + M.A 4 2 *ᵥ b + M.A 4 3 *ᵥ c)) :
      PyM (CSMethod Coef ι) (Vec ι))) s
  rw [hprog]
  unfold ERK.stepFrom
  rw [hM.s_eq, h5]
  constructor
  · intro r hr
    split at hr
    · simp at hr
    rename_i N hN
    split at hN
    · simp at hN
    rename_i a b c d hch
    simp only [Except.ok.injEq] at hN hr
    subst hN hr
    have hlast := chain4_last hch
    rw [c1 a b c d hch]
    refine ⟨d, ?_, ?_⟩
    · simp [CSMethod.tick_iterate, ERK.out, hM.s_eq, Finset.sum_range_succ, hM.Eout, hM.B, hM.Blast]
    · rw [← hlast]
      congr 1
      simp [ERK.out, hM.s_eq, Finset.sum_range_succ, hM.Eout, hM.B, hM.Blast]
  · intro e he
    split at he
    · rename_i e' hN
      split at hN
      · rename_i e'' hch
        simp only [Except.error.injEq] at hN he
        subst hN he
        obtain ⟨j, -, j2, j3⟩ := c2 _ hch
        exact ⟨j, j2, by rw [j3, CSMethod.tick_iterate]⟩
      · simp at hN
    · simp at he

theorem cs_stages6 {nl : NlFunc ι} {M : ERK ι} (hM : IsFSAL M 6) {u n1 : Vec ι}
    (f1 : Vec ι) (f2 : Vec ι → Vec ι) (f3 : Vec ι → Vec ι → Vec ι) (f4 : Vec ι → Vec ι → Vec ι → Vec ι)
    (f5 : Vec ι → Vec ι → Vec ι → Vec ι → Vec ι) (f6 : Vec ι → Vec ι → Vec ι → Vec ι → Vec ι → Vec ι)
    (e1 : f1 = M.E 1 *ᵥ u + M.A 1 0 *ᵥ n1)
    (e2 : ∀ a, f2 a = M.E 2 *ᵥ u + (M.A 2 0 *ᵥ n1 + M.A 2 1 *ᵥ a))
    (e3 : ∀ a b, f3 a b = M.E 3 *ᵥ u + (M.A 3 0 *ᵥ n1 + M.A 3 1 *ᵥ a + M.A 3 2 *ᵥ b))
    (e4 : ∀ a b c, f4 a b c = M.E 4 *ᵥ u + (M.A 4 0 *ᵥ n1 + M.A 4 1 *ᵥ a + M.A 4 2 *ᵥ b + M.A 4 3 *ᵥ c))
    (e5 : ∀ a b c d, f5 a b c d = M.E 5 *ᵥ u +
      (M.A 5 0 *ᵥ n1 + M.A 5 1 *ᵥ a + M.A 5 2 *ᵥ b + M.A 5 3 *ᵥ c + M.A 5 4 *ᵥ d))
    (e6 : ∀ a b c d x, f6 a b c d x = M.E 6 *ᵥ u +
      (M.A 6 0 *ᵥ n1 + M.A 6 1 *ᵥ a + M.A 6 2 *ᵥ b + M.A 6 3 *ᵥ c + M.A 6 4 *ᵥ d + M.A 6 5 *ᵥ x))
    (s : CSMethod Coef ι) (prog : PyM (CSMethod Coef ι) (Vec ι))
    (hprog : prog s = (do
      let a ← CSMethod.call nl f1
      let b ← CSMethod.call nl (f2 a)
      let c ← CSMethod.call nl (f3 a b)
      let d ← CSMethod.call nl (f4 a b c)
      let x ← CSMethod.call nl (f5 a b c d)
      let y ← CSMethod.call nl (f6 a b c d x)
      PyM.modify fun s => { s with NL1 := y }
      pure (f6 a b c d x) : PyM (CSMethod Coef ι) (Vec ι)) s) :
    (∀ r, M.stepFrom nl n1 u = .ok r → ∃ n, prog s = (.ok r.1, ⟨s.coef, n, s.evals + 6⟩) ∧ nl r.1 = .ok n) ∧
    (∀ e, M.stepFrom nl n1 u = .error e → ∃ j, j ≤ 6 ∧ prog s = (.error e, { s with evals := s.evals + j })) := by
  obtain rfl : f2 = _ := funext e2
  obtain rfl : f3 = _ := funext fun a => funext (e3 a)
  obtain rfl : f4 = _ := funext fun a => funext fun b => funext (e4 a b)
  obtain rfl : f5 = _ := funext fun a => funext fun b => funext fun c => funext (e5 a b c)
  obtain rfl : f6 = _ := funext fun a => funext fun b => funext fun c => funext fun d => funext (e6 a b c d)
  subst e1
  have h5 := M.stages_seven nl u n1
  obtain ⟨c1, c2⟩ := call6 (CSMethod.call_eq (Coef := Coef) nl) _ _ _ _ _ _
    (fun a b c d x y => (do PyM.modify fun s => { s with NL1 := y }
                            pure (M.E 6 *ᵥ u + (M.A 6 0 *ᵥ n1 + M.A 6 1 *ᵥ a + M.A 6 2 *ᵥ b + M.A 6 3 *ᵥ c +
                              M.A 6 4 *ᵥ d + M.A 6 5 *ᵥ x)) :
      PyM (CSMethod Coef ι) (Vec ι))) s
  rw [hprog]
  unfold ERK.stepFrom
  rw [hM.s_eq, h5]
  constructor
  · intro r hr
    split at hr
    · simp at hr
    rename_i N hN
    split at hN
    · simp at hN
    rename_i a b c d x y hch
    simp only [Except.ok.injEq] at hN hr
    subst hN hr
    have hlast := chain6_last hch
    rw [c1 a b c d x y hch]
    refine ⟨y, ?_, ?_⟩
    · simp [CSMethod.tick_iterate, ERK.out, hM.s_eq, Finset.sum_range_succ, hM.Eout, hM.B, hM.Blast]
    · rw [← hlast]
      congr 1
      simp [ERK.out, hM.s_eq, Finset.sum_range_succ, hM.Eout, hM.B, hM.Blast]
  · intro e he
    split at he
    · rename_i e' hN
      split at hN
      · rename_i e'' hch
        simp only [Except.error.injEq] at hN he
        subst hN he
        obtain ⟨j, -, j2, j3⟩ := c2 _ hch
        exact ⟨j, j2, by rw [j3, CSMethod.tick_iterate]⟩
      · simp at hN
    · simp at he

end Verif
