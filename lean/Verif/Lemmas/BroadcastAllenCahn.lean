import Verif.Lemmas.BroadcastShape
import Verif.Lemmas.BroadcastModels

/-!
# Allen–Cahn on arrays with two axes
-/

set_option linter.unusedSectionVars false

namespace Verif

variable {k : ℕ}

/-- The shape of the result of `nl_func`. -/
def acShape (k : ℕ) (s : List ℕ) : Except PyErr (List ℕ) :=
  (joinShape s [k]).bind fun t => (joinShape [k] t).map fun r => [r.prod]

theorem allenCahn_shape (x : Fin (k + 2) → ℝ) (u : NdArr ℂ) :
    RelE (fun y s => y.shape = s) (allenCahnNlNd x u) (acShape k u.shape) := by
  unfold allenCahnNlNd acShape NdArr.elementwise joinShape
  simp only [NdArr.ofVec]
  cases h1 : bcShape u.shape [k] with
  | none => simp [RelE, bind, Except.bind]
  | some t =>
    simp only [bind, Except.bind]
    cases h2 : bcShape [k] t with
    | none => simp [RelE, Except.map]
    | some r => simp [RelE, Except.map, pure, Except.pure, NdArr.ravel, NdArr.size]

theorem joinShape_two (a b p : ℕ) :
    joinShape [a, b] [p] = match bcDim b p with | some c => .ok [a, c] | none => .error .valueError := by
  simp only [joinShape, bcShape, List.reverse_cons, List.reverse_nil, List.nil_append, List.cons_append, bcRev]
  cases bcDim b p <;> simp

theorem joinShape_two' (a b p : ℕ) :
    joinShape [p] [a, b] = match bcDim p b with | some c => .ok [a, c] | none => .error .valueError := by
  simp only [joinShape, bcShape, List.reverse_cons, List.reverse_nil, List.nil_append, List.cons_append, bcRev]
  cases bcDim p b <;> simp

theorem dotShape_one (N p : ℕ) : dotShape N [p] = if p = N then .ok [N] else .error .valueError := rfl

theorem dotShape_two (N a b : ℕ) : dotShape N [a, b] = if a = N then .ok [N, b] else .error .valueError := rfl

/-- A batch that does not fit the grid. -/
theorem acShape_fail {a b : ℕ} (h1 : b ≠ 1) (h2 : b ≠ k) (h3 : k ≠ 1) : acShape k [a, b] = .error .valueError := by
  simp [acShape, joinShape_two, bcDim, h1, h2, h3, Except.bind]

theorem acShape_ok {a b : ℕ} (hb : b = 1 ∨ b = k) : acShape k [a, b] = .ok [a * k] := by
  rcases hb with rfl | rfl
  · by_cases h : k = 1
    · subst h; simp [acShape, joinShape_two, joinShape_two', bcDim, Except.bind, Except.map]
    · simp [acShape, joinShape_two, joinShape_two', bcDim, h, Ne.symm h, Except.bind, Except.map]
  · simp [acShape, joinShape_two, joinShape_two', bcDim, Except.bind, Except.map]

theorem CSSolver.allenCahn_step (m : CSSolver (Fin k)) {L : Mat (Fin k)} (hm : m.op = .full L) (hk : 2 ≤ k) (a b : ℕ) {h : ℝ}
    (hc : m.CoefOk h) :
    m.rprog.aStep ⟨ArrOps.shapes k, (m.env Arith.exact).coefs⟩ (acShape k) h [a, b] = .error .valueError := by
  have hk1 : k ≠ 1 := by omega
  have hk0 : k ≠ 0 := by omega
  by_cases hb : b = 1 ∨ b = k
  · have hs := acShape_ok (a := a) hb
    by_cases ha : a = k
    · subst ha
      have hp : a * a ≠ a := by
        intro h
        have := Nat.le_mul_self a
        nlinarith
      have hp1 : a * a ≠ 1 := by
        intro h
        nlinarith
      have hf := acShape_fail (a := a) (b := a * a) hp1 hp hk1
      rcases m with (L | L) | ⟨cfg, L | L⟩ | ⟨cfg, L | L⟩ <;>
        first
        | (cases hm; done)
        | (unfold RCSProg.aStep; simp only [env]; rw [if_pos hc]
           rcases hb with rfl | rfl <;>
           simp [hs, hf, Except.bind, Except.map, rprog, avals, Exp.evalA, evalA_sub, evalA_neg, ArrOps.shapes, joinShape_self,
             joinShape_nil, joinShape_nil', joinShape_two, joinShape_two', bcDim, dotShape_one, dotShape_two, hp, hp1, hk1, hk0, Ne.symm hp,
             Ne.symm hp1, Ne.symm hk1, IF4.rProgNonDiagonal, ETD4.rProgNonDiagonal, ETD5.rProgNonDiagonal])
    · rcases m with (L | L) | ⟨cfg, L | L⟩ | ⟨cfg, L | L⟩ <;>
        first
        | (cases hm; done)
        | (unfold RCSProg.aStep; simp only [env]; rw [if_pos hc]
           rcases hb with rfl | rfl <;>
           simp [hs, Except.bind, Except.map, rprog, avals, Exp.evalA, evalA_sub, evalA_neg, ArrOps.shapes, joinShape_self,
             joinShape_nil, joinShape_nil', joinShape_two, joinShape_two', bcDim, dotShape_one, dotShape_two, ha, hk1, hk0,
             Ne.symm hk1, IF4.rProgNonDiagonal, ETD4.rProgNonDiagonal, ETD5.rProgNonDiagonal]
           try (split_ifs <;> simp [dotShape_two, ha]))
  · rw [not_or] at hb
    have hf := acShape_fail (a := a) hb.1 hb.2 hk1
    rcases m with (L | L) | ⟨cfg, L | L⟩ | ⟨cfg, L | L⟩ <;>
      first
      | (cases hm; done)
      | (unfold RCSProg.aStep; simp only [env]; rw [if_pos hc]
         simp [hf, Except.bind, Except.map, rprog, avals, IF4.rProgNonDiagonal, ETD4.rProgNonDiagonal, ETD5.rProgNonDiagonal])

theorem ASSolver.allenCahn_trial (m : ASSolver (Fin k)) (hm : ∀ lam, m.op ≠ .diag lam) (hk : 2 ≤ k) (a b : ℕ) {h : ℝ}
    (hc : m.CoefOk h) :
    m.rprog.aTrial ⟨ArrOps.shapes k, (m.env Arith.exact).coefs⟩ checkShape (acShape k) h [a, b] = .error .valueError := by
  have hk1 : k ≠ 1 := by omega
  have hk0 : k ≠ 0 := by omega
  by_cases hb : b = 1 ∨ b = k
  · have hs := acShape_ok (a := a) hb
    by_cases ha : a = k
    · subst ha
      have hp : a * a ≠ a := by
        intro h
        have := Nat.le_mul_self a
        nlinarith
      have hp1 : a * a ≠ 1 := by
        intro h
        nlinarith
      have hf := acShape_fail (a := a) (b := a * a) hp1 hp hk1
      rcases m with (L | L | ⟨l, S, T, hS⟩) | ⟨cfg, L | L | ⟨l, S, T, hS⟩⟩ | ⟨cfg, L | L | ⟨l, S, T, hS⟩⟩ | L <;>
        first
        | exact absurd rfl (hm _)
        | (unfold RASProg.aTrial; simp only [env]; rw [if_pos hc]
           rcases hb with rfl | rfl <;>
           simp [hs, hf, Except.bind, Except.map, rprog, avals, Exp.evalA, evalA_sub, evalA_neg, ArrOps.shapes, joinShape_self,
             joinShape_nil, joinShape_nil', joinShape_two, joinShape_two', bcDim, dotShape_one, dotShape_two, hp, hp1, hk1, hk0, Ne.symm hp,
             Ne.symm hp1, Ne.symm hk1, IF34.rProgNonDiagonal, IF34.rProgDiagonalized, ETD34.rProgNonDiagonal, ETD34.rProgDiagonalized, ETD35.rProgNonDiagonal, ETD35.rProgDiagonalized, RASProg.aload])
    · rcases m with (L | L | ⟨l, S, T, hS⟩) | ⟨cfg, L | L | ⟨l, S, T, hS⟩⟩ | ⟨cfg, L | L | ⟨l, S, T, hS⟩⟩ | L <;>
        first
        | exact absurd rfl (hm _)
        | (unfold RASProg.aTrial; simp only [env]; rw [if_pos hc]
           rcases hb with rfl | rfl <;>
           simp [hs, Except.bind, Except.map, rprog, avals, Exp.evalA, evalA_sub, evalA_neg, ArrOps.shapes, joinShape_self,
             joinShape_nil, joinShape_nil', joinShape_two, joinShape_two', bcDim, dotShape_one, dotShape_two, ha, hk1, hk0,
             Ne.symm hk1, IF34.rProgNonDiagonal, IF34.rProgDiagonalized, ETD34.rProgNonDiagonal, ETD34.rProgDiagonalized, ETD35.rProgNonDiagonal, ETD35.rProgDiagonalized, RASProg.aload]
           all_goals (try (by_cases ha1 : a = 1 <;> simp [ha1, Except.bind, Except.map])))
  · rw [not_or] at hb
    have hf := acShape_fail (a := a) hb.1 hb.2 hk1
    rcases m with (L | L | ⟨l, S, T, hS⟩) | ⟨cfg, L | L | ⟨l, S, T, hS⟩⟩ | ⟨cfg, L | L | ⟨l, S, T, hS⟩⟩ | L <;>
      first
      | exact absurd rfl (hm _)
      | (unfold RASProg.aTrial; simp only [env]; rw [if_pos hc]
         simp [hf, Except.bind, Except.map, rprog, avals, IF34.rProgNonDiagonal, IF34.rProgDiagonalized, ETD34.rProgNonDiagonal, ETD34.rProgDiagonalized, ETD35.rProgNonDiagonal, ETD35.rProgDiagonalized, RASProg.aload])

end Verif
