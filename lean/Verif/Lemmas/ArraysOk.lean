import Verif.Lemmas.ArraysLaw

/-!
# After an accepted step the adaptive programs hold what `n1_init` would compute
-/

set_option linter.unusedSectionVars false

namespace Verif

open Attr

variable {ι A Coef : Type}

theorem astage_value (O : ArrOps ι A) (c : Coef) (h : ℝ) (nl : A → Except PyErr A) (pre post : List (RInstr Coef ι)) {n : Attr}
    (hn : k ≠ n) (h1 : k ∉ post.map RInstr.target) (h2 : n ∉ post.map RInstr.target) {x y : Attr → A}
    (hy : avals O c h nl (pre ++ RInstr.call n k :: post) x = .ok y) : nl (y k) = .ok (y n) := by
  rw [avals_append] at hy
  cases hz : avals O c h nl pre x with
  | error e => simp [hz, Except.bind] at hy
  | ok z =>
    simp only [hz, Except.bind, avals] at hy
    cases hv : nl (z k) with
    | error e => simp [hv] at hy
    | ok v =>
      simp only [hv] at hy
      rw [avals_frame O c h nl post h1 hy, avals_frame O c h nl post h2 hy, Function.update_self, Function.update_of_ne hn]
      exact hv

theorem astage_value_eig (O : ArrOps ι A) (c : Coef) (h : ℝ) (nl : A → Except PyErr A) (S Sinv : Mat ι)
    (pre post : List (RInstr Coef ι)) {n : Attr} (hn : k ≠ n) (hn' : tmp ≠ n) (h1 : k ∉ post.map RInstr.target)
    (h2 : n ∉ post.map RInstr.target) {x y : Attr → A}
    (hy : avals O c h nl (pre ++ RInstr.set tmp (.fix S (.var k)) :: .call tmp tmp :: .set n (.fix Sinv (.var tmp)) :: post ++
      [RInstr.set tmp (.fix S (.var k))]) x = .ok y) :
    ∃ w, nl (y tmp) = .ok w ∧ O.dot Sinv w = .ok (y n) := by
  rw [avals_append, avals_append] at hy
  cases hz : avals O c h nl pre x with
  | error e => simp [hz, Except.bind] at hy
  | ok z =>
    simp only [hz, Except.bind, avals, Exp.evalA, Function.update_self] at hy
    cases hw : O.dot S (z k) with
    | error e => simp [hw] at hy
    | ok w =>
    simp only [hw, Function.update_self] at hy
    cases hv : nl w with
    | error e => simp [hv] at hy
    | ok v =>
      simp only [hv, Function.update_self] at hy
      cases hd : O.dot Sinv v with
      | error e => simp [hd] at hy
      | ok d =>
      simp only [hd] at hy
      split at hy
      · simp at hy
      · rename_i y' hy'
        have e1 : y' k = z k := by
          rw [avals_frame O c h nl post h1 hy', Function.update_of_ne hn, Function.update_of_ne (by decide),
            Function.update_of_ne (by decide)]
        rw [e1, hw] at hy
        obtain rfl : Function.update y' tmp w = y := by simpa using hy
        refine ⟨v, ?_, ?_⟩
        · rw [Function.update_self]; exact hv
        · rw [Function.update_of_ne hn'.symm, avals_frame O c h nl post h2 hy', Function.update_self]; exact hd

theorem anext_of_stage {P : RASProg Coef ι} {n : Attr} (h1 : P.init = [.call NL1 u]) (h2 : P.accepted = [.set NL1 (.var n)])
    (h3 : P.live = [NL1]) (hn : n ≠ u) (O : ArrOps ι A) (nl : A → Except PyErr A) (y : Attr → A) (hy : nl (y P.out) = .ok (y n)) :
    AOutEq (u :: P.live) (avals O () 0 nl P.accepted (Function.update y u (y P.out))) (P.aload O nl (y P.out)) := by
  unfold RASProg.aload
  rw [h1, h2, h3]
  simp only [avals, Exp.evalA, Function.update_self, hy, AOutEq, Function.update_of_ne hn]
  intro a ha
  fin_cases ha <;> simp

theorem anext_of_stage_eig {P : RASProg Coef ι} {n : Attr} {Sinv : Mat ι}
    (h1 : P.init = [.call tmp u, .set NL1 (.fix Sinv (.var tmp)), .set v (.fix Sinv (.var u))])
    (h2 : P.accepted = [.set NL1 (.var n), .set v (.fix Sinv (.var u))])
    (h3 : P.live = [NL1, v]) (hn : n ≠ u) (O : ArrOps ι A) (nl : A → Except PyErr A) (y : Attr → A)
    (hy : ∃ w, nl (y P.out) = .ok w ∧ O.dot Sinv w = .ok (y n)) :
    AOutEq (u :: P.live) (avals O () 0 nl P.accepted (Function.update y u (y P.out))) (P.aload O nl (y P.out)) := by
  obtain ⟨w, hw, hy⟩ := hy
  unfold RASProg.aload
  rw [h1, h2, h3]
  simp only [avals, Exp.evalA, Function.update_self, hw, AOutEq, Function.update_of_ne hn, hy, Except.bind,
    Function.update_of_ne (show u ≠ NL1 by decide), Function.update_of_ne (show u ≠ tmp by decide)]
  cases O.dot Sinv (y P.out) with
  | error e => rfl
  | ok d =>
    intro a ha
    fin_cases ha <;> simp

theorem anext_of_init {P : RASProg Coef ι} (h1 : P.accepted = P.init) (h2 : ReadsOnly [u] P.init)
    (h3 : ∀ a ∈ P.live, a ∈ P.init.map RInstr.target) (O : ArrOps ι A) (nl : A → Except PyErr A) (y : Attr → A) :
    AOutEq (u :: P.live) (avals O () 0 nl P.accepted (Function.update y u (y P.out))) (P.aload O nl (y P.out)) := by
  rw [h1]
  refine (avals_congr O () 0 nl P.init [u] h2 (y := fun _ => y P.out) ?_).mono ?_
  · intro a ha
    obtain rfl : a = u := by simpa using ha
    simp
  · intro a ha
    rcases List.mem_cons.mp ha with rfl | ha
    · simp
    · exact List.mem_append.mpr (.inl (h3 a ha))

section
variable [Fintype ι] [DecidableEq ι]

theorem ASSolver.rprog_next (A : Type) (m : ASSolver ι) : m.rprog.ANext A := by
  rcases m with (L | L | ⟨l, S, T, hS⟩) | ⟨cfg, L | L | ⟨l, S, T, hS⟩⟩ | ⟨cfg, L | L | ⟨l, S, T, hS⟩⟩ | L
  · exact fun O c h nl x y hy => anext_of_stage (n := NL5) rfl rfl rfl (by decide) O nl y
      (astage_value O c h nl ((IF34.rProgDiagonal (ι := ι)).stages.take 7) ((IF34.rProgDiagonal (ι := ι)).stages.drop 8) (by decide)
        (of_decide_eq_true rfl) (of_decide_eq_true rfl) hy)
  · exact fun O c h nl x y hy => anext_of_stage (n := NL5) rfl rfl rfl (by decide) O nl y
      (astage_value O c h nl ((IF34.rProgNonDiagonal (ι := ι)).stages.take 7) ((IF34.rProgNonDiagonal (ι := ι)).stages.drop 8)
        (by decide) (of_decide_eq_true rfl) (of_decide_eq_true rfl) hy)
  · exact fun O c h nl x y hy => anext_of_stage_eig (n := NL5) rfl rfl rfl (by decide) O nl y
      (astage_value_eig O c h nl S T ((IF34.rProgDiagonalized S T).stages.take 13)
        [(IF34.rProgDiagonalized S T).stages[16]'(of_decide_eq_true rfl)]
        (by decide) (by decide) (of_decide_eq_true rfl) (of_decide_eq_true rfl) hy)
  · exact fun O c h nl x y hy => anext_of_stage (n := NL5) rfl rfl rfl (by decide) O nl y
      (astage_value O c h nl ((ETD34.rProgDiagonal (ι := ι)).stages.take 7) ((ETD34.rProgDiagonal (ι := ι)).stages.drop 8)
        (by decide) (of_decide_eq_true rfl) (of_decide_eq_true rfl) hy)
  · exact fun O c h nl x y hy => anext_of_stage (n := NL5) rfl rfl rfl (by decide) O nl y
      (astage_value O c h nl ((ETD34.rProgNonDiagonal (ι := ι)).stages.take 7) ((ETD34.rProgNonDiagonal (ι := ι)).stages.drop 8)
        (by decide) (of_decide_eq_true rfl) (of_decide_eq_true rfl) hy)
  · exact fun O c h nl x y hy => anext_of_stage_eig (n := NL5) rfl rfl rfl (by decide) O nl y
      (astage_value_eig O c h nl S T ((ETD34.rProgDiagonalized S T).stages.take 13)
        [(ETD34.rProgDiagonalized S T).stages[16]'(of_decide_eq_true rfl)]
        (by decide) (by decide) (of_decide_eq_true rfl) (of_decide_eq_true rfl) hy)
  · exact fun O c h nl x y hy => anext_of_init rfl (of_decide_eq_true rfl) (of_decide_eq_true rfl) O nl y
  · exact fun O c h nl x y hy => anext_of_init rfl (of_decide_eq_true rfl) (of_decide_eq_true rfl) O nl y
  · exact fun O c h nl x y hy => anext_of_init rfl (of_decide_eq_true rfl) (of_decide_eq_true rfl) O nl y
  · exact fun O c h nl x y hy => anext_of_stage (n := NL7) rfl rfl rfl (by decide) O nl y
      (astage_value O c h nl ((IF45DP.rProg (ι := ι)).stages.take 11) ((IF45DP.rProg (ι := ι)).stages.drop 12) (by decide)
        (of_decide_eq_true rfl) (of_decide_eq_true rfl) hy)

end

end Verif
