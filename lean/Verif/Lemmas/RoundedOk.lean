import Verif.Lemmas.RoundedLaw

/-!
# The programs of `Verif.Model.Rounded` have the form that makes a step a function of step size and array
-/

set_option linter.unusedSectionVars false

namespace Verif

open Attr

variable {ι : Type}

theorem IF4.rDiagonal_ok : (IF4.rProgDiagonal (ι := ι)).Ok :=
  ⟨rfl, of_decide_eq_true rfl, of_decide_eq_true rfl, (IF4.rProgDiagonal (ι := ι)).stages.dropLast, rfl⟩
theorem IF4.rNonDiagonal_ok : (IF4.rProgNonDiagonal (ι := ι)).Ok :=
  ⟨rfl, of_decide_eq_true rfl, of_decide_eq_true rfl, (IF4.rProgNonDiagonal (ι := ι)).stages.dropLast, rfl⟩
theorem ETD4.rDiagonal_ok : (ETD4.rProgDiagonal (ι := ι)).Ok :=
  ⟨rfl, of_decide_eq_true rfl, of_decide_eq_true rfl, (ETD4.rProgDiagonal (ι := ι)).stages.dropLast, rfl⟩
theorem ETD4.rNonDiagonal_ok : (ETD4.rProgNonDiagonal (ι := ι)).Ok :=
  ⟨rfl, of_decide_eq_true rfl, of_decide_eq_true rfl, (ETD4.rProgNonDiagonal (ι := ι)).stages.dropLast, rfl⟩
theorem ETD5.rDiagonal_ok : (ETD5.rProgDiagonal (ι := ι)).Ok :=
  ⟨rfl, of_decide_eq_true rfl, of_decide_eq_true rfl, (ETD5.rProgDiagonal (ι := ι)).stages.dropLast, rfl⟩
theorem ETD5.rNonDiagonal_ok : (ETD5.rProgNonDiagonal (ι := ι)).Ok :=
  ⟨rfl, of_decide_eq_true rfl, of_decide_eq_true rfl, (ETD5.rProgNonDiagonal (ι := ι)).stages.dropLast, rfl⟩

theorem OutEq.refl (D : List Attr) (r : Except PyErr (Attr → Vec ι)) : OutEq D r r := by
  cases r <;> simp [OutEq]

variable {Coef : Type}

/-- What the attributes hold after an assignment of `nl_func(_k)` to `_NL` that is not followed by another assignment of
one of these two. -/
theorem stage_value (ar : Arith ι) (c : Coef) (h : ℝ) (nl : NlFunc ι) (pre post : List (RInstr Coef ι)) {n : Attr} (hn : k ≠ n)
    (h1 : k ∉ post.map RInstr.target) (h2 : n ∉ post.map RInstr.target) {x y : Attr → Vec ι}
    (hy : vals nl ((pre ++ RInstr.call n k :: post).map (RInstr.inst ar c h)) x = .ok y) : nl (y k) = .ok (y n) := by
  rw [List.map_append, vals_append] at hy
  cases hz : vals nl (pre.map (RInstr.inst ar c h)) x with
  | error e => simp [hz, Except.bind] at hy
  | ok z =>
    simp only [hz, Except.bind, List.map_cons, RInstr.inst, vals] at hy
    cases hv : nl (z k) with
    | error e => simp [hv] at hy
    | ok v =>
      simp only [hv] at hy
      rw [vals_frame ar c h nl post h1 hy, vals_frame ar c h nl post h2 hy, Function.update_self, Function.update_of_ne hn]
      exact hv

/-- The same for the diagonalized strategies. -/
theorem stage_value_eig (ar : Arith ι) (c : Coef) (h : ℝ) (nl : NlFunc ι) (S Sinv : Mat ι) (pre post : List (RInstr Coef ι))
    {n : Attr} (hn : k ≠ n) (hn' : tmp ≠ n) (h1 : k ∉ post.map RInstr.target) (h2 : n ∉ post.map RInstr.target)
    {x y : Attr → Vec ι}
    (hy : vals nl ((pre ++ RInstr.set tmp (.fix S (.var k)) :: .call tmp tmp :: .set n (.fix Sinv (.var tmp)) :: post ++
      [RInstr.set tmp (.fix S (.var k))]).map (RInstr.inst ar c h)) x = .ok y) :
    ∃ w, nl (y tmp) = .ok w ∧ y n = ar.dot Sinv w := by
  rw [List.map_append, vals_append, List.map_append, vals_append] at hy
  cases hz : vals nl (pre.map (RInstr.inst ar c h)) x with
  | error e => simp [hz, Except.bind] at hy
  | ok z =>
    simp only [hz, Except.bind, List.map_cons, RInstr.inst, vals, Exp.eval, Function.update_self, List.map_nil] at hy
    cases hv : nl (ar.dot S (z k)) with
    | error e => simp [hv] at hy
    | ok v =>
      simp only [hv, Function.update_self] at hy
      split at hy
      · simp at hy
      · rename_i y' hy'
        obtain rfl : Function.update y' tmp (ar.dot S (y' k)) = y := by simpa using hy
        refine ⟨v, ?_, ?_⟩
        · rw [Function.update_self, vals_frame ar c h nl post h1 hy', Function.update_of_ne hn,
            Function.update_of_ne (by decide), Function.update_of_ne (by decide)]
          exact hv
        · rw [Function.update_of_ne hn'.symm, vals_frame ar c h nl post h2 hy', Function.update_self]

/-- `n1_init` evaluates `nl_func`, and an accepted step takes the value of the last stage. -/
theorem next_of_stage {P : RASProg Coef ι} {n : Attr} (h1 : P.init = [.call NL1 u]) (h2 : P.accepted = [.set NL1 (.var n)])
    (h3 : P.live = [NL1]) (hn : n ≠ u) (ar : Arith ι) (nl : NlFunc ι) (y : Attr → Vec ι) (hy : nl (y P.out) = .ok (y n)) :
    OutEq (u :: P.live) (vals nl (P.accepted.map (RInstr.inst ar () 0)) (Function.update y u (y P.out)))
      (P.load ar nl (y P.out)) := by
  unfold RASProg.load
  rw [h1, h2, h3]
  simp only [List.map_cons, List.map_nil, RInstr.inst, vals, Exp.eval, argOnly, Function.update_self, hy, OutEq,
    Function.update_of_ne hn]
  intro a ha
  fin_cases ha
  · simp [Function.update_of_ne (show u ≠ NL1 by decide)]
  · simp

/-- The same for the diagonalized strategies. -/
theorem next_of_stage_eig {P : RASProg Coef ι} {n : Attr} {Sinv : Mat ι}
    (h1 : P.init = [.call tmp u, .set NL1 (.fix Sinv (.var tmp)), .set v (.fix Sinv (.var u))])
    (h2 : P.accepted = [.set NL1 (.var n), .set v (.fix Sinv (.var u))])
    (h3 : P.live = [NL1, v]) (hn : n ≠ u) (ar : Arith ι) (nl : NlFunc ι) (y : Attr → Vec ι)
    (hy : ∃ w, nl (y P.out) = .ok w ∧ y n = ar.dot Sinv w) :
    OutEq (u :: P.live) (vals nl (P.accepted.map (RInstr.inst ar () 0)) (Function.update y u (y P.out)))
      (P.load ar nl (y P.out)) := by
  obtain ⟨w, hw, hy⟩ := hy
  unfold RASProg.load
  rw [h1, h2, h3]
  simp only [List.map_cons, List.map_nil, RInstr.inst, vals, Exp.eval, argOnly, Function.update_self, hw, OutEq,
    Function.update_of_ne hn, hy]
  intro a ha
  fin_cases ha
  · simp [Function.update_of_ne (show u ≠ NL1 by decide), Function.update_of_ne (show u ≠ v by decide),
      Function.update_of_ne (show u ≠ tmp by decide)]
  · simp [Function.update_of_ne (show NL1 ≠ v by decide)]
  · simp [Function.update_of_ne (show u ≠ NL1 by decide), Function.update_of_ne (show u ≠ tmp by decide)]

/-- `n1_init` is executed again after an accepted step. -/
theorem next_of_init {P : RASProg Coef ι} (h1 : P.accepted = P.init) (h2 : ReadsOnly [u] P.init)
    (h3 : ∀ a ∈ P.live, a ∈ P.init.map RInstr.target) (ar : Arith ι) (nl : NlFunc ι) (y : Attr → Vec ι) :
    OutEq (u :: P.live) (vals nl (P.accepted.map (RInstr.inst ar () 0)) (Function.update y u (y P.out)))
      (P.load ar nl (y P.out)) := by
  rw [h1]
  refine (vals_congr ar () 0 nl P.init [u] h2 (y := argOnly (y P.out)) ?_).mono ?_
  · intro a ha
    obtain rfl : a = u := by simpa using ha
    simp [argOnly]
  · intro a ha
    rcases List.mem_cons.mp ha with rfl | ha
    · simp
    · exact List.mem_append.mpr (.inl (h3 a ha))

theorem IF34.rDiagonal_ok : (IF34.rProgDiagonal (ι := ι)).Ok where
  init := of_decide_eq_true rfl
  init_live := of_decide_eq_true rfl
  init_u := of_decide_eq_true rfl
  reads := of_decide_eq_true rfl
  live := of_decide_eq_true rfl
  out := of_decide_eq_true rfl
  err := of_decide_eq_true rfl
  next ar c h nl x y hy := next_of_stage (n := NL5) rfl rfl rfl (by decide) ar nl y
    (stage_value ar c h nl ((IF34.rProgDiagonal (ι := ι)).stages.take 7) ((IF34.rProgDiagonal (ι := ι)).stages.drop 8) (by decide)
      (of_decide_eq_true rfl) (of_decide_eq_true rfl) hy)

theorem IF34.rNonDiagonal_ok : (IF34.rProgNonDiagonal (ι := ι)).Ok where
  init := of_decide_eq_true rfl
  init_live := of_decide_eq_true rfl
  init_u := of_decide_eq_true rfl
  reads := of_decide_eq_true rfl
  live := of_decide_eq_true rfl
  out := of_decide_eq_true rfl
  err := of_decide_eq_true rfl
  next ar c h nl x y hy := next_of_stage (n := NL5) rfl rfl rfl (by decide) ar nl y
    (stage_value ar c h nl ((IF34.rProgNonDiagonal (ι := ι)).stages.take 7) ((IF34.rProgNonDiagonal (ι := ι)).stages.drop 8) (by decide)
      (of_decide_eq_true rfl) (of_decide_eq_true rfl) hy)

theorem IF34.rDiagonalized_ok (S Sinv : Mat ι) : (IF34.rProgDiagonalized S Sinv).Ok where
  init := of_decide_eq_true rfl
  init_live := of_decide_eq_true rfl
  init_u := of_decide_eq_true rfl
  reads := of_decide_eq_true rfl
  live := of_decide_eq_true rfl
  out := of_decide_eq_true rfl
  err := of_decide_eq_true rfl
  next ar c h nl x y hy := next_of_stage_eig (n := NL5) rfl rfl rfl (by decide) ar nl y
    (stage_value_eig ar c h nl S Sinv ((IF34.rProgDiagonalized S Sinv).stages.take 13) [(IF34.rProgDiagonalized S Sinv).stages[16]'(of_decide_eq_true rfl)]
      (by decide) (by decide) (of_decide_eq_true rfl) (of_decide_eq_true rfl) hy)

theorem ETD34.rDiagonal_ok : (ETD34.rProgDiagonal (ι := ι)).Ok where
  init := of_decide_eq_true rfl
  init_live := of_decide_eq_true rfl
  init_u := of_decide_eq_true rfl
  reads := of_decide_eq_true rfl
  live := of_decide_eq_true rfl
  out := of_decide_eq_true rfl
  err := of_decide_eq_true rfl
  next ar c h nl x y hy := next_of_stage (n := NL5) rfl rfl rfl (by decide) ar nl y
    (stage_value ar c h nl ((ETD34.rProgDiagonal (ι := ι)).stages.take 7) ((ETD34.rProgDiagonal (ι := ι)).stages.drop 8) (by decide)
      (of_decide_eq_true rfl) (of_decide_eq_true rfl) hy)

theorem ETD34.rNonDiagonal_ok : (ETD34.rProgNonDiagonal (ι := ι)).Ok where
  init := of_decide_eq_true rfl
  init_live := of_decide_eq_true rfl
  init_u := of_decide_eq_true rfl
  reads := of_decide_eq_true rfl
  live := of_decide_eq_true rfl
  out := of_decide_eq_true rfl
  err := of_decide_eq_true rfl
  next ar c h nl x y hy := next_of_stage (n := NL5) rfl rfl rfl (by decide) ar nl y
    (stage_value ar c h nl ((ETD34.rProgNonDiagonal (ι := ι)).stages.take 7) ((ETD34.rProgNonDiagonal (ι := ι)).stages.drop 8) (by decide)
      (of_decide_eq_true rfl) (of_decide_eq_true rfl) hy)

theorem ETD34.rDiagonalized_ok (S Sinv : Mat ι) : (ETD34.rProgDiagonalized S Sinv).Ok where
  init := of_decide_eq_true rfl
  init_live := of_decide_eq_true rfl
  init_u := of_decide_eq_true rfl
  reads := of_decide_eq_true rfl
  live := of_decide_eq_true rfl
  out := of_decide_eq_true rfl
  err := of_decide_eq_true rfl
  next ar c h nl x y hy := next_of_stage_eig (n := NL5) rfl rfl rfl (by decide) ar nl y
    (stage_value_eig ar c h nl S Sinv ((ETD34.rProgDiagonalized S Sinv).stages.take 13) [(ETD34.rProgDiagonalized S Sinv).stages[16]'(of_decide_eq_true rfl)]
      (by decide) (by decide) (of_decide_eq_true rfl) (of_decide_eq_true rfl) hy)

theorem ETD35.rDiagonal_ok : (ETD35.rProgDiagonal (ι := ι)).Ok where
  init := of_decide_eq_true rfl
  init_live := of_decide_eq_true rfl
  init_u := of_decide_eq_true rfl
  reads := of_decide_eq_true rfl
  live := of_decide_eq_true rfl
  out := of_decide_eq_true rfl
  err := of_decide_eq_true rfl
  next ar c h nl x y hy := next_of_init rfl (of_decide_eq_true rfl) (of_decide_eq_true rfl) ar nl y

theorem ETD35.rNonDiagonal_ok : (ETD35.rProgNonDiagonal (ι := ι)).Ok where
  init := of_decide_eq_true rfl
  init_live := of_decide_eq_true rfl
  init_u := of_decide_eq_true rfl
  reads := of_decide_eq_true rfl
  live := of_decide_eq_true rfl
  out := of_decide_eq_true rfl
  err := of_decide_eq_true rfl
  next ar c h nl x y hy := next_of_init rfl (of_decide_eq_true rfl) (of_decide_eq_true rfl) ar nl y

theorem ETD35.rDiagonalized_ok (S Sinv : Mat ι) : (ETD35.rProgDiagonalized S Sinv).Ok where
  init := of_decide_eq_true rfl
  init_live := of_decide_eq_true rfl
  init_u := of_decide_eq_true rfl
  reads := of_decide_eq_true rfl
  live := of_decide_eq_true rfl
  out := of_decide_eq_true rfl
  err := of_decide_eq_true rfl
  next ar c h nl x y hy := next_of_init rfl (of_decide_eq_true rfl) (of_decide_eq_true rfl) ar nl y

theorem IF45DP.r_ok : (IF45DP.rProg (ι := ι)).Ok where
  init := of_decide_eq_true rfl
  init_live := of_decide_eq_true rfl
  init_u := of_decide_eq_true rfl
  reads := of_decide_eq_true rfl
  live := of_decide_eq_true rfl
  out := of_decide_eq_true rfl
  err := of_decide_eq_true rfl
  next ar c h nl x y hy := next_of_stage (n := NL7) rfl rfl rfl (by decide) ar nl y
    (stage_value ar c h nl ((IF45DP.rProg (ι := ι)).stages.take 11) ((IF45DP.rProg (ι := ι)).stages.drop 12) (by decide)
      (of_decide_eq_true rfl) (of_decide_eq_true rfl) hy)

section
variable [Fintype ι] [DecidableEq ι]

theorem CSSolver.rprog_ok (m : CSSolver ι) : m.rprog.Ok := by
  rcases m with (L | L) | ⟨cfg, L | L⟩ | ⟨cfg, L | L⟩
  exacts [IF4.rDiagonal_ok, IF4.rNonDiagonal_ok, ETD4.rDiagonal_ok, ETD4.rNonDiagonal_ok, ETD5.rDiagonal_ok, ETD5.rNonDiagonal_ok]

theorem ASSolver.rprog_ok (m : ASSolver ι) : m.rprog.Ok := by
  rcases m with (L | L | ⟨l, S, T, hS⟩) | ⟨cfg, L | L | ⟨l, S, T, hS⟩⟩ | ⟨cfg, L | L | ⟨l, S, T, hS⟩⟩ | L
  exacts [IF34.rDiagonal_ok, IF34.rNonDiagonal_ok, IF34.rDiagonalized_ok S T, ETD34.rDiagonal_ok, ETD34.rNonDiagonal_ok,
    ETD34.rDiagonalized_ok S T, ETD35.rDiagonal_ok, ETD35.rNonDiagonal_ok, ETD35.rDiagonalized_ok S T, IF45DP.r_ok]

end

end Verif
