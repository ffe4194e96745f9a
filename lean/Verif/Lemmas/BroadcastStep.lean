import Verif.Lemmas.BroadcastRel
import Verif.Props.Rounded

/-!
# Steps on one line of an array
-/

set_option linter.unusedSectionVars false

namespace Verif

variable {N : ℕ}

theorem ArrOps.over_exact : ArrOps.over id Matrix.mulVec = ArrOps.exact (Fin N) := rfl

namespace CSSolver

theorem ndStep_new (m : CSSolver (Fin N)) (nl : NdArr ℂ → Except PyErr (NdArr ℂ)) (u : NdArr ℂ) {h : ℝ} (hh : 0 ≤ h) :
    (m.ndStep nl u h m.ndNew).1 = m.rprog.aStep m.ndEnv nl h u := by
  unfold ndStep
  rw [CSClass.step_apply _ _ hh]
  exact (RCSProg.alawful m.rprog_ok m.ndEnv nl).result _ _ _ ((RCSProg.alawful m.rprog_ok m.ndEnv nl).reset_inv m.ndNew.sub u)

/-- Matrices are used by the stages only if `lin_op` is a matrix. -/
theorem stages_kinded (m : CSSolver (Fin N)) : m.rprog.stages.all (RInstr.kinded true) = true := by
  rcases m with (L | L) | ⟨cfg, L | L⟩ | ⟨cfg, L | L⟩ <;> rfl

theorem stages_diag {m : CSSolver (Fin N)} {lam : Vec (Fin N)} (hm : m.op = .diag lam) :
    m.rprog.stages.all (RInstr.kinded false) = true := by
  rcases m with (L | L) | ⟨cfg, L | L⟩ | ⟨cfg, L | L⟩ <;> first | rfl | cases hm

theorem stages_full {m : CSSolver (Fin N)} {L : Mat (Fin N)} (hm : m.op = .full L) : ∀ i ∈ m.rprog.stages, i.vecs = [] := by
  have : m.rprog.stages.all (fun i => i.vecs.isEmpty) = true := by
    rcases m with (L | L) | ⟨cfg, L | L⟩ | ⟨cfg, L | L⟩ <;> first | rfl | cases hm
  exact fun i hi => List.isEmpty_iff.mp (List.all_eq_true.mp this i hi)

/-- A step on a line of an array is a step of the solver. -/
theorem line_step (m : CSSolver (Fin N)) {s : List ℕ} {f : Fin N → List ℕ} (hl : ∀ j, (f j).length = s.length) {dots strict : Bool}
    (hd : dots = true → ∀ (M : Mat (Fin N)) x v, LineRel s f strict .arr x v →
      RelE (LineRel s f strict .arr) (NdArr.matDot M x) (.ok (M.mulVec v)))
    (hk : m.rprog.stages.all (RInstr.kinded dots) = true)
    (hv : ∀ i ∈ m.rprog.stages, i.vecs = [] ∨ (Fits [N] s ∧ ∀ j, bcIdx [N] (f j) = [j.val]))
    {nl : NdArr ℂ → Except PyErr (NdArr ℂ)} {nl' : NlFunc (Fin N)}
    (hnl : ∀ x v, LineRel s f strict .arr x v → RelE (LineRel s f strict .arr) (nl x) (nl' v)) (h : ℝ) {u : NdArr ℂ}
    {v : Vec (Fin N)} (hu : LineRel s f strict .arr u v) :
    RelE (LineRel s f strict .arr) (m.rprog.aStep m.ndEnv nl h u) (m.oneStep nl' h v) := by
  have := RCSProg.aStep_rel (P := m.rprog) (F := m.ndEnv) (F' := ⟨ArrOps.exact (Fin N), (m.env Arith.exact).coefs⟩) (h := h)
    (lineOps hl dots strict id Matrix.mulVec hd) hnl hk ?_ hu
  · rw [RCSProg.aStep_exact m.rprog_ok] at this
    rwa [← m.env_step nl' h v]
  · unfold CoefsRel
    show RelE _ ((m.env Arith.exact).coefs h) ((m.env Arith.exact).coefs h)
    cases (m.env Arith.exact).coefs h with
    | error e => rfl
    | ok c =>
      refine fun i hi => ⟨fun p hp => ?_, fun _ _ => rfl⟩
      rcases hv i hi with h0 | ⟨h1, h2⟩
      · simp [h0] at hp
      · exact lineVec strict h1 (g := id) h2 (p c)

end CSSolver

namespace ASSolver

theorem ndTrial_new (m : ASSolver (Fin N)) (nl : NdArr ℂ → Except PyErr (NdArr ℂ)) (u : NdArr ℂ) (h : ℝ) :
    (m.ndTrial nl u h m.ndNew).1 = m.rprog.aTrial m.ndEnv checkS nl h u := by
  unfold ndTrial
  rw [ASClass.trial_apply]
  exact (RASProg.alawful m.rprog_ok (m.rprog_next _) m.isDP m.ndEnv checkS (ndComputeS m.ndQ) nl).result _ _ _ _
    ((RASProg.alawful m.rprog_ok (m.rprog_next _) m.isDP m.ndEnv checkS (ndComputeS m.ndQ) nl).reset_ready m.ndNew.sub u)

theorem init_vecs (m : ASSolver (Fin N)) : m.rprog.init.all (fun i => i.vecs.isEmpty && i.mats.isEmpty) = true := by
  rcases m with (L | L | ⟨l, S, T, hS⟩) | ⟨cfg, L | L | ⟨l, S, T, hS⟩⟩ | ⟨cfg, L | L | ⟨l, S, T, hS⟩⟩ | L <;> rfl

theorem init_kinded (m : ASSolver (Fin N)) : m.rprog.init.all (RInstr.kinded true) = true := by
  rcases m with (L | L | ⟨l, S, T, hS⟩) | ⟨cfg, L | L | ⟨l, S, T, hS⟩⟩ | ⟨cfg, L | L | ⟨l, S, T, hS⟩⟩ | L <;> rfl

theorem stages_kinded (m : ASSolver (Fin N)) : m.rprog.stages.all (RInstr.kinded true) = true := by
  rcases m with (L | L | ⟨l, S, T, hS⟩) | ⟨cfg, L | L | ⟨l, S, T, hS⟩⟩ | ⟨cfg, L | L | ⟨l, S, T, hS⟩⟩ | L <;> rfl

theorem init_diag {m : ASSolver (Fin N)} {lam : Vec (Fin N)} (hm : m.op = .diag lam) :
    m.rprog.init.all (RInstr.kinded false) = true := by
  rcases m with (L | L | ⟨l, S, T, hS⟩) | ⟨cfg, L | L | ⟨l, S, T, hS⟩⟩ | ⟨cfg, L | L | ⟨l, S, T, hS⟩⟩ | L <;> first | rfl | cases hm

theorem stages_diag {m : ASSolver (Fin N)} {lam : Vec (Fin N)} (hm : m.op = .diag lam) :
    m.rprog.stages.all (RInstr.kinded false) = true := by
  rcases m with (L | L | ⟨l, S, T, hS⟩) | ⟨cfg, L | L | ⟨l, S, T, hS⟩⟩ | ⟨cfg, L | L | ⟨l, S, T, hS⟩⟩ | L <;> first | rfl | cases hm

theorem stages_full {m : ASSolver (Fin N)} {L : Mat (Fin N)} (hm : m.op = .full L) : ∀ i ∈ m.rprog.stages, i.vecs = [] := by
  have : m.rprog.stages.all (fun i => i.vecs.isEmpty) = true := by
    rcases m with (L | L | ⟨l, S, T, hS⟩) | ⟨cfg, L | L | ⟨l, S, T, hS⟩⟩ | ⟨cfg, L | L | ⟨l, S, T, hS⟩⟩ | L <;>
      first | rfl | cases hm
  exact fun i hi => List.isEmpty_iff.mp (List.all_eq_true.mp this i hi)

/-- A trial on a line of an array is a trial of the solver. -/
theorem line_trial (m : ASSolver (Fin N)) {s : List ℕ} (h0 : 0 ∉ s) {f : Fin N → List ℕ} (hl : ∀ j, (f j).length = s.length)
    {dots : Bool} (hd : dots = true → ∀ (M : Mat (Fin N)) x v, LineRel s f true .arr x v →
      RelE (LineRel s f true .arr) (NdArr.matDot M x) (.ok (M.mulVec v)))
    (hi : m.rprog.init.all (RInstr.kinded dots) = true) (hk : m.rprog.stages.all (RInstr.kinded dots) = true)
    (hv : ∀ i ∈ m.rprog.stages, i.vecs = [] ∨ (Fits [N] s ∧ ∀ j, bcIdx [N] (f j) = [j.val]))
    {nl : NdArr ℂ → Except PyErr (NdArr ℂ)} {nl' : NlFunc (Fin N)}
    (hnl : ∀ x v, LineRel s f true .arr x v → RelE (LineRel s f true .arr) (nl x) (nl' v)) (h : ℝ) {u : NdArr ℂ}
    {v : Vec (Fin N)} (hu : LineRel s f true .arr u v) :
    RelE (fun r r' => LineRel s f true .arr r.1 r'.1 ∧ LineRel s f true .arr r.2 r'.2) (m.rprog.aTrial m.ndEnv checkS nl h u)
      (m.oneTrial nl' h v) := by
  have := RASProg.aTrial_rel (P := m.rprog) (F := m.ndEnv) (F' := ⟨ArrOps.exact (Fin N), (m.env Arith.exact).coefs⟩) (h := h)
    (check := checkS) (check' := fun _ _ => .ok ())
    (lineOps hl dots true id Matrix.mulVec hd) hnl ?_ hi m.init_vecs hk ?_ hu
  · rw [RASProg.aTrial_exact m.rprog_ok] at this
    rwa [← m.env_trial nl' h v]
  · intro a b e g ha he
    rw [checkS, ha.eq rfl rfl, he.eq rfl rfl, if_neg h0, if_pos (List.prefix_refl s)]
    trivial
  · unfold CoefsRel
    show RelE _ ((m.env Arith.exact).coefs h) ((m.env Arith.exact).coefs h)
    cases (m.env Arith.exact).coefs h with
    | error e => rfl
    | ok c =>
      refine fun i hi => ⟨fun p hp => ?_, fun _ _ => rfl⟩
      rcases hv i hi with h0 | ⟨h1, h2⟩
      · simp [h0] at hp
      · exact lineVec true h1 (g := id) h2 (p c)

end ASSolver

end Verif
