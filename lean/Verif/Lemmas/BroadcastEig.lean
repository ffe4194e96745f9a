import Verif.Lemmas.BroadcastFlat

/-!
# Diagonalized operators and columns
-/

set_option linter.unusedSectionVars false

namespace Verif

variable {N : ℕ}

theorem eig_cols {Coef : Type} (P : RASProg Coef (Fin N)) (hP : P.Ok) (hi : P.init.all (RInstr.kinded true) = true)
    (hiv : P.init.all (fun i => i.vecs.isEmpty && i.mats.isEmpty) = true) (hk : P.stages.all (RInstr.kinded true) = true)
    {c c' : Coef} (b : Fin N) (hc : ∀ i ∈ P.stages, (∀ p ∈ i.vecs, p c ∘ (fun _ : Fin N => b) = p c') ∧ ∀ p ∈ i.mats, p c = p c')
    {nl : NdArr ℂ → Except PyErr (NdArr ℂ)} {nl' : NlFunc (Fin N)}
    (hnl : ∀ x v, LineRel [N, N] (fun i : Fin N => [i.val, b.val]) true .arr x v →
      RelE (LineRel [N, N] (fun i : Fin N => [i.val, b.val]) true .arr) (nl x) (nl' v)) (h : ℝ) {u : NdArr ℂ}
    {v : Vec (Fin N)} (hu : LineRel [N, N] (fun i : Fin N => [i.val, b.val]) true .arr u v) :
    RelE (fun r r' => LineRel [N, N] (fun i : Fin N => [i.val, b.val]) true .arr r.1 r'.1 ∧
        LineRel [N, N] (fun i : Fin N => [i.val, b.val]) true .arr r.2 r'.2)
      (P.aTrial ⟨ArrOps.numpy N, fun _ => .ok c⟩ checkS nl h u) (P.oneTrial ⟨Arith.exact, fun _ => .ok c'⟩ nl' h v) := by
  have hN : N ≠ 0 := fun hn => by subst hn; exact b.elim0
  have := RASProg.aTrial_rel (P := P) (F := ⟨ArrOps.numpy N, fun _ => .ok c⟩) (F' := ⟨ArrOps.exact (Fin N), fun _ => .ok c'⟩) (h := h)
    (check := checkS) (check' := fun _ _ => .ok ())
    (lineOps (s := [N, N]) (f := fun i : Fin N => [i.val, b.val]) (fun _ => rfl) true true id Matrix.mulVec
      fun _ M x v hx => dot_col b.2 M hx) hnl ?_ hi hiv hk ?_ hu
  · rwa [RASProg.aTrial_exact hP] at this
  · intro x y e g ha he
    rw [checkS, ha.eq rfl rfl, he.eq rfl rfl, if_neg (by simp [hN.symm]), if_pos (List.prefix_refl _)]
    trivial
  · refine fun i hi => ⟨fun p hp => ?_, (hc i hi).2⟩
    have h1 := lineVec (s := [N, N]) (f := fun i : Fin N => [i.val, b.val]) true (by simp [Fits, FitsRev]) (g := fun _ => b) (by
      intro j
      simp only [bcIdx, List.reverse_cons, List.reverse_nil, List.nil_append, List.cons_append, bcIdxRev]
      have := b.2
      split <;> simp
      omega) (p c)
    rw [(hc i hi).1 p hp] at h1
    exact h1

theorem aTrial_coefs {Coef A : Type} {P : RASProg Coef (Fin N)} {F : AEnv Coef (Fin N) A} {check : A → A → Except PyErr Unit}
    {nl : A → Except PyErr A} {h : ℝ} {u : A} {c : Coef} (hF : F.coefs h = .ok c) :
    P.aTrial F check nl h u = P.aTrial ⟨F.ops, fun _ => .ok c⟩ check nl h u := by
  unfold RASProg.aTrial
  rw [hF]

theorem oneTrial_coefs {Coef : Type} {P : RASProg Coef (Fin N)} {F : FPEnv Coef (Fin N)}
    {nl : NlFunc (Fin N)} {h : ℝ} {u : Vec (Fin N)} {c : Coef} (hF : F.coefs h = .ok c) :
    P.oneTrial F nl h u = P.oneTrial ⟨F.ar, fun _ => .ok c⟩ nl h u := by
  unfold RASProg.oneTrial
  rw [hF]

theorem ASSolver.env_coefs (m : ASSolver (Fin N)) {h : ℝ} (hc : m.CoefOk h) :
    (m.env Arith.exact).coefs h = .ok ((m.aslaw fun _ => .ok 0).coefs h) := by
  simp only [env]
  rw [if_pos hc, coefsAt_eq _ (fun _ => .ok 0) hc]

/-- The coefficients in an expression, and no coefficient matrices. -/
def Exp.AllVecs {Coef : Type} (p : (Coef → Vec (Fin N)) → Prop) : Exp Coef (Fin N) → Prop
  | var _ | size | num _ => True
  | cof q => p q
  | add e f | sub e f | mul e f => e.AllVecs p ∧ f.AllVecs p
  | neg e | over e _ | fix _ e => e.AllVecs p
  | dot _ _ => False

/-- The coefficients in an assignment. -/
def RInstr.AllVecs {Coef : Type} (p : (Coef → Vec (Fin N)) → Prop) : RInstr Coef (Fin N) → Prop
  | set _ e => e.AllVecs p
  | call _ _ => True

theorem Exp.allVecs {Coef : Type} {p : (Coef → Vec (Fin N)) → Prop} {e : Exp Coef (Fin N)} (h : e.AllVecs p) :
    (∀ q ∈ e.vecs, p q) ∧ e.mats = [] := by
  induction e with
  | var _ | size | num _ => simp [vecs, mats]
  | cof q => exact ⟨by simp only [vecs, List.mem_singleton, forall_eq]; exact h, rfl⟩
  | add e f ie iff | sub e f ie iff | mul e f ie iff =>
    obtain ⟨a1, a2⟩ := ie h.1
    obtain ⟨b1, b2⟩ := iff h.2
    refine ⟨fun q hq => ?_, by simp [mats, a2, b2]⟩
    rcases List.mem_append.mp hq with hq | hq
    · exact a1 q hq
    · exact b1 q hq
  | neg e ih | over e _ ih | fix _ e ih => exact ih h
  | dot _ _ _ => exact h.elim

theorem same_const {Coef : Type} {is : List (RInstr Coef (Fin N))} (c c' : Coef) {b : Fin N}
    (h : is.Forall fun i => i.AllVecs fun p => p c ∘ (fun _ : Fin N => b) = p c') :
    ∀ i ∈ is, (∀ p ∈ i.vecs, p c ∘ (fun _ : Fin N => b) = p c') ∧ ∀ p ∈ i.mats, p c = p c' := by
  intro i hi
  have := List.forall_iff_forall_mem.mp h i hi
  cases i with
  | set a e =>
    obtain ⟨h1, h2⟩ := Exp.allVecs this
    exact ⟨h1, by simp [RInstr.mats, h2]⟩
  | call a b => simp [RInstr.vecs, RInstr.mats]

theorem ASSolver.eig_trial (m : ASSolver (Fin N)) {lam : Vec (Fin N)} {S T : Mat (Fin N)} {hS : S * T = 1} (hm : m.op = .eig lam S T hS)
    (b : Fin N) {nl : NdArr ℂ → Except PyErr (NdArr ℂ)} {nl' : NlFunc (Fin N)}
    (hnl : ∀ x v, LineRel [N, N] (fun i : Fin N => [i.val, b.val]) true .arr x v →
      RelE (LineRel [N, N] (fun i : Fin N => [i.val, b.val]) true .arr) (nl x) (nl' v)) (h : ℝ) {u : NdArr ℂ}
    {v : Vec (Fin N)} (hu : LineRel [N, N] (fun i : Fin N => [i.val, b.val]) true .arr u v) :
    RelE (fun r r' => LineRel [N, N] (fun i : Fin N => [i.val, b.val]) true .arr r.1 r'.1 ∧
        LineRel [N, N] (fun i : Fin N => [i.val, b.val]) true .arr r.2 r'.2)
      (m.rprog.aTrial m.ndEnv checkS nl h u) ((m.withEigenvalues fun _ => lam b).oneTrial nl' h v) := by
  rw [← ASSolver.env_trial]
  rcases m with (L | L | ⟨l, S, T, hS⟩) | ⟨cfg, L | L | ⟨l, S, T, hS⟩⟩ | ⟨cfg, L | L | ⟨l, S, T, hS⟩⟩ | L <;>
    first
    | (cases hm; done)
    | skip
  all_goals cases hm
  · rw [aTrial_coefs (ASSolver.env_coefs (if34 (.eig lam S T hS)) trivial),
      oneTrial_coefs (ASSolver.env_coefs ((if34 (.eig lam S T hS)).withEigenvalues fun _ => lam b) trivial)]
    exact eig_cols (IF34.rProgDiagonalized S T) (if34 (.eig lam S T hS)).rprog_ok rfl rfl rfl b
      (same_const _ _ (by repeat' (first | exact trivial | exact rfl | constructor))) hnl h hu
  · rw [aTrial_coefs (ASSolver.env_coefs (etd34 cfg (.eig lam S T hS)) trivial),
      oneTrial_coefs (ASSolver.env_coefs ((etd34 cfg (.eig lam S T hS)).withEigenvalues fun _ => lam b) trivial)]
    exact eig_cols (ETD34.rProgDiagonalized S T) (etd34 cfg (.eig lam S T hS)).rprog_ok rfl rfl rfl b
      (same_const _ _ (by repeat' (first | exact trivial | exact rfl | constructor))) hnl h hu
  · rw [aTrial_coefs (ASSolver.env_coefs (etd35 cfg (.eig lam S T hS)) trivial),
      oneTrial_coefs (ASSolver.env_coefs ((etd35 cfg (.eig lam S T hS)).withEigenvalues fun _ => lam b) trivial)]
    exact eig_cols (ETD35.rProgDiagonalized S T) (etd35 cfg (.eig lam S T hS)).rprog_ok rfl rfl rfl b
      (same_const _ _ (by repeat' (first | exact trivial | exact rfl | constructor))) hnl h hu

end Verif
