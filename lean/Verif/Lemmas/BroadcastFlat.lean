import Verif.Lemmas.BroadcastStep
import Verif.Spec.Shapes

/-!
# Arrays of any shape as arrays with one axis
-/

set_option linter.unusedSectionVars false

namespace Verif

variable {ι κ Coef Coef' : Type} [Fintype ι] [DecidableEq ι] [Fintype κ] [DecidableEq κ]

/-- Equal expressions, up to coefficients: those of the second have the entries `g j` of those of the first. -/
def Exp.Same (g : κ → ι) (c : Coef) (c' : Coef') : Exp Coef ι → Exp Coef' κ → Prop
  | var a, var b => a = b
  | cof p, cof q => p c ∘ g = q c'
  | size, size => True
  | num n, num k => n = k
  | add e f, add e' f' => Same g c c' e e' ∧ Same g c c' f f'
  | sub e f, sub e' f' => Same g c c' e e' ∧ Same g c c' f f'
  | mul e f, mul e' f' => Same g c c' e e' ∧ Same g c c' f f'
  | neg e, neg e' => Same g c c' e e'
  | over e n, over e' n' => Same g c c' e e' ∧ n = n'
  | _, _ => False

/-- Equal assignments. -/
def RInstr.Same (g : κ → ι) (c : Coef) (c' : Coef') : RInstr Coef ι → RInstr Coef' κ → Prop
  | set a e, set b e' => a = b ∧ Exp.Same g c c' e e'
  | call a b, call a' b' => a = a' ∧ b = b'
  | _, _ => False

/-- Exact operations on arrays with the indices `κ`, for a program whose coefficients have the indices `ι`. -/
noncomputable def ArrOps.tiled (g : κ → ι) : ArrOps ι (Vec κ) where
  add v w := .ok (v + w)
  sub v w := .ok (v - w)
  mul v w := .ok (v * w)
  neg v := .ok (-v)
  quot v n := .ok (v / bc n)
  scalar z := bc z
  vec v := v ∘ g
  dot _ v := .ok v

theorem evalA_same {g : κ → ι} {c : Coef} {c' : Coef'} {h : ℝ} {x : Attr → Vec κ} : ∀ (e : Exp Coef ι) (e' : Exp Coef' κ),
    Exp.Same g c c' e e' → e.evalA (ArrOps.tiled g) c h x = e'.evalA (ArrOps.exact κ) c' h x := by
  intro e
  induction e with
  | var a => intro e' h; cases e' <;> simp only [Exp.Same] at h; subst h; rfl
  | cof p => intro e' h; cases e' <;> simp only [Exp.Same] at h; exact congrArg Except.ok h
  | size => intro e' h; cases e' <;> simp only [Exp.Same] at h; rfl
  | num n => intro e' h; cases e' <;> simp only [Exp.Same] at h; subst h; rfl
  | add e f ie iff | sub e f ie iff | mul e f ie iff =>
    intro e' h
    cases e' <;> simp only [Exp.Same] at h
    simp only [Exp.evalA, ie _ h.1, iff _ h.2]
    rfl
  | neg e ih =>
    intro e' h
    cases e' <;> simp only [Exp.Same] at h
    simp only [Exp.evalA, ih _ h]
    rfl
  | over e n ih =>
    intro e' h
    cases e' <;> simp only [Exp.Same] at h
    simp only [Exp.evalA, ih _ h.1, h.2]
    rfl
  | dot p e ih => intro e' h; cases e' <;> exact h.elim
  | fix M e ih => intro e' h; cases e' <;> exact h.elim

theorem avals_same {g : κ → ι} {c : Coef} {c' : Coef'} {h : ℝ} {nl : NlFunc κ} {is : List (RInstr Coef ι)}
    {is' : List (RInstr Coef' κ)} (hs : List.Forall₂ (RInstr.Same g c c') is is') (x : Attr → Vec κ) :
    avals (ArrOps.tiled g) c h nl is x = avals (ArrOps.exact κ) c' h nl is' x := by
  induction hs generalizing x with
  | nil => rfl
  | @cons i i' is is' hi _ ih =>
    cases i with
    | set a e =>
      cases i' with
      | set b e' =>
        obtain ⟨rfl, he⟩ := hi
        simp only [avals, evalA_same e e' he, ih]
      | call _ _ => exact hi.elim
    | call a b =>
      cases i' with
      | set _ _ => exact hi.elim
      | call a' b' =>
        obtain ⟨rfl, rfl⟩ := hi
        simp only [avals, ih]

theorem CSSolver.same_stages (m : CSSolver ι) {lam : Vec ι} (hm : m.op = .diag lam) (g : κ → ι) (h : ℝ) (nl : NlFunc ι) (nl' : NlFunc κ) :
    List.Forall₂ (RInstr.Same g ((m.law nl).coefs h) (((m.withOp (.diag (lam ∘ g))).law nl').coefs h)) m.rprog.stages
      (m.withOp (.diag (lam ∘ g))).rprog.stages := by
  rcases m with (L | L) | ⟨cfg, L | L⟩ | ⟨cfg, L | L⟩ <;>
    first
    | (cases hm; done)
    | (cases hm; repeat' (first | exact trivial | exact rfl | constructor))

theorem ASSolver.same_stages (m : ASSolver ι) {lam : Vec ι} (hm : m.op = .diag lam) (g : κ → ι) (h : ℝ) (nl : NlFunc ι)
    (nl' : NlFunc κ) :
    List.Forall₂ (RInstr.Same g ((m.aslaw nl).coefs h) (((m.withDiag (lam ∘ g)).aslaw nl').coefs h)) m.rprog.stages
      (m.withDiag (lam ∘ g)).rprog.stages := by
  rcases m with (L | L | ⟨l, S, T, hS⟩) | ⟨cfg, L | L | ⟨l, S, T, hS⟩⟩ | ⟨cfg, L | L | ⟨l, S, T, hS⟩⟩ | L <;>
    first
    | (cases hm; done)
    | (cases hm; repeat' (first | exact trivial | exact rfl | constructor))

theorem ASSolver.same_init (m : ASSolver ι) {lam : Vec ι} (hm : m.op = .diag lam) (g : κ → ι) :
    List.Forall₂ (RInstr.Same g () ()) m.rprog.init (m.withDiag (lam ∘ g)).rprog.init := by
  rcases m with (L | L | ⟨l, S, T, hS⟩) | ⟨cfg, L | L | ⟨l, S, T, hS⟩⟩ | ⟨cfg, L | L | ⟨l, S, T, hS⟩⟩ | L <;>
    first
    | (cases hm; done)
    | (cases hm; repeat' (first | exact trivial | exact rfl | constructor))

theorem ASSolver.same_out (m : ASSolver ι) {lam : Vec ι} (hm : m.op = .diag lam) (g : κ → ι) :
    m.rprog.out = (m.withDiag (lam ∘ g)).rprog.out := by
  rcases m with (L | L | ⟨l, S, T, hS⟩) | ⟨cfg, L | L | ⟨l, S, T, hS⟩⟩ | ⟨cfg, L | L | ⟨l, S, T, hS⟩⟩ | L <;>
    first | (cases hm; done) | (cases hm; rfl)

theorem CSSolver.coefOk_diag {m : CSSolver ι} {lam : Vec ι} (hm : m.op = .diag lam) (h : ℝ) : m.CoefOk h := by
  rcases m with (L | L) | ⟨cfg, L | L⟩ | ⟨cfg, L | L⟩ <;> first | trivial | (cases hm; done)

theorem ASSolver.coefOk_diag {m : ASSolver ι} {lam : Vec ι} (hm : m.op = .diag lam) (h : ℝ) : m.CoefOk h := by
  rcases m with (L | L | ⟨l, S, T, hS⟩) | ⟨cfg, L | L | ⟨l, S, T, hS⟩⟩ | ⟨cfg, L | L | ⟨l, S, T, hS⟩⟩ | L <;>
    first | trivial | (cases hm; done)

theorem CSSolver.withOp_op (m : CSSolver ι) (L : LinOp κ) : (m.withOp L).op = L := by cases m <;> rfl

theorem ASSolver.withDiag_op (m : ASSolver ι) (L : Vec κ) : (m.withDiag L).op = .diag L := by cases m <;> rfl

theorem CSSolver.tiled_step (m : CSSolver ι) {lam : Vec ι} (hm : m.op = .diag lam) (g : κ → ι) (nl : NlFunc κ) (h : ℝ) (v : Vec κ) :
    m.rprog.aStep ⟨ArrOps.tiled g, (m.env Arith.exact).coefs⟩ nl h v = (m.withOp (.diag (lam ∘ g))).oneStep nl h v := by
  rw [← CSSolver.env_step]
  show _ = RCSProg.oneStep _ ⟨Arith.exact, ((m.withOp (.diag (lam ∘ g))).env Arith.exact).coefs⟩ _ _ _
  rw [← RCSProg.aStep_exact (rprog_ok _)]
  unfold RCSProg.aStep
  simp only [env]
  rw [if_pos (coefOk_diag hm h), if_pos (coefOk_diag (withOp_op m _) h), m.coefsAt_eq (fun _ => .ok 0) (coefOk_diag hm h),
    (m.withOp (.diag (lam ∘ g))).coefsAt_eq (fun _ => .ok 0) (coefOk_diag (withOp_op m _) h)]
  simp only [Except.bind]
  cases nl v with
  | error e => rfl
  | ok n => simp only [avals_same (m.same_stages hm g h (fun _ => .ok 0) (fun _ => .ok 0))]

theorem ASSolver.tiled_trial (m : ASSolver ι) {lam : Vec ι} (hm : m.op = .diag lam) (g : κ → ι) (nl : NlFunc κ) (h : ℝ) (v : Vec κ) :
    m.rprog.aTrial ⟨ArrOps.tiled g, (m.env Arith.exact).coefs⟩ (fun _ _ => .ok ()) nl h v =
      (m.withDiag (lam ∘ g)).oneTrial nl h v := by
  rw [← ASSolver.env_trial]
  show _ = RASProg.oneTrial _ ⟨Arith.exact, ((m.withDiag (lam ∘ g)).env Arith.exact).coefs⟩ _ _ _
  rw [← RASProg.aTrial_exact (rprog_ok _)]
  unfold RASProg.aTrial RASProg.aload
  simp only [env]
  rw [if_pos (coefOk_diag hm h), if_pos (coefOk_diag (withDiag_op m _) h), m.coefsAt_eq (fun _ => .ok 0) (coefOk_diag hm h),
    (m.withDiag (lam ∘ g)).coefsAt_eq (fun _ => .ok 0) (coefOk_diag (withDiag_op m _) h)]
  simp only [Except.bind, avals_same (m.same_stages hm g h (fun _ => .ok 0) (fun _ => .ok 0)), avals_same (m.same_init hm g), m.same_out hm g]

end Verif
