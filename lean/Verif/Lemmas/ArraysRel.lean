import Verif.Lemmas.ArraysOk
import Verif.Lemmas.RelLoop
import Verif.Spec.Rounded

/-!
# The same program on two kinds of arrays

Expressions have a kind: numbers (`scal`), arrays made of coefficients (`coef`), and arrays made of the arguments (`arr`).  If two
implementations of the operations respect a family of relations, one for each kind, then so do steps.
-/

set_option linter.unusedSectionVars false

namespace Verif

open Attr

variable {ι A B Coef : Type}

/-- Kinds of expressions. -/
inductive Kind where
  | scal | coef | arr
  deriving DecidableEq

/-- The kind of a sum or product. -/
def Kind.join : Kind → Kind → Kind
  | scal, t => t
  | s, scal => s
  | arr, _ => arr
  | _, arr => arr
  | coef, coef => coef

namespace Exp

/-- The kind of an expression. -/
def kind : Exp Coef ι → Kind
  | var _ => .arr
  | cof _ => .coef
  | size | num _ => .scal
  | add e f | sub e f | mul e f => e.kind.join f.kind
  | neg e | over e _ => e.kind
  | dot _ _ | fix _ _ => .arr

/-- Matrices are only applied to arrays made of the arguments, and, if `dots` is false, not at all. -/
def kinded (dots : Bool) : Exp Coef ι → Bool
  | var _ | cof _ | size | num _ => true
  | add e f | sub e f | mul e f => e.kinded dots && f.kinded dots
  | neg e | over e _ => e.kinded dots
  | dot _ e | fix _ e => dots && e.kinded dots && (e.kind == .arr)

end Exp

/-- Attributes are only assigned arrays made of the arguments. -/
def RInstr.kinded (dots : Bool) : RInstr Coef ι → Bool
  | set _ e => e.kinded dots && (e.kind == .arr)
  | call _ _ => true

/-- The operations respect the relations. -/
structure RelOps (dots : Bool) (R : Kind → A → B → Prop) (O : ArrOps ι A) (O' : ArrOps ι B) : Prop where
  add : ∀ s t x x' y y', R s x x' → R t y y' → RelE (R (s.join t)) (O.add x y) (O'.add x' y')
  sub : ∀ s t x x' y y', R s x x' → R t y y' → RelE (R (s.join t)) (O.sub x y) (O'.sub x' y')
  mul : ∀ s t x x' y y', R s x x' → R t y y' → RelE (R (s.join t)) (O.mul x y) (O'.mul x' y')
  neg : ∀ s x x', R s x x' → RelE (R s) (O.neg x) (O'.neg x')
  quot : ∀ s x x' n, R s x x' → RelE (R s) (O.quot x n) (O'.quot x' n)
  scalar : ∀ z, R .scal (O.scalar z) (O'.scalar z)
  dot : dots = true → ∀ M x x', R .arr x x' → RelE (R .arr) (O.dot M x) (O'.dot M x')

theorem RelE.bind {α β α' β' : Type} {R : α → α' → Prop} {S : β → β' → Prop} {r : Except PyErr α} {r' : Except PyErr α'}
    {f : α → Except PyErr β} {f' : α' → Except PyErr β'} (hr : RelE R r r') (hf : ∀ a a', R a a' → RelE S (f a) (f' a')) :
    RelE S (r.bind f) (r'.bind f') := by
  cases r <;> cases r' <;> simp only [RelE] at hr
  · exact hr
  · exact hf _ _ hr

theorem evalA_rel {dots : Bool} {R : Kind → A → B → Prop} {O : ArrOps ι A} {O' : ArrOps ι B} (hO : RelOps dots R O O') {c c' : Coef}
    {h : ℝ} {x : Attr → A} {x' : Attr → B} (hx : ∀ a, R .arr (x a) (x' a)) (e : Exp Coef ι) (hk : e.kinded dots = true)
    (hv : ∀ p ∈ e.vecs, R .coef (O.vec (p c)) (O'.vec (p c'))) (hm : ∀ p ∈ e.mats, p c = p c') :
    RelE (R e.kind) (e.evalA O c h x) (e.evalA O' c' h x') := by
  induction e with
  | var a => exact hx a
  | cof p => exact hv p (by simp [Exp.vecs])
  | size => exact hO.scalar h
  | num n => exact hO.scalar n
  | add e f ie iff =>
    simp only [Exp.kinded, Bool.and_eq_true, Exp.vecs, Exp.mats, List.mem_append] at hk hv hm
    exact (ie hk.1 (fun p hp => hv p (.inl hp)) fun p hp => hm p (.inl hp)).bind fun a a' ha =>
      (iff hk.2 (fun p hp => hv p (.inr hp)) fun p hp => hm p (.inr hp)).bind fun b b' hb => hO.add _ _ _ _ _ _ ha hb
  | sub e f ie iff =>
    simp only [Exp.kinded, Bool.and_eq_true, Exp.vecs, Exp.mats, List.mem_append] at hk hv hm
    exact (ie hk.1 (fun p hp => hv p (.inl hp)) fun p hp => hm p (.inl hp)).bind fun a a' ha =>
      (iff hk.2 (fun p hp => hv p (.inr hp)) fun p hp => hm p (.inr hp)).bind fun b b' hb => hO.sub _ _ _ _ _ _ ha hb
  | mul e f ie iff =>
    simp only [Exp.kinded, Bool.and_eq_true, Exp.vecs, Exp.mats, List.mem_append] at hk hv hm
    exact (ie hk.1 (fun p hp => hv p (.inl hp)) fun p hp => hm p (.inl hp)).bind fun a a' ha =>
      (iff hk.2 (fun p hp => hv p (.inr hp)) fun p hp => hm p (.inr hp)).bind fun b b' hb => hO.mul _ _ _ _ _ _ ha hb
  | neg e ih => exact (ih hk hv hm).bind fun a a' ha => hO.neg _ _ _ ha
  | over e n ih => exact (ih hk hv hm).bind fun a a' ha => hO.quot _ _ _ n ha
  | dot p e ih =>
    simp only [Exp.kinded, Bool.and_eq_true, beq_iff_eq, Exp.vecs, Exp.mats, List.mem_cons] at hk hv hm
    have hi := ih hk.1.2 hv fun p hp => hm p (.inr hp)
    rw [hk.2] at hi
    refine hi.bind fun a a' ha => ?_
    rw [hm p (.inl rfl)]
    exact hO.dot hk.1.1 _ _ _ ha
  | fix M e ih =>
    simp only [Exp.kinded, Bool.and_eq_true, beq_iff_eq, Exp.vecs, Exp.mats] at hk hv hm
    have hi := ih hk.1.2 hv hm
    rw [hk.2] at hi
    exact hi.bind fun a a' ha => hO.dot hk.1.1 _ _ _ ha

/-- The coefficients that the assignments use are related. -/
def CofRel (R : Kind → A → B → Prop) (O : ArrOps ι A) (O' : ArrOps ι B) (is : List (RInstr Coef ι)) (c c' : Coef) : Prop :=
  ∀ i ∈ is, (∀ p ∈ i.vecs, R .coef (O.vec (p c)) (O'.vec (p c'))) ∧ ∀ p ∈ i.mats, p c = p c'

theorem avals_rel {dots : Bool} {R : Kind → A → B → Prop} {O : ArrOps ι A} {O' : ArrOps ι B} (hO : RelOps dots R O O')
    {nl : A → Except PyErr A} {nl' : B → Except PyErr B} (hnl : ∀ a b, R .arr a b → RelE (R .arr) (nl a) (nl' b))
    {c c' : Coef} {h : ℝ} (is : List (RInstr Coef ι)) (hk : is.all (RInstr.kinded dots) = true) (hc : CofRel R O O' is c c')
    {x : Attr → A} {x' : Attr → B} (hx : ∀ a, R .arr (x a) (x' a)) :
    RelE (fun y y' => ∀ a, R .arr (y a) (y' a)) (avals O c h nl is x) (avals O' c' h nl' is x') := by
  induction is generalizing x x' with
  | nil => exact hx
  | cons i is ih =>
    simp only [List.all_cons, Bool.and_eq_true] at hk
    have key : ∀ a n n', R .arr n n' → RelE (fun y y' => ∀ a, R .arr (y a) (y' a))
        (avals O c h nl is (Function.update x a n)) (avals O' c' h nl' is (Function.update x' a n')) := by
      intro a n n' hn
      refine ih hk.2 (fun j hj => hc j (List.mem_cons_of_mem _ hj)) fun b => ?_
      by_cases hb : b = a
      · subst hb; simpa using hn
      · rw [Function.update_of_ne hb, Function.update_of_ne hb]; exact hx b
    cases i with
    | set a e =>
      simp only [RInstr.kinded, Bool.and_eq_true, beq_iff_eq] at hk
      have h1 := evalA_rel hO (h := h) hx e hk.1.1 (hc _ List.mem_cons_self).1 (hc _ List.mem_cons_self).2
      rw [hk.1.2] at h1
      simp only [avals]
      cases h2 : e.evalA O c h x <;> cases h3 : e.evalA O' c' h x' <;> rw [h2, h3] at h1 <;> simp only [RelE] at h1
      · exact h1
      · exact key _ _ _ h1
    | call a b =>
      have h1 := hnl _ _ (hx b)
      simp only [avals]
      cases h2 : nl (x b) <;> cases h3 : nl' (x' b) <;> rw [h2, h3] at h1 <;> simp only [RelE] at h1
      · exact h1
      · exact key _ _ _ h1

/-- The coefficients that two objects compute. -/
def CoefsRel (R : Kind → A → B → Prop) (F : AEnv Coef ι A) (F' : AEnv Coef ι B) (is : List (RInstr Coef ι)) (h : ℝ) : Prop :=
  RelE (CofRel R F.ops F'.ops is) (F.coefs h) (F'.coefs h)

theorem RCSProg.aStep_rel {P : RCSProg Coef ι} {dots : Bool} {R : Kind → A → B → Prop} {F : AEnv Coef ι A} {F' : AEnv Coef ι B}
    (hO : RelOps dots R F.ops F'.ops) {nl : A → Except PyErr A} {nl' : B → Except PyErr B}
    (hnl : ∀ a b, R .arr a b → RelE (R .arr) (nl a) (nl' b)) {h : ℝ} (hk : P.stages.all (RInstr.kinded dots) = true)
    (hc : CoefsRel R F F' P.stages h) {u : A} {u' : B} (hu : R .arr u u') :
    RelE (R .arr) (P.aStep F nl h u) (P.aStep F' nl' h u') := by
  refine RelE.bind hc fun c c' hcc => (hnl _ _ hu).bind fun n n' hn => ?_
  refine (avals_rel hO hnl P.stages hk hcc (x := Function.update (fun _ => u) NL1 n) (x' := Function.update (fun _ => u') NL1 n')
    fun a => ?_).map fun y y' hy => hy k
  by_cases hb : a = NL1
  · subst hb; simpa using hn
  · rw [Function.update_of_ne hb, Function.update_of_ne hb]; exact hu

theorem RASProg.aTrial_rel {P : RASProg Coef ι} {dots : Bool} {R : Kind → A → B → Prop} {F : AEnv Coef ι A} {F' : AEnv Coef ι B}
    (hO : RelOps dots R F.ops F'.ops) {nl : A → Except PyErr A} {nl' : B → Except PyErr B}
    (hnl : ∀ a b, R .arr a b → RelE (R .arr) (nl a) (nl' b)) {h : ℝ} {check : A → A → Except PyErr Unit}
    {check' : B → B → Except PyErr Unit}
    (hch : ∀ a b e f, R .arr a b → R .arr e f → RelE (fun _ _ => True) (check a e) (check' b f))
    (hi : P.init.all (RInstr.kinded dots) = true) (hiv : P.init.all (fun i => i.vecs.isEmpty && i.mats.isEmpty) = true)
    (hk : P.stages.all (RInstr.kinded dots) = true) (hc : CoefsRel R F F' P.stages h) {u : A} {u' : B} (hu : R .arr u u') :
    RelE (fun r r' => R .arr r.1 r'.1 ∧ R .arr r.2 r'.2) (P.aTrial F check nl h u) (P.aTrial F' check' nl' h u') := by
  refine RelE.bind hc fun c c' hcc => RelE.bind (R := fun y y' => ∀ a, R .arr (y a) (y' a)) ?_ fun x x' hx => ?_
  · refine avals_rel hO hnl P.init hi ?_ fun _ => hu
    intro i hi'
    have := List.all_eq_true.mp hiv i hi'
    simp only [Bool.and_eq_true, List.isEmpty_iff] at this
    simp [this.1, this.2]
  · refine (avals_rel hO hnl P.stages hk hcc hx).bind fun y y' hy => ?_
    exact (hch _ _ _ _ (hy _) (hy _)).map fun _ _ _ => ⟨hy _, hy _⟩

end Verif
