import Verif.Spec.Dtypes
import Verif.Lemmas.ArraysRel
import Verif.Lemmas.RelLoop
import Verif.Lemmas.ASEvolve
import Verif.Lemmas.NonFiniteRun

/-!
# The dtypes of the results of steps
-/

set_option linter.unusedSectionVars false

namespace Verif

open Attr

variable {ι A Coef : Type}

namespace DType

theorem le_refl (a : DType) : a.le a := by cases a <;> rfl

theorem le_trans {a b c : DType} (h1 : a.le b) (h2 : b.le c) : a.le c := by
  revert h1 h2; cases a <;> cases b <;> cases c <;> simp [le, promote]

theorem le_antisymm {a b : DType} (h1 : a.le b) (h2 : b.le a) : a = b := by
  revert h1 h2; cases a <;> cases b <;> simp [le, promote]

theorem promote_le_promote {a b c d : DType} (h1 : a.le b) (h2 : c.le d) : (a.promote c).le (b.promote d) := by
  revert h1 h2; cases a <;> cases b <;> cases c <;> cases d <;> simp [le, promote]

theorem le_promote_left (a b : DType) : a.le (a.promote b) := by cases a <;> cases b <;> rfl

theorem le_promote_right (a b : DType) : b.le (a.promote b) := by cases a <;> cases b <;> rfl

theorem complex_of_le {a b : DType} (h : a.le b) (ha : a = .complex128) : b = .complex128 := by
  subst ha; revert h; cases b <;> simp [le, promote]

end DType

/-- The dtype of an expression. -/
def Exp.ty (cv cm : DType) (t : Attr → DType) : Exp Coef ι → DType
  | var a => t a
  | cof _ => cv
  | size | num _ => .float64
  | add e f | sub e f | mul e f => (e.ty cv cm t).promote (f.ty cv cm t)
  | neg e => e.ty cv cm t
  | over e _ => (e.ty cv cm t).promote .float64
  | dot _ e | fix _ e => cm.promote (e.ty cv cm t)

/-- The dtypes of the attributes after a list of assignments, if `nl_func` takes dtypes as `ν` does. -/
def tys (cv cm : DType) (ν : DType → DType) : List (RInstr Coef ι) → (Attr → DType) → Attr → DType
  | [], t => t
  | .set a e :: is, t => tys cv cm ν is (Function.update t a (e.ty cv cm t))
  | .call a b :: is, t => tys cv cm ν is (Function.update t a (ν (t b)))

theorem Except.map_ty {O : Except PyErr A} {d : DType} {v : TArr A} (h : O.map (TArr.mk d) = .ok v) : v.ty = d := by
  cases O with
  | error e => simp [Except.map] at h
  | ok a => simp only [Except.map, Except.ok.injEq] at h; rw [← h]

theorem Exp.evalA_ty {O : ArrOps ι A} {cv cm : DType} {c : Coef} {h : ℝ} {x : Attr → TArr A} {e : Exp Coef ι} {v : TArr A}
    (hv : e.evalA (O.typed cv cm) c h x = .ok v) : v.ty = e.ty cv cm fun a => (x a).ty := by
  induction e generalizing v with
  | var a => simp only [evalA, Except.ok.injEq] at hv; rw [← hv]; rfl
  | cof p => simp only [evalA, Except.ok.injEq] at hv; rw [← hv]; rfl
  | size => simp only [evalA, Except.ok.injEq] at hv; rw [← hv]; rfl
  | num n => simp only [evalA, Except.ok.injEq] at hv; rw [← hv]; rfl
  | add e f ie iff | sub e f ie iff | mul e f ie iff =>
    simp only [evalA] at hv
    cases h1 : e.evalA (O.typed cv cm) c h x with
    | error e => simp [h1, Except.bind] at hv
    | ok a =>
      cases h2 : f.evalA (O.typed cv cm) c h x with
      | error e => simp [h1, h2, Except.bind] at hv
      | ok b =>
        simp only [h1, h2, Except.bind] at hv
        rw [Except.map_ty hv, ie h1, iff h2]; rfl
  | neg e ih | over e n ih | dot p e ih | fix M e ih =>
    simp only [evalA] at hv
    cases h1 : e.evalA (O.typed cv cm) c h x with
    | error e => simp [h1, Except.bind] at hv
    | ok a =>
      simp only [h1, Except.bind] at hv
      rw [Except.map_ty hv, ih h1]; rfl

theorem Exp.ty_mono {cv cm : DType} {t t' : Attr → DType} (ht : ∀ a, (t a).le (t' a)) (e : Exp Coef ι) :
    (e.ty cv cm t).le (e.ty cv cm t') := by
  induction e with
  | var a => exact ht a
  | cof p | size | num n => exact DType.le_refl _
  | add e f ie iff | sub e f ie iff | mul e f ie iff => exact DType.promote_le_promote ie iff
  | neg e ih => exact ih
  | over e n ih => exact DType.promote_le_promote ih (DType.le_refl _)
  | dot p e ih | fix M e ih => exact DType.promote_le_promote (DType.le_refl _) ih

theorem update_rel {B C : Type} {R : B → C → Prop} {x : Attr → B} {y : Attr → C} (h : ∀ a, R (x a) (y a)) {a : Attr} {b : B} {c : C}
    (hb : R b c) (a' : Attr) : R (Function.update x a b a') (Function.update y a c a') := by
  by_cases ha : a' = a
  · subst ha; simpa using hb
  · simpa [Function.update_of_ne ha] using h a'

theorem avals_ge {O : ArrOps ι A} {cv cm : DType} {c : Coef} {h : ℝ} {nl : TArr A → Except PyErr (TArr A)} {ν : DType → DType}
    (hm : DType.Mono ν) (hν : NlGe nl ν) (is : List (RInstr Coef ι)) {t : Attr → DType} {x y : Attr → TArr A}
    (ht : ∀ a, (t a).le (x a).ty) (hy : avals (O.typed cv cm) c h nl is x = .ok y) (a : Attr) : (tys cv cm ν is t a).le (y a).ty := by
  induction is generalizing x t with
  | nil => simp only [avals, Except.ok.injEq] at hy; rw [← hy]; exact ht a
  | cons i is ih =>
    cases i with
    | set b e =>
      simp only [avals] at hy
      cases h1 : e.evalA (O.typed cv cm) c h x with
      | error e => simp [h1] at hy
      | ok v =>
        rw [h1] at hy
        exact ih (update_rel (R := fun t (w : TArr A) => DType.le t w.ty) ht (by rw [Exp.evalA_ty h1]; exact Exp.ty_mono ht e)) hy
    | call b b' =>
      simp only [avals] at hy
      cases h1 : nl (x b') with
      | error e => simp [h1] at hy
      | ok v =>
        rw [h1] at hy
        exact ih (update_rel (R := fun t (w : TArr A) => DType.le t w.ty) ht (DType.le_trans (hm _ _ (ht b')) (hν _ _ h1))) hy

theorem avals_le {O : ArrOps ι A} {cv cm : DType} {c : Coef} {h : ℝ} {nl : TArr A → Except PyErr (TArr A)} {ν : DType → DType}
    (hm : DType.Mono ν) (hν : NlLe nl ν) (is : List (RInstr Coef ι)) {t : Attr → DType} {x y : Attr → TArr A}
    (ht : ∀ a, (x a).ty.le (t a)) (hy : avals (O.typed cv cm) c h nl is x = .ok y) (a : Attr) : (y a).ty.le (tys cv cm ν is t a) := by
  induction is generalizing x t with
  | nil => simp only [avals, Except.ok.injEq] at hy; rw [← hy]; exact ht a
  | cons i is ih =>
    cases i with
    | set b e =>
      simp only [avals] at hy
      cases h1 : e.evalA (O.typed cv cm) c h x with
      | error e => simp [h1] at hy
      | ok v =>
        rw [h1] at hy
        exact ih (update_rel (R := fun (w : TArr A) t => w.ty.le t) ht (by rw [Exp.evalA_ty h1]; exact Exp.ty_mono ht e)) hy
    | call b b' =>
      simp only [avals] at hy
      cases h1 : nl (x b') with
      | error e => simp [h1] at hy
      | ok v =>
        rw [h1] at hy
        exact ih (update_rel (R := fun (w : TArr A) t => w.ty.le t) ht (DType.le_trans (hν _ _ h1) (hm _ _ (ht b')))) hy

/-! ### The dtypes of the programs -/

section

variable [Fintype ι] [DecidableEq ι]

/-- What `hν` says about the three images. -/
theorem DType.Mono.images {ν : DType → DType} (hν : DType.Mono ν) :
    (ν .int64).le (ν .float64) ∧ (ν .float64).le (ν .complex128) :=
  ⟨hν _ _ rfl, hν _ _ rfl⟩

theorem CSSolver.tys_eq (m : CSSolver ι) {cv : DType} (hcv : cv.promote .float64 = cv) {ν : DType → DType} (hν : DType.Mono ν)
    (t : DType) :
    tys cv cv ν m.rprog.stages (Function.update (fun _ => t) NL1 (ν t)) k = (cv.promote t).promote (ν .float64) := by
  obtain ⟨h1, h2⟩ := hν.images
  generalize hi : ν .int64 = ni at h1
  generalize hf : ν .float64 = nf at h1 h2 ⊢
  generalize hc : ν .complex128 = nc at h2
  obtain rfl : ν = fun d => match d with
    | .int64 => ni
    | .float64 => nf
    | .complex128 => nc := by
    funext d; cases d <;> assumption
  clear hi hf hc hν
  rcases m with (L | L) | ⟨cfg, L | L⟩ | ⟨cfg, L | L⟩ <;> cases cv <;> first | (cases hcv; done) | skip
  all_goals cases ni <;> cases nf <;> first | (cases h1; done) | skip
  all_goals cases nc <;> first | (cases h2; done) | (cases t <;> rfl)

set_option maxHeartbeats 1600000 in
theorem ASSolver.tys_eq (m : ASSolver ι) (d e : DType) {ν : DType → DType} (hν : DType.Mono ν) (t : DType) :
    tys (m.coefTy d e) (m.matTy d e) ν m.rprog.stages (tys (m.coefTy d e) (m.matTy d e) ν m.rprog.init fun _ => t) m.rprog.out =
      ((m.coefTy d e).promote t).promote (ν .float64) := by
  obtain ⟨h1, h2⟩ := hν.images
  generalize hi : ν .int64 = ni at h1
  generalize hf : ν .float64 = nf at h1 h2 ⊢
  generalize hc : ν .complex128 = nc at h2
  obtain rfl : ν = fun d => match d with
    | .int64 => ni
    | .float64 => nf
    | .complex128 => nc := by
    funext d; cases d <;> assumption
  clear hi hf hc hν
  rcases m with (L | L | ⟨l, S, T, hS⟩) | ⟨cfg, L | L | ⟨l, S, T, hS⟩⟩ | ⟨cfg, L | L | ⟨l, S, T, hS⟩⟩ | L
  all_goals cases ni <;> cases nf <;> first | (cases h1; done) | skip
  all_goals cases nc <;> first | (cases h2; done) | skip
  all_goals cases t <;> cases d <;> first | rfl | (cases e <;> rfl)

theorem stepTy_stepTy (cv : DType) (ν : DType → DType) (t : DType) : stepTy cv ν (stepTy cv ν t) = stepTy cv ν t := by
  unfold stepTy
  generalize ν .float64 = n
  cases cv <;> cases n <;> cases t <;> rfl

theorem stepTy_mono (cv : DType) (ν : DType → DType) {t t' : DType} (h : t.le t') : (stepTy cv ν t).le (stepTy cv ν t') :=
  DType.promote_le_promote (DType.promote_le_promote (DType.le_refl _) h) (DType.le_refl _)

theorem le_stepTy (cv : DType) (ν : DType → DType) (t : DType) : t.le (stepTy cv ν t) :=
  DType.le_trans (DType.le_promote_right _ _) (DType.le_promote_left _ _)

theorem CSSolver.coefTy_float (d : DType) (m : CSSolver ι) : (m.coefTy d).promote .float64 = m.coefTy d := by
  rcases m with L | ⟨cfg, L⟩ | ⟨cfg, L⟩ <;> cases d <;> rfl

theorem CSSolver.aStep_ge (m : CSSolver ι) {d : DType} {F : AEnv m.Coef ι A} {nl : TArr A → Except PyErr (TArr A)} {ν : DType → DType}
    (hm : DType.Mono ν) (hν : NlGe nl ν) {h : ℝ} {u v : TArr A}
    (hv : m.rprog.aStep ⟨F.ops.typed (m.coefTy d) (m.coefTy d), F.coefs⟩ nl h u = .ok v) : (stepTy (m.coefTy d) ν u.ty).le v.ty := by
  unfold RCSProg.aStep at hv
  cases hc : F.coefs h with
  | error e => simp [hc, Except.bind] at hv
  | ok c =>
    cases hn : nl u with
    | error e => simp [hc, hn, Except.bind] at hv
    | ok n =>
      cases hy : avals (F.ops.typed (m.coefTy d) (m.coefTy d)) c h nl m.rprog.stages (Function.update (fun _ => u) NL1 n) with
      | error e => simp [hc, hn, hy, Except.bind, Except.map] at hv
      | ok y =>
        simp only [hc, hn, hy, Except.bind, Except.map, Except.ok.injEq] at hv
        rw [← hv, show stepTy (m.coefTy d) ν u.ty = _ from (m.tys_eq (m.coefTy_float d) hm u.ty).symm]
        exact avals_ge hm hν _ (update_rel (R := fun t (w : TArr A) => DType.le t w.ty) (fun _ => DType.le_refl _) (hν _ _ hn)) hy k

theorem CSSolver.aStep_le (m : CSSolver ι) {d : DType} {F : AEnv m.Coef ι A} {nl : TArr A → Except PyErr (TArr A)} {ν : DType → DType}
    (hm : DType.Mono ν) (hν : NlLe nl ν) {h : ℝ} {u v : TArr A}
    (hv : m.rprog.aStep ⟨F.ops.typed (m.coefTy d) (m.coefTy d), F.coefs⟩ nl h u = .ok v) : v.ty.le (stepTy (m.coefTy d) ν u.ty) := by
  unfold RCSProg.aStep at hv
  cases hc : F.coefs h with
  | error e => simp [hc, Except.bind] at hv
  | ok c =>
    cases hn : nl u with
    | error e => simp [hc, hn, Except.bind] at hv
    | ok n =>
      cases hy : avals (F.ops.typed (m.coefTy d) (m.coefTy d)) c h nl m.rprog.stages (Function.update (fun _ => u) NL1 n) with
      | error e => simp [hc, hn, hy, Except.bind, Except.map] at hv
      | ok y =>
        simp only [hc, hn, hy, Except.bind, Except.map, Except.ok.injEq] at hv
        rw [← hv, show stepTy (m.coefTy d) ν u.ty = _ from (m.tys_eq (m.coefTy_float d) hm u.ty).symm]
        exact avals_le hm hν _ (update_rel (R := fun (w : TArr A) t => w.ty.le t) (fun _ => DType.le_refl _) (hν _ _ hn)) hy k

theorem ASSolver.aTrial_ge (m : ASSolver ι) {d e : DType} {F : AEnv m.Coef ι A} {check : TArr A → TArr A → Except PyErr Unit}
    {nl : TArr A → Except PyErr (TArr A)} {ν : DType → DType} (hm : DType.Mono ν) (hν : NlGe nl ν) {h : ℝ}
    {u : TArr A} {r : TArr A × TArr A}
    (hr : m.rprog.aTrial ⟨F.ops.typed (m.coefTy d e) (m.matTy d e), F.coefs⟩ check nl h u = .ok r) :
    (stepTy (m.coefTy d e) ν u.ty).le r.1.ty := by
  unfold RASProg.aTrial RASProg.aload at hr
  cases hc : F.coefs h with
  | error e => simp [hc, Except.bind] at hr
  | ok c =>
    cases hx : avals (F.ops.typed (m.coefTy d e) (m.matTy d e)) () 0 nl m.rprog.init (fun _ => u) with
    | error e => simp [hc, hx, Except.bind] at hr
    | ok x =>
      cases hy : avals (F.ops.typed (m.coefTy d e) (m.matTy d e)) c h nl m.rprog.stages x with
      | error e => simp [hc, hx, hy, Except.bind] at hr
      | ok y =>
        cases hk : check (y m.rprog.out) (y Attr.err) with
        | error e => simp [hc, hx, hy, hk, Except.bind, Except.map] at hr
        | ok _ =>
          simp only [hc, hx, hy, hk, Except.bind, Except.map, Except.ok.injEq] at hr
          subst hr
          rw [show stepTy (m.coefTy d e) ν u.ty = _ from (m.tys_eq d e hm u.ty).symm]
          exact avals_ge hm hν _ (avals_ge hm hν _ (fun _ => DType.le_refl _) hx) hy _

theorem ASSolver.aTrial_le (m : ASSolver ι) {d e : DType} {F : AEnv m.Coef ι A} {check : TArr A → TArr A → Except PyErr Unit}
    {nl : TArr A → Except PyErr (TArr A)} {ν : DType → DType} (hm : DType.Mono ν) (hν : NlLe nl ν) {h : ℝ}
    {u : TArr A} {r : TArr A × TArr A}
    (hr : m.rprog.aTrial ⟨F.ops.typed (m.coefTy d e) (m.matTy d e), F.coefs⟩ check nl h u = .ok r) :
    r.1.ty.le (stepTy (m.coefTy d e) ν u.ty) := by
  unfold RASProg.aTrial RASProg.aload at hr
  cases hc : F.coefs h with
  | error e => simp [hc, Except.bind] at hr
  | ok c =>
    cases hx : avals (F.ops.typed (m.coefTy d e) (m.matTy d e)) () 0 nl m.rprog.init (fun _ => u) with
    | error e => simp [hc, hx, Except.bind] at hr
    | ok x =>
      cases hy : avals (F.ops.typed (m.coefTy d e) (m.matTy d e)) c h nl m.rprog.stages x with
      | error e => simp [hc, hx, hy, Except.bind] at hr
      | ok y =>
        cases hk : check (y m.rprog.out) (y Attr.err) with
        | error e => simp [hc, hx, hy, hk, Except.bind, Except.map] at hr
        | ok _ =>
          simp only [hc, hx, hy, hk, Except.bind, Except.map, Except.ok.injEq] at hr
          subst hr
          rw [show stepTy (m.coefTy d e) ν u.ty = _ from (m.tys_eq d e hm u.ty).symm]
          exact avals_le hm hν _ (avals_le hm hν _ (fun _ => DType.le_refl _) hx) hy _

/-! ### The values -/

/-- The values do not depend on the dtypes. -/
theorem relOps_typed (O : ArrOps ι A) (cv cm : DType) : RelOps true (fun _ (x : TArr A) v => x.val = v) (O.typed cv cm) O where
  add s t x x' y y' hx hy := by subst hx hy; show RelE _ (Except.map _ _) _; cases O.add x.val y.val <;> simp [Except.map, RelE]
  sub s t x x' y y' hx hy := by subst hx hy; show RelE _ (Except.map _ _) _; cases O.sub x.val y.val <;> simp [Except.map, RelE]
  mul s t x x' y y' hx hy := by subst hx hy; show RelE _ (Except.map _ _) _; cases O.mul x.val y.val <;> simp [Except.map, RelE]
  neg s x x' hx := by subst hx; show RelE _ (Except.map _ _) _; cases O.neg x.val <;> simp [Except.map, RelE]
  quot s x x' n hx := by subst hx; show RelE _ (Except.map _ _) _; cases O.quot x.val n <;> simp [Except.map, RelE]
  scalar z := rfl
  dot _ M x x' hx := by subst hx; show RelE _ (Except.map _ _) _; cases O.dot M x.val <;> simp [Except.map, RelE]

end

/-! ### Runs -/

namespace CSClass

variable {K V Sub : Type} [Field K] [LinearOrder K] {C : CSClass K V Sub}

/-- What holds for the result of every step from the initial array or from an array for which it holds: it holds for all recorded arrays
after the first one, and for the returned array if there was a step. -/
theorem loop_tail {Φ : K → V → Except PyErr V} (L : LawfulCS C Φ) (P : V → Prop) (u0 : V) (rnd : K → K) (pyDiv : Bool) (h : K)
    (hΦ : ∀ u v, u = u0 ∨ P u → Φ h u = .ok v → P v) (storeData : Bool) (freq : ℤ) :
    ∀ (fuel : ℕ) (u : V) (c : ℕ) (s : CSState K V Sub), L.Inv s.sub u → u = u0 ∨ P u → (∀ a ∈ s.u.tail, P a) →
      (storeData = true → s.u ≠ []) →
      (C.loop rnd pyDiv h storeData freq fuel u c s).2.u.head? = s.u.head? ∧
      (∀ a ∈ (C.loop rnd pyDiv h storeData freq fuel u c s).2.u.tail, P a) ∧
      ∀ v, (C.loop rnd pyDiv h storeData freq fuel u c s).1 = .ok (some v) → (v = u ∧ ¬ s.tc < s.tf) ∨ P v := by
  intro fuel
  induction fuel with
  | zero => intro u c s _ _ h1 _; exact ⟨rfl, h1, by simp [loop]⟩
  | succ fuel ih =>
    intro u c s hi hu h1 h2
    by_cases hlt : s.tc < s.tf
    swap
    · rw [loop_done _ _ _ _ _ _ _ _ _ hlt]
      refine ⟨rfl, h1, fun v hv => ?_⟩
      obtain rfl : u = v := by simpa using hv
      exact .inl ⟨rfl, hlt⟩
    by_cases hh : 0 ≤ h
    swap
    · rw [loop_step_error (hlt := hlt) (hr := step_neg _ _ hh _)]
      exact ⟨rfl, h1, by simp⟩
    have r := L.result s.sub u h hi
    cases hΦu : Φ h u with
    | error e =>
      rw [hΦu] at r
      rw [loop_step_error (hlt := hlt) (e := e) (s' := { s with sub := (C.updateStages u h s.sub).2 })
          (hr := by rw [step_apply _ _ hh, r])]
      exact ⟨rfl, h1, by simp⟩
    | ok v =>
      have hP := hΦ u v hu hΦu
      rw [hΦu] at r
      rw [loop]
      simp only [PyM.bind_get_apply, hlt, if_true]
      rw [PyM.bind_ok (a := v) (s' := { s with sub := (C.updateStages u h s.sub).2 }) (by rw [step_apply _ _ hh, r])]
      simp only [PyM.bind_modify_apply]
      by_cases hp : ProgressRaises pyDiv s.tf (c + 1)
      · rw [PyM.bind_error (progress_raises pyDiv (c + 1) s.tf _ hp)]
        exact ⟨rfl, h1, by simp⟩
      rw [PyM.bind_ok (progress_apply pyDiv (c + 1) s.tf _ hp)]
      by_cases hf : storeData = true → freq ≠ 0
      · rw [PyM.bind_ok (store_apply storeData freq (c + 1) v _ hf)]
        have i := L.inv_ok s.sub u h v hi hΦu
        split
        · rename_i hst
          obtain ⟨j0, j1, j2⟩ := ih v (c + 1)
            { s with tc := rnd (s.tc + h), sub := (C.updateStages u h s.sub).2, t := s.t ++ [rnd (s.tc + h)], u := s.u ++ [v] } i
            (.inr hP) (by
              intro a ha
              rw [List.tail_append_of_ne_nil (h2 (by simp_all))] at ha
              rcases List.mem_append.mp ha with ha | ha
              · exact h1 a ha
              · obtain rfl : a = v := by simpa using ha
                exact hP) (by simp)
          exact ⟨j0.trans (List.head?_append_of_ne_nil _ (h2 (by simp_all))), j1, fun w hw => .inr ((j2 w hw).elim (fun h => h.1 ▸ hP) id)⟩
        · obtain ⟨j0, j1, j2⟩ := ih v (c + 1) { s with tc := rnd (s.tc + h), sub := (C.updateStages u h s.sub).2 } i (.inr hP) h1 h2
          exact ⟨j0, j1, fun w hw => .inr ((j2 w hw).elim (fun h => h.1 ▸ hP) id)⟩
      · obtain ⟨rfl, rfl⟩ : storeData = true ∧ freq = 0 := by
          constructor
          · by_contra hc; exact hf fun h => absurd h hc
          · by_contra hc; exact hf fun _ => hc
        rw [PyM.bind_error (e := .zeroDivisionError) (by rfl)]
        exact ⟨rfl, h1, by simp⟩

theorem evolve_tail {Φ : K → V → Except PyErr V} (L : LawfulCS C Φ) (P : V → Prop) (rnd : K → K) (pyDiv : Bool) (fuel : ℕ) (u : V)
    (t0 tf h : K) (hΦ : ∀ w v, w = u ∨ P w → Φ h w = .ok v → P v) (storeData : Bool) (freq : ℤ) (s : CSState K V Sub) :
    (C.evolve rnd pyDiv fuel u t0 tf h storeData freq s).2.u.head? = (if storeData then some u else none) ∧
    (∀ a ∈ (C.evolve rnd pyDiv fuel u t0 tf h storeData freq s).2.u.tail, P a) ∧
    ∀ v, (C.evolve rnd pyDiv fuel u t0 tf h storeData freq s).1 = .ok (some v) → (v = u ∧ ¬ t0 < tf) ∨ P v := by
  rw [evolve_apply]
  by_cases hlt : tf < rnd (t0 + h)
  · rw [if_pos hlt]
    refine ⟨?_, ?_, by simp⟩ <;> cases storeData <;> simp [start]
  · rw [if_neg hlt]
    have := loop_tail L P u rnd pyDiv h hΦ storeData freq fuel u 0 (C.start u t0 tf storeData s) (L.reset_inv _ u) (.inl rfl)
      (by cases storeData <;> simp [start]) (by cases storeData <;> simp [start])
    exact ⟨this.1.trans (by cases storeData <;> simp [start]), this.2⟩

end CSClass

namespace ASClass

variable {K V Sub : Type} [Field K] [LinearOrder K] {C : ASClass K V Sub}

/-- The same for adaptive solvers. -/
theorem evolve_tail {Φ : K → V → Except PyErr (V × V)} (L : LawfulAS C Φ) (P : V → Prop) (rnd : K → K) (pyDiv : Bool)
    (cfg : SolverConfig K) (fuel : ℕ) (u : V) (t0 tf : K) (hΦ : ∀ h w r, w = u ∨ P w → Φ h w = .ok r → P r.1) (hInit : Option K)
    (storeData : Bool) (freq : ℤ) (s : ASState K V Sub) :
    (C.evolve rnd pyDiv cfg fuel u t0 tf hInit storeData freq s).2.u.head? = (if storeData then some u else none) ∧
    (∀ a ∈ (C.evolve rnd pyDiv cfg fuel u t0 tf hInit storeData freq s).2.u.tail, P a) ∧
    ∀ v, (C.evolve rnd pyDiv cfg fuel u t0 tf hInit storeData freq s).1 = .ok (some v) → (v = u ∧ ¬ t0 < tf) ∨ P v := by
  obtain ⟨n, tm, st, hp, hu, e1, e2, e3, hrun, -, e5, hend, -⟩ := evolve_run L rnd pyDiv cfg fuel u t0 tf hInit storeData freq s
  have hst : ∀ k, k < n → P (st (k + 1)) := by
    intro k
    induction k with
    | zero | succ k ih =>
      intro hk
      obtain ⟨-, hs, hstep, -⟩ := hrun.step _ hk
      generalize hr : (Except.ok (st _, hu _, hs) : Except PyErr (V × K × K)) = r at hstep
      cases hstep with
      | @accept j h' x r _ _ hok _ _ =>
        rw [(Prod.mk.inj (Except.ok.inj hr)).1]
        refine hΦ _ _ _ ?_ hok
        first | exact .inl e2 | exact .inr (ih (by omega))
      | minStep => cases hr
      | maxLoops => cases hr
      | raised => cases hr
  refine ⟨?_, ?_, ?_⟩
  · rw [e5]
    cases storeData
    · simp
    · simp [storedUpTo_eq, e2]
  · intro a ha
    rw [e5] at ha
    cases storeData
    · simp at ha
    · simp only [if_true, storedUpTo_eq, List.map_cons, List.tail_cons, List.mem_map] at ha
      obtain ⟨k, hk, rfl⟩ := ha
      simp only [CSClass.stored, List.mem_filter, List.mem_range'_1] at hk
      obtain ⟨k, rfl⟩ : ∃ j, k = j + 1 := ⟨k - 1, by omega⟩
      exact hst k (by omega)
  · intro v hv
    rw [hv] at hend
    generalize hr : (Except.ok (some v) : Except PyErr (Option V)) = r at hend
    cases hend with
    | returned hn ht =>
      obtain rfl : v = st n := by simpa using hr
      cases n with
      | zero => rw [e1] at ht; exact .inl ⟨e2, ht⟩
      | succ n => exact .inr (hst n (Nat.lt_succ_self n))
    | _ => simp at hr

end ASClass

/-! ### Steps from any state -/

/-- The argument has dtype `t`; nothing is known about the other arrays. -/
def argTy (t : DType) : Attr → DType := Function.update (fun _ => .int64) Attr.u t

/-- The arrays in the object have at least the dtypes `t`. -/
def AMethod.TyGe (t : Attr → DType) (s : AMethod Coef (TArr A)) : Prop := ∀ a, (t a).le (s.vars a).ty

theorem AMethod.run_ty {C : Type} {O : ArrOps ι A} {cv cm : DType} {nl : TArr A → Except PyErr (TArr A)} {c : C} {h : ℝ}
    (is : List (RInstr C ι)) (t : Attr → DType) :
    PyM.Post (AMethod.TyGe (Coef := Coef) t) (AMethod.run (O.typed cv cm) nl c h is)
      fun _ s => AMethod.TyGe (tys cv cm (fun _ => .int64) is t) s := by
  intro s hs a s' ha
  rw [AMethod.run_vals] at ha
  cases hy : avals (O.typed cv cm) c h nl is s.vars with
  | error e => simp [hy] at ha
  | ok y =>
    rw [hy] at ha
    obtain ⟨-, rfl⟩ := Prod.mk.inj ha
    exact avals_ge (fun _ _ _ => DType.le_refl _) (fun _ v _ => by cases v.ty <;> rfl) is hs hy

section

variable [Fintype ι] [DecidableEq ι]

theorem CSSolver.tys_init (m : CSSolver ι) (cv : DType) (t : DType) : tys cv cv (fun _ => .int64) m.rprog.init (argTy t) = argTy t := by
  rw [m.rprog_ok.init]
  funext a
  cases a <;> rfl

theorem CSSolver.tys_arg (m : CSSolver ι) (d t : DType) :
    tys (m.coefTy d) (m.coefTy d) (fun _ => .int64) m.rprog.stages (argTy t) k = (m.coefTy d).promote t := by
  rcases m with (L | L) | ⟨cfg, L | L⟩ | ⟨cfg, L | L⟩ <;> cases d <;> cases t <;> rfl

theorem CSSolver.updateStages_ty (m : CSSolver ι) (d : DType) {F : AEnv m.Coef ι A} {nl : TArr A → Except PyErr (TArr A)}
    {h : ℝ} {u : TArr A} :
    PyM.Post (fun _ => True) (m.rprog.aUpdateStages ⟨F.ops.typed (m.coefTy d) (m.coefTy d), F.coefs⟩ nl u h)
      fun v _ => ((m.coefTy d).promote u.ty).le v.ty := by
  unfold RCSProg.aUpdateStages
  refine PyM.Post.bind (Q := fun _ _ => True) (fun _ _ _ _ _ => trivial) fun _ => ?_
  refine PyM.Post.bind (Q := fun _ s => AMethod.TyGe (argTy u.ty) s.method) ?_ fun _ => ?_
  · refine fun s _ => PyM.Post.onMethod (P := fun _ => True) (Q := fun _ s => AMethod.TyGe (argTy u.ty) s) ?_ s trivial
    intro s _ a s' ha
    rw [AMethod.arg_apply] at ha
    obtain ⟨-, rfl⟩ := Prod.mk.inj ha
    intro a
    by_cases h1 : a = Attr.u
    · subst h1; simpa [argTy] using DType.le_refl _
    · simp only [argTy, Function.update_of_ne h1]; cases (s.vars a).ty <;> rfl
  refine PyM.Post.bind (Q := fun _ s => AMethod.TyGe (argTy u.ty) s.method) ?_ fun s0 => ?_
  · intro s hs a s' ha
    obtain ⟨-, rfl⟩ := Prod.mk.inj ha
    exact hs
  have hbody : PyM.Post (fun s : Wrap (AMethod m.Coef (TArr A)) => AMethod.TyGe (argTy u.ty) s.method)
      (Wrap.onMethod (m.rprog.abody ⟨F.ops.typed (m.coefTy d) (m.coefTy d), F.coefs⟩ nl h))
      fun v _ => ((m.coefTy d).promote u.ty).le v.ty := by
    refine PyM.Post.onMethod (Q := fun (v : TArr A) _ => ((m.coefTy d).promote u.ty).le v.ty) ?_
    unfold RCSProg.abody
    refine PyM.Post.bind (Q := fun _ s => AMethod.TyGe (argTy u.ty) s) ?_ fun s1 => ?_
    · intro s hs a s' ha
      obtain ⟨-, rfl⟩ := Prod.mk.inj ha
      exact hs
    refine PyM.Post.bind (AMethod.run_ty _ _) fun _ => ?_
    intro s hs a s' ha
    simp only [PyM.bind_get_apply, PyM.pure_apply, Prod.mk.injEq, Except.ok.injEq] at ha
    rw [← ha.1, ← m.tys_arg]
    exact hs _
  split_ifs with hn
  · refine PyM.Post.bind (Q := fun _ (s : Wrap (AMethod m.Coef (TArr A))) => AMethod.TyGe (argTy u.ty) s.method) ?_ fun _ => ?_
    · have := PyM.Post.onMethod (AMethod.run_ty (O := F.ops) (cv := m.coefTy d) (cm := m.coefTy d) (Coef := m.Coef) (nl := nl) (c := ())
        (h := 0) m.rprog.init (argTy u.ty))
      rwa [m.tys_init] at this
    · refine PyM.Post.bind (Q := fun _ (s : Wrap (AMethod m.Coef (TArr A))) => AMethod.TyGe (argTy u.ty) s.method) ?_ fun _ => hbody
      intro s hs a s' ha
      obtain ⟨-, rfl⟩ := Prod.mk.inj ha
      exact hs
  · exact hbody

end

end Verif
