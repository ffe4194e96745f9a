import Verif.Model.Rounded
import Verif.Lemmas.AS

/-!
# Solvers with inexact arithmetic compute a function of the step size and the array

The only state that a step reads is what the step before has left for it; this is a matter of which attributes are
assigned before they are read.
-/

set_option linter.unusedSectionVars false

namespace Verif

open Attr

variable {ι Coef : Type}

/-- The attribute values after a sequence of assignments. -/
def vals (nl : NlFunc ι) : List (Instr ι) → (Attr → Vec ι) → Except PyErr (Attr → Vec ι)
  | [], x => .ok x
  | .set a e :: is, x => vals nl is (Function.update x a (e x))
  | .call a b :: is, x =>
    match nl (x b) with
    | .ok n => vals nl is (Function.update x a n)
    | .error e => .error e

theorem RState.run_vals (nl : NlFunc ι) (is : List (Instr ι)) (s : RState ι) :
    ∃ k, RState.run nl is s = match vals nl is s.val with
      | .ok y => (.ok (), ⟨y, k⟩)
      | .error e => (.error e, (RState.run nl is s).2) := by
  induction is generalizing s with
  | nil => exact ⟨s.evals, rfl⟩
  | cons i is ih =>
    cases i with
    | set a e => exact ih ⟨Function.update s.val a (e s.val), s.evals⟩
    | call a b =>
      cases hn : nl (s.val b) with
      | error e => exact ⟨0, by simp [vals, RState.run, RState.exec, PyM.bind_apply, hn]⟩
      | ok n =>
        obtain ⟨k, hk⟩ := ih ⟨Function.update s.val a n, s.evals + 1⟩
        refine ⟨k, ?_⟩
        simp only [vals, RState.run, RState.exec, PyM.bind_apply, hn]
        exact hk

theorem vals_append (nl : NlFunc ι) (is js : List (Instr ι)) (x : Attr → Vec ι) :
    vals nl (is ++ js) x = (vals nl is x).bind (vals nl js) := by
  induction is generalizing x with
  | nil => rfl
  | cons i is ih =>
    cases i with
    | set a e => exact ih _
    | call a b =>
      cases hn : nl (x b) with
      | error e => simp [vals, hn, Except.bind]
      | ok n => simp only [List.cons_append, vals, hn]; exact ih _

/-! ### Which attributes matter -/

namespace Exp

/-- The attributes that an expression reads. -/
def reads : Exp Coef ι → List Attr
  | var a => [a]
  | cof _ | size | num _ => []
  | add e f | sub e f | mul e f => e.reads ++ f.reads
  | neg e | over e _ | dot _ e | fix _ e => e.reads

theorem eval_congr (ar : Arith ι) (c : Coef) (h : ℝ) {x y : Attr → Vec ι} (e : Exp Coef ι) (hxy : ∀ a ∈ e.reads, x a = y a) :
    e.eval ar c h x = e.eval ar c h y := by
  induction e with
  | var a => exact hxy a (by simp [reads])
  | cof _ | size | num _ => rfl
  | add e f ie iff | sub e f ie iff | mul e f ie iff =>
    simp only [reads, List.mem_append] at hxy
    simp only [eval, ie fun a ha => hxy a (.inl ha), iff fun a ha => hxy a (.inr ha)]
  | neg e ih | over e _ ih | dot _ e ih | fix _ e ih => simp only [eval, ih hxy]

end Exp

namespace RInstr

/-- The attribute that is assigned. -/
def target : RInstr Coef ι → Attr
  | set x _ => x
  | call x _ => x

/-- The attributes that are read. -/
def reads : RInstr Coef ι → List Attr
  | set _ e => e.reads
  | call _ y => [y]

end RInstr

/-- Every attribute that is read is one of `D` or has been assigned before. -/
def ReadsOnly (D : List Attr) : List (RInstr Coef ι) → Prop
  | [] => True
  | i :: is => (∀ a ∈ i.reads, a ∈ D) ∧ ReadsOnly (i.target :: D) is

instance ReadsOnly.decide : (D : List Attr) → (is : List (RInstr Coef ι)) → Decidable (ReadsOnly D is)
  | _, [] => .isTrue trivial
  | D, i :: is => have := ReadsOnly.decide (i.target :: D) is; inferInstanceAs (Decidable (_ ∧ _))

/-- Both raise the same exception, or both return values that agree on `D`. -/
def OutEq (D : List Attr) : Except PyErr (Attr → Vec ι) → Except PyErr (Attr → Vec ι) → Prop
  | .ok x, .ok y => ∀ a ∈ D, x a = y a
  | .error e, .error e' => e = e'
  | _, _ => False

theorem OutEq.mono {D D' : List Attr} {r r' : Except PyErr (Attr → Vec ι)} (h : OutEq D r r') (hD : ∀ a ∈ D', a ∈ D) :
    OutEq D' r r' := by
  cases r <;> cases r' <;> simp only [OutEq] at h ⊢
  · exact h
  · exact fun a ha => h a (hD a ha)

theorem vals_congr (ar : Arith ι) (c : Coef) (h : ℝ) (nl : NlFunc ι) (is : List (RInstr Coef ι)) (D : List Attr)
    (hD : ReadsOnly D is) {x y : Attr → Vec ι} (hxy : ∀ a ∈ D, x a = y a) :
    OutEq (is.map RInstr.target ++ D) (vals nl (is.map (RInstr.inst ar c h)) x) (vals nl (is.map (RInstr.inst ar c h)) y) := by
  induction is generalizing D x y with
  | nil => exact hxy
  | cons i is ih =>
    obtain ⟨h1, h2⟩ := hD
    have key : ∀ n, OutEq ((i :: is).map RInstr.target ++ D)
        (vals nl (is.map (RInstr.inst ar c h)) (Function.update x i.target n))
        (vals nl (is.map (RInstr.inst ar c h)) (Function.update y i.target n)) := by
      intro n
      refine (ih (i.target :: D) h2 (x := Function.update x i.target n) (y := Function.update y i.target n) ?_).mono ?_
      · intro a ha
        by_cases hi : a = i.target
        · rw [hi, Function.update_self, Function.update_self]
        · rw [Function.update_of_ne hi, Function.update_of_ne hi]
          exact hxy a ((List.mem_cons.mp ha).resolve_left hi)
      · intro a ha
        simp only [List.map_cons, List.cons_append, List.mem_cons, List.mem_append] at ha ⊢
        tauto
    cases i with
    | set a e =>
      have he := Exp.eval_congr ar c h e (x := x) (y := y) fun a ha => hxy a (h1 a ha)
      have := key (e.eval ar c h x)
      simp only [List.map_cons, RInstr.inst, vals]
      rw [← he]; exact this
    | call a b =>
      have hb : x b = y b := hxy b (h1 b (by simp [RInstr.reads]))
      simp only [List.map_cons, RInstr.inst, vals, hb]
      cases hn : nl (y b) with
      | error e => rfl
      | ok n => exact key n

theorem vals_frame (ar : Arith ι) (c : Coef) (h : ℝ) (nl : NlFunc ι) (is : List (RInstr Coef ι)) {a : Attr}
    (ha : a ∉ is.map RInstr.target) {x y : Attr → Vec ι} (hy : vals nl (is.map (RInstr.inst ar c h)) x = .ok y) : y a = x a := by
  induction is generalizing x with
  | nil => obtain rfl : x = y := by simpa [vals] using hy
           rfl
  | cons i is ih =>
    simp only [List.map_cons, List.mem_cons, not_or] at ha
    cases i with
    | set b e =>
      have := ih ha.2 hy
      rw [this]; exact Function.update_of_ne ha.1 _ _
    | call b b' =>
      simp only [List.map_cons, RInstr.inst, vals] at hy
      cases hn : nl (x b') with
      | error e => simp [hn] at hy
      | ok n =>
        simp only [hn] at hy
        have := ih ha.2 hy
        rw [this]; exact Function.update_of_ne ha.1 _ _

/-! ### The methods on the object -/

namespace RMethod

theorem run_ok (nl : NlFunc ι) (is : List (Instr ι)) (s : RMethod Coef ι) {y : Attr → Vec ι} (hy : vals nl is s.vars.val = .ok y) :
    ∃ k, run nl is s = (.ok (), ⟨s.coef, ⟨y, k⟩⟩) := by
  obtain ⟨k, hk⟩ := RState.run_vals nl is s.vars
  rw [hy] at hk
  exact ⟨k, by unfold run; rw [PyM.zoom_apply, hk]⟩

theorem run_error (nl : NlFunc ι) (is : List (Instr ι)) (s : RMethod Coef ι) {e : PyErr} (hy : vals nl is s.vars.val = .error e) :
    ∃ s', run nl is s = (.error e, s') := by
  obtain ⟨k, hk⟩ := RState.run_vals nl is s.vars
  rw [hy] at hk
  exact ⟨_, by unfold run; rw [PyM.zoom_apply, hk]⟩

theorem arg_apply (u : Vec ι) (s : RMethod Coef ι) :
    arg u s = (.ok (), ⟨s.coef, ⟨Function.update s.vars.val .u u, s.vars.evals⟩⟩) := rfl

/-- The coefficients in the object belong to the step size for which they are recorded. -/
def Cached (F : FPEnv Coef ι) (s : Wrap (RMethod Coef ι)) : Prop := ∀ h, s.hCoeff = some h → F.coefs h = .ok s.method.coef

theorem coeffs_ok (F : FPEnv Coef ι) (s : Wrap (RMethod Coef ι)) (hs : Cached F s) {h : ℝ} {c : Coef} (hc : F.coefs h = .ok c) :
    coeffs F h s = (.ok (), ⟨s.n1init, some h, ⟨c, s.method.vars⟩⟩) := by
  unfold coeffs
  simp only [PyM.bind_get_apply]
  split
  · rename_i hh
    have := hs h hh.symm
    rw [hc] at this
    rw [PyM.pure_apply, hh, Except.ok.inj this]
  · simp only [PyM.bind_modify_apply, Wrap.onMethod, PyM.zoom_apply, setCoefs, hc]

theorem coeffs_error (F : FPEnv Coef ι) (s : Wrap (RMethod Coef ι)) (hs : Cached F s) {h : ℝ} {e : PyErr}
    (hc : F.coefs h = .error e) : ∃ s', coeffs F h s = (.error e, s') := by
  unfold coeffs
  simp only [PyM.bind_get_apply]
  split
  · rename_i hh
    have := hs h hh.symm
    rw [hc] at this
    simp at this
  · simp only [PyM.bind_modify_apply, Wrap.onMethod, PyM.zoom_apply, setCoefs, hc]
    exact ⟨_, rfl⟩

end RMethod

end Verif
