import Verif.Model.Arrays
import Verif.Lemmas.RoundedRun

/-!
# Runs of assignments on arrays of any kind

As in `Verif.Lemmas.RoundedRun`, with operations that may raise.
-/

set_option linter.unusedSectionVars false

namespace Verif

open Attr

variable {ι A Coef : Type}

/-- The attribute values after a sequence of assignments. -/
noncomputable def avals (O : ArrOps ι A) (c : Coef) (h : ℝ) (nl : A → Except PyErr A) :
    List (RInstr Coef ι) → (Attr → A) → Except PyErr (Attr → A)
  | [], x => .ok x
  | .set a e :: is, x =>
    match e.evalA O c h x with
    | .ok n => avals O c h nl is (Function.update x a n)
    | .error e => .error e
  | .call a b :: is, x =>
    match nl (x b) with
    | .ok n => avals O c h nl is (Function.update x a n)
    | .error e => .error e

variable (O : ArrOps ι A) (c : Coef) (h : ℝ) (nl : A → Except PyErr A)

theorem avals_append (is js : List (RInstr Coef ι)) (x : Attr → A) :
    avals O c h nl (is ++ js) x = (avals O c h nl is x).bind (avals O c h nl js) := by
  induction is generalizing x with
  | nil => rfl
  | cons i is ih =>
    cases i with
    | set a e =>
      cases hn : e.evalA O c h x with
      | error e => simp [avals, hn, Except.bind]
      | ok n => simp only [List.cons_append, avals, hn]; exact ih _
    | call a b =>
      cases hn : nl (x b) with
      | error e => simp [avals, hn, Except.bind]
      | ok n => simp only [List.cons_append, avals, hn]; exact ih _

theorem Exp.evalA_congr {x y : Attr → A} (e : Exp Coef ι) (hxy : ∀ a ∈ e.reads, x a = y a) : e.evalA O c h x = e.evalA O c h y := by
  induction e with
  | var a => exact congrArg Except.ok (hxy a (by simp [reads]))
  | cof _ | size | num _ => rfl
  | add e f ie iff | sub e f ie iff | mul e f ie iff =>
    simp only [reads, List.mem_append] at hxy
    simp only [evalA, ie fun a ha => hxy a (.inl ha), iff fun a ha => hxy a (.inr ha)]
  | neg e ih | over e _ ih | dot _ e ih | fix _ e ih => simp only [evalA, ih hxy]

/-- Both raise the same exception, or both return values that agree on `D`. -/
def AOutEq (D : List Attr) : Except PyErr (Attr → A) → Except PyErr (Attr → A) → Prop
  | .ok x, .ok y => ∀ a ∈ D, x a = y a
  | .error e, .error e' => e = e'
  | _, _ => False

theorem AOutEq.mono {D D' : List Attr} {r r' : Except PyErr (Attr → A)} (h : AOutEq D r r') (hD : ∀ a ∈ D', a ∈ D) :
    AOutEq D' r r' := by
  cases r <;> cases r' <;> simp only [AOutEq] at h ⊢
  · exact h
  · exact fun a ha => h a (hD a ha)

theorem AOutEq.refl (D : List Attr) (r : Except PyErr (Attr → A)) : AOutEq D r r := by
  cases r <;> simp [AOutEq]

theorem avals_congr (is : List (RInstr Coef ι)) (D : List Attr) (hD : ReadsOnly D is) {x y : Attr → A}
    (hxy : ∀ a ∈ D, x a = y a) : AOutEq (is.map RInstr.target ++ D) (avals O c h nl is x) (avals O c h nl is y) := by
  induction is generalizing D x y with
  | nil => exact hxy
  | cons i is ih =>
    obtain ⟨h1, h2⟩ := hD
    have key : ∀ n, AOutEq ((i :: is).map RInstr.target ++ D) (avals O c h nl is (Function.update x i.target n))
        (avals O c h nl is (Function.update y i.target n)) := by
      intro n
      refine (ih (i.target :: D) h2 (x := Function.update x i.target n) (y := Function.update y i.target n) ?_).mono ?_
      · intro a ha
        by_cases hi : a = i.target
        · rw [hi, Function.update_self, Function.update_self]
        · rw [Function.update_of_ne hi, Function.update_of_ne hi]
          exact hxy a ((List.mem_cons.mp ha).resolve_left hi)
      · intro a ha
        simp only [List.map_cons, List.cons_append, List.mem_cons, List.mem_append] at ha ⊢
        tauto
    cases i with
    | set a e =>
      have he := Exp.evalA_congr O c h e (x := x) (y := y) fun a ha => hxy a (h1 a ha)
      simp only [avals, he]
      cases hn : e.evalA O c h y with
      | error e => rfl
      | ok n => exact key n
    | call a b =>
      have hb : x b = y b := hxy b (h1 b (by simp [RInstr.reads]))
      simp only [avals, hb]
      cases hn : nl (y b) with
      | error e => rfl
      | ok n => exact key n

theorem avals_frame (is : List (RInstr Coef ι)) {a : Attr} (ha : a ∉ is.map RInstr.target) {x y : Attr → A}
    (hy : avals O c h nl is x = .ok y) : y a = x a := by
  induction is generalizing x with
  | nil => obtain rfl : x = y := by simpa [avals] using hy
           rfl
  | cons i is ih =>
    simp only [List.map_cons, List.mem_cons, not_or] at ha
    cases i with
    | set b e =>
      simp only [avals] at hy
      cases hn : e.evalA O c h x with
      | error e => simp [hn] at hy
      | ok n =>
        simp only [hn] at hy
        have := ih ha.2 hy
        rw [this]; exact Function.update_of_ne ha.1 _ _
    | call b b' =>
      simp only [avals] at hy
      cases hn : nl (x b') with
      | error e => simp [hn] at hy
      | ok n =>
        simp only [hn] at hy
        have := ih ha.2 hy
        rw [this]; exact Function.update_of_ne ha.1 _ _

/-! ### The methods on the object -/

namespace AMethod

variable {C : Type} (c : C)

theorem run_vals (is : List (RInstr C ι)) (s : AMethod Coef A) :
    run O nl c h is s = match avals O c h nl is s.vars with
      | .ok y => (.ok (), ⟨s.coef, y⟩)
      | .error e => (.error e, (run O nl c h is s).2) := by
  induction is generalizing s with
  | nil => rfl
  | cons i is ih =>
    cases i with
    | set a e =>
      simp only [avals, run, exec, PyM.bind_apply]
      cases hn : e.evalA O c h s.vars with
      | error e => rfl
      | ok n => exact ih ⟨s.coef, Function.update s.vars a n⟩
    | call a b =>
      simp only [avals, run, exec, PyM.bind_apply]
      cases hn : nl (s.vars b) with
      | error e => rfl
      | ok n => exact ih ⟨s.coef, Function.update s.vars a n⟩

theorem run_ok (is : List (RInstr C ι)) (s : AMethod Coef A) {y : Attr → A} (hy : avals O c h nl is s.vars = .ok y) :
    run O nl c h is s = (.ok (), ⟨s.coef, y⟩) := by
  rw [run_vals, hy]

theorem run_error (is : List (RInstr C ι)) (s : AMethod Coef A) {e : PyErr} (hy : avals O c h nl is s.vars = .error e) :
    ∃ s', run O nl c h is s = (.error e, s') := by
  rw [run_vals, hy]; exact ⟨_, rfl⟩

theorem arg_apply (u : A) (s : AMethod Coef A) : arg u s = (.ok (), ⟨s.coef, Function.update s.vars .u u⟩) := rfl

/-- The coefficients in the object belong to the step size for which they are recorded. -/
def Cached (coefs : ℝ → Except PyErr Coef) (s : Wrap (AMethod Coef A)) : Prop :=
  ∀ h, s.hCoeff = some h → coefs h = .ok s.method.coef

theorem coeffs_ok (coefs : ℝ → Except PyErr Coef) (s : Wrap (AMethod Coef A)) (hs : Cached coefs s) {h : ℝ} {c : Coef}
    (hc : coefs h = .ok c) : coeffs coefs h s = (.ok (), ⟨s.n1init, some h, ⟨c, s.method.vars⟩⟩) := by
  unfold coeffs
  simp only [PyM.bind_get_apply]
  split
  · rename_i hh
    have := hs h hh.symm
    rw [hc] at this
    rw [PyM.pure_apply, hh, Except.ok.inj this]
  · simp only [PyM.bind_modify_apply, Wrap.onMethod, PyM.zoom_apply, setCoefs, hc]

theorem coeffs_error (coefs : ℝ → Except PyErr Coef) (s : Wrap (AMethod Coef A)) (hs : Cached coefs s) {h : ℝ} {e : PyErr}
    (hc : coefs h = .error e) : ∃ s', coeffs coefs h s = (.error e, s') := by
  unfold coeffs
  simp only [PyM.bind_get_apply]
  split
  · rename_i hh
    have := hs h hh.symm
    rw [hc] at this
    simp at this
  · simp only [PyM.bind_modify_apply, Wrap.onMethod, PyM.zoom_apply, setCoefs, hc]
    exact ⟨_, rfl⟩

end AMethod

end Verif
