import Verif.Model.Heap

/-!
# The programs of `Verif.Model.Heap` with arrays as values are the strategies of the other modules
-/

set_option linter.unusedSectionVars false
set_option linter.unusedSimpArgs false

namespace Verif

open Matrix Attr

variable {ι : Type}

/-- The last assignment of `x` makes a new array (`b`: so it was before). -/
def freshAfter (x : Attr) : Bool → List (Instr ι) → Bool
  | b, [] => b
  | b, .set y _ :: is => freshAfter x (b || y == x) is
  | b, .call y _ :: is => freshAfter x (b && !(y == x)) is

/-- The program `P` computes what the strategy object `S` does. -/
structure TieCS {Coef : Type} (P : CSProg Coef ι) (S : CSStrategy Coef ι) (nl : NlFunc ι) : Prop where
  coeffs : ∀ h s, S.updateCoeffs h s =
    ((P.updateCoeffs h ⟨s.coef, 0, 0⟩).1, { s with coef := (P.updateCoeffs h ⟨s.coef, 0, 0⟩).2.coef })
  init : ∀ c x e, S.n1Init (x u) ⟨c, x NL1, e⟩ =
    ((RState.run nl P.init ⟨x, e⟩).1, ⟨c, (RState.run nl P.init ⟨x, e⟩).2.val NL1, (RState.run nl P.init ⟨x, e⟩).2.evals⟩) ∧
    (RState.run nl P.init ⟨x, e⟩).2.val u = x u
  stages : ∀ h c x e, S.updateStages (x u) h ⟨c, x NL1, e⟩ =
    ((RState.run nl (P.stages c h) ⟨x, e⟩).1.map fun _ => (RState.run nl (P.stages c h) ⟨x, e⟩).2.val k,
      ⟨c, (RState.run nl (P.stages c h) ⟨x, e⟩).2.val NL1, (RState.run nl (P.stages c h) ⟨x, e⟩).2.evals⟩)
  fresh : ∀ c h, freshAfter k false (P.stages c h) = true

/-- The program `P` computes what the strategy object `S` does; `last` is the attribute copied to `_NL1` after an
accepted step (or one that is never assigned). -/
structure TieAS {Coef : Type} (P : ASProg Coef ι) (S : ASStrategy Coef ι) (last : Attr) (nl : NlFunc ι) : Prop where
  coeffs : ∀ h s, S.updateCoeffs h s =
    ((P.updateCoeffs h ⟨s.coef, 0, 0, 0, 0⟩).1, { s with coef := (P.updateCoeffs h ⟨s.coef, 0, 0, 0, 0⟩).2.coef })
  init : ∀ c x e, S.init (x u) ⟨c, x NL1, x last, x v, e⟩ =
    ((RState.run nl P.init ⟨x, e⟩).1, ⟨c, (RState.run nl P.init ⟨x, e⟩).2.val NL1,
      (RState.run nl P.init ⟨x, e⟩).2.val last, (RState.run nl P.init ⟨x, e⟩).2.val v,
      (RState.run nl P.init ⟨x, e⟩).2.evals⟩) ∧
    (RState.run nl P.init ⟨x, e⟩).2.val u = x u
  stages : ∀ h a c x e, S.updateStages (x u) h a ⟨c, x NL1, x last, x v, e⟩ =
    let r := RState.run nl ((if a then P.accepted else []) ++ P.stages c h) ⟨x, e⟩
    (r.1.map fun _ => (r.2.val P.out, r.2.val err), ⟨c, r.2.val NL1, r.2.val last, r.2.val v, r.2.evals⟩)
  fresh : ∀ c h, freshAfter P.out false (P.stages c h) = true

section
variable [Fintype ι] [DecidableEq ι]

/-- A computation that neither reads nor writes the state. -/
def Stateless {σ α : Type} (x : PyM σ α) (r : Except PyErr α) : Prop := ∀ s, x s = (r, s)

theorem Stateless.bind {σ α β : Type} {x : PyM σ α} {f : α → PyM σ β} {r : Except PyErr α} {g : α → Except PyErr β}
    (hx : Stateless x r) (hf : ∀ a, Stateless (f a) (g a)) : Stateless (x >>= f) (r.bind g) := by
  intro s
  rw [PyM.bind_apply, hx s]
  cases r with
  | error e => rfl
  | ok a => exact hf a s

theorem npInv_stateless {σ : Type} (M : Mat ι) : Stateless (npInv M : PyM σ _) ((npInv M : PyM Unit _) ()).1 := by
  intro s
  unfold npInv
  split <;> rfl

theorem stateless_unit {α : Type} {x : PyM Unit α} : Stateless x (x ()).1 := fun _ => rfl

theorem Stateless.foldlM {α : Type} {f : ∀ {σ : Type}, α → ℕ → PyM σ α} {g : α → ℕ → Except PyErr α}
    (hf : ∀ {σ : Type} a m, Stateless (f (σ := σ) a m) (g a m)) (l : List ℕ) (a : α) :
    ∃ r, ∀ (σ : Type) (s : σ), l.foldlM f a s = (r, s) := by
  induction l generalizing a with
  | nil => exact ⟨.ok a, fun _ _ => rfl⟩
  | cons m l ih =>
    cases hg : g a m with
    | error e =>
      refine ⟨.error e, fun σ s => ?_⟩
      rw [List.foldlM_cons, PyM.bind_apply, hf a m s, hg]
    | ok b =>
      obtain ⟨r, hr⟩ := ih b
      refine ⟨r, fun σ s => ?_⟩
      rw [List.foldlM_cons, PyM.bind_apply, hf a m s, hg]
      exact hr σ s

theorem IF4.tieDiagonal (L : Vec ι) (nl : NlFunc ι) :
    TieCS (IF4.progDiagonal L) (IF4.diagonal L nl) nl where
  coeffs h s := rfl
  fresh c h := rfl
  init c x e := by
    simp only [IF4.diagonal, IF4.progDiagonal, RState.run, RState.exec, CSMethod.call, PyM.bind_apply]
    rcases nl (x u) with _ | _ <;> simp [PyM.modify]
  stages h c x e := by
    simp only [IF4.diagonal, IF4.progDiagonal, RState.run, RState.exec, CSMethod.call, PyM.bind_apply]
    simp
    repeat (rcases nl _ with _ | _; (· rfl); simp)
    rfl

theorem IF4.tieNonDiagonal (L : Mat ι) (nl : NlFunc ι) :
    TieCS (IF4.progNonDiagonal L) (IF4.nonDiagonal L nl) nl where
  coeffs h s := rfl
  fresh c h := rfl
  init c x e := by
    simp only [IF4.nonDiagonal, IF4.progNonDiagonal, RState.run, RState.exec, CSMethod.call, PyM.bind_apply]
    rcases nl (x u) with _ | _ <;> simp [PyM.modify]
  stages h c x e := by
    simp only [IF4.nonDiagonal, IF4.progNonDiagonal, RState.run, RState.exec, CSMethod.call, PyM.bind_apply]
    simp
    repeat (rcases nl _ with _ | _; (· rfl); simp)
    rfl

theorem ETD4.tieDiagonal (cfg : ETDConfig ℝ) (L : Vec ι) (nl : NlFunc ι) :
    TieCS (ETD4.progDiagonal cfg L) (ETD4.diagonal cfg L nl) nl where
  coeffs h s := rfl
  fresh c h := rfl
  init c x e := by
    simp only [ETD4.diagonal, ETD4.progDiagonal, RState.run, RState.exec, CSMethod.call, PyM.bind_apply]
    rcases nl (x u) with _ | _ <;> simp [PyM.modify]
  stages h c x e := by
    simp only [ETD4.diagonal, ETD4.progDiagonal, RState.run, RState.exec, CSMethod.call, PyM.bind_apply]
    simp
    repeat (rcases nl _ with _ | _; (· rfl); simp)
    rfl

theorem ETD4.loopBody_stateless {σ : Type} (cfg : ETDConfig ℝ) (z : Mat ι) (a : ETD4.Acc ι) (m : ℕ) :
    Stateless (ETD4.loopBody (σ := σ) cfg z a m) (ETD4.loopBody (σ := Unit) cfg z a m ()).1 := by
  have h1 : Stateless (ETD4.loopBody (σ := σ) cfg z a m) _ :=
    (npInv_stateless _).bind fun _ => (npInv_stateless _).bind fun _ => fun _ => rfl
  have h2 : Stateless (ETD4.loopBody (σ := Unit) cfg z a m) _ :=
    (npInv_stateless _).bind fun _ => (npInv_stateless _).bind fun _ => fun _ => rfl
  intro s
  rw [h1 s, h2 ()]

theorem ETD4.coeffs_tie (cfg : ETDConfig ℝ) (L : Mat ι) (h : ℝ) (s : CSMethod (Etd4Coef (Mat ι)) ι) :
    ETD4.coeffsNonDiagonal cfg L h s = ((ETD4.coeffsNonDiagonal cfg L h ⟨s.coef, 0, 0⟩).1,
      { s with coef := (ETD4.coeffsNonDiagonal cfg L h ⟨s.coef, 0, 0⟩).2.coef }) := by
  simp only [ETD4.coeffsNonDiagonal, PyM.bind_modify_apply]
  rw [PyM.bind_apply, PyM.bind_apply]
  obtain ⟨r, hr⟩ := Stateless.foldlM (ETD4.loopBody_stateless cfg ((h : ℂ) • L)) (List.range cfg.npts) ⟨0, 0, 0, 0, 0⟩
  rw [hr, hr]
  cases r <;> rfl

theorem ETD4.tieNonDiagonal (cfg : ETDConfig ℝ) (L : Mat ι) (nl : NlFunc ι) :
    TieCS (ETD4.progNonDiagonal cfg L) (ETD4.nonDiagonal cfg L nl) nl where
  coeffs h s := ETD4.coeffs_tie cfg L h s
  fresh c h := rfl
  init c x e := by
    simp only [ETD4.nonDiagonal, ETD4.progNonDiagonal, RState.run, RState.exec, CSMethod.call, PyM.bind_apply]
    rcases nl (x u) with _ | _ <;> simp [PyM.modify]
  stages h c x e := by
    simp only [ETD4.nonDiagonal, ETD4.progNonDiagonal, RState.run, RState.exec, CSMethod.call, PyM.bind_apply]
    simp
    repeat (rcases nl _ with _ | _; (· rfl); simp)
    rfl

theorem ETD5.tieDiagonal (cfg : ETDConfig ℝ) (L : Vec ι) (nl : NlFunc ι) :
    TieCS (ETD5.progDiagonal cfg L) (ETD5.diagonal cfg L nl) nl where
  coeffs h s := rfl
  fresh c h := rfl
  init c x e := by
    simp only [ETD5.diagonal, ETD5.progDiagonal, RState.run, RState.exec, CSMethod.call, PyM.bind_apply]
    rcases nl (x u) with _ | _ <;> simp [PyM.modify]
  stages h c x e := by
    simp only [ETD5.diagonal, ETD5.progDiagonal, RState.run, RState.exec, CSMethod.call, PyM.bind_apply]
    simp
    repeat (rcases nl _ with _ | _; (· rfl); simp)
    rfl

theorem ETD5.loopBody_stateless {σ : Type} (cfg : ETDConfig ℝ) (z : Mat ι) (a : ETD5.Acc ι) (m : ℕ) :
    Stateless (ETD5.loopBody (σ := σ) cfg z a m) (ETD5.loopBody (σ := Unit) cfg z a m ()).1 := by
  have h1 : Stateless (ETD5.loopBody (σ := σ) cfg z a m) _ :=
    (npInv_stateless _).bind fun _ => (npInv_stateless _).bind fun _ => (npInv_stateless _).bind fun _ => (npInv_stateless _).bind fun _ => fun _ => rfl
  have h2 : Stateless (ETD5.loopBody (σ := Unit) cfg z a m) _ :=
    (npInv_stateless _).bind fun _ => (npInv_stateless _).bind fun _ => (npInv_stateless _).bind fun _ => (npInv_stateless _).bind fun _ => fun _ => rfl
  intro s
  rw [h1 s, h2 ()]

theorem ETD5.coeffs_tie (cfg : ETDConfig ℝ) (L : Mat ι) (h : ℝ) (s : CSMethod (Etd5Coef (Mat ι)) ι) :
    ETD5.coeffsNonDiagonal cfg L h s = ((ETD5.coeffsNonDiagonal cfg L h ⟨s.coef, 0, 0⟩).1,
      { s with coef := (ETD5.coeffsNonDiagonal cfg L h ⟨s.coef, 0, 0⟩).2.coef }) := by
  simp only [ETD5.coeffsNonDiagonal, PyM.bind_modify_apply]
  rw [PyM.bind_apply, PyM.bind_apply]
  obtain ⟨r, hr⟩ := Stateless.foldlM (ETD5.loopBody_stateless cfg ((h : ℂ) • L)) (List.range cfg.npts) ⟨0, 0, 0, 0, 0, 0, 0, 0, 0⟩
  rw [hr, hr]
  cases r <;> rfl

theorem ETD5.tieNonDiagonal (cfg : ETDConfig ℝ) (L : Mat ι) (nl : NlFunc ι) :
    TieCS (ETD5.progNonDiagonal cfg L) (ETD5.nonDiagonal cfg L nl) nl where
  coeffs h s := ETD5.coeffs_tie cfg L h s
  fresh c h := rfl
  init c x e := by
    simp only [ETD5.nonDiagonal, ETD5.progNonDiagonal, RState.run, RState.exec, CSMethod.call, PyM.bind_apply]
    rcases nl (x u) with _ | _ <;> simp [PyM.modify]
  stages h c x e := by
    simp only [ETD5.nonDiagonal, ETD5.progNonDiagonal, RState.run, RState.exec, CSMethod.call, PyM.bind_apply]
    simp
    repeat (rcases nl _ with _ | _; (· rfl); simp)
    rfl

theorem IF34.tieDiagonal (L : Vec ι) (nl : NlFunc ι) :
    TieAS (IF34.progDiagonal L) (IF34.diagonal L nl) NL5 nl where
  coeffs h s := rfl
  fresh c h := rfl
  init c x e := by
    simp only [IF34.diagonal, IF34.progDiagonal, RState.run, RState.exec, ASMethod.call, PyM.bind_apply]
    rcases nl (x u) with _ | _ <;> simp [PyM.modify]
  stages h a c x e := by
    cases a
    · simp only [IF34.diagonal, IF34.progDiagonal, RState.run, RState.exec, ASMethod.call, PyM.bind_apply, if_true, if_false,
        Bool.false_eq_true, List.nil_append, List.cons_append]
      simp
      repeat (rcases nl _ with _ | _; (· rfl); simp)
      rfl
    · simp only [IF34.diagonal, IF34.progDiagonal, RState.run, RState.exec, ASMethod.call, PyM.bind_apply, if_true,
        List.nil_append, List.cons_append]
      simp
      repeat (rcases nl _ with _ | _; (· rfl); simp)
      rfl

theorem IF34.tieNonDiagonal (L : Mat ι) (nl : NlFunc ι) :
    TieAS (IF34.progNonDiagonal L) (IF34.nonDiagonal L nl) NL5 nl where
  coeffs h s := rfl
  fresh c h := rfl
  init c x e := by
    simp only [IF34.nonDiagonal, IF34.progNonDiagonal, RState.run, RState.exec, ASMethod.call, PyM.bind_apply]
    rcases nl (x u) with _ | _ <;> simp [PyM.modify]
  stages h a c x e := by
    cases a
    · simp only [IF34.nonDiagonal, IF34.progNonDiagonal, RState.run, RState.exec, ASMethod.call, PyM.bind_apply, if_true, if_false,
        Bool.false_eq_true, List.nil_append, List.cons_append]
      simp
      repeat (rcases nl _ with _ | _; (· rfl); simp)
      rfl
    · simp only [IF34.nonDiagonal, IF34.progNonDiagonal, RState.run, RState.exec, ASMethod.call, PyM.bind_apply, if_true,
        List.nil_append, List.cons_append]
      simp
      repeat (rcases nl _ with _ | _; (· rfl); simp)
      rfl

theorem IF34.tieDiagonalized (eig : Vec ι) (S Sinv : Mat ι) (nl : NlFunc ι) :
    TieAS (IF34.progDiagonalized eig S Sinv) (IF34.diagonalized eig S Sinv nl) NL5 nl where
  coeffs h s := rfl
  fresh c h := rfl
  init c x e := by
    simp only [IF34.diagonalized, IF34.progDiagonalized, RState.run, RState.exec, ASMethod.call, PyM.bind_apply]
    rcases nl (x u) with _ | _ <;> simp [PyM.modify]
  stages h a c x e := by
    cases a
    · simp only [IF34.diagonalized, IF34.progDiagonalized, RState.run, RState.exec, ASMethod.call, PyM.bind_apply, if_true, if_false,
        Bool.false_eq_true, List.nil_append, List.cons_append]
      simp
      repeat (rcases nl _ with _ | _; (· rfl); simp)
      rfl
    · simp only [IF34.diagonalized, IF34.progDiagonalized, RState.run, RState.exec, ASMethod.call, PyM.bind_apply, if_true,
        List.nil_append, List.cons_append]
      simp
      repeat (rcases nl _ with _ | _; (· rfl); simp)
      rfl

theorem ETD34.tieDiagonal (cfg : ETDConfig ℝ) (L : Vec ι) (nl : NlFunc ι) :
    TieAS (ETD34.progDiagonal cfg L) (ETD34.diagonal cfg L nl) NL5 nl where
  coeffs h s := rfl
  fresh c h := rfl
  init c x e := by
    simp only [ETD34.diagonal, ETD34.progDiagonal, RState.run, RState.exec, ASMethod.call, PyM.bind_apply]
    rcases nl (x u) with _ | _ <;> simp [PyM.modify]
  stages h a c x e := by
    cases a
    · simp only [ETD34.diagonal, ETD34.progDiagonal, RState.run, RState.exec, ASMethod.call, PyM.bind_apply, if_true, if_false,
        Bool.false_eq_true, List.nil_append, List.cons_append]
      simp
      repeat (rcases nl _ with _ | _; (· rfl); simp)
      rfl
    · simp only [ETD34.diagonal, ETD34.progDiagonal, RState.run, RState.exec, ASMethod.call, PyM.bind_apply, if_true,
        List.nil_append, List.cons_append]
      simp
      repeat (rcases nl _ with _ | _; (· rfl); simp)
      rfl

theorem ETD34.loopBody_stateless {σ : Type} (cfg : ETDConfig ℝ) (z : Mat ι) (a : ETD34.Acc ι) (m : ℕ) :
    Stateless (ETD34.loopBody (σ := σ) cfg z a m) (ETD34.loopBody (σ := Unit) cfg z a m ()).1 := by
  have h1 : Stateless (ETD34.loopBody (σ := σ) cfg z a m) _ :=
    (npInv_stateless _).bind fun _ => (npInv_stateless _).bind fun _ => fun _ => rfl
  have h2 : Stateless (ETD34.loopBody (σ := Unit) cfg z a m) _ :=
    (npInv_stateless _).bind fun _ => (npInv_stateless _).bind fun _ => fun _ => rfl
  intro s
  rw [h1 s, h2 ()]

theorem ETD34.coeffs_tie (cfg : ETDConfig ℝ) (L : Mat ι) (h : ℝ) (s : ASMethod (Etd34Coef (Mat ι)) ι) :
    ETD34.coeffsNonDiagonal cfg L h s = ((ETD34.coeffsNonDiagonal cfg L h ⟨s.coef, 0, 0, 0, 0⟩).1,
      { s with coef := (ETD34.coeffsNonDiagonal cfg L h ⟨s.coef, 0, 0, 0, 0⟩).2.coef }) := by
  simp only [ETD34.coeffsNonDiagonal, PyM.bind_modify_apply]
  rw [PyM.bind_apply, PyM.bind_apply]
  obtain ⟨r, hr⟩ := Stateless.foldlM (ETD34.loopBody_stateless cfg ((h : ℂ) • L)) (List.range cfg.npts) ⟨0, 0, 0, 0, 0⟩
  rw [hr, hr]
  cases r <;> rfl

theorem ETD34.tieNonDiagonal (cfg : ETDConfig ℝ) (L : Mat ι) (nl : NlFunc ι) :
    TieAS (ETD34.progNonDiagonal cfg L) (ETD34.nonDiagonal cfg L nl) NL5 nl where
  coeffs h s := ETD34.coeffs_tie cfg L h s
  fresh c h := rfl
  init c x e := by
    simp only [ETD34.nonDiagonal, ETD34.progNonDiagonal, RState.run, RState.exec, ASMethod.call, PyM.bind_apply]
    rcases nl (x u) with _ | _ <;> simp [PyM.modify]
  stages h a c x e := by
    cases a
    · simp only [ETD34.nonDiagonal, ETD34.progNonDiagonal, RState.run, RState.exec, ASMethod.call, PyM.bind_apply, if_true, if_false,
        Bool.false_eq_true, List.nil_append, List.cons_append]
      simp
      repeat (rcases nl _ with _ | _; (· rfl); simp)
      rfl
    · simp only [ETD34.nonDiagonal, ETD34.progNonDiagonal, RState.run, RState.exec, ASMethod.call, PyM.bind_apply, if_true,
        List.nil_append, List.cons_append]
      simp
      repeat (rcases nl _ with _ | _; (· rfl); simp)
      rfl

theorem ETD34.tieDiagonalized (cfg : ETDConfig ℝ) (eig : Vec ι) (S Sinv : Mat ι) (nl : NlFunc ι) :
    TieAS (ETD34.progDiagonalized cfg eig S Sinv) (ETD34.diagonalized cfg eig S Sinv nl) NL5 nl where
  coeffs h s := rfl
  fresh c h := rfl
  init c x e := by
    simp only [ETD34.diagonalized, ETD34.progDiagonalized, RState.run, RState.exec, ASMethod.call, PyM.bind_apply]
    rcases nl (x u) with _ | _ <;> simp [PyM.modify]
  stages h a c x e := by
    cases a
    · simp only [ETD34.diagonalized, ETD34.progDiagonalized, RState.run, RState.exec, ASMethod.call, PyM.bind_apply, if_true, if_false,
        Bool.false_eq_true, List.nil_append, List.cons_append]
      simp
      repeat (rcases nl _ with _ | _; (· rfl); simp)
      rfl
    · simp only [ETD34.diagonalized, ETD34.progDiagonalized, RState.run, RState.exec, ASMethod.call, PyM.bind_apply, if_true,
        List.nil_append, List.cons_append]
      simp
      repeat (rcases nl _ with _ | _; (· rfl); simp)
      rfl

theorem ETD35.coeffsDiag_tie (cfg : ETDConfig ℝ) (L : Vec ι) (h : ℝ) (s : ASMethod (Etd35Coef (Vec ι)) ι) :
    ETD35.coeffsDiagonal cfg h (bc h * L) s = ((ETD35.coeffsDiagonal cfg h (bc h * L) ⟨s.coef, 0, 0, 0, 0⟩).1,
      { s with coef := (ETD35.coeffsDiagonal cfg h (bc h * L) ⟨s.coef, 0, 0, 0, 0⟩).2.coef }) := by
  simp only [ETD35.coeffsDiagonal, PyM.bind_modify_apply]
  unfold ETD35.largeModes ETD35.smallModes
  split <;> split <;> rfl

theorem ETD35.tieDiagonal (cfg : ETDConfig ℝ) (L : Vec ι) (nl : NlFunc ι) :
    TieAS (ETD35.progDiagonal cfg L) (ETD35.diagonal cfg L nl) NL7 nl where
  coeffs h s := ETD35.coeffsDiag_tie cfg L h s
  fresh c h := rfl
  init c x e := by
    simp only [ETD35.diagonal, ETD35.progDiagonal, RState.run, RState.exec, ASMethod.call, PyM.bind_apply]
    rcases nl (x u) with _ | _ <;> simp [PyM.modify]
  stages h a c x e := by
    cases a
    · simp only [ETD35.diagonal, ETD35.progDiagonal, RState.run, RState.exec, ASMethod.call, PyM.bind_apply, if_true, if_false,
        Bool.false_eq_true, List.nil_append, List.cons_append]
      simp
      repeat (rcases nl _ with _ | _; (· rfl); simp)
      rfl
    · simp only [ETD35.diagonal, ETD35.progDiagonal, RState.run, RState.exec, ASMethod.call, PyM.bind_apply, if_true,
        List.nil_append, List.cons_append]
      simp
      repeat (rcases nl _ with _ | _; (· rfl); simp)
      rfl

theorem ETD35.loopBody_stateless {σ : Type} (cfg : ETDConfig ℝ) (z : Mat ι) (a : ETD35.Acc ι) (m : ℕ) :
    Stateless (ETD35.loopBody (σ := σ) cfg z a m) (ETD35.loopBody (σ := Unit) cfg z a m ()).1 := by
  have h1 : Stateless (ETD35.loopBody (σ := σ) cfg z a m) _ :=
    (npInv_stateless _).bind fun _ => (npInv_stateless _).bind fun _ => (npInv_stateless _).bind fun _ => (npInv_stateless _).bind fun _ => fun _ => rfl
  have h2 : Stateless (ETD35.loopBody (σ := Unit) cfg z a m) _ :=
    (npInv_stateless _).bind fun _ => (npInv_stateless _).bind fun _ => (npInv_stateless _).bind fun _ => (npInv_stateless _).bind fun _ => fun _ => rfl
  intro s
  rw [h1 s, h2 ()]

theorem ETD35.coeffs_tie (cfg : ETDConfig ℝ) (L : Mat ι) (h : ℝ) (s : ASMethod (Etd35Coef (Mat ι)) ι) :
    ETD35.coeffsNonDiagonal cfg L h s = ((ETD35.coeffsNonDiagonal cfg L h ⟨s.coef, 0, 0, 0, 0⟩).1,
      { s with coef := (ETD35.coeffsNonDiagonal cfg L h ⟨s.coef, 0, 0, 0, 0⟩).2.coef }) := by
  simp only [ETD35.coeffsNonDiagonal, PyM.bind_modify_apply]
  rw [PyM.bind_apply, PyM.bind_apply]
  obtain ⟨r, hr⟩ := Stateless.foldlM (ETD35.loopBody_stateless cfg ((h : ℂ) • L)) (List.range cfg.npts) ⟨0, 0, 0, 0, 0, 0, 0, 0, 0⟩
  rw [hr, hr]
  cases r <;> rfl

theorem ETD35.tieNonDiagonal (cfg : ETDConfig ℝ) (L : Mat ι) (nl : NlFunc ι) :
    TieAS (ETD35.progNonDiagonal cfg L) (ETD35.nonDiagonal cfg L nl) NL7 nl where
  coeffs h s := ETD35.coeffs_tie cfg L h s
  fresh c h := rfl
  init c x e := by
    simp only [ETD35.nonDiagonal, ETD35.progNonDiagonal, RState.run, RState.exec, ASMethod.call, PyM.bind_apply]
    rcases nl (x u) with _ | _ <;> simp [PyM.modify]
  stages h a c x e := by
    cases a
    · simp only [ETD35.nonDiagonal, ETD35.progNonDiagonal, RState.run, RState.exec, ASMethod.call, PyM.bind_apply, if_true, if_false,
        Bool.false_eq_true, List.nil_append, List.cons_append]
      simp
      repeat (rcases nl _ with _ | _; (· rfl); simp)
      rfl
    · simp only [ETD35.nonDiagonal, ETD35.progNonDiagonal, RState.run, RState.exec, ASMethod.call, PyM.bind_apply, if_true,
        List.nil_append, List.cons_append]
      simp
      repeat (rcases nl _ with _ | _; (· rfl); simp)
      rfl

theorem ETD35.tieDiagonalized (cfg : ETDConfig ℝ) (eig : Vec ι) (S Sinv : Mat ι) (nl : NlFunc ι) :
    TieAS (ETD35.progDiagonalized cfg eig S Sinv) (ETD35.diagonalized cfg eig S Sinv nl) NL7 nl where
  coeffs h s := ETD35.coeffsDiag_tie cfg eig h s
  fresh c h := rfl
  init c x e := by
    simp only [ETD35.diagonalized, ETD35.progDiagonalized, RState.run, RState.exec, ASMethod.call, PyM.bind_apply]
    rcases nl (x u) with _ | _ <;> simp [PyM.modify]
  stages h a c x e := by
    cases a
    · simp only [ETD35.diagonalized, ETD35.progDiagonalized, RState.run, RState.exec, ASMethod.call, PyM.bind_apply, if_true, if_false,
        Bool.false_eq_true, List.nil_append, List.cons_append]
      simp
      repeat (rcases nl _ with _ | _; (· rfl); simp)
      rfl
    · simp only [ETD35.diagonalized, ETD35.progDiagonalized, RState.run, RState.exec, ASMethod.call, PyM.bind_apply, if_true,
        List.nil_append, List.cons_append]
      simp
      repeat (rcases nl _ with _ | _; (· rfl); simp)
      rfl

/-- IF45DP in the form of a strategy object. -/
noncomputable def IF45DP.object (L : Vec ι) (nl : NlFunc ι) : ASStrategy (If45dpCoef ι) ι where
  updateCoeffs h := PyM.modify fun m => { m with coef := IF45DP.coefs L h }
  init u := do
    let n ← ASMethod.call nl u
    PyM.modify fun s => { s with NL1 := n }
  updateStages u _h accept := do
    if accept then
      PyM.modify fun s => { s with NL1 := s.NLlast }
    IF45DP.stages nl u

theorem IF45DP.tie (L : Vec ι) (nl : NlFunc ι) : TieAS (IF45DP.prog L) (IF45DP.object L nl) NL7 nl where
  coeffs h s := rfl
  fresh c h := rfl
  init c x e := by
    simp only [IF45DP.object, IF45DP.prog, RState.run, RState.exec, ASMethod.call, PyM.bind_apply]
    rcases nl (x u) with _ | _ <;> simp [PyM.modify]
  stages h a c x e := by
    cases a
    · simp only [IF45DP.object, IF45DP.stages, IF45DP.prog, RState.run, RState.exec, ASMethod.call, PyM.bind_apply,
        if_true, if_false, Bool.false_eq_true, List.nil_append, List.cons_append]
      simp
      repeat (rcases nl _ with _ | _; (· rfl); simp)
      rfl
    · simp only [IF45DP.object, IF45DP.stages, IF45DP.prog, RState.run, RState.exec, ASMethod.call, PyM.bind_apply,
        if_true, List.nil_append, List.cons_append]
      simp
      repeat (rcases nl _ with _ | _; (· rfl); simp)
      rfl

end

end Verif
