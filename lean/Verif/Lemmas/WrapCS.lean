import Verif.Lemmas.ERK
import Verif.Lemmas.CS
import Verif.Model.IF4

/-!
# From strategy objects to constant-step solver classes
-/

set_option linter.unusedSectionVars false

namespace Verif

open Matrix

variable {ι : Type} [Fintype ι] [DecidableEq ι] {Coef : Type}

/-- The step defined by a family of methods, when the coefficients can be computed; `LinAlgError` otherwise. -/
noncomputable def stepMap (CoefOk : ℝ → Prop) (M : ℝ → ERK ι) (nl : NlFunc ι) (h : ℝ) (u : Vec ι) :
    Except PyErr (Vec ι × Vec ι) :=
  open Classical in if CoefOk h then (M h).step nl u else .error .linAlgError

/-- The solution part of `stepMap`. -/
noncomputable def stepMapCS (CoefOk : ℝ → Prop) (M : ℝ → ERK ι) (nl : NlFunc ι) (h : ℝ) (u : Vec ι) :
    Except PyErr (Vec ι) := (stepMap CoefOk M nl h u).map Prod.fst

/-- What a constant-step strategy object must do to implement the family of methods `M`. -/
structure LawfulCSStrategy (S : CSStrategy Coef ι) (nl : NlFunc ι) (CoefOk : ℝ → Prop) (M : ℝ → ERK ι) where
  coefs : ℝ → Coef
  cost : ℕ
  first : ∀ h, (M h).E 0 = 1
  pos : ∀ h, 0 < (M h).s
  coeffs_ok : ∀ h s, CoefOk h → S.updateCoeffs h s = (.ok (), { s with coef := coefs h })
  coeffs_err : ∀ h s, ¬ CoefOk h → ∃ c, S.updateCoeffs h s = (.error .linAlgError, { s with coef := c })
  n1_ok : ∀ u s n, nl u = .ok n → S.n1Init u s = (.ok (), { s with NL1 := n, evals := s.evals + 1 })
  n1_err : ∀ u s e, nl u = .error e → S.n1Init u s = (.error e, { s with evals := s.evals + 1 })
  stages : ∀ u h s, s.coef = coefs h →
    (∀ r, (M h).stepFrom nl s.NL1 u = .ok r →
      ∃ n, S.updateStages u h s = (.ok r.1, ⟨s.coef, n, s.evals + cost⟩) ∧ nl r.1 = .ok n) ∧
    (∀ e, (M h).stepFrom nl s.NL1 u = .error e →
      ∃ j, j ≤ cost ∧ S.updateStages u h s = (.error e, { s with evals := s.evals + j }))

namespace LawfulCSStrategy

variable {S : CSStrategy Coef ι} {nl : NlFunc ι} {CoefOk : ℝ → Prop} {M : ℝ → ERK ι}

theorem stages_ok (L : LawfulCSStrategy S nl CoefOk M) (u : Vec ι) (h : ℝ) (s : CSMethod Coef ι) (r : Vec ι × Vec ι)
    (h1 : s.coef = L.coefs h) (h2 : nl u = .ok s.NL1) (h3 : (M h).step nl u = .ok r) :
    ∃ n, S.updateStages u h s = (.ok r.1, ⟨s.coef, n, s.evals + L.cost⟩) ∧ nl r.1 = .ok n :=
  (L.stages u h s h1).1 r (by rw [← ERK.step_eq_stepFrom _ _ _ _ (L.first h) h2]; exact h3)

theorem stages_err (L : LawfulCSStrategy S nl CoefOk M) (u : Vec ι) (h : ℝ) (s : CSMethod Coef ι) (e : PyErr)
    (h1 : s.coef = L.coefs h) (h2 : nl u = .ok s.NL1) (h3 : (M h).step nl u = .error e) :
    ∃ j, j ≤ L.cost ∧ S.updateStages u h s = (.error e, { s with evals := s.evals + j }) :=
  (L.stages u h s h1).2 e (by rw [← ERK.step_eq_stepFrom _ _ _ _ (L.first h) h2]; exact h3)

/-- Coherence of the cached data with the current solution. -/
def Inv (L : LawfulCSStrategy S nl CoefOk M) (s : Wrap (CSMethod Coef ι)) (u : Vec ι) : Prop :=
  (∀ h, s.hCoeff = some h → CoefOk h ∧ s.method.coef = L.coefs h) ∧ (s.n1init = true → nl u = .ok s.method.NL1)

theorem wrap_coeffs_ok (L : LawfulCSStrategy S nl CoefOk M) {s : Wrap (CSMethod Coef ι)} {u : Vec ι} (hi : L.Inv s u)
    {h : ℝ} (hc : CoefOk h) :
    IF4.updateCoeffs S h s =
      (.ok (), ⟨s.n1init, some h, ⟨L.coefs h, s.method.NL1, s.method.evals⟩⟩) := by
  unfold IF4.updateCoeffs
  simp only [PyM.bind_get_apply]
  split
  · rename_i hh
    have := (hi.1 h hh.symm).2
    rw [PyM.pure_apply, ← this, hh]
  · simp only [PyM.bind_modify_apply, Wrap.onMethod, PyM.zoom_apply, L.coeffs_ok h _ hc]

theorem wrap_coeffs_err (L : LawfulCSStrategy S nl CoefOk M) {s : Wrap (CSMethod Coef ι)} {u : Vec ι} (hi : L.Inv s u)
    {h : ℝ} (hc : ¬ CoefOk h) : ∃ c, IF4.updateCoeffs S h s =
      (.error .linAlgError, ⟨s.n1init, some h, ⟨c, s.method.NL1, s.method.evals⟩⟩) := by
  obtain ⟨c, hcc⟩ := L.coeffs_err h s.method hc
  refine ⟨c, ?_⟩
  unfold IF4.updateCoeffs
  simp only [PyM.bind_get_apply]
  split
  · rename_i hh
    exact absurd (hi.1 h hh.symm).1 hc
  · simp only [PyM.bind_modify_apply, Wrap.onMethod, PyM.zoom_apply, hcc]

theorem wrap_ok (L : LawfulCSStrategy S nl CoefOk M) {s : Wrap (CSMethod Coef ι)} {u : Vec ι} (hi : L.Inv s u)
    {h : ℝ} (hc : CoefOk h) {r : Vec ι × Vec ι} (hr : (M h).step nl u = .ok r) :
    ∃ n, IF4.updateStages S u h s = (.ok r.1, ⟨true, some h, ⟨L.coefs h, n,
      s.method.evals + (if s.n1init then 0 else 1) + L.cost⟩⟩) ∧ nl r.1 = .ok n := by
  unfold IF4.updateStages
  rw [PyM.bind_ok (L.wrap_coeffs_ok hi hc)]
  simp only [PyM.bind_get_apply]
  cases hn : s.n1init with
  | true =>
    simp only [Bool.true_eq_false, if_false]
    obtain ⟨n, h1, h2⟩ := L.stages_ok u h ⟨L.coefs h, s.method.NL1, s.method.evals⟩ r rfl (hi.2 hn) hr
    exact ⟨n, by simp [Wrap.onMethod, h1], h2⟩
  | false =>
    simp only [if_true]
    cases hu : nl u with
    | error e => rw [ERK.step_of_first_error _ _ _ (L.first h) (L.pos h) hu] at hr; simp at hr
    | ok n1 =>
      obtain ⟨n, h1, h2⟩ := L.stages_ok u h ⟨L.coefs h, n1, s.method.evals + 1⟩ r rfl hu hr
      refine ⟨n, ?_, h2⟩
      simp [Wrap.onMethod, PyM.bind_apply, L.n1_ok u _ n1 hu, h1]

theorem wrap_err (L : LawfulCSStrategy S nl CoefOk M) {s : Wrap (CSMethod Coef ι)} {u : Vec ι} (hi : L.Inv s u)
    {h : ℝ} (hc : CoefOk h) {e : PyErr} (hr : (M h).step nl u = .error e) :
    ∃ s', IF4.updateStages S u h s = (.error e, s') ∧ L.Inv s' u ∧
      s'.method.evals ≤ s.method.evals + (if s.n1init then 0 else 1) + L.cost := by
  unfold IF4.updateStages
  rw [PyM.bind_ok (L.wrap_coeffs_ok hi hc)]
  simp only [PyM.bind_get_apply]
  cases hn : s.n1init with
  | true =>
    simp only [Bool.true_eq_false, if_false]
    obtain ⟨j, h1, h2⟩ := L.stages_err u h ⟨L.coefs h, s.method.NL1, s.method.evals⟩ e rfl (hi.2 hn) hr
    refine ⟨⟨true, some h, ⟨L.coefs h, s.method.NL1, s.method.evals + j⟩⟩, by simp [Wrap.onMethod, h2], ⟨?_, ?_⟩, ?_⟩
    · rintro h' ⟨⟩; exact ⟨hc, rfl⟩
    · intro _; exact hi.2 hn
    · simpa using h1
  | false =>
    simp only [if_true]
    cases hu : nl u with
    | error e' =>
      rw [ERK.step_of_first_error _ _ _ (L.first h) (L.pos h) hu] at hr
      simp only [Except.error.injEq] at hr; subst hr
      refine ⟨⟨false, some h, ⟨L.coefs h, s.method.NL1, s.method.evals + 1⟩⟩, ?_, ⟨?_, ?_⟩, ?_⟩
      · simp [Wrap.onMethod, PyM.bind_apply, L.n1_err u _ e' hu]
      · rintro h' ⟨⟩; exact ⟨hc, rfl⟩
      · simp
      · simp
    | ok n1 =>
      obtain ⟨j, h1, h2⟩ := L.stages_err u h ⟨L.coefs h, n1, s.method.evals + 1⟩ e rfl hu hr
      refine ⟨⟨true, some h, ⟨L.coefs h, n1, s.method.evals + 1 + j⟩⟩, ?_, ⟨?_, ?_⟩, ?_⟩
      · simp [Wrap.onMethod, PyM.bind_apply, L.n1_ok u _ n1 hu, h2]
      · rintro h' ⟨⟩; exact ⟨hc, rfl⟩
      · intro _; exact hu
      · simp; omega

theorem wrap_linalg (L : LawfulCSStrategy S nl CoefOk M) {s : Wrap (CSMethod Coef ι)} {u : Vec ι} (hi : L.Inv s u)
    {h : ℝ} (hc : ¬ CoefOk h) : ∃ s', IF4.updateStages S u h s = (.error .linAlgError, s') := by
  obtain ⟨c, hcc⟩ := L.wrap_coeffs_err hi hc
  exact ⟨_, by unfold IF4.updateStages; rw [PyM.bind_error hcc]⟩

/-- A lawful strategy gives a lawful solver class. -/
noncomputable def lawful (L : LawfulCSStrategy S nl CoefOk M) : LawfulCS (IF4.cls S) (stepMapCS CoefOk M nl) where
  Inv := L.Inv
  CoefOk := CoefOk
  reset_inv s u := by simp [Inv, IF4.cls, IF4.reset]
  result s u h hi := by
    unfold stepMapCS stepMap
    split
    · rename_i hc
      cases hr : (M h).step nl u with
      | ok r => obtain ⟨n, h1, -⟩ := L.wrap_ok hi hc hr; simp [IF4.cls, h1, Except.map]
      | error e => obtain ⟨s', h1, -⟩ := L.wrap_err hi hc hr; simp [IF4.cls, h1, Except.map]
    · rename_i hc
      obtain ⟨s', h1⟩ := L.wrap_linalg hi hc
      simp [IF4.cls, h1, Except.map]
  inv_ok s u h v hi hv := by
    unfold stepMapCS stepMap at hv
    split at hv
    · rename_i hc
      cases hr : (M h).step nl u with
      | ok r =>
        obtain ⟨n, h1, h2⟩ := L.wrap_ok hi hc hr
        simp only [hr, Except.map, Except.ok.injEq] at hv
        subst hv
        simp only [IF4.cls, h1]
        exact ⟨by rintro h' ⟨⟩; exact ⟨hc, rfl⟩, fun _ => h2⟩
      | error e => simp [hr, Except.map] at hv
    · simp [Except.map] at hv
  inv_err s u h e hi hc he := by
    unfold stepMapCS stepMap at he
    rw [if_pos hc] at he
    cases hr : (M h).step nl u with
    | ok r => simp [hr, Except.map] at he
    | error e' =>
      obtain ⟨s', h1, h2, -⟩ := L.wrap_err hi hc hr
      simp only [IF4.cls, h1]
      exact h2

end LawfulCSStrategy

end Verif
