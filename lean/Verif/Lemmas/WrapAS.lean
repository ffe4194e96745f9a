import Verif.Lemmas.ERK
import Verif.Lemmas.AS
import Verif.Model.IF34

/-!
# From strategy objects to adaptive solver classes
-/

set_option linter.unusedSectionVars false

namespace Verif

open Matrix

variable {ι : Type} [Fintype ι] [DecidableEq ι] {Coef : Type}

/-- `Φ` where the coefficients can be computed, `LinAlgError` elsewhere. -/
noncomputable def guarded (CoefOk : ℝ → Prop) (Φ : ℝ → Vec ι → Except PyErr (Vec ι × Vec ι)) (h : ℝ) (u : Vec ι) :
    Except PyErr (Vec ι × Vec ι) :=
  open Classical in if CoefOk h then Φ h u else .error .linAlgError

/-- What an adaptive strategy object must do to implement the trial map `Φ`.
`Loaded s u`: the cached values belong to `u`; `Next s u`: they will after the refresh done when the previous step was
accepted. -/
structure LawfulASStrategy (S : ASStrategy Coef ι) (nl : NlFunc ι) (CoefOk : ℝ → Prop)
    (Φ : ℝ → Vec ι → Except PyErr (Vec ι × Vec ι)) where
  coefs : ℝ → Coef
  Loaded : ASMethod Coef ι → Vec ι → Prop
  Next : ASMethod Coef ι → Vec ι → Prop
  cost : ℕ
  refresh : ℕ
  loaded_congr : ∀ s c k u, Loaded s u → Loaded { s with coef := c, evals := k } u
  next_congr : ∀ s c k u, Next s u → Next { s with coef := c, evals := k } u
  coeffs_ok : ∀ h s, CoefOk h → S.updateCoeffs h s = (.ok (), { s with coef := coefs h })
  coeffs_err : ∀ h s, ¬ CoefOk h → ∃ c, S.updateCoeffs h s = (.error .linAlgError, { s with coef := c })
  first_err : ∀ h u e, nl u = .error e → Φ h u = .error e
  init_ok : ∀ u s n, nl u = .ok n →
    ∃ s', S.init u s = (.ok (), s') ∧ s'.coef = s.coef ∧ Loaded s' u ∧ s'.evals = s.evals + 1
  init_err : ∀ u s e, nl u = .error e → S.init u s = (.error e, { s with evals := s.evals + 1 })
  stages : ∀ u h s (a : Bool), s.coef = coefs h → (a = true → Next s u) → (a = false → Loaded s u) →
    (∀ r, Φ h u = .ok r → ∃ s', S.updateStages u h a s = (.ok r, s') ∧ s'.coef = s.coef ∧ Loaded s' u ∧ Next s' r.1 ∧
      s'.evals = s.evals + cost + (if a then refresh else 0)) ∧
    (∀ e, Φ h u = .error e → ∃ s', S.updateStages u h a s = (.error e, s') ∧ s'.coef = s.coef ∧
      (a = true → Next s' u) ∧ (a = false → Loaded s' u) ∧
      s'.evals ≤ s.evals + cost + (if a then refresh else 0))

namespace LawfulASStrategy

variable {S : ASStrategy Coef ι} {nl : NlFunc ι} {CoefOk : ℝ → Prop} {Φ : ℝ → Vec ι → Except PyErr (Vec ι × Vec ι)}

/-- Coherence of the cached data. -/
def Ready (L : LawfulASStrategy S nl CoefOk Φ) (s : Wrap (ASMethod Coef ι)) (a : Bool) (u : Vec ι) : Prop :=
  (∀ h, s.hCoeff = some h → CoefOk h ∧ s.method.coef = L.coefs h) ∧
  (s.n1init = false → a = false) ∧
  (s.n1init = true → (a = true → L.Next s.method u) ∧ (a = false → L.Loaded s.method u))

theorem wrap_coeffs_ok (L : LawfulASStrategy S nl CoefOk Φ) {s : Wrap (ASMethod Coef ι)} {a : Bool} {u : Vec ι}
    (hi : L.Ready s a u) {h : ℝ} (hc : CoefOk h) :
    IF34.updateCoeffs S h s = (.ok (), ⟨s.n1init, some h, { s.method with coef := L.coefs h }⟩) := by
  unfold IF34.updateCoeffs
  simp only [PyM.bind_get_apply]
  split
  · rename_i hh
    have := (hi.1 h hh.symm).2
    rw [PyM.pure_apply, ← this, hh]
  · simp only [PyM.bind_modify_apply, Wrap.onMethod, PyM.zoom_apply, L.coeffs_ok h _ hc]

theorem wrap_coeffs_err (L : LawfulASStrategy S nl CoefOk Φ) {s : Wrap (ASMethod Coef ι)} {a : Bool} {u : Vec ι}
    (hi : L.Ready s a u) {h : ℝ} (hc : ¬ CoefOk h) : ∃ c, IF34.updateCoeffs S h s =
      (.error .linAlgError, ⟨s.n1init, some h, { s.method with coef := c }⟩) := by
  obtain ⟨c, hcc⟩ := L.coeffs_err h s.method hc
  refine ⟨c, ?_⟩
  unfold IF34.updateCoeffs
  simp only [PyM.bind_get_apply]
  split
  · rename_i hh
    exact absurd (hi.1 h hh.symm).1 hc
  · simp only [PyM.bind_modify_apply, Wrap.onMethod, PyM.zoom_apply, hcc]

theorem wrap_ok (L : LawfulASStrategy S nl CoefOk Φ) {s : Wrap (ASMethod Coef ι)} {a : Bool} {u : Vec ι}
    (hi : L.Ready s a u) {h : ℝ} (hc : CoefOk h) {r : Vec ι × Vec ι} (hr : Φ h u = .ok r) :
    ∃ m', IF34.updateStages S u h a s = (.ok r, ⟨true, some h, m'⟩) ∧ m'.coef = L.coefs h ∧ L.Loaded m' u ∧
      L.Next m' r.1 ∧
      m'.evals = s.method.evals + (if s.n1init then 0 else 1) + L.cost + (if a then L.refresh else 0) := by
  unfold IF34.updateStages
  rw [PyM.bind_ok (L.wrap_coeffs_ok hi hc)]
  simp only [PyM.bind_get_apply]
  cases hn : s.n1init with
  | true =>
    simp only [Bool.true_eq_false, if_false]
    obtain ⟨hi1, hi2⟩ := hi.2.2 hn
    obtain ⟨m', h1, h2, h3, h4, h5⟩ := (L.stages u h { s.method with coef := L.coefs h } a rfl
      (fun ha => L.next_congr s.method _ s.method.evals _ (hi1 ha))
      (fun ha => L.loaded_congr s.method _ s.method.evals _ (hi2 ha))).1 r hr
    exact ⟨m', by simp [Wrap.onMethod, h1], h2, h3, h4, by simpa using h5⟩
  | false =>
    have ha := hi.2.1 hn
    subst ha
    simp only [if_true]
    cases hu : nl u with
    | error e => rw [L.first_err h u e hu] at hr; simp at hr
    | ok n1 =>
      obtain ⟨m1, a1, a2, a3, a4⟩ := L.init_ok u { s.method with coef := L.coefs h } n1 hu
      obtain ⟨m', h1, h2, h3, h4, h5⟩ := (L.stages u h m1 false a2 (by simp) (fun _ => a3)).1 r hr
      refine ⟨m', ?_, by rw [h2, a2], h3, h4, ?_⟩
      · simp [Wrap.onMethod, PyM.bind_apply, a1, h1]
      · simp [h5, a4]

theorem wrap_err (L : LawfulASStrategy S nl CoefOk Φ) {s : Wrap (ASMethod Coef ι)} {a : Bool} {u : Vec ι}
    (hi : L.Ready s a u) {h : ℝ} (hc : CoefOk h) {e : PyErr} (hr : Φ h u = .error e) :
    ∃ s', IF34.updateStages S u h a s = (.error e, s') ∧ L.Ready s' a u ∧
      s'.method.evals ≤ s.method.evals + (if s.n1init then 0 else 1) + L.cost + (if a then L.refresh else 0) := by
  unfold IF34.updateStages
  rw [PyM.bind_ok (L.wrap_coeffs_ok hi hc)]
  simp only [PyM.bind_get_apply]
  cases hn : s.n1init with
  | true =>
    simp only [Bool.true_eq_false, if_false]
    obtain ⟨hi1, hi2⟩ := hi.2.2 hn
    obtain ⟨m', h1, h2, h3, h4, h5⟩ := (L.stages u h { s.method with coef := L.coefs h } a rfl
      (fun ha => L.next_congr s.method _ s.method.evals _ (hi1 ha))
      (fun ha => L.loaded_congr s.method _ s.method.evals _ (hi2 ha))).2 e hr
    refine ⟨⟨true, some h, m'⟩, by simp [Wrap.onMethod, h1], ⟨?_, by simp, fun _ => ⟨h3, h4⟩⟩, by simpa using h5⟩
    rintro h' ⟨⟩; exact ⟨hc, h2⟩
  | false =>
    have ha := hi.2.1 hn
    subst ha
    simp only [if_true]
    cases hu : nl u with
    | error e' =>
      rw [L.first_err h u e' hu] at hr
      simp only [Except.error.injEq] at hr; subst hr
      refine ⟨⟨false, some h, { s.method with coef := L.coefs h, evals := s.method.evals + 1 }⟩, ?_, ⟨?_, ?_, ?_⟩, ?_⟩
      · simp [Wrap.onMethod, PyM.bind_apply, L.init_err u _ e' hu]
      · rintro h' ⟨⟩; exact ⟨hc, rfl⟩
      · simp
      · simp
      · simp
    | ok n1 =>
      obtain ⟨m1, a1, a2, a3, a4⟩ := L.init_ok u { s.method with coef := L.coefs h } n1 hu
      obtain ⟨m', h1, h2, h3, h4, h5⟩ := (L.stages u h m1 false a2 (by simp) (fun _ => a3)).2 e hr
      refine ⟨⟨true, some h, m'⟩, ?_, ⟨?_, ?_, fun _ => ⟨h3, h4⟩⟩, ?_⟩
      · simp [Wrap.onMethod, PyM.bind_apply, a1, h1]
      · rintro h' ⟨⟩; exact ⟨hc, by rw [h2, a2]⟩
      · simp
      · simpa [a4] using h5

theorem wrap_linalg (L : LawfulASStrategy S nl CoefOk Φ) {s : Wrap (ASMethod Coef ι)} {a : Bool} {u : Vec ι}
    (hi : L.Ready s a u) {h : ℝ} (hc : ¬ CoefOk h) :
    ∃ s', IF34.updateStages S u h a s = (.error .linAlgError, s') := by
  obtain ⟨c, hcc⟩ := L.wrap_coeffs_err hi hc
  exact ⟨_, by unfold IF34.updateStages; rw [PyM.bind_error hcc]⟩

/-- A lawful strategy gives a lawful solver class. -/
noncomputable def lawful (L : LawfulASStrategy S nl CoefOk Φ) : LawfulAS (IF34.cls S) (guarded CoefOk Φ) where
  Ready := L.Ready
  CoefOk := CoefOk
  reset_ready s u := by simp [Ready, IF34.cls, IF34.reset]
  result s a u h hi := by
    unfold guarded
    split
    · rename_i hc
      cases hr : Φ h u with
      | ok r => obtain ⟨n, h1, -⟩ := L.wrap_ok hi hc hr; simp [IF34.cls, h1]
      | error e => obtain ⟨s', h1, -⟩ := L.wrap_err hi hc hr; simp [IF34.cls, h1]
    · rename_i hc
      obtain ⟨s', h1⟩ := L.wrap_linalg hi hc
      simp [IF34.cls, h1]
  ready_ok s a u h r hi hv := by
    unfold guarded at hv
    split at hv
    · rename_i hc
      obtain ⟨m', h1, h2, h3, h4, -⟩ := L.wrap_ok hi hc hv
      simp only [IF34.cls, h1]
      refine ⟨⟨?_, by simp, fun _ => ⟨by simp, fun _ => h3⟩⟩, ⟨?_, by simp, fun _ => ⟨fun _ => h4, by simp⟩⟩⟩
      · rintro h' ⟨⟩; exact ⟨hc, h2⟩
      · rintro h' ⟨⟩; exact ⟨hc, h2⟩
    · simp at hv
  ready_err s a u h e hi hc he := by
    unfold guarded at he
    rw [if_pos hc] at he
    obtain ⟨s', h1, h2, -⟩ := L.wrap_err hi hc he
    simp only [IF34.cls, h1]
    exact h2

end LawfulASStrategy

end Verif
