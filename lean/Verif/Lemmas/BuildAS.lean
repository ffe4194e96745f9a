import Verif.Lemmas.StagesAS

/-!
# Building lawful adaptive strategies
-/

set_option linter.unusedSectionVars false

namespace Verif

open Matrix

variable {ι : Type} [Fintype ι] [DecidableEq ι] {Coef : Type}

/-- One step in the coordinates given by `emb`, `prj`; the error estimate stays in these coordinates. -/
noncomputable def coordStep (emb prj : Vec ι → Vec ι) (M : ℝ → ERK ι) (nl : NlFunc ι) (h : ℝ) (u : Vec ι) :
    Except PyErr (Vec ι × Vec ι) := ((M h).step (conj emb prj nl) (prj u)).map fun r => (emb r.1, r.2)

theorem coordStep_id (M : ℝ → ERK ι) (nl : NlFunc ι) : coordStep id id M nl = fun h u => (M h).step nl u := by
  funext h u
  unfold coordStep
  rw [conj_id]
  simp only [id]
  cases (M h).step nl u <;> rfl

theorem coordStep_ok {emb prj : Vec ι → Vec ι} {M : ℝ → ERK ι} {nl : NlFunc ι} {h : ℝ} {u : Vec ι} {r : Vec ι × Vec ι}
    (hr : coordStep emb prj M nl h u = .ok r) :
    ∃ x, (M h).step (conj emb prj nl) (prj u) = .ok x ∧ r = (emb x.1, x.2) := by
  unfold coordStep at hr
  rcases hx : (M h).step (conj emb prj nl) (prj u) with e | x
  · rw [hx] at hr; simp [Except.map] at hr
  · rw [hx] at hr
    simp only [Except.map, Except.ok.injEq] at hr
    exact ⟨x, rfl, hr.symm⟩

theorem coordStep_err {emb prj : Vec ι → Vec ι} {M : ℝ → ERK ι} {nl : NlFunc ι} {h : ℝ} {u : Vec ι} {e : PyErr}
    (hr : coordStep emb prj M nl h u = .error e) : (M h).step (conj emb prj nl) (prj u) = .error e := by
  unfold coordStep at hr
  rcases hx : (M h).step (conj emb prj nl) (prj u) with e' | x
  · rw [hx] at hr; simpa [Except.map] using hr
  · rw [hx] at hr
    simp [Except.map] at hr

/-- The cached first stage (and the transformed solution, if the strategy keeps one) belong to `u`. -/
def LoadedFor (useV : Bool) (emb prj : Vec ι → Vec ι) (nl : NlFunc ι) (s : ASMethod Coef ι) (u : Vec ι) : Prop :=
  conj emb prj nl (prj u) = .ok s.NL1 ∧ (useV = true → s.v = prj u)

/-- The solution in working coordinates that the stage code starts from: diagonalized strategies keep it in `_v`. -/
def working (useV : Bool) (prj : Vec ι → Vec ι) (s : ASMethod Coef ι) (u : Vec ι) : Vec ι :=
  match useV with
  | true => s.v
  | false => prj u

theorem LoadedFor.working {useV : Bool} {emb prj : Vec ι → Vec ι} {nl : NlFunc ι} {s : ASMethod Coef ι} {u : Vec ι}
    (h : LoadedFor useV emb prj nl s u) : working useV prj s u = prj u := by
  cases useV with
  | true => exact h.2 rfl
  | false => rfl

/-- Behaviour of strategies that reuse the last stage of an accepted step, from an arbitrary state. -/
structure FsalAS (S : ASStrategy Coef ι) (nl : NlFunc ι) (CoefOk : ℝ → Prop) (M : ℝ → ERK ι)
    (useV : Bool) (emb prj : Vec ι → Vec ι) where
  hep : ∀ u, emb (prj u) = u
  coefs : ℝ → Coef
  cost : ℕ
  first : ∀ h, (M h).E 0 = 1
  pos : ∀ h, 0 < (M h).s
  coeffs_ok : ∀ h s, CoefOk h → S.updateCoeffs h s = (.ok (), { s with coef := coefs h })
  coeffs_err : ∀ h s, ¬ CoefOk h → ∃ c, S.updateCoeffs h s = (.error .linAlgError, { s with coef := c })
  init_ok : ∀ u s n, nl u = .ok n → S.init u s =
    (.ok (), { s with NL1 := prj n, v := if useV then prj u else s.v, evals := s.evals + 1 })
  init_err : ∀ u s e, nl u = .error e → S.init u s = (.error e, { s with evals := s.evals + 1 })
  acc : ∀ u h s, S.updateStages u h true s =
    S.updateStages u h false { s with NL1 := s.NLlast, v := if useV then prj u else s.v }
  main : ∀ u h s, s.coef = coefs h →
    (∀ r, (M h).stepFrom (conj emb prj nl) s.NL1 (working useV prj s u) = .ok r → ∃ d, nl (emb r.1) = .ok d ∧
      S.updateStages u h false s = (.ok (emb r.1, r.2), { s with NLlast := prj d, evals := s.evals + cost })) ∧
    (∀ e, (M h).stepFrom (conj emb prj nl) s.NL1 (working useV prj s u) = .error e →
      ∃ j, j ≤ cost ∧ S.updateStages u h false s = (.error e, { s with evals := s.evals + j }))

theorem stepFrom_of_loaded {useV : Bool} {emb prj : Vec ι → Vec ι} {nl : NlFunc ι} {s : ASMethod Coef ι} {u : Vec ι}
    (hl : LoadedFor useV emb prj nl s u) {M : ERK ι} (h0 : M.E 0 = 1) :
    M.stepFrom (conj emb prj nl) s.NL1 (working useV prj s u) = M.step (conj emb prj nl) (prj u) := by
  rw [hl.working, ERK.step_eq_stepFrom _ _ _ _ h0 hl.1]

/-- Strategies that reuse the last stage of an accepted step are lawful. -/
noncomputable def FsalAS.law {S : ASStrategy Coef ι} {nl : NlFunc ι} {CoefOk : ℝ → Prop} {M : ℝ → ERK ι}
    {useV : Bool} {emb prj : Vec ι → Vec ι} (F : FsalAS S nl CoefOk M useV emb prj) :
    LawfulASStrategy S nl CoefOk (coordStep emb prj M nl) :=
  have hep := F.hep
  have first := F.first
  have pos := F.pos
  have init_ok := F.init_ok
  have init_err := F.init_err
  have acc := F.acc
  have main : ∀ u h s, s.coef = F.coefs h → LoadedFor useV emb prj nl s u →
      (∀ r, (M h).step (conj emb prj nl) (prj u) = .ok r → ∃ d, nl (emb r.1) = .ok d ∧
        S.updateStages u h false s = (.ok (emb r.1, r.2), { s with NLlast := prj d, evals := s.evals + F.cost })) ∧
      (∀ e, (M h).step (conj emb prj nl) (prj u) = .error e →
        ∃ j, j ≤ F.cost ∧ S.updateStages u h false s = (.error e, { s with evals := s.evals + j })) := by
    intro u h s hc hl
    have := F.main u h s hc
    rwa [stepFrom_of_loaded hl (first h)] at this
  { coefs := F.coefs
    Loaded := LoadedFor useV emb prj nl
    Next s u := conj emb prj nl (prj u) = .ok s.NLlast
    cost := F.cost
    refresh := 0
    loaded_congr s c k u h := h
    next_congr s c k u h := h
    coeffs_ok := F.coeffs_ok
    coeffs_err := F.coeffs_err
    first_err h u e he := by
      have : conj emb prj nl (prj u) = .error e := conj_err (by rw [hep]; exact he)
      simp [coordStep, ERK.step_of_first_error (M h) _ _ (first h) (pos h) this, Except.map]
    init_ok u s n hn := by
      refine ⟨_, init_ok u s n hn, rfl, ⟨conj_ok (by rw [hep]; exact hn), fun hv => by simp [hv]⟩, rfl⟩
    init_err := init_err
    stages u h s a hc hnext hload := by
      have key : ∀ s', s'.coef = F.coefs h → LoadedFor useV emb prj nl s' u →
          conj emb prj nl (prj u) = .ok s.NLlast ∨ a = false → s'.NLlast = s.NLlast → s'.evals = s.evals →
          S.updateStages u h a s = S.updateStages u h false s' → s'.coef = s.coef →
          (∀ r, coordStep emb prj M nl h u = .ok r → ∃ s', S.updateStages u h a s = (.ok r, s') ∧ s'.coef = s.coef ∧
            LoadedFor useV emb prj nl s' u ∧ conj emb prj nl (prj r.1) = .ok s'.NLlast ∧
            s'.evals = s.evals + F.cost + (if a then 0 else 0)) ∧
          (∀ e, coordStep emb prj M nl h u = .error e → ∃ s', S.updateStages u h a s = (.error e, s') ∧
            s'.coef = s.coef ∧ (a = true → conj emb prj nl (prj u) = .ok s'.NLlast) ∧
            (a = false → LoadedFor useV emb prj nl s' u) ∧ s'.evals ≤ s.evals + F.cost + (if a then 0 else 0)) := by
        intro s' h1 h2 h3 h4 h5 h6 h7
        obtain ⟨m1, m2⟩ := main u h s' h1 h2
        constructor
        · intro r hr
          obtain ⟨x, hx, rfl⟩ := coordStep_ok hr
          obtain ⟨d, hd, hp⟩ := m1 x hx
          refine ⟨_, h6.trans hp, h7, h2, ?_, by simp [h5]⟩
          exact conj_ok (by rw [hep]; exact hd)
        · intro e he
          obtain ⟨j, hj, hp⟩ := m2 e (coordStep_err he)
          refine ⟨_, h6.trans hp, h7, ?_, fun _ => h2, by simp [h5, hj]⟩
          intro ha
          rcases h3 with h3 | h3
          · simpa [h4] using h3
          · rw [ha] at h3; simp at h3
      cases a with
      | false => exact key s hc (hload rfl) (Or.inr rfl) rfl rfl rfl rfl
      | true =>
        have hn := hnext rfl
        exact key { s with NL1 := s.NLlast, v := if useV then prj u else s.v } hc
          ⟨hn, fun hv => by simp [hv]⟩ (Or.inl hn) rfl rfl (acc u h s) rfl }

/-- Behaviour of strategies that evaluate the first stage again after an accepted step, from an arbitrary state. -/
structure FreshAS (S : ASStrategy Coef ι) (nl : NlFunc ι) (CoefOk : ℝ → Prop) (M : ℝ → ERK ι)
    (useV : Bool) (emb prj : Vec ι → Vec ι) where
  hep : ∀ u, emb (prj u) = u
  coefs : ℝ → Coef
  cost : ℕ
  first : ∀ h, (M h).E 0 = 1
  pos : ∀ h, 0 < (M h).s
  coeffs_ok : ∀ h s, CoefOk h → S.updateCoeffs h s = (.ok (), { s with coef := coefs h })
  coeffs_err : ∀ h s, ¬ CoefOk h → ∃ c, S.updateCoeffs h s = (.error .linAlgError, { s with coef := c })
  init_ok : ∀ u s n, nl u = .ok n → S.init u s =
    (.ok (), { s with NL1 := prj n, v := if useV then prj u else s.v, evals := s.evals + 1 })
  init_err : ∀ u s e, nl u = .error e → S.init u s = (.error e, { s with evals := s.evals + 1 })
  acc : ∀ u h s, S.updateStages u h true s = (S.init u >>= fun _ => S.updateStages u h false) s
  main : ∀ u h s, s.coef = coefs h →
    (∀ r, (M h).stepFrom (conj emb prj nl) s.NL1 (working useV prj s u) = .ok r →
      S.updateStages u h false s = (.ok (emb r.1, r.2), { s with evals := s.evals + cost })) ∧
    (∀ e, (M h).stepFrom (conj emb prj nl) s.NL1 (working useV prj s u) = .error e →
      ∃ j, j ≤ cost ∧ S.updateStages u h false s = (.error e, { s with evals := s.evals + j }))

/-- Strategies that evaluate the first stage again after an accepted step are lawful. -/
noncomputable def FreshAS.law {S : ASStrategy Coef ι} {nl : NlFunc ι} {CoefOk : ℝ → Prop} {M : ℝ → ERK ι}
    {useV : Bool} {emb prj : Vec ι → Vec ι} (F : FreshAS S nl CoefOk M useV emb prj) :
    LawfulASStrategy S nl CoefOk (coordStep emb prj M nl) :=
  have hep := F.hep
  have first := F.first
  have pos := F.pos
  have init_ok := F.init_ok
  have init_err := F.init_err
  have acc := F.acc
  have main : ∀ u h s, s.coef = F.coefs h → LoadedFor useV emb prj nl s u →
      (∀ r, (M h).step (conj emb prj nl) (prj u) = .ok r →
        S.updateStages u h false s = (.ok (emb r.1, r.2), { s with evals := s.evals + F.cost })) ∧
      (∀ e, (M h).step (conj emb prj nl) (prj u) = .error e →
        ∃ j, j ≤ F.cost ∧ S.updateStages u h false s = (.error e, { s with evals := s.evals + j })) := by
    intro u h s hc hl
    have := F.main u h s hc
    rwa [stepFrom_of_loaded hl (first h)] at this
  { coefs := F.coefs
    Loaded := LoadedFor useV emb prj nl
    Next _ _ := True
    cost := F.cost
    refresh := 1
    loaded_congr s c k u h := h
    next_congr s c k u h := h
    coeffs_ok := F.coeffs_ok
    coeffs_err := F.coeffs_err
    first_err h u e he := by
      have : conj emb prj nl (prj u) = .error e := conj_err (by rw [hep]; exact he)
      simp [coordStep, ERK.step_of_first_error (M h) _ _ (first h) (pos h) this, Except.map]
    init_ok u s n hn := by
      refine ⟨_, init_ok u s n hn, rfl, ⟨conj_ok (by rw [hep]; exact hn), fun hv => by simp [hv]⟩, rfl⟩
    init_err := init_err
    stages u h s a hc _ hload := by
      cases a with
      | false =>
        obtain ⟨m1, m2⟩ := main u h s hc (hload rfl)
        refine ⟨fun r hr => ?_, fun e he => ?_⟩
        · obtain ⟨x, hx, rfl⟩ := coordStep_ok hr
          exact ⟨_, m1 x hx, rfl, hload rfl, trivial, by simp⟩
        · obtain ⟨j, hj, hp⟩ := m2 e (coordStep_err he)
          exact ⟨_, hp, rfl, fun _ => trivial, hload, by simp [hj]⟩
      | true =>
        rw [acc]
        cases hu : nl u with
        | error e =>
          rw [PyM.bind_error (init_err u s e hu)]
          have hf : coordStep emb prj M nl h u = .error e := by
            have : conj emb prj nl (prj u) = .error e := conj_err (by rw [hep]; exact hu)
            simp [coordStep, ERK.step_of_first_error (M h) _ _ (first h) (pos h) this, Except.map]
          rw [hf]
          refine ⟨by simp, fun e' he => ?_⟩
          obtain rfl : e = e' := by simpa using he
          exact ⟨_, rfl, rfl, fun _ => trivial, by simp, by simp⟩
        | ok n =>
          rw [PyM.bind_ok (init_ok u s n hu)]
          have hl : LoadedFor useV emb prj nl
              { s with NL1 := prj n, v := if useV then prj u else s.v, evals := s.evals + 1 } u :=
            ⟨conj_ok (by rw [hep]; exact hu), fun hv => by simp [hv]⟩
          obtain ⟨m1, m2⟩ := main u h _ (by exact hc) hl
          refine ⟨fun r hr => ?_, fun e he => ?_⟩
          · obtain ⟨x, hx, rfl⟩ := coordStep_ok hr
            exact ⟨_, m1 x hx, rfl, hl, trivial, by simp; omega⟩
          · obtain ⟨j, hj, hp⟩ := m2 e (coordStep_err he)
            exact ⟨_, hp, rfl, fun _ => trivial, by simp, by simp; omega⟩ }

end Verif
