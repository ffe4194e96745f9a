import Verif.Lemmas.Lawful

/-!
# Stage code run with the coefficients of another step size

When the computation of the coefficients raises, the exponentials have been replaced and the other coefficients not; the
stage code of a repeated call runs with this mixture.
-/

set_option linter.unusedSectionVars false

namespace Verif

open Matrix

variable {ι : Type} [Fintype ι] [DecidableEq ι] {Coef : Type}

/-- `M` without its nonlinear part. -/
noncomputable def ERK.zeroed (M : ERK ι) : ERK ι := { M with A := 0, B := 0, R := 0 }

/-- The exponentials of `M` with the weights of `M0`. -/
noncomputable def ERK.mixed (M M0 : ERK ι) : ERK ι := { M0 with E := M.E, Eout := M.Eout }

/-- A strategy with prescribed coefficients. -/
def CSStrategy.recoef (S : CSStrategy Coef ι) (mix : ℝ → Coef) : CSStrategy Coef ι :=
  { S with updateCoeffs := fun h => PyM.modify fun s => { s with coef := mix h } }

/-- A strategy with prescribed coefficients. -/
def ASStrategy.recoef (S : ASStrategy Coef ι) (mix : ℝ → Coef) : ASStrategy Coef ι :=
  { S with updateCoeffs := fun h => PyM.modify fun s => { s with coef := mix h } }

theorem CSStrategy.cached (S : CSStrategy Coef ι) (mix : ℝ → Coef) (u : Vec ι) (h : ℝ) (s : Wrap (CSMethod Coef ι))
    (hs : s.hCoeff = some h) : IF4.updateStages (S.recoef mix) u h s = IF4.updateStages S u h s := by
  unfold IF4.updateStages IF4.updateCoeffs
  simp only [PyM.bind_apply, PyM.get_apply, hs, if_true, PyM.pure_apply]
  rfl

theorem ASStrategy.cached (S : ASStrategy Coef ι) (mix : ℝ → Coef) (u : Vec ι) (h : ℝ) (a : Bool)
    (s : Wrap (ASMethod Coef ι)) (hs : s.hCoeff = some h) :
    IF34.updateStages (S.recoef mix) u h a s = IF34.updateStages S u h a s := by
  unfold IF34.updateStages IF34.updateCoeffs
  simp only [PyM.bind_apply, PyM.get_apply, hs, if_true, PyM.pure_apply]
  rfl

/-- State after a failed computation of coefficients. -/
theorem CSStrategy.fails (S : CSStrategy Coef ι) (u : Vec ι) (h : ℝ) (s : Wrap (CSMethod Coef ι)) (c : Coef)
    (hs : s.hCoeff ≠ some h)
    (hc : S.updateCoeffs h s.method = (.error .linAlgError, { s.method with coef := c })) :
    IF4.updateStages S u h s = (.error .linAlgError, ⟨s.n1init, some h, { s.method with coef := c }⟩) := by
  unfold IF4.updateStages IF4.updateCoeffs
  simp only [PyM.bind_apply, PyM.get_apply, if_neg (Ne.symm hs), PyM.modify_apply, Wrap.onMethod, PyM.zoom_apply, hc]

theorem ASStrategy.fails (S : ASStrategy Coef ι) (u : Vec ι) (h : ℝ) (a : Bool) (s : Wrap (ASMethod Coef ι)) (c : Coef)
    (hs : s.hCoeff ≠ some h)
    (hc : S.updateCoeffs h s.method = (.error .linAlgError, { s.method with coef := c })) :
    IF34.updateStages S u h a s = (.error .linAlgError, ⟨s.n1init, some h, { s.method with coef := c }⟩) := by
  unfold IF34.updateStages IF34.updateCoeffs
  simp only [PyM.bind_apply, PyM.get_apply, if_neg (Ne.symm hs), PyM.modify_apply, Wrap.onMethod, PyM.zoom_apply, hc]

/-- Repeating the call after a failed computation of coefficients runs the method with the mixed coefficients. -/
theorem LawfulCSStrategy.retry {S : CSStrategy Coef ι} {nl : NlFunc ι} {CoefOk : ℝ → Prop} {M M' : ℝ → ERK ι}
    (L : LawfulCSStrategy S nl CoefOk M) (mix : ℝ → Coef)
    (L' : LawfulCSStrategy (S.recoef mix) nl (fun _ => True) M') (hL' : L'.coefs = mix)
    {s : Wrap (CSMethod Coef ι)} {u : Vec ι} (hi : L.Inv s u) {h : ℝ} (hc : ¬ CoefOk h)
    (hm : S.updateCoeffs h s.method = (.error .linAlgError, { s.method with coef := mix h })) :
    (IF4.updateStages S u h (IF4.updateStages S u h s).2).1 = ((M' h).step nl u).map Prod.fst := by
  have hs : s.hCoeff ≠ some h := fun hs => hc (hi.1 h hs).1
  rw [S.fails u h s _ hs hm]
  simp only
  rw [← S.cached mix u h _ rfl]
  have := L'.lawful.result ⟨s.n1init, some h, { s.method with coef := mix h }⟩ u h
    ⟨fun k hk => ⟨trivial, by obtain rfl : h = k := by simpa using hk
                              rw [hL']⟩, hi.2⟩
  rw [stepMapCS, stepMap, if_pos trivial] at this
  exact this

/-- The same for adaptive strategies. -/
theorem LawfulASStrategy.retry {S : ASStrategy Coef ι} {nl : NlFunc ι} {CoefOk : ℝ → Prop}
    {Φ Φ' : ℝ → Vec ι → Except PyErr (Vec ι × Vec ι)}
    (L : LawfulASStrategy S nl CoefOk Φ) (mix : ℝ → Coef)
    (L' : LawfulASStrategy (S.recoef mix) nl (fun _ => True) Φ') (hL' : L'.coefs = mix)
    (hLo : L'.Loaded = L.Loaded) (hNe : L'.Next = L.Next)
    {s : Wrap (ASMethod Coef ι)} {u : Vec ι} {a : Bool} (hi : L.Ready s a u) {h : ℝ} (hc : ¬ CoefOk h)
    (hm : S.updateCoeffs h s.method = (.error .linAlgError, { s.method with coef := mix h })) :
    (IF34.updateStages S u h a (IF34.updateStages S u h a s).2).1 = Φ' h u := by
  have hs : s.hCoeff ≠ some h := fun hs => hc (hi.1 h hs).1
  rw [S.fails u h a s _ hs hm]
  simp only
  rw [← S.cached mix u h a _ rfl]
  have := L'.lawful.result ⟨s.n1init, some h, { s.method with coef := mix h }⟩ a u h
    ⟨fun k hk => ⟨trivial, by obtain rfl : h = k := by simpa using hk
                              rw [hL']⟩, hi.2.1, fun hn => ⟨fun ha => by
        rw [hNe]; exact L.next_congr s.method _ s.method.evals _ ((hi.2.2 hn).1 ha),
      fun ha => by rw [hLo]; exact L.loaded_congr s.method _ s.method.evals _ ((hi.2.2 hn).2 ha)⟩⟩
  rw [guarded, if_pos trivial] at this
  exact this

/-- Prescribed coefficients that make the stage code run `M'`. -/
def LawfulCSStrategy.recoef {S : CSStrategy Coef ι} {nl : NlFunc ι} {CoefOk : ℝ → Prop} {M : ℝ → ERK ι}
    (L : LawfulCSStrategy S nl CoefOk M) (mix : ℝ → Coef) (M' : ℝ → ERK ι) (h1 : ∀ h, (M' h).E 0 = 1)
    (h2 : ∀ h, 0 < (M' h).s)
    (h3 : ∀ u h s, s.coef = mix h →
      (∀ r, (M' h).stepFrom nl s.NL1 u = .ok r →
        ∃ n, S.updateStages u h s = (.ok r.1, ⟨s.coef, n, s.evals + L.cost⟩) ∧ nl r.1 = .ok n) ∧
      (∀ e, (M' h).stepFrom nl s.NL1 u = .error e →
        ∃ j, j ≤ L.cost ∧ S.updateStages u h s = (.error e, { s with evals := s.evals + j }))) :
    LawfulCSStrategy (S.recoef mix) nl (fun _ => True) M' where
  coefs := mix
  cost := L.cost
  first := h1
  pos := h2
  coeffs_ok _ _ _ := rfl
  coeffs_err _ _ h := absurd trivial h
  n1_ok := L.n1_ok
  n1_err := L.n1_err
  stages := h3

/-- Prescribed coefficients that make the stage code run `M'`. -/
def FsalAS.recoef {S : ASStrategy Coef ι} {nl : NlFunc ι} {CoefOk : ℝ → Prop} {M : ℝ → ERK ι} {useV : Bool}
    {emb prj : Vec ι → Vec ι} (L : FsalAS S nl CoefOk M useV emb prj) (mix : ℝ → Coef) (M' : ℝ → ERK ι)
    (h1 : ∀ h, (M' h).E 0 = 1) (h2 : ∀ h, 0 < (M' h).s)
    (h3 : ∀ u h s, s.coef = mix h →
      (∀ r, (M' h).stepFrom (conj emb prj nl) s.NL1 (working useV prj s u) = .ok r → ∃ d, nl (emb r.1) = .ok d ∧
        S.updateStages u h false s = (.ok (emb r.1, r.2), { s with NLlast := prj d, evals := s.evals + L.cost })) ∧
      (∀ e, (M' h).stepFrom (conj emb prj nl) s.NL1 (working useV prj s u) = .error e →
        ∃ j, j ≤ L.cost ∧ S.updateStages u h false s = (.error e, { s with evals := s.evals + j }))) :
    FsalAS (S.recoef mix) nl (fun _ => True) M' useV emb prj where
  hep := L.hep
  coefs := mix
  cost := L.cost
  first := h1
  pos := h2
  coeffs_ok _ _ _ := rfl
  coeffs_err _ _ h := absurd trivial h
  init_ok := L.init_ok
  init_err := L.init_err
  acc := L.acc
  main := h3

/-- Prescribed coefficients that make the stage code run `M'`. -/
def FreshAS.recoef {S : ASStrategy Coef ι} {nl : NlFunc ι} {CoefOk : ℝ → Prop} {M : ℝ → ERK ι} {useV : Bool}
    {emb prj : Vec ι → Vec ι} (L : FreshAS S nl CoefOk M useV emb prj) (mix : ℝ → Coef) (M' : ℝ → ERK ι)
    (h1 : ∀ h, (M' h).E 0 = 1) (h2 : ∀ h, 0 < (M' h).s)
    (h3 : ∀ u h s, s.coef = mix h →
      (∀ r, (M' h).stepFrom (conj emb prj nl) s.NL1 (working useV prj s u) = .ok r →
        S.updateStages u h false s = (.ok (emb r.1, r.2), { s with evals := s.evals + L.cost })) ∧
      (∀ e, (M' h).stepFrom (conj emb prj nl) s.NL1 (working useV prj s u) = .error e →
        ∃ j, j ≤ L.cost ∧ S.updateStages u h false s = (.error e, { s with evals := s.evals + j }))) :
    FreshAS (S.recoef mix) nl (fun _ => True) M' useV emb prj where
  hep := L.hep
  coefs := mix
  cost := L.cost
  first := h1
  pos := h2
  coeffs_ok _ _ _ := rfl
  coeffs_err _ _ h := absurd trivial h
  init_ok := L.init_ok
  init_err := L.init_err
  acc := L.acc
  main := h3

/-! ### ETD4 -/

/-- Coefficients after a failed computation. -/
noncomputable def ETD4.mix (L : Mat ι) (c : Etd4Coef (Mat ι)) (h : ℝ) : Etd4Coef (Mat ι) :=
  { c with EL := expm L h, EL2 := expm L (h / 2) }

theorem ETD4.fails (cfg : ETDConfig ℝ) (L : Mat ι) (nl : NlFunc ι) {h : ℝ} (s : CSMethod (Etd4Coef (Mat ι)) ι)
    (hc : ¬ ContourOk cfg.contour_radius cfg.npts L [1 / 2, 1] h) :
    (ETD4.nonDiagonal cfg L nl).updateCoeffs h s = (.error .linAlgError, { s with coef := ETD4.mix L s.coef h }) := by
  rw [ETD4.contourOk_iff] at hc
  push Not at hc
  obtain ⟨m, hm, h1⟩ := hc
  simp only [ETD4.nonDiagonal, ETD4.coeffsNonDiagonal, PyM.bind_modify_apply]
  rw [PyM.bind_error ((ETD4.loop_eq cfg _ _).2 ⟨m, hm, fun ⟨a, b⟩ => h1 a b⟩)]
  simp only [ETD4.mix, exp_smul_eq,
    exp_smul_smul_eq L (1 / 2) h (show (1 / 2 : ℂ) = ((1 / 2 : ℝ) : ℂ) by simp), show (1 / 2 : ℝ) * h = h / 2 by ring]

theorem mixed_fsal {M M0 : ERK ι} {k : ℕ} (h1 : IsFSAL M k) (h0 : IsFSAL M0 k) : IsFSAL (M.mixed M0) k :=
  ⟨h0.s_eq, h1.first, h1.Eout, h0.B, h0.Blast⟩

theorem zeroed_fsal {M : ERK ι} {k : ℕ} (h1 : IsFSAL M k) : IsFSAL M.zeroed k :=
  ⟨h1.s_eq, h1.first, h1.Eout, fun _ _ => rfl, rfl⟩

noncomputable def ETD4.lawMixed (cfg : ETDConfig ℝ) (L : Mat ι) (nl : NlFunc ι) (h0 : ℝ) :
    LawfulCSStrategy ((ETD4.nonDiagonal cfg L nl).recoef (ETD4.mix L (ETD4.coefN cfg L h0))) nl (fun _ => True)
      (fun h => (krogstad (cfg.phiF L h) L h).mixed (krogstad (cfg.phiF L h0) L h0)) :=
  (ETD4.lawNonDiagonal cfg L nl).recoef _ _ (fun _ => rfl) (fun _ => by simp [krogstad, ERK.mixed]) fun u h s hc => by
    refine cs_stages4 (mixed_fsal (krogstad_fsal _ _ h) (krogstad_fsal _ _ h0)) _ _ _ _ ?_ ?_ ?_ ?_ s
      ((ETD4.nonDiagonal cfg L nl).updateStages u h) rfl
    all_goals
      intros
      simp only [hc, ETD4.mix, ETD4.coefN, ERK.mixed, krogstad, smul_mulVec, sub_mulVec, add_mulVec, neg_mulVec,
        zero_mulVec, smul_zero, mulVec_add, neg_smul]
      module

noncomputable def ETD4.lawZero (cfg : ETDConfig ℝ) (L : Mat ι) (nl : NlFunc ι) :
    LawfulCSStrategy ((ETD4.nonDiagonal cfg L nl).recoef (ETD4.mix L ⟨0, 0, 0, 0, 0, 0, 0, 0, 0, 0⟩)) nl (fun _ => True)
      (fun h => (krogstad (cfg.phiF L h) L h).zeroed) :=
  (ETD4.lawNonDiagonal cfg L nl).recoef _ _ (fun _ => rfl) (fun _ => by simp [krogstad, ERK.zeroed]) fun u h s hc => by
    refine cs_stages4 (zeroed_fsal (krogstad_fsal _ _ h)) _ _ _ _ ?_ ?_ ?_ ?_ s
      ((ETD4.nonDiagonal cfg L nl).updateStages u h) rfl
    all_goals
      intros
      simp only [hc, ETD4.mix, ERK.zeroed, krogstad, zero_mulVec, Pi.zero_apply, add_zero]

/-! ### ETD5 -/

/-- Coefficients after a failed computation. -/
noncomputable def ETD5.mix (L : Mat ι) (c : Etd5Coef (Mat ι)) (h : ℝ) : Etd5Coef (Mat ι) :=
  { c with EL14 := expm L (h / 4), EL12 := expm L (h / 2), EL34 := expm L (3 * h / 4), EL := expm L h }

theorem ETD5.fails (cfg : ETDConfig ℝ) (L : Mat ι) (nl : NlFunc ι) {h : ℝ} (s : CSMethod (Etd5Coef (Mat ι)) ι)
    (hc : ¬ ContourOk cfg.contour_radius cfg.npts L [1 / 4, 1 / 2, 3 / 4, 1] h) :
    (ETD5.nonDiagonal cfg L nl).updateCoeffs h s = (.error .linAlgError, { s with coef := ETD5.mix L s.coef h }) := by
  rw [ETD5.contourOk_iff] at hc
  push Not at hc
  obtain ⟨m, hm, h1⟩ := hc
  simp only [ETD5.nonDiagonal, ETD5.coeffsNonDiagonal, PyM.bind_modify_apply]
  rw [PyM.bind_error ((ETD5.loop_eq cfg _ _).2 ⟨m, hm, h1⟩)]
  simp only [ETD5.mix, exp_smul_eq,
      exp_smul_smul_eq L (1 / 4) h (show (1 / 4 : ℂ) = ((1 / 4 : ℝ) : ℂ) by push_cast; ring), show (1 / 4 : ℝ) * h = h / 4 by ring,
      exp_smul_smul_eq L (1 / 2) h (show (1 / 2 : ℂ) = ((1 / 2 : ℝ) : ℂ) by push_cast; ring), show (1 / 2 : ℝ) * h = h / 2 by ring,
      exp_smul_smul_eq L (3 / 4) h (show (3 / 4 : ℂ) = ((3 / 4 : ℝ) : ℂ) by push_cast; ring), show (3 / 4 : ℝ) * h = 3 * h / 4 by ring]

noncomputable def ETD5.lawMixed (cfg : ETDConfig ℝ) (L : Mat ι) (nl : NlFunc ι) (h0 : ℝ) :
    LawfulCSStrategy ((ETD5.nonDiagonal cfg L nl).recoef (ETD5.mix L (ETD5.coefN cfg L h0))) nl (fun _ => True)
      (fun h => (etd5Method true (cfg.phiF L h) L h).mixed (etd5Method true (cfg.phiF L h0) L h0)) :=
  (ETD5.lawNonDiagonal cfg L nl).recoef _ _ (fun _ => rfl) (fun _ => by simp [etd5Method, ERK.mixed]) fun u h s hc => by
    refine cs_stages6 (mixed_fsal (etd5_fsal _ _ h) (etd5_fsal _ _ h0)) _ _ _ _ _ _ ?_ ?_ ?_ ?_ ?_ ?_ s
      ((ETD5.nonDiagonal cfg L nl).updateStages u h) rfl
    all_goals
      intros
      simp only [hc, ETD5.mix, ETD5.coefN, ERK.mixed, etd5Method, smul_mulVec, sub_mulVec, add_mulVec, neg_mulVec,
        zero_mulVec, smul_zero, mulVec_sub, mulVec_smul, three_halves, neg_smul]
      module

noncomputable def ETD5.lawZero (cfg : ETDConfig ℝ) (L : Mat ι) (nl : NlFunc ι) :
    LawfulCSStrategy ((ETD5.nonDiagonal cfg L nl).recoef
      (ETD5.mix L ⟨0, 0, 0, 0, 0, 0, 0, 0, 0, 0, 0, 0, 0, 0, 0, 0, 0, 0, 0, 0, 0⟩)) nl (fun _ => True)
      (fun h => (etd5Method true (cfg.phiF L h) L h).zeroed) :=
  (ETD5.lawNonDiagonal cfg L nl).recoef _ _ (fun _ => rfl) (fun _ => by simp [etd5Method, ERK.zeroed]) fun u h s hc => by
    refine cs_stages6 (zeroed_fsal (etd5_fsal _ _ h)) _ _ _ _ _ _ ?_ ?_ ?_ ?_ ?_ ?_ s
      ((ETD5.nonDiagonal cfg L nl).updateStages u h) rfl
    all_goals
      intros
      simp only [hc, ETD5.mix, ERK.zeroed, etd5Method, zero_mulVec, Pi.zero_apply, add_zero]

/-! ### ETD34 -/

/-- Coefficients after a failed computation. -/
noncomputable def ETD34.mix (L : Mat ι) (c : Etd34Coef (Mat ι)) (h : ℝ) : Etd34Coef (Mat ι) :=
  { c with EL := expm L h, EL2 := expm L (h / 2) }

theorem ETD34.fails (cfg : ETDConfig ℝ) (L : Mat ι) (nl : NlFunc ι) {h : ℝ} (s : ASMethod (Etd34Coef (Mat ι)) ι)
    (hc : ¬ ContourOk cfg.contour_radius cfg.npts L [1 / 2, 1] h) :
    (ETD34.nonDiagonal cfg L nl).updateCoeffs h s = (.error .linAlgError, { s with coef := ETD34.mix L s.coef h }) := by
  rw [ETD34.contourOk_iff] at hc
  push Not at hc
  obtain ⟨m, hm, h1⟩ := hc
  simp only [ETD34.nonDiagonal, ETD34.coeffsNonDiagonal, PyM.bind_modify_apply]
  rw [PyM.bind_error ((ETD34.loop_eq cfg _ _).2 ⟨m, hm, fun ⟨a, b⟩ => h1 a b⟩)]
  simp only [ETD34.mix, exp_smul_eq,
    exp_smul_smul_eq L (1 / 2) h (show (1 / 2 : ℂ) = ((1 / 2 : ℝ) : ℂ) by simp), show (1 / 2 : ℝ) * h = h / 2 by ring]

noncomputable def ETD34.rawMixed (cfg : ETDConfig ℝ) (L : Mat ι) (nl : NlFunc ι) (h0 : ℝ) :
    FsalAS ((ETD34.nonDiagonal cfg L nl).recoef (ETD34.mix L (ETD34.coefN cfg L h0))) nl (fun _ => True)
      (fun h => (krogstad (cfg.phiF L h) L h).mixed (krogstad (cfg.phiF L h0) L h0)) false id id :=
  (ETD34.rawNonDiagonal cfg L nl).recoef _ _ (fun _ => rfl) (fun _ => by simp [krogstad, ERK.mixed]) fun u h s hc => by
      refine as_stages4 (v := u) (mixed_fsal (krogstad_fsal _ _ h) (krogstad_fsal _ _ h0))
        (s.coef.EL2 *ᵥ u + s.coef.a21 *ᵥ s.NL1)
        (fun a => s.coef.EL2 *ᵥ u + s.coef.a31 *ᵥ s.NL1 + s.coef.a32 *ᵥ a)
        (fun _ b => s.coef.EL *ᵥ u + s.coef.a41 *ᵥ s.NL1 + s.coef.a43 *ᵥ b)
        (fun a b c => s.coef.EL *ᵥ u + s.coef.a51 *ᵥ s.NL1 + s.coef.a52 *ᵥ (a + b) + s.coef.a54 *ᵥ c)
        (fun _ _ c d => s.coef.a54 *ᵥ (c - d))
        ?_ ?_ ?_ ?_ ?_ s ((ETD34.nonDiagonal cfg L nl).updateStages u h false) rfl
      all_goals
        intros
        simp only [hc, ETD34.mix, ETD34.coefN, ERK.mixed, krogstad, smul_mulVec, sub_mulVec, add_mulVec, neg_mulVec, zero_mulVec,
          smul_zero, mulVec_add, mulVec_sub, neg_smul]
        module

noncomputable def ETD34.rawZero (cfg : ETDConfig ℝ) (L : Mat ι) (nl : NlFunc ι) :
    FsalAS ((ETD34.nonDiagonal cfg L nl).recoef (ETD34.mix L ⟨0, 0, 0, 0, 0, 0, 0, 0, 0, 0⟩)) nl (fun _ => True)
      (fun h => (krogstad (cfg.phiF L h) L h).zeroed) false id id :=
  (ETD34.rawNonDiagonal cfg L nl).recoef _ _ (fun _ => rfl) (fun _ => by simp [krogstad, ERK.zeroed]) fun u h s hc => by
      refine as_stages4 (v := u) (zeroed_fsal (krogstad_fsal _ _ h))
        (s.coef.EL2 *ᵥ u + s.coef.a21 *ᵥ s.NL1)
        (fun a => s.coef.EL2 *ᵥ u + s.coef.a31 *ᵥ s.NL1 + s.coef.a32 *ᵥ a)
        (fun _ b => s.coef.EL *ᵥ u + s.coef.a41 *ᵥ s.NL1 + s.coef.a43 *ᵥ b)
        (fun a b c => s.coef.EL *ᵥ u + s.coef.a51 *ᵥ s.NL1 + s.coef.a52 *ᵥ (a + b) + s.coef.a54 *ᵥ c)
        (fun _ _ c d => s.coef.a54 *ᵥ (c - d))
        ?_ ?_ ?_ ?_ ?_ s ((ETD34.nonDiagonal cfg L nl).updateStages u h false) rfl
      all_goals
        intros
        simp only [hc, ETD34.mix, ERK.zeroed, krogstad, zero_mulVec, Pi.zero_apply, add_zero]

/-! ### ETD35 -/

/-- Coefficients after a failed computation. -/
noncomputable def ETD35.mix (L : Mat ι) (c : Etd35Coef (Mat ι)) (h : ℝ) : Etd35Coef (Mat ι) :=
  { c with EL14 := expm L (h / 4), EL12 := expm L (h / 2), EL34 := expm L (3 * h / 4), EL := expm L h }

theorem ETD35.fails (cfg : ETDConfig ℝ) (L : Mat ι) (nl : NlFunc ι) {h : ℝ} (s : ASMethod (Etd35Coef (Mat ι)) ι)
    (hc : ¬ ContourOk cfg.contour_radius cfg.npts L [1 / 4, 1 / 2, 3 / 4, 1] h) :
    (ETD35.nonDiagonal cfg L nl).updateCoeffs h s = (.error .linAlgError, { s with coef := ETD35.mix L s.coef h }) := by
  rw [ETD35.contourOk_iff] at hc
  push Not at hc
  obtain ⟨m, hm, h1⟩ := hc
  simp only [ETD35.nonDiagonal, ETD35.coeffsNonDiagonal, PyM.bind_modify_apply]
  rw [PyM.bind_error ((ETD35.loop_eq cfg _ _).2 ⟨m, hm, h1⟩)]
  simp only [ETD35.mix, exp_smul_eq,
      exp_smul_smul_eq L (1 / 4) h (show (1 / 4 : ℂ) = ((1 / 4 : ℝ) : ℂ) by push_cast; ring), show (1 / 4 : ℝ) * h = h / 4 by ring,
      exp_smul_smul_eq L (1 / 2) h (show (1 / 2 : ℂ) = ((1 / 2 : ℝ) : ℂ) by push_cast; ring), show (1 / 2 : ℝ) * h = h / 2 by ring,
      exp_smul_smul_eq L (3 / 4) h (show (3 / 4 : ℂ) = ((3 / 4 : ℝ) : ℂ) by push_cast; ring), show (3 / 4 : ℝ) * h = 3 * h / 4 by ring]

noncomputable def ETD35.rawMixed (cfg : ETDConfig ℝ) (L : Mat ι) (nl : NlFunc ι) (h0 : ℝ) :
    FreshAS ((ETD35.nonDiagonal cfg L nl).recoef (ETD35.mix L (ETD35.coefN cfg L h0))) nl (fun _ => True)
      (fun h => (etd5Method false (cfg.phiF L h) L h).mixed (etd5Method false (cfg.phiF L h0) L h0)) false id id :=
  (ETD35.rawNonDiagonal cfg L nl).recoef _ _ (fun _ => rfl) (fun _ => by simp [etd5Method, ERK.mixed]) fun u h s hc => by
      refine as_stages5 (v := u) (M := (etd5Method false (cfg.phiF L h) L h).mixed (etd5Method false (cfg.phiF L h0) L h0)) rfl
        (s.coef.EL14 *ᵥ u + s.coef.a21 *ᵥ s.NL1)
        (fun a => s.coef.EL14 *ᵥ u + s.coef.a31 *ᵥ s.NL1 + s.coef.a32 *ᵥ a)
        (fun _ b => s.coef.EL12 *ᵥ u + s.coef.a41 *ᵥ s.NL1 + s.coef.a43 *ᵥ b)
        (fun a b c => s.coef.EL34 *ᵥ u + s.coef.a51 *ᵥ s.NL1 + s.coef.a52 *ᵥ (a - b) + s.coef.a54 *ᵥ c)
        (fun a b c d => s.coef.EL *ᵥ u + s.coef.a61 *ᵥ s.NL1 + s.coef.a62 *ᵥ (a - 3 * c / 2) + s.coef.a63 *ᵥ b + s.coef.a65 *ᵥ d)
        (fun _ b c d x => s.coef.EL *ᵥ u + s.coef.a71 *ᵥ s.NL1 + s.coef.a73 *ᵥ b + s.coef.a74 *ᵥ c + s.coef.a75 *ᵥ d + s.coef.a76 *ᵥ x)
        (fun _ b c d x => s.coef.a75 *ᵥ (-s.NL1 + 4 * b - 6 * c + 4 * d - x))
        ?_ ?_ ?_ ?_ ?_ ?_ ?_ s ((ETD35.nonDiagonal cfg L nl).updateStages u h false) rfl
      all_goals
        intros
        simp only [hc, ETD35.mix, ETD35.coefN, ERK.mixed, etd5Method, smul_mulVec, sub_mulVec, add_mulVec, neg_mulVec, zero_mulVec,
          smul_zero, mulVec_sub, mulVec_add, mulVec_neg, mulVec_smul, three_halves, four_mul_vec, six_mul_vec, neg_smul]
        module

noncomputable def ETD35.rawZero (cfg : ETDConfig ℝ) (L : Mat ι) (nl : NlFunc ι) :
    FreshAS ((ETD35.nonDiagonal cfg L nl).recoef
      (ETD35.mix L ⟨0, 0, 0, 0, 0, 0, 0, 0, 0, 0, 0, 0, 0, 0, 0, 0, 0, 0, 0, 0, 0⟩)) nl (fun _ => True)
      (fun h => (etd5Method false (cfg.phiF L h) L h).zeroed) false id id :=
  (ETD35.rawNonDiagonal cfg L nl).recoef _ _ (fun _ => rfl) (fun _ => by simp [etd5Method, ERK.zeroed]) fun u h s hc => by
      refine as_stages5 (v := u) (M := (etd5Method false (cfg.phiF L h) L h).zeroed) rfl
        (s.coef.EL14 *ᵥ u + s.coef.a21 *ᵥ s.NL1)
        (fun a => s.coef.EL14 *ᵥ u + s.coef.a31 *ᵥ s.NL1 + s.coef.a32 *ᵥ a)
        (fun _ b => s.coef.EL12 *ᵥ u + s.coef.a41 *ᵥ s.NL1 + s.coef.a43 *ᵥ b)
        (fun a b c => s.coef.EL34 *ᵥ u + s.coef.a51 *ᵥ s.NL1 + s.coef.a52 *ᵥ (a - b) + s.coef.a54 *ᵥ c)
        (fun a b c d => s.coef.EL *ᵥ u + s.coef.a61 *ᵥ s.NL1 + s.coef.a62 *ᵥ (a - 3 * c / 2) + s.coef.a63 *ᵥ b + s.coef.a65 *ᵥ d)
        (fun _ b c d x => s.coef.EL *ᵥ u + s.coef.a71 *ᵥ s.NL1 + s.coef.a73 *ᵥ b + s.coef.a74 *ᵥ c + s.coef.a75 *ᵥ d + s.coef.a76 *ᵥ x)
        (fun _ b c d x => s.coef.a75 *ᵥ (-s.NL1 + 4 * b - 6 * c + 4 * d - x))
        ?_ ?_ ?_ ?_ ?_ ?_ ?_ s ((ETD35.nonDiagonal cfg L nl).updateStages u h false) rfl
      all_goals
        intros
        simp only [hc, ETD35.mix, ERK.zeroed, etd5Method, zero_mulVec, Pi.zero_apply, add_zero]

end Verif
