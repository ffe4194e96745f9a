import Verif.Lemmas.ApiAS

/-!
# Adaptive solvers from states that do not belong to the given array
-/

set_option linter.unusedSectionVars false

namespace Verif

open Matrix

variable {ι : Type} [Fintype ι] [DecidableEq ι] {Coef : Type}

/-- What a trial without refresh computes from an arbitrary state of the strategy object. -/
structure StaleAS (S : ASStrategy Coef ι) (nl : NlFunc ι) (CoefOk : ℝ → Prop) (M : ℝ → ERK ι)
    (useV : Bool) (emb prj : Vec ι → Vec ι) where
  coefs : ℝ → Coef
  coeffs_ok : ∀ h s, CoefOk h → S.updateCoeffs h s = (.ok (), { s with coef := coefs h })
  coeffs_err : ∀ h s, ¬ CoefOk h → ∃ c, S.updateCoeffs h s = (.error .linAlgError, { s with coef := c })
  main : ∀ u h s, s.coef = coefs h → ∃ s', S.updateStages u h false s =
    (((M h).stepFrom (conj emb prj nl) s.NL1 (working useV prj s u)).map (fun r => (emb r.1, r.2)), s') ∧
    s'.coef = s.coef ∧ s'.NL1 = s.NL1 ∧ s'.v = s.v

section
variable {S : ASStrategy Coef ι} {nl : NlFunc ι} {CoefOk : ℝ → Prop} {M : ℝ → ERK ι} {useV : Bool}
  {emb prj : Vec ι → Vec ι}

/-- View of a strategy that reuses its last stage. -/
def FsalAS.stale (F : FsalAS S nl CoefOk M useV emb prj) : StaleAS S nl CoefOk M useV emb prj where
  coefs := F.coefs
  coeffs_ok := F.coeffs_ok
  coeffs_err := F.coeffs_err
  main u h s hc := by
    obtain ⟨m1, m2⟩ := F.main u h s hc
    cases hr : (M h).stepFrom (conj emb prj nl) s.NL1 (working useV prj s u) with
    | ok r => obtain ⟨d, -, hp⟩ := m1 r hr; exact ⟨_, hp, rfl, rfl, rfl⟩
    | error e => obtain ⟨j, -, hp⟩ := m2 e hr; exact ⟨_, hp, rfl, rfl, rfl⟩

/-- View of a strategy that evaluates its first stage again. -/
def FreshAS.stale (F : FreshAS S nl CoefOk M useV emb prj) : StaleAS S nl CoefOk M useV emb prj where
  coefs := F.coefs
  coeffs_ok := F.coeffs_ok
  coeffs_err := F.coeffs_err
  main u h s hc := by
    obtain ⟨m1, m2⟩ := F.main u h s hc
    cases hr : (M h).stepFrom (conj emb prj nl) s.NL1 (working useV prj s u) with
    | ok r => exact ⟨_, m1 r hr, rfl, rfl, rfl⟩
    | error e => obtain ⟨j, -, hp⟩ := m2 e hr; exact ⟨_, hp, rfl, rfl, rfl⟩

/-- The trial map with given first stage value `n1` and starting point `w` (in working coordinates). -/
noncomputable def staleStep (CoefOk : ℝ → Prop) (M : ℝ → ERK ι) (emb prj : Vec ι → Vec ι) (nl : NlFunc ι) (n1 w : Vec ι)
    (h : ℝ) : Except PyErr (Vec ι × Vec ι) :=
  open Classical in
  if CoefOk h then ((M h).stepFrom (conj emb prj nl) n1 w).map (fun r => (emb r.1, r.2)) else .error .linAlgError

/-- A trial of the public class without refresh, from an initialised state. -/
theorem StaleAS.trial (F : StaleAS S nl CoefOk M useV emb prj) (u : Vec ι) (h : ℝ) (s : Wrap (ASMethod Coef ι))
    (hn : s.n1init = true) (hc : ∀ h, s.hCoeff = some h → CoefOk h ∧ s.method.coef = F.coefs h) :
    (IF34.updateStages S u h false s).1 =
      staleStep CoefOk M emb prj nl s.method.NL1 (working useV prj s.method u) h ∧
    (∀ r, (IF34.updateStages S u h false s).1 = .ok r →
      (IF34.updateStages S u h false s).2.n1init = true ∧
      (∀ h', (IF34.updateStages S u h false s).2.hCoeff = some h' → CoefOk h' ∧
        (IF34.updateStages S u h false s).2.method.coef = F.coefs h') ∧
      (IF34.updateStages S u h false s).2.method.NL1 = s.method.NL1 ∧
      (IF34.updateStages S u h false s).2.method.v = s.method.v) := by
  unfold staleStep
  by_cases hco : CoefOk h
  · rw [if_pos hco]
    have hup : IF34.updateCoeffs S h s = (.ok (), ⟨s.n1init, some h, { s.method with coef := F.coefs h }⟩) := by
      unfold IF34.updateCoeffs
      simp only [PyM.bind_get_apply]
      split
      · rename_i hh
        have := (hc h hh.symm).2
        rw [PyM.pure_apply, ← this, hh]
      · simp only [PyM.bind_modify_apply, Wrap.onMethod, PyM.zoom_apply, F.coeffs_ok h _ hco]
    obtain ⟨m', h1, h2, h3, h4⟩ := F.main u h { s.method with coef := F.coefs h } rfl
    have e : IF34.updateStages S u h false s =
        (((M h).stepFrom (conj emb prj nl) s.method.NL1 (working useV prj s.method u)).map (fun r => (emb r.1, r.2)),
          ⟨true, some h, m'⟩) := by
      unfold IF34.updateStages
      rw [PyM.bind_ok hup]
      simp only [PyM.bind_get_apply, hn, Bool.true_eq_false, if_false, Wrap.onMethod, PyM.zoom_apply, h1]
      cases useV <;> rfl
    rw [e]
    refine ⟨rfl, fun r _ => ⟨rfl, ?_, h3, h4⟩⟩
    rintro h' ⟨⟩
    exact ⟨hco, h2⟩
  · rw [if_neg hco]
    obtain ⟨c, hcc⟩ := F.coeffs_err h s.method hco
    have hup : IF34.updateCoeffs S h s = (.error .linAlgError, ⟨s.n1init, some h, { s.method with coef := c }⟩) := by
      unfold IF34.updateCoeffs
      simp only [PyM.bind_get_apply]
      split
      · rename_i hh
        exact absurd (hc h hh.symm).1 hco
      · simp only [PyM.bind_modify_apply, Wrap.onMethod, PyM.zoom_apply, hcc]
    have e : (IF34.updateStages S u h false s).1 = .error .linAlgError := by
      unfold IF34.updateStages; rw [PyM.bind_error hup]
    rw [e]
    exact ⟨rfl, by simp⟩

end

/-! ### The trial loop under a predicate -/

namespace ASClass

variable {K V Sub : Type} [Field K] [LinearOrder K] {C : ASClass K V Sub}

/-- The trial loop computes what the specification says for a trial map `Φ`, as soon as trials from states satisfying `P`
agree with `Φ` and rejected trials lead back to `P`. -/
theorem stepLoop_spec_of {Φ : K → V → Except PyErr (V × V)} (P : Sub → Bool → Prop) (rnd : K → K) (cfg : SolverConfig K)
    (u : V) (hres : ∀ s a h, P s a → (C.updateStages u h a s).1 = Φ h u)
    (hok : ∀ s a h r, P s a → Φ h u = .ok r → P (C.updateStages u h a s).2 false) (h0 : K) :
    ∀ (d n : ℕ) (h : K) (s : ASState K V Sub), MAX_LOOPS - n = d → n ≤ MAX_LOOPS →
      P s.sub s.accept → RejectsTo Φ (C.factor cfg) cfg rnd u n h0 h →
      StepSpec Φ (C.factor cfg) cfg rnd u h0 (C.stepLoop rnd cfg u n h s).1 := by
  intro d
  induction d with
  | zero =>
    intro n h s hd hn hi hrej
    have hn50 : n = MAX_LOOPS := by omega
    have hr := hres _ _ h hi
    cases hΦ : Φ h u with
    | error e =>
      rw [hΦ] at hr
      rw [stepLoop_error rnd cfg u n h s e hr]
      exact .raised (j := n) (by simpa [MAX_LOOPS] using hn) hrej hΦ
    | ok r =>
      rw [hΦ] at hr
      by_cases hacc : Acceptable (C.factor cfg r)
      · obtain ⟨x, hx, h1⟩ := hacc
        rw [stepLoop_accept rnd cfg u n h s r hr x hx h1]
        exact .accept (j := n) (by simpa [MAX_LOOPS] using hn) hrej hΦ hx h1
      · rw [stepLoop_reject rnd cfg u n h s r hr hacc, if_pos (by omega)]
        exact .maxLoops (by simpa [hn50, MAX_LOOPS] using hrej) hΦ hacc
  | succ d ih =>
    intro n h s hd hn hi hrej
    have hr := hres _ _ h hi
    cases hΦ : Φ h u with
    | error e =>
      rw [hΦ] at hr
      rw [stepLoop_error rnd cfg u n h s e hr]
      exact .raised (j := n) (by simpa [MAX_LOOPS] using hn) hrej hΦ
    | ok r =>
      rw [hΦ] at hr
      by_cases hacc : Acceptable (C.factor cfg r)
      · obtain ⟨x, hx, h1⟩ := hacc
        rw [stepLoop_accept rnd cfg u n h s r hr x hx h1]
        exact .accept (j := n) (by simpa [MAX_LOOPS] using hn) hrej hΦ hx h1
      · rw [stepLoop_reject rnd cfg u n h s r hr hacc, if_neg (by omega)]
        by_cases hmin : rnd (shrink cfg.decr_f (C.factor cfg r) * h) < cfg.minh
        · rw [if_pos hmin]
          exact .minStep (j := n) (by simp [MAX_LOOPS] at hd hn; omega) hrej hΦ hacc hmin
        · rw [if_neg hmin]
          exact ih (n + 1) (rnd (shrink cfg.decr_f (C.factor cfg r) * h))
            { C.afterTrial u h s with accept := false } (by omega) (by omega) (hok _ _ _ _ hi hΦ)
            (.succ hrej hΦ hacc (not_lt.mp hmin))

theorem step_spec_of {Φ : K → V → Except PyErr (V × V)} (P : Sub → Bool → Prop) (rnd : K → K) (cfg : SolverConfig K)
    (u : V) (hres : ∀ s a h, P s a → (C.updateStages u h a s).1 = Φ h u)
    (hok : ∀ s a h r, P s a → Φ h u = .ok r → P (C.updateStages u h a s).2 false) (h : K) (hh : 0 ≤ h)
    (s : ASState K V Sub) (hi : P s.sub s.accept) :
    StepSpec Φ (C.factor cfg) cfg rnd u h (C.step rnd cfg u h s).1 := by
  rw [step_nonneg _ _ _ _ hh]
  exact stepLoop_spec_of P rnd cfg u hres hok h MAX_LOOPS 0 h s rfl (Nat.zero_le _) hi (.zero h)

/-- The state in which a finished loop leaves the object is that after a trial which did not raise, unless the trial
raised. -/
theorem stepLoop_last {Φ : K → V → Except PyErr (V × V)} (L : LawfulAS C Φ) (rnd : K → K) (cfg : SolverConfig K) (u : V) :
    ∀ (d n : ℕ) (h : K) (s : ASState K V Sub), MAX_LOOPS - n = d → n ≤ MAX_LOOPS → L.Ready s.sub s.accept u →
      (∃ h' a s0 r, L.Ready s0 a u ∧ Φ h' u = .ok r ∧
        (C.stepLoop rnd cfg u n h s).2.sub = (C.updateStages u h' a s0).2 ∧
        ((C.stepLoop rnd cfg u n h s).2.accept = false → ∃ e, (C.stepLoop rnd cfg u n h s).1 = .error e) ∧
        (∀ e, (C.stepLoop rnd cfg u n h s).1 = .error e → (C.stepLoop rnd cfg u n h s).2.accept = false) ∧
        (∀ x, (C.stepLoop rnd cfg u n h s).1 = .ok x → x.1 = r.1)) ∨
      (∃ h' e, Φ h' u = .error e ∧ (C.stepLoop rnd cfg u n h s).1 = .error e) := by
  intro d
  induction d with
  | zero =>
    intro n h s hd hn hi
    have hr := L.result _ _ _ h hi
    cases hΦ : Φ h u with
    | error e =>
      rw [hΦ] at hr
      rw [stepLoop_error rnd cfg u n h s e hr]
      exact .inr ⟨h, e, hΦ, rfl⟩
    | ok r =>
      rw [hΦ] at hr
      refine .inl ⟨h, s.accept, s.sub, r, hi, hΦ, ?_⟩
      by_cases hacc : Acceptable (C.factor cfg r)
      · obtain ⟨x, hx, h1⟩ := hacc
        rw [stepLoop_accept rnd cfg u n h s r hr x hx h1]
        exact ⟨rfl, by simp, by simp, by rintro x ⟨⟩; rfl⟩
      · rw [stepLoop_reject rnd cfg u n h s r hr hacc, if_pos (by omega)]
        exact ⟨rfl, fun _ => ⟨_, rfl⟩, fun _ _ => rfl, by simp⟩
  | succ d ih =>
    intro n h s hd hn hi
    have hr := L.result _ _ _ h hi
    cases hΦ : Φ h u with
    | error e =>
      rw [hΦ] at hr
      rw [stepLoop_error rnd cfg u n h s e hr]
      exact .inr ⟨h, e, hΦ, rfl⟩
    | ok r =>
      rw [hΦ] at hr
      by_cases hacc : Acceptable (C.factor cfg r)
      · refine .inl ⟨h, s.accept, s.sub, r, hi, hΦ, ?_⟩
        obtain ⟨x, hx, h1⟩ := hacc
        rw [stepLoop_accept rnd cfg u n h s r hr x hx h1]
        exact ⟨rfl, by simp, by simp, by rintro x ⟨⟩; rfl⟩
      · rw [stepLoop_reject rnd cfg u n h s r hr hacc, if_neg (by omega)]
        by_cases hmin : rnd (shrink cfg.decr_f (C.factor cfg r) * h) < cfg.minh
        · rw [if_pos hmin]
          exact .inl ⟨h, s.accept, s.sub, r, hi, hΦ, rfl, fun _ => ⟨_, rfl⟩, fun _ _ => rfl, by simp⟩
        · rw [if_neg hmin]
          exact ih (n + 1) _ { C.afterTrial u h s with accept := false } (by omega) (by omega)
            (L.ready_ok _ _ _ _ _ hi hΦ).1

end ASClass

/-! ### The public solvers -/

namespace ASSolver

/-- The strategy object of an adaptive solver (IF45DP in the same form). -/
noncomputable def strategy : (m : ASSolver ι) → NlFunc ι → ASStrategy m.Coef ι
  | if34 (.diag L), nl => IF34.diagonal L nl
  | if34 (.full L), nl => IF34.nonDiagonal L nl
  | if34 (.eig lam S Sinv _), nl => IF34.diagonalized lam S Sinv nl
  | etd34 cfg (.diag L), nl => ETD34.diagonal cfg L nl
  | etd34 cfg (.full L), nl => ETD34.nonDiagonal cfg L nl
  | etd34 cfg (.eig lam S Sinv _), nl => ETD34.diagonalized cfg lam S Sinv nl
  | etd35 cfg (.diag L), nl => ETD35.diagonal cfg L nl
  | etd35 cfg (.full L), nl => ETD35.nonDiagonal cfg L nl
  | etd35 cfg (.eig lam S Sinv _), nl => ETD35.diagonalized cfg lam S Sinv nl
  | if45dp L, nl => IF45DP.strategy L nl

/-- The strategy keeps the transformed solution (diagonalized strategies). -/
def useV (m : ASSolver ι) : Bool :=
  match m.op with
  | .eig _ _ _ _ => true
  | _ => false

/-- The law of the strategy object. -/
noncomputable def aslaw : (m : ASSolver ι) → (nl : NlFunc ι) →
    LawfulASStrategy (m.strategy nl) nl m.CoefOk (coordStep m.op.emb m.op.prj m.method nl)
  | if34 (.diag L), nl => (IF34.rawDiagonal L nl).law
  | if34 (.full L), nl => (IF34.rawNonDiagonal L nl).law
  | if34 (.eig lam S Sinv hS), nl => (IF34.rawDiagonalized lam S Sinv hS nl).law
  | etd34 cfg (.diag L), nl => (ETD34.rawDiagonal cfg L nl).law
  | etd34 cfg (.full L), nl => (ETD34.rawNonDiagonal cfg L nl).law
  | etd34 cfg (.eig lam S Sinv hS), nl => (ETD34.rawDiagonalized cfg lam S Sinv hS nl).law
  | etd35 cfg (.diag L), nl => (ETD35.rawDiagonal cfg L nl).law
  | etd35 cfg (.full L), nl => (ETD35.rawNonDiagonal cfg L nl).law
  | etd35 cfg (.eig lam S Sinv hS), nl => (ETD35.rawDiagonalized cfg lam S Sinv hS nl).law
  | if45dp L, nl => IF45DP.law L nl

/-- Trials from arbitrary states. -/
noncomputable def stale : (m : ASSolver ι) → (nl : NlFunc ι) →
    StaleAS (m.strategy nl) nl m.CoefOk m.method m.useV m.op.emb m.op.prj
  | if34 (.diag L), nl => (IF34.rawDiagonal L nl).stale
  | if34 (.full L), nl => (IF34.rawNonDiagonal L nl).stale
  | if34 (.eig lam S Sinv hS), nl => (IF34.rawDiagonalized lam S Sinv hS nl).stale
  | etd34 cfg (.diag L), nl => (ETD34.rawDiagonal cfg L nl).stale
  | etd34 cfg (.full L), nl => (ETD34.rawNonDiagonal cfg L nl).stale
  | etd34 cfg (.eig lam S Sinv hS), nl => (ETD34.rawDiagonalized cfg lam S Sinv hS nl).stale
  | etd35 cfg (.diag L), nl => (ETD35.rawDiagonal cfg L nl).stale
  | etd35 cfg (.full L), nl => (ETD35.rawNonDiagonal cfg L nl).stale
  | etd35 cfg (.eig lam S Sinv hS), nl => (ETD35.rawDiagonalized cfg lam S Sinv hS nl).stale
  | if45dp L, nl => (IF45DP.raw L nl).stale

theorem lawful_ready (m : ASSolver ι) (nl : NlFunc ι) : (m.lawful nl).Ready = (m.aslaw nl).Ready := by
  rcases m with (_ | _ | _) | ⟨_, _ | _ | _⟩ | ⟨_, _ | _ | _⟩ | _ <;> rfl

theorem aslaw_coefs (m : ASSolver ι) (nl : NlFunc ι) : (m.aslaw nl).coefs = (m.stale nl).coefs := by
  rcases m with (_ | _ | _) | ⟨_, _ | _ | _⟩ | ⟨_, _ | _ | _⟩ | _ <;> rfl

theorem aslaw_loaded (m : ASSolver ι) (nl : NlFunc ι) :
    (m.aslaw nl).Loaded = LoadedFor m.useV m.op.emb m.op.prj nl := by
  rcases m with (_ | _ | _) | ⟨_, _ | _ | _⟩ | ⟨_, _ | _ | _⟩ | _ <;> rfl

theorem aslaw_cost (m : ASSolver ι) (nl : NlFunc ι) : (m.aslaw nl).cost = m.cost := by
  rcases m with (_ | _ | _) | ⟨_, _ | _ | _⟩ | ⟨_, _ | _ | _⟩ | _ <;> rfl

theorem aslaw_refresh (m : ASSolver ι) (nl : NlFunc ι) : (m.aslaw nl).refresh = m.refresh := by
  rcases m with (_ | _ | _) | ⟨_, _ | _ | _⟩ | ⟨_, _ | _ | _⟩ | _ <;> rfl

theorem updateStages_eq (m : ASSolver ι) (nl : NlFunc ι) (u : Vec ι) (h : ℝ) (a : Bool) (s : m.Sub)
    (hs : s.n1init = false → a = false) :
    (m.cls nl).updateStages u h a s = IF34.updateStages (m.strategy nl) u h a s := by
  rcases m with (_ | _ | _) | ⟨_, _ | _ | _⟩ | ⟨_, _ | _ | _⟩ | _
  all_goals first | rfl | exact IF45DP.updateStages_eq _ nl u h a s hs

/-- The class of the solver reuses the last stage of an accepted step. -/
def isFsal : ASSolver ι → Prop
  | etd35 _ _ => False
  | _ => True

theorem fsal_acc (m : ASSolver ι) (nl : NlFunc ι) (hm : m.isFsal) (u : Vec ι) (h : ℝ) (s : ASMethod m.Coef ι) :
    (m.strategy nl).updateStages u h true s =
      (m.strategy nl).updateStages u h false { s with NL1 := s.NLlast, v := if m.useV then m.op.prj u else s.v } := by
  rcases m with (_ | _ | _) | ⟨_, _ | _ | _⟩ | ⟨_, _ | _ | _⟩ | _
  all_goals first | exact absurd hm id | rfl

theorem fsal_next (m : ASSolver ι) (nl : NlFunc ι) (hm : m.isFsal) (s : ASMethod m.Coef ι) (u : Vec ι) :
    (m.aslaw nl).Next s u ↔ conj m.op.emb m.op.prj nl (m.op.prj u) = .ok s.NLlast := by
  rcases m with (_ | _ | _) | ⟨_, _ | _ | _⟩ | ⟨_, _ | _ | _⟩ | _
  all_goals first | exact absurd hm id | exact Iff.rfl

theorem fresh_next (m : ASSolver ι) (nl : NlFunc ι) (hm : ¬ m.isFsal) (s : ASMethod m.Coef ι) (u : Vec ι) :
    (m.aslaw nl).Next s u := by
  rcases m with (_ | _ | _) | ⟨_, _ | _ | _⟩ | ⟨_, _ | _ | _⟩ | _
  all_goals first | exact absurd trivial hm | trivial

theorem emb_prj (m : ASSolver ι) (u : Vec ι) : m.op.emb (m.op.prj u) = u := by
  rcases m with (_ | _ | ⟨_, _, _, hS⟩) | ⟨_, _ | _ | ⟨_, _, _, hS⟩⟩ | ⟨_, _ | _ | ⟨_, _, _, hS⟩⟩ | _
  all_goals first | rfl | simp [op, ASOp.emb, ASOp.prj, hS]

end ASSolver

end Verif
