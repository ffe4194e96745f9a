import Verif.Lemmas.RawAS
import Verif.Lemmas.ApiCS

/-!
# Counting evaluations, and states left behind by finished calls
-/

set_option linter.unusedSectionVars false

namespace Verif

section generic
variable {K V Sub : Type} [Field K] [LinearOrder K]

namespace CSClass
variable {C : CSClass K V Sub}

/-- A finished loop leaves a state coherent with the returned array, and keeps what every step keeps. -/
theorem loop_inv_with {Φ : K → V → Except PyErr V} (L : LawfulCS C Φ) (rnd : K → K) (pyDiv : Bool) (h : K)
    (storeData : Bool) (freq : ℤ) (w : V) (P : ℕ → Sub → Prop)
    (hP : ∀ k u v s, L.Inv s u → Φ h u = .ok v → P k s → P (k + 1) (C.updateStages u h s).2) :
    ∀ (fuel : ℕ) (u : V) (c : ℕ) (s : CSState K V Sub), L.Inv s.sub u → P c s.sub →
      (C.loop rnd pyDiv h storeData freq fuel u c s).1 = .ok (some w) →
      L.Inv (C.loop rnd pyDiv h storeData freq fuel u c s).2.sub w ∧
      ∃ n, (∀ k, k < n → timeAt rnd h s.tc k < s.tf) ∧ ¬ timeAt rnd h s.tc n < s.tf ∧
        P (c + n) (C.loop rnd pyDiv h storeData freq fuel u c s).2.sub := by
  intro fuel
  induction fuel with
  | zero => intro u c s _ _ he; simp [loop] at he
  | succ fuel ih =>
    intro u c s hi hp he
    by_cases hlt : s.tc < s.tf
    swap
    · rw [loop_done _ _ _ _ _ _ _ _ _ hlt] at he ⊢
      simp only [Except.ok.injEq, Option.some.injEq] at he
      exact ⟨he ▸ hi, 0, by simp, hlt, hp⟩
    rw [loop] at he ⊢
    simp only [PyM.bind_get_apply, hlt, if_true] at he ⊢
    by_cases hh : 0 ≤ h
    swap
    · rw [PyM.bind_error (step_neg u h hh s)] at he; simp at he
    rcases hst : C.step u h s with ⟨r, s1⟩
    cases r with
    | error e => rw [PyM.bind_error hst] at he; simp at he
    | ok v =>
      have hi1 : L.Inv s1.sub v ∧ P (c + 1) s1.sub ∧ s1.tc = s.tc ∧ s1.tf = s.tf := by
        rw [step_apply _ _ hh] at hst
        simp only [Prod.mk.injEq] at hst
        have hΦ : Φ h u = .ok v := by rw [← L.result _ _ _ hi]; exact hst.1
        rw [← hst.2]
        exact ⟨L.inv_ok _ _ _ _ hi hΦ, hP _ _ _ _ hi hΦ hp, rfl, rfl⟩
      rw [PyM.bind_ok hst] at he ⊢
      simp only [PyM.bind_modify_apply] at he ⊢
      by_cases hpr : ProgressRaises pyDiv s.tf (c + 1)
      · rw [PyM.bind_error (progress_raises pyDiv (c + 1) s.tf _ hpr)] at he; simp at he
      rw [PyM.bind_ok (progress_apply pyDiv (c + 1) s.tf _ hpr)] at he ⊢
      by_cases hf : storeData = true ∧ freq = 0
      · obtain ⟨rfl, rfl⟩ := hf
        rw [PyM.bind_error (show store true 0 (c + 1) v { s1 with tc := rnd (s1.tc + h) } =
          (.error .zeroDivisionError, { s1 with tc := rnd (s1.tc + h) }) from rfl)] at he
        simp at he
      have hf' : storeData = true → freq ≠ 0 := fun h1 h2 => hf ⟨h1, h2⟩
      rw [PyM.bind_ok (store_apply storeData freq (c + 1) v _ hf')] at he ⊢
      obtain ⟨g1, n, g2, g3, g4⟩ := ih v (c + 1) _ (by split <;> exact hi1.1) (by split <;> exact hi1.2.1) he
      have key : ∀ k, timeAt rnd h s.tc (k + 1) = timeAt rnd h (rnd (s.tc + h)) k := by
        intro k
        induction k with
        | zero => rfl
        | succ k ihk => rw [timeAt, ihk, timeAt]
      refine ⟨g1, n + 1, ?_, ?_, by rw [show c + (n + 1) = c + 1 + n by omega]; exact g4⟩
      · intro k hk
        cases k with
        | zero => exact hlt
        | succ k =>
          rw [key]
          have := g2 k (by omega)
          split at this <;> simpa [hi1.2.2.1, hi1.2.2.2] using this
      · rw [key]
        split at g3 <;> simpa [hi1.2.2.1, hi1.2.2.2] using g3

/-- A finished loop leaves a state coherent with the returned array. -/
theorem loop_inv {Φ : K → V → Except PyErr V} (L : LawfulCS C Φ) (rnd : K → K) (pyDiv : Bool) (h : K)
    (storeData : Bool) (freq : ℤ) (w : V) (fuel : ℕ) (u : V) (c : ℕ) (s : CSState K V Sub) (hi : L.Inv s.sub u)
    (he : (C.loop rnd pyDiv h storeData freq fuel u c s).1 = .ok (some w)) :
    L.Inv (C.loop rnd pyDiv h storeData freq fuel u c s).2.sub w :=
  (loop_inv_with L rnd pyDiv h storeData freq w (fun _ _ => True) (fun _ _ _ _ _ _ _ => trivial) fuel u c s hi trivial he).1

end CSClass

namespace ASClass
variable {C : ASClass K V Sub}

/-- Evaluation count of the trial loop. -/
theorem stepLoop_count {Φ : K → V → Except PyErr (V × V)} (L : LawfulAS C Φ) (ev : Sub → ℕ) (ini : Sub → Bool) (cost ref : ℕ)
    (hev : ∀ u h a s r, L.Ready s a u → Φ h u = .ok r →
      ev (C.updateStages u h a s).2 = ev s + (if ini s then 0 else 1) + cost + (if a then ref else 0) ∧
      ini (C.updateStages u h a s).2 = true)
    (rnd : K → K) (cfg : SolverConfig K) (u : V) :
    ∀ (d n : ℕ) (h : K) (s : ASState K V Sub), MAX_LOOPS - n = d → n ≤ MAX_LOOPS → L.Ready s.sub s.accept u →
      (∀ e, (C.stepLoop rnd cfg u n h s).1 = .error e → ∀ h, Φ h u ≠ .error e) →
      ∃ k, (C.stepLoop rnd cfg u n h s).2.trials = s.trials + k ∧
        ev (C.stepLoop rnd cfg u n h s).2.sub =
          ev s.sub + (if ini s.sub then 0 else 1) + cost * k + (if s.accept then ref else 0) ∧
        ini (C.stepLoop rnd cfg u n h s).2.sub = true := by
  intro d
  induction d with
  | zero =>
    intro n h s hd hn hi hne
    have hr := L.result _ _ _ h hi
    cases hΦ : Φ h u with
    | error e =>
      rw [hΦ] at hr
      rw [stepLoop_error rnd cfg u n h s e hr] at hne
      exact absurd hΦ (hne e rfl h)
    | ok r =>
      rw [hΦ] at hr
      obtain ⟨e1, e2⟩ := hev u h _ _ r hi hΦ
      by_cases hacc : Acceptable (C.factor cfg r)
      · obtain ⟨x, hx, h1⟩ := hacc
        rw [stepLoop_accept rnd cfg u n h s r hr x hx h1]
        exact ⟨1, rfl, by simpa [afterTrial] using e1, e2⟩
      · rw [stepLoop_reject rnd cfg u n h s r hr hacc, if_pos (by omega)]
        exact ⟨1, rfl, by simpa [afterTrial] using e1, e2⟩
  | succ d ih =>
    intro n h s hd hn hi hne
    have hr := L.result _ _ _ h hi
    cases hΦ : Φ h u with
    | error e =>
      rw [hΦ] at hr
      rw [stepLoop_error rnd cfg u n h s e hr] at hne
      exact absurd hΦ (hne e rfl h)
    | ok r =>
      rw [hΦ] at hr
      obtain ⟨e1, e2⟩ := hev u h _ _ r hi hΦ
      by_cases hacc : Acceptable (C.factor cfg r)
      · obtain ⟨x, hx, h1⟩ := hacc
        rw [stepLoop_accept rnd cfg u n h s r hr x hx h1]
        exact ⟨1, rfl, by simpa [afterTrial] using e1, e2⟩
      · rw [stepLoop_reject rnd cfg u n h s r hr hacc, if_neg (by omega)] at hne ⊢
        by_cases hmin : rnd (shrink cfg.decr_f (C.factor cfg r) * h) < cfg.minh
        · rw [if_pos hmin] at hne ⊢
          exact ⟨1, rfl, by simpa [afterTrial] using e1, e2⟩
        · rw [if_neg hmin] at hne ⊢
          obtain ⟨k, k1, k2, k3⟩ := ih (n + 1) _ { C.afterTrial u h s with accept := false } (by omega) (by omega)
            (L.ready_ok _ _ _ _ _ hi hΦ).1 hne
          refine ⟨k + 1, ?_, ?_, k3⟩
          · rw [k1]; simp only [afterTrial]; omega
          · rw [k2]; simp only [afterTrial, e1, e2, if_true]; simp; ring

/-- After an exception that does not come from the coefficients, the state is still coherent with `u`. -/
theorem stepLoop_err_ready {Φ : K → V → Except PyErr (V × V)} (L : LawfulAS C Φ) (rnd : K → K) (cfg : SolverConfig K) (u : V)
    (e : PyErr) (hc : ∀ h, Φ h u = .error e → L.CoefOk h) :
    ∀ (d n : ℕ) (h : K) (s : ASState K V Sub), MAX_LOOPS - n = d → n ≤ MAX_LOOPS → L.Ready s.sub s.accept u →
      (C.stepLoop rnd cfg u n h s).1 = .error e →
      L.Ready (C.stepLoop rnd cfg u n h s).2.sub (C.stepLoop rnd cfg u n h s).2.accept u := by
  intro d
  induction d with
  | zero =>
    intro n h s hd hn hi he
    have hr := L.result _ _ _ h hi
    cases hΦ : Φ h u with
    | error e' =>
      rw [hΦ] at hr
      rw [stepLoop_error rnd cfg u n h s e' hr] at he ⊢
      obtain rfl : e' = e := by simpa using he
      exact L.ready_err _ _ _ _ _ hi (hc h hΦ) hΦ
    | ok r =>
      rw [hΦ] at hr
      by_cases hacc : Acceptable (C.factor cfg r)
      · obtain ⟨x, hx, h1⟩ := hacc
        rw [stepLoop_accept rnd cfg u n h s r hr x hx h1] at he
        simp at he
      · rw [stepLoop_reject rnd cfg u n h s r hr hacc, if_pos (by omega)]
        exact (L.ready_ok _ _ _ _ _ hi hΦ).1
  | succ d ih =>
    intro n h s hd hn hi he
    have hr := L.result _ _ _ h hi
    cases hΦ : Φ h u with
    | error e' =>
      rw [hΦ] at hr
      rw [stepLoop_error rnd cfg u n h s e' hr] at he ⊢
      obtain rfl : e' = e := by simpa using he
      exact L.ready_err _ _ _ _ _ hi (hc h hΦ) hΦ
    | ok r =>
      rw [hΦ] at hr
      by_cases hacc : Acceptable (C.factor cfg r)
      · obtain ⟨x, hx, h1⟩ := hacc
        rw [stepLoop_accept rnd cfg u n h s r hr x hx h1] at he
        simp at he
      · rw [stepLoop_reject rnd cfg u n h s r hr hacc, if_neg (by omega)] at he ⊢
        by_cases hmin : rnd (shrink cfg.decr_f (C.factor cfg r) * h) < cfg.minh
        · rw [if_pos hmin]
          exact (L.ready_ok _ _ _ _ _ hi hΦ).1
        · rw [if_neg hmin] at he ⊢
          exact ih (n + 1) _ { C.afterTrial u h s with accept := false } (by omega) (by omega)
            (L.ready_ok _ _ _ _ _ hi hΦ).1 he

end ASClass

end generic

variable {ι : Type} [Fintype ι] [DecidableEq ι]

theorem working_ite {Coef : Type} (b : Bool) (prj : Vec ι → Vec ι) (s : ASMethod Coef ι) (u x : Vec ι)
    (h : s.v = if b then prj u else x) : working b prj s u = prj u := by
  unfold working
  cases b with
  | true => exact h
  | false => rfl

namespace ASSolver

/-- Evaluations and state after a trial that does not raise. -/
theorem trial_count (m : ASSolver ι) (nl : NlFunc ι) (u : Vec ι) (h : ℝ) (a : Bool) (s : m.Sub) (r : Vec ι × Vec ι)
    (hr : (m.lawful nl).Ready s a u) (hΦ : m.oneTrial nl h u = .ok r) :
    (((m.cls nl).updateStages u h a s).2.method.evals =
      s.method.evals + (if s.n1init then 0 else 1) + m.cost + (if a then m.refresh else 0)) ∧
    ((m.cls nl).updateStages u h a s).2.n1init = true ∧
    (∀ h', ((m.cls nl).updateStages u h a s).2.hCoeff = some h' → m.CoefOk h' ∧
      ((m.cls nl).updateStages u h a s).2.method.coef = (m.stale nl).coefs h') ∧
    LoadedFor m.useV m.op.emb m.op.prj nl ((m.cls nl).updateStages u h a s).2.method u ∧
    (m.aslaw nl).Next ((m.cls nl).updateStages u h a s).2.method r.1 := by
  rw [m.lawful_ready nl] at hr
  rw [m.updateStages_eq nl u h a s hr.2.1]
  rw [m.oneTrial_eq nl] at hΦ
  unfold guarded at hΦ
  split at hΦ
  · rename_i hc
    obtain ⟨m', h1, h2, h3, h4, h5⟩ := (m.aslaw nl).wrap_ok hr hc hΦ
    rw [h1]
    rw [m.aslaw_cost nl, m.aslaw_refresh nl] at h5
    rw [m.aslaw_coefs nl] at h2
    rw [m.aslaw_loaded nl] at h3
    refine ⟨h5, rfl, ?_, h3, h4⟩
    rintro h' ⟨⟩
    exact ⟨hc, h2⟩
  · simp at hΦ

theorem step_count (m : ASSolver ι) (nl : NlFunc ι) (rnd : ℝ → ℝ) (cfg : SolverConfig ℝ) (u : Vec ι) (h : ℝ) (hh : 0 ≤ h)
    (s : m.State) (hr : (m.lawful nl).Ready s.sub s.accept u)
    (hne : ∀ e, (m.step nl rnd cfg u h s).1 = .error e → ∀ h, m.oneTrial nl h u ≠ .error e) :
    ∃ k, (m.step nl rnd cfg u h s).2.trials = s.trials + k ∧
      evals (m.step nl rnd cfg u h s).2 =
        evals s + (if s.sub.n1init then 0 else 1) + m.cost * k + (if s.accept then m.refresh else 0) ∧
      (m.step nl rnd cfg u h s).2.sub.n1init = true := by
  unfold step at hne ⊢
  rw [ASClass.step_nonneg _ _ _ _ hh] at hne ⊢
  exact ASClass.stepLoop_count (m.lawful nl) (fun s => s.method.evals) (fun s => s.n1init) m.cost m.refresh
    (fun u h a s r hr hΦ => ⟨(m.trial_count nl u h a s r hr hΦ).1, (m.trial_count nl u h a s r hr hΦ).2.1⟩) rnd cfg u
    MAX_LOOPS 0 h s rfl (Nat.zero_le _) hr hne

/-- The state in which a step that did not fail inside a trial leaves the object. -/
theorem step_left (m : ASSolver ι) (nl : NlFunc ι) (rnd : ℝ → ℝ) (cfg : SolverConfig ℝ) (u : Vec ι) (h : ℝ) (hh : 0 ≤ h)
    (s : m.State) (hr : (m.lawful nl).Ready s.sub s.accept u)
    (hne : ∀ e, (m.step nl rnd cfg u h s).1 = .error e → ∀ h, m.oneTrial nl h u ≠ .error e) :
    (m.step nl rnd cfg u h s).2.sub.n1init = true ∧
    (∀ h', (m.step nl rnd cfg u h s).2.sub.hCoeff = some h' → m.CoefOk h' ∧
      (m.step nl rnd cfg u h s).2.sub.method.coef = (m.stale nl).coefs h') ∧
    LoadedFor m.useV m.op.emb m.op.prj nl (m.step nl rnd cfg u h s).2.sub.method u ∧
    (∀ x, (m.step nl rnd cfg u h s).1 = .ok x → (m.step nl rnd cfg u h s).2.accept = true ∧
      (m.aslaw nl).Next (m.step nl rnd cfg u h s).2.sub.method x.1) ∧
    (∀ e, (m.step nl rnd cfg u h s).1 = .error e → (m.step nl rnd cfg u h s).2.accept = false) := by
  unfold step at hne ⊢
  rw [ASClass.step_nonneg _ _ _ _ hh] at hne ⊢
  rcases ASClass.stepLoop_last (m.lawful nl) rnd cfg u MAX_LOOPS 0 h s rfl (Nat.zero_le _) hr with
    ⟨h', a, s0, r, a1, a2, a3, a4, a5, a6⟩ | ⟨h', e, a1, a2⟩
  · have T := m.trial_count nl u h' a s0 r a1 a2
    rw [a3]
    refine ⟨T.2.1, T.2.2.1, T.2.2.2.1, ?_, a5⟩
    intro x hx
    refine ⟨?_, by rw [a6 x hx]; exact T.2.2.2.2⟩
    by_contra hc
    obtain ⟨e, he⟩ := a4 (by simpa using hc)
    rw [hx] at he; cases he
  · exact absurd a1 (hne e a2 h')

/-- The same for an initialised strategy that reuses its last stage, with refresh. -/
theorem trial_acc (m : ASSolver ι) (nl : NlFunc ι) (hm : m.isFsal) (u : Vec ι) (h : ℝ) (s : m.Sub)
    (hn : s.n1init = true) (hc : ∀ h, s.hCoeff = some h → m.CoefOk h ∧ s.method.coef = (m.stale nl).coefs h) :
    (IF34.updateStages (m.strategy nl) u h true s).1 =
      staleStep m.CoefOk m.method m.op.emb m.op.prj nl s.method.NLlast (m.op.prj u) h ∧
    (∀ r, (IF34.updateStages (m.strategy nl) u h true s).1 = .ok r →
      (IF34.updateStages (m.strategy nl) u h true s).2.n1init = true ∧
      (∀ h', (IF34.updateStages (m.strategy nl) u h true s).2.hCoeff = some h' → m.CoefOk h' ∧
        (IF34.updateStages (m.strategy nl) u h true s).2.method.coef = (m.stale nl).coefs h') ∧
      (IF34.updateStages (m.strategy nl) u h true s).2.method.NL1 = s.method.NLlast ∧
      (m.useV = true → (IF34.updateStages (m.strategy nl) u h true s).2.method.v = m.op.prj u)) := by
  unfold staleStep
  by_cases hco : m.CoefOk h
  · rw [if_pos hco]
    have hup : IF34.updateCoeffs (m.strategy nl) h s =
        (.ok (), ⟨s.n1init, some h, { s.method with coef := (m.stale nl).coefs h }⟩) := by
      unfold IF34.updateCoeffs
      simp only [PyM.bind_get_apply]
      split
      · rename_i hh
        have := (hc h hh.symm).2
        rw [PyM.pure_apply, ← this, hh]
      · simp only [PyM.bind_modify_apply, Wrap.onMethod, PyM.zoom_apply, (m.stale nl).coeffs_ok h _ hco]
    obtain ⟨m', h1, h2, h3, h4⟩ := (m.stale nl).main u h { s.method with
      coef := (m.stale nl).coefs h, NL1 := s.method.NLlast, v := if m.useV then m.op.prj u else s.method.v } rfl
    have hw : working m.useV m.op.prj { s.method with
        coef := (m.stale nl).coefs h, NL1 := s.method.NLlast, v := if m.useV then m.op.prj u else s.method.v } u = m.op.prj u :=
      working_ite m.useV m.op.prj _ u s.method.v rfl
    rw [hw] at h1
    have e : IF34.updateStages (m.strategy nl) u h true s =
        (((m.method h).stepFrom (conj m.op.emb m.op.prj nl) s.method.NLlast (m.op.prj u)).map
          (fun r => (m.op.emb r.1, r.2)), ⟨true, some h, m'⟩) := by
      unfold IF34.updateStages
      rw [PyM.bind_ok hup]
      simp only [PyM.bind_get_apply, hn, Bool.true_eq_false, if_false, Wrap.onMethod, PyM.zoom_apply, m.fsal_acc nl hm, h1]
    rw [e]
    refine ⟨rfl, fun r _ => ⟨rfl, ?_, h3, fun hv => by rw [h4, if_pos hv]⟩⟩
    rintro h' ⟨⟩
    exact ⟨hco, h2⟩
  · rw [if_neg hco]
    obtain ⟨c, hcc⟩ := (m.stale nl).coeffs_err h s.method hco
    have hup : IF34.updateCoeffs (m.strategy nl) h s =
        (.error .linAlgError, ⟨s.n1init, some h, { s.method with coef := c }⟩) := by
      unfold IF34.updateCoeffs
      simp only [PyM.bind_get_apply]
      split
      · rename_i hh
        exact absurd (hc h hh.symm).1 hco
      · simp only [PyM.bind_modify_apply, Wrap.onMethod, PyM.zoom_apply, hcc]
    have e : (IF34.updateStages (m.strategy nl) u h true s).1 = .error .linAlgError := by
      unfold IF34.updateStages; rw [PyM.bind_error hup]
    rw [e]
    exact ⟨rfl, by simp⟩

end ASSolver

end Verif
