import Verif.Lemmas.NonFiniteExact
import Verif.Lemmas.NonFiniteLoose
import Verif.Lemmas.ApiAS
import Verif.Props.AdaptiveEvolve

/-!
# Infinities and `nan` (property C80)

`flStep`, `flEvolve` are `step` and `evolve` on arrays of floats that may be infinite or `nan`.  `rnd` is an arbitrary rounding, which may
overflow, `load` the conversion of coefficients to floats, `coefs` an arbitrary computation of the coefficients.
-/

set_option linter.unusedSectionVars false

namespace Verif

variable {ι : Type} [Fintype ι] [DecidableEq ι] {rnd : ℝ → Ext ℝ} {load : ℂ → CFl} {nl : (ι → CFl) → Except PyErr (ι → CFl)}

/-! ### Constant step sizes -/

theorem CSSolver.reach_ne (m : CSSolver ι) : m.reach ≠ 0 := by
  rcases m with (L | L) | ⟨cfg, L | L⟩ | ⟨cfg, L | L⟩ <;> simp [reach]

theorem CSSolver.reach_full {m : CSSolver ι} {L : Mat ι} (hm : m.op = .full L) : m.reach = 2 := by
  rcases m with (L | L) | ⟨cfg, L | L⟩ | ⟨cfg, L | L⟩ <;> first | rfl | (cases hm; done)

theorem CSSolver.flStep_spread (m : CSSolver ι) {coefs : ℝ → Except PyErr m.Coef} {u v : ι → CFl} {h : ℝ} {s : m.FlSt}
    (hv : (m.flStep rnd load coefs nl u h s).1 = .ok v) {i : ι} (hi : ¬ (u i).IsFinite) : Spread i m.reach v := by
  unfold flStep at hv
  by_cases hh : 0 ≤ h
  · rw [CSClass.step_apply _ _ hh] at hv
    exact m.updateStages_spread hi s.sub trivial v _ (Prod.ext hv rfl)
  · rw [CSClass.step_neg _ _ hh] at hv
    simp at hv

/-- **C80.** A constant-step solver never removes an infinity or a `nan`: an entry of the argument of `step` that is not finite is not
finite in the result, whatever `nl_func` returns and whatever the solver object went through before. -/
theorem C80_step_cs (m : CSSolver ι) {coefs : ℝ → Except PyErr m.Coef} {u v : ι → CFl} {h : ℝ} {s : m.FlSt}
    (hv : (m.flStep rnd load coefs nl u h s).1 = .ok v) {i : ι} (hi : ¬ (u i).IsFinite) : ¬ (v i).IsFinite :=
  (m.flStep_spread hv hi).one m.reach_ne

/-- **C80.** If `lin_op` is a matrix, then one entry that is not finite makes all entries of the result of `step` not finite. -/
theorem C80_step_full {m : CSSolver ι} {L : Mat ι} (hm : m.op = .full L) {coefs : ℝ → Except PyErr m.Coef} {u v : ι → CFl} {h : ℝ}
    {s : m.FlSt} (hv : (m.flStep rnd load coefs nl u h s).1 = .ok v) {i : ι} (hi : ¬ (u i).IsFinite) : ∀ j, ¬ (v j).IsFinite := by
  have := m.flStep_spread hv hi
  rw [CSSolver.reach_full hm] at this
  exact this

theorem CSSolver.fl_lawful (m : CSSolver ι) (coefs : ℝ → Except PyErr m.Coef) : Nonempty (LawfulCS (m.flCls rnd load coefs nl)
    (m.rprog.aStep ⟨ArrOps.floats rnd load, coefs⟩ nl)) := ⟨RCSProg.alawful m.rprog_ok _ nl⟩

/-- **C80.** Nor does `evolve`: an entry that is not finite in one of the recorded arrays is not finite in all later ones and in the
returned array; and one that is not finite in the initial array is not finite in the returned one. -/
theorem C80_evolve_cs (m : CSSolver ι) {coefs : ℝ → Except PyErr m.Coef} (clk : ℝ → ℝ) (pyDiv : Bool) (fuel : ℕ) (u : ι → CFl)
    (t0 tf h : ℝ) (storeData : Bool) (freq : ℤ) (s : m.FlSt) (i : ι) :
    (m.flEvolve rnd load coefs nl clk pyDiv fuel u t0 tf h storeData freq s).2.u.Pairwise
      (fun a b => (b i).IsFinite → (a i).IsFinite) ∧
    ∀ v, (m.flEvolve rnd load coefs nl clk pyDiv fuel u t0 tf h storeData freq s).1 = .ok (some v) → (v i).IsFinite →
      (u i).IsFinite ∧ ∀ a ∈ (m.flEvolve rnd load coefs nl clk pyDiv fuel u t0 tf h storeData freq s).2.u, (a i).IsFinite := by
  obtain ⟨L⟩ := m.fl_lawful (rnd := rnd) (load := load) (nl := nl) coefs
  have := CSClass.evolve_chain L (fun a b => (b i).IsFinite → (a i).IsFinite) (fun _ h => h) (fun a b c h1 h2 h3 => h1 (h2 h3)) clk
    pyDiv fuel u t0 tf h (fun a b hab hb => by
      by_contra hc
      exact (m.aStep_spread hab hc).one m.reach_ne hb) storeData freq s
  exact ⟨this.1, fun v hv hf => ⟨(this.2 v hv).1 hf, fun a ha => (this.2 v hv).2 a ha hf⟩⟩

/-! ### Adaptive step sizes -/

/-- **C80.** An adaptive solver rejects a trial if an entry of the new array is infinite or `nan`, or if the error estimate is in an entry
that counts. -/
theorem C80_factor (h0 : rnd 0 = .fin 0) {q : ℕ} (hq : q ≠ 0) {cfg : SolverConfig ℝ} {u err : ι → CFl} {i : ι}
    (hi : (0 ≤ cfg.adapt_cutoff ∧ ¬ (u i).IsFinite) ∨ (Counts rnd cfg u i ∧ ¬ (err i).IsFinite)) :
    ¬ Acceptable (flComputeS rnd q cfg u err) := by
  rintro ⟨x, hx, h1⟩
  rcases hi with ⟨hc, hi⟩ | ⟨hc, hi⟩
  · rw [flComputeS_bad h0 q hc hi] at hx
    cases hx
  · rcases flComputeS_err_bad h0 hq hc hi with h | h <;> rw [h] at hx <;> cases hx
    norm_num at h1

/-- **C80.** What `step` of an adaptive solver returns is finite in every entry, whatever the argument, `nl_func` and the state of the
solver object. -/
theorem C80_step_as (m : ASSolver ι) (h0 : rnd 0 = .fin 0) {coefs : ℝ → Except PyErr m.Coef} {clk : ℝ → ℝ} {cfg : SolverConfig ℝ}
    (hc : 0 ≤ cfg.adapt_cutoff) {u v : ι → CFl} {h hu hs : ℝ} {s : m.FlSt}
    (hv : (m.flStep rnd load coefs nl clk cfg u h s).1 = .ok (v, hu, hs)) (i : ι) : (v i).IsFinite := by
  unfold ASSolver.flStep at hv
  by_cases hh : 0 ≤ h
  · rw [ASClass.step_nonneg _ _ _ _ hh] at hv
    obtain ⟨_, _, _, x, err, -, -, -, -, -, -, hS, -⟩ := ASClass.stepLoop_sizes clk cfg u MAX_LOOPS 0 h s v hu hs rfl (Nat.zero_le _) hv
    by_contra hi
    rw [show (m.flCls rnd load coefs nl).computeS cfg v err = .nan from flComputeS_bad h0 _ hc hi err] at hS
    cases hS
  · rw [ASClass.step_neg _ _ _ _ hh] at hv
    simp at hv

theorem ASSolver.reach_ne (m : ASSolver ι) : m.reach ≠ 0 := by
  rcases m with (L | L | ⟨l, S, T, hS⟩) | ⟨cfg, L | L | ⟨l, S, T, hS⟩⟩ | ⟨cfg, L | L | ⟨l, S, T, hS⟩⟩ | L <;> simp [reach]

theorem ASSolver.fl_lawful (m : ASSolver ι) (coefs : ℝ → Except PyErr m.Coef) : Nonempty (LawfulAS (m.flCls rnd load coefs nl)
    (m.rprog.aTrial ⟨ArrOps.floats rnd load, coefs⟩ flCheck nl)) := ⟨RASProg.alawful m.rprog_ok (m.rprog_next _) m.isDP _ flCheck _ nl⟩

/-- **C80.** All arrays that `evolve` records after the initial one are finite, and so is the one that it returns after at least one
step. -/
theorem C80_evolve_as (m : ASSolver ι) (h0 : rnd 0 = .fin 0) {coefs : ℝ → Except PyErr m.Coef} (clk : ℝ → ℝ) (pyDiv : Bool)
    {cfg : SolverConfig ℝ} (hc : 0 ≤ cfg.adapt_cutoff) (fuel : ℕ) (u : ι → CFl) (t0 tf : ℝ) (hInit : Option ℝ) (storeData : Bool)
    (freq : ℤ) (s : m.FlSt) :
    (∀ a ∈ (m.flEvolve rnd load coefs nl clk pyDiv cfg fuel u t0 tf hInit storeData freq s).2.u.tail, ∀ i, (a i).IsFinite) ∧
    (t0 < tf → ∀ v, (m.flEvolve rnd load coefs nl clk pyDiv cfg fuel u t0 tf hInit storeData freq s).1 = .ok (some v) →
      ∀ i, (v i).IsFinite) := by
  obtain ⟨L⟩ := m.fl_lawful (rnd := rnd) (load := load) (nl := nl) coefs
  obtain ⟨n, tm, st, hp, hu, e1, e2, e3, hrun, -, e5, hend, -⟩ := ASClass.evolve_run L clk pyDiv cfg fuel u t0 tf hInit storeData freq s
  have hfin : ∀ k, k < n → ∀ i, (st (k + 1) i).IsFinite := by
    intro k hk i
    obtain ⟨-, hs, hstep, -⟩ := hrun.step k hk
    generalize hr : (Except.ok (st (k + 1), hu k, hs) : Except PyErr ((ι → CFl) × ℝ × ℝ)) = r at hstep
    cases hstep with
    | @accept j h' x r _ _ _ hS _ =>
      by_contra hi
      rw [(Prod.mk.inj (Except.ok.inj hr)).1] at hi
      rw [show (m.flCls rnd load coefs nl).factor cfg r = .nan from flComputeS_bad h0 _ hc hi _] at hS
      cases hS
    | minStep => cases hr
    | maxLoops => cases hr
    | raised => cases hr
  refine ⟨fun a ha i => ?_, fun hlt v hv i => ?_⟩
  · unfold ASSolver.flEvolve at ha
    rw [e5] at ha
    cases storeData
    · simp at ha
    · simp only [if_true, storedUpTo_eq, List.map_cons, List.tail_cons, List.mem_map] at ha
      obtain ⟨k, hk, rfl⟩ := ha
      simp only [CSClass.stored, List.mem_filter, List.mem_range'_1] at hk
      obtain ⟨k, rfl⟩ : ∃ j, k = j + 1 := ⟨k - 1, by omega⟩
      exact hfin k (by omega) i
  · unfold ASSolver.flEvolve at hv
    rw [hv] at hend
    generalize hr : (Except.ok (some v) : Except PyErr (Option (ι → CFl))) = r at hend
    cases hend with
    | returned hn ht =>
      obtain rfl : v = st n := by simpa using hr
      cases n with
      | zero => rw [e1] at ht; exact absurd hlt ht
      | succ n => exact hfin n (Nat.lt_succ_self n) i
    | _ => simp at hr

/-- What a step from an array with an entry that is not finite raises. -/
theorem ASSolver.bad_spec (m : ASSolver ι) (h0 : rnd 0 = .fin 0) {coefs : ℝ → Except PyErr m.Coef} {clk : ℝ → ℝ}
    {cfg : SolverConfig ℝ} (hc : 0 ≤ cfg.adapt_cutoff) {u : ι → CFl} {i : ι} (hi : ¬ (u i).IsFinite) {h : ℝ}
    {r : Except PyErr ((ι → CFl) × ℝ × ℝ)} (hr : StepSpec (m.rprog.aTrial ⟨ArrOps.floats rnd load, coefs⟩ flCheck nl)
      ((m.flCls rnd load coefs nl).factor cfg) cfg clk u h r) :
    ∃ e, r = .error e ∧
      (e = .minimumStepReached ∨ e = .maxLoopsExceeded ∨ (∃ h, coefs h = .error e) ∨ ∃ w, nl w = .error e) := by
  cases hr with
  | @accept j h' x r _ _ hok hS _ =>
    have := (m.aTrial_spread hok hi).one m.reach_ne
    rw [show (m.flCls rnd load coefs nl).factor cfg r = .nan from flComputeS_bad h0 _ hc this _] at hS
    cases hS
  | minStep => exact ⟨_, rfl, .inl rfl⟩
  | maxLoops => exact ⟨_, rfl, .inr (.inl rfl)⟩
  | @raised j h' e _ _ he =>
    refine ⟨e, rfl, .inr (.inr ?_)⟩
    unfold RASProg.aTrial RASProg.aload at he
    cases hcf : coefs h' with
    | error e' => simp only [hcf, Except.bind, Except.error.injEq] at he; exact .inl ⟨h', by rw [hcf, he]⟩
    | ok c =>
      cases hx : avals (ArrOps.floats rnd load) () 0 nl m.rprog.init (fun _ => u) with
      | error e' =>
        simp only [hcf, hx, Except.bind, Except.error.injEq] at he
        subst he
        exact .inr (avals_floats_error _ hx)
      | ok x =>
        cases hy : avals (ArrOps.floats rnd load) c h' nl m.rprog.stages x with
        | error e' =>
          simp only [hcf, hx, hy, Except.bind, Except.error.injEq] at he
          subst he
          exact .inr (avals_floats_error _ hy)
        | ok y =>
          have : Nonempty ι := ⟨i⟩
          have : Fintype.card ι ≠ 0 := Fintype.card_ne_zero
          simp [hcf, hx, hy, Except.bind, flCheck, this, Except.map] at he

/-- **C80.** From an array with an entry that is not finite an adaptive solver makes no step: a new object raises
`MinimumStepReached` or `MaxLoopsExceeded`, or what the computation of the coefficients or `nl_func` raise. -/
theorem C80_bad_step (m : ASSolver ι) (h0 : rnd 0 = .fin 0) {coefs : ℝ → Except PyErr m.Coef} {clk : ℝ → ℝ} {cfg : SolverConfig ℝ}
    (hc : 0 ≤ cfg.adapt_cutoff) {u : ι → CFl} {i : ι} (hi : ¬ (u i).IsFinite) {h : ℝ} (hh : 0 ≤ h) :
    ∃ e, (m.flStep rnd load coefs nl clk cfg u h m.flNew).1 = .error e ∧
      (e = .minimumStepReached ∨ e = .maxLoopsExceeded ∨ (∃ h, coefs h = .error e) ∨ ∃ w, nl w = .error e) := by
  obtain ⟨L⟩ := m.fl_lawful (rnd := rnd) (load := load) (nl := nl) coefs
  exact m.bad_spec h0 hc hi (ASClass.step_spec L clk cfg u h hh m.flNew (L.reset_ready m.flNew.sub u)).1

/-- **C80.** Nor does `evolve`, which raises the same, having recorded the initial array only. -/
theorem C80_bad_evolve (m : ASSolver ι) (h0 : rnd 0 = .fin 0) {coefs : ℝ → Except PyErr m.Coef} (clk : ℝ → ℝ) (pyDiv : Bool)
    {cfg : SolverConfig ℝ} (hc : 0 ≤ cfg.adapt_cutoff) (fuel : ℕ) {u : ι → CFl} {i : ι} (hi : ¬ (u i).IsFinite) {t0 tf : ℝ}
    (hlt : t0 < tf) {hInit : Option ℝ} (hh : 0 ≤ ASClass.firstSize clk t0 tf hInit) (storeData : Bool) (freq : ℤ) (s : m.FlSt) :
    (∃ e, (m.flEvolve rnd load coefs nl clk pyDiv cfg (fuel + 1) u t0 tf hInit storeData freq s).1 = .error e ∧
      (e = .minimumStepReached ∨ e = .maxLoopsExceeded ∨ (∃ h, coefs h = .error e) ∨ ∃ w, nl w = .error e)) ∧
    (m.flEvolve rnd load coefs nl clk pyDiv cfg (fuel + 1) u t0 tf hInit storeData freq s).2.t = (if storeData then [t0] else []) ∧
    (m.flEvolve rnd load coefs nl clk pyDiv cfg (fuel + 1) u t0 tf hInit storeData freq s).2.u = (if storeData then [u] else []) := by
  obtain ⟨L⟩ := m.fl_lawful (rnd := rnd) (load := load) (nl := nl) coefs
  obtain ⟨n, tm, st, hp, hu, e1, e2, e3, hrun, e4, e5, hend, -⟩ :=
    ASClass.evolve_run L clk pyDiv cfg (fuel + 1) u t0 tf hInit storeData freq s
  have hspec := fun r hr => m.bad_spec (rnd := rnd) (load := load) (nl := nl) (coefs := coefs) (clk := clk) h0 hc hi
    (h := ASClass.firstSize clk t0 tf hInit) (r := r) hr
  obtain rfl : n = 0 := by
    by_contra hn
    obtain ⟨-, hs, hstep, -⟩ := hrun.step 0 (Nat.pos_of_ne_zero hn)
    rw [e2, e3] at hstep
    obtain ⟨e, he, -⟩ := hspec _ hstep
    cases he
  unfold ASSolver.flEvolve
  refine ⟨?_, ?_, ?_⟩
  · rw [e1, e2, e3] at hend
    generalize ((m.flCls rnd load coefs nl).evolve clk pyDiv cfg (fuel + 1) u t0 tf hInit storeData freq s).1 = r at hend ⊢
    cases hend with
    | running hn => omega
    | returned _ ht => exact absurd hlt ht
    | @stepRaised e _ _ _ hst =>
      obtain ⟨e', he, h2⟩ := hspec _ hst
      exact ⟨e', by rw [Except.error.inj he], h2⟩
    | negative _ _ hneg => exact absurd hh (not_le.mpr hneg)
    | zeroDiv _ _ _ hst _ =>
      obtain ⟨e', he, -⟩ := hspec _ hst
      cases he
  · rw [e4]; cases storeData <;> simp [storedUpTo, e1]
  · rw [e5]; cases storeData <;> simp [storedUpTo, e2]

/-! ### Without overflow -/

theorem flCoefs_rel {Coef : Type} (c : Except PyErr Coef) (is : List (RInstr Coef ι)) :
    RelE (CofRel (fun _ (x : ι → CFl) v => x = flArr v) (ArrOps.floats .fin CFl.ofComplex) (ArrOps.exact ι) is) c c := by
  cases c with
  | error e => rfl
  | ok c => exact fun i _ => ⟨fun p _ => rfl, fun _ _ => rfl⟩

theorem flNl_rel {nl : (ι → CFl) → Except PyErr (ι → CFl)} {nl' : NlFunc ι} (hnl : ∀ v, nl (flArr v) = (nl' v).map flArr)
    (a : ι → CFl) (b : Vec ι) (hab : a = flArr b) : RelE (fun x v => x = flArr v) (nl a) (nl' b) := by
  subst hab
  rw [hnl b]
  cases nl' b with
  | error e => rfl
  | ok v => rfl

theorem flRun_eq {a : Except PyErr (Option (ι → CFl))} {b : Except PyErr (Option (Vec ι))} {l : List (ι → CFl)} {k : List (Vec ι)}
    (h1 : RelE (RelO fun x v => x = flArr v) a b) (h2 : List.Forall₂ (fun x v => x = flArr v) l k) :
    a = b.map (Option.map flArr) ∧ l = k.map flArr := by
  constructor
  · rcases a with e | _ | x <;> rcases b with e' | _ | v <;> simp_all [RelE, RelO, Except.map]
  · induction h2 with
    | nil => rfl
    | cons h _ ih => rw [List.map_cons, ← ih, h]

theorem CSSolver.flStep_exact (m : CSSolver ι) {nl : (ι → CFl) → Except PyErr (ι → CFl)} {nl' : NlFunc ι}
    (hnl : ∀ v, nl (flArr v) = (nl' v).map flArr) (h : ℝ) (a : ι → CFl) (b : Vec ι) (hab : a = flArr b) :
    RelE (fun x v => x = flArr v) (m.rprog.aStep ⟨ArrOps.floats .fin CFl.ofComplex, (m.env Arith.exact).coefs⟩ nl h a)
      (m.oneStep nl' h b) := by
  have := RCSProg.aStep_rel (P := m.rprog) (F := ⟨ArrOps.floats .fin CFl.ofComplex, (m.env Arith.exact).coefs⟩)
    (F' := ⟨ArrOps.exact ι, (m.env Arith.exact).coefs⟩) (h := h) relOps_exact (flNl_rel hnl)
    (by rcases m with (L | L) | ⟨cfg, L | L⟩ | ⟨cfg, L | L⟩ <;> rfl) (flCoefs_rel _ _) hab
  rw [RCSProg.aStep_exact m.rprog_ok] at this
  rwa [← m.env_step nl' h b]

theorem ASSolver.flTrial_exact [Nonempty ι] (m : ASSolver ι) {nl : (ι → CFl) → Except PyErr (ι → CFl)} {nl' : NlFunc ι}
    (hnl : ∀ v, nl (flArr v) = (nl' v).map flArr) (h : ℝ) (a : ι → CFl) (b : Vec ι) (hab : a = flArr b) :
    RelE (fun x v => x.1 = flArr v.1 ∧ x.2 = flArr v.2)
      (m.rprog.aTrial ⟨ArrOps.floats .fin CFl.ofComplex, (m.env Arith.exact).coefs⟩ flCheck nl h a) (m.oneTrial nl' h b) := by
  have := RASProg.aTrial_rel (P := m.rprog) (F := ⟨ArrOps.floats .fin CFl.ofComplex, (m.env Arith.exact).coefs⟩)
    (F' := ⟨ArrOps.exact ι, (m.env Arith.exact).coefs⟩) (h := h) (check := flCheck) (check' := fun _ _ => .ok ()) relOps_exact
    (flNl_rel hnl) (fun _ _ _ _ _ _ => by simp [flCheck, RelE])
    (by rcases m with (L | L | ⟨l, S, T, hS⟩) | ⟨cfg, L | L | ⟨l, S, T, hS⟩⟩ | ⟨cfg, L | L | ⟨l, S, T, hS⟩⟩ | L <;> rfl)
    (by rcases m with (L | L | ⟨l, S, T, hS⟩) | ⟨cfg, L | L | ⟨l, S, T, hS⟩⟩ | ⟨cfg, L | L | ⟨l, S, T, hS⟩⟩ | L <;> rfl)
    (by rcases m with (L | L | ⟨l, S, T, hS⟩) | ⟨cfg, L | L | ⟨l, S, T, hS⟩⟩ | ⟨cfg, L | L | ⟨l, S, T, hS⟩⟩ | L <;> rfl)
    (flCoefs_rel _ _) hab
  rw [RASProg.aTrial_exact m.rprog_ok] at this
  rwa [← m.env_trial nl' h b]

/-- **C80.** Where nothing is rounded and nothing overflows the model with floats is the model of the other properties: `evolve` of a
constant-step solver returns and records the same arrays. -/
theorem C80_exact_cs (m : CSSolver ι) {nl : (ι → CFl) → Except PyErr (ι → CFl)} {nl' : NlFunc ι}
    (hnl : ∀ v, nl (flArr v) = (nl' v).map flArr) (clk : ℝ → ℝ) (pyDiv : Bool) (fuel : ℕ) (u : Vec ι) (t0 tf h : ℝ)
    (storeData : Bool) (freq : ℤ) (s : m.FlSt) (s' : m.State) :
    (m.flEvolve .fin CFl.ofComplex (m.env Arith.exact).coefs nl clk pyDiv fuel (flArr u) t0 tf h storeData freq s).1 =
      (m.evolve nl' clk pyDiv fuel u t0 tf h storeData freq s').1.map (Option.map flArr) ∧
    (m.flEvolve .fin CFl.ofComplex (m.env Arith.exact).coefs nl clk pyDiv fuel (flArr u) t0 tf h storeData freq s).2.t =
      (m.evolve nl' clk pyDiv fuel u t0 tf h storeData freq s').2.t ∧
    (m.flEvolve .fin CFl.ofComplex (m.env Arith.exact).coefs nl clk pyDiv fuel (flArr u) t0 tf h storeData freq s).2.u =
      (m.evolve nl' clk pyDiv fuel u t0 tf h storeData freq s').2.u.map flArr := by
  have := CSClass.evolve_rel (RCSProg.alawful m.rprog_ok ⟨ArrOps.floats .fin CFl.ofComplex, (m.env Arith.exact).coefs⟩ nl) (m.lawful nl')
    (fun x v => x = flArr v) clk pyDiv fuel (flArr u) u t0 tf h (m.flStep_exact hnl h) storeData freq s s' rfl
  obtain ⟨h1, h2⟩ := flRun_eq this.1 this.2.2
  exact ⟨h1, this.2.1, h2⟩

/-- **C80.** The same for adaptive solvers. -/
theorem C80_exact_as [Nonempty ι] (m : ASSolver ι) {nl : (ι → CFl) → Except PyErr (ι → CFl)} {nl' : NlFunc ι}
    (hnl : ∀ v, nl (flArr v) = (nl' v).map flArr) (clk : ℝ → ℝ) (pyDiv : Bool) (cfg : SolverConfig ℝ) (fuel : ℕ) (u : Vec ι)
    (t0 tf : ℝ) (hInit : Option ℝ) (storeData : Bool) (freq : ℤ) (s : m.FlSt) (s' : m.State) :
    (m.flEvolve .fin CFl.ofComplex (m.env Arith.exact).coefs nl clk pyDiv cfg fuel (flArr u) t0 tf hInit storeData freq s).1 =
      (m.evolve nl' clk pyDiv cfg fuel u t0 tf hInit storeData freq s').1.map (Option.map flArr) ∧
    (m.flEvolve .fin CFl.ofComplex (m.env Arith.exact).coefs nl clk pyDiv cfg fuel (flArr u) t0 tf hInit storeData freq s).2.t =
      (m.evolve nl' clk pyDiv cfg fuel u t0 tf hInit storeData freq s').2.t ∧
    (m.flEvolve .fin CFl.ofComplex (m.env Arith.exact).coefs nl clk pyDiv cfg fuel (flArr u) t0 tf hInit storeData freq s).2.u =
      (m.evolve nl' clk pyDiv cfg fuel u t0 tf hInit storeData freq s').2.u.map flArr := by
  have := ASClass.evolve_rel (RASProg.alawful m.rprog_ok (m.rprog_next _) m.isDP
      ⟨ArrOps.floats .fin CFl.ofComplex, (m.env Arith.exact).coefs⟩ flCheck (flComputeS .fin (if m.isDP then 5 else 4)) nl) (m.lawful nl')
    (fun x v => x = flArr v) (fun x v => x.1 = flArr v.1 ∧ x.2 = flArr v.2) (fun _ _ h => h.1) (m.flTrial_exact hnl) clk pyDiv cfg
    (by
      rintro ⟨x, e⟩ ⟨v, d⟩ ⟨rfl, rfl⟩
      show flComputeS .fin (if m.isDP then 5 else 4) cfg (flArr v) (flArr d) = (m.cls nl').computeS cfg v d
      rw [flComputeS_exact]
      rcases m with (L | L | ⟨l, S, T, hS⟩) | ⟨cfg, L | L | ⟨l, S, T, hS⟩⟩ | ⟨cfg, L | L | ⟨l, S, T, hS⟩⟩ | L <;> rfl)
    fuel (flArr u) u t0 tf hInit storeData freq s s' rfl
  obtain ⟨h1, h2⟩ := flRun_eq this.1 this.2.2
  exact ⟨h1, this.2.1, h2⟩

/-! ### Negative `adapt_cutoff` -/

/-- **C80.** `adapt_cutoff` may be set to any value less than 1.  With a negative value `step` may accept an array with an infinite
entry. -/
theorem C80_negative_cutoff : ∃ (m : ASSolver (Fin 2)) (nl : (Fin 2 → CFl) → Except PyErr (Fin 2 → CFl)) (cfg : SolverConfig ℝ)
    (u v : Fin 2 → CFl) (hu hs : ℝ), cfg.adapt_cutoff < 0 ∧
      (m.flStep .fin CFl.ofComplex (m.env Arith.exact).coefs nl id cfg u 1 m.flNew).1 = .ok (v, hu, hs) ∧ v 0 = ⟨.pinf, .nan⟩ := by
  let m : ASSolver (Fin 2) := .if34 (.diag 0)
  have hcoef : (m.env Arith.exact).coefs 1 = .ok (⟨1, 1⟩ : IFCoef (Vec (Fin 2))) := by
    simp only [ASSolver.env]
    rw [if_pos (show m.CoefOk 1 from trivial), ASSolver.coefsAt_eq _ (fun _ => .ok 0) (show m.CoefOk 1 from trivial)]
    refine congrArg Except.ok ?_
    show (IFCoef.mk _ _ : IFCoef (Vec (Fin 2))) = _
    rw [mul_zero, show (0 : Vec (Fin 2)) / 2 = 0 by ext i; simp]
    have h1 : npExp (0 : Vec (Fin 2)) = 1 := by ext i; simp [npExp]
    rw [h1]
  obtain ⟨x, hx, h1⟩ := loose_factor
  refine ⟨m, wild, loose, ![⟨.pinf, .fin 0⟩, .ofComplex 1], ![⟨.pinf, .nan⟩, .ofComplex 5], 1, grow loose.incr_f x 1, by norm_num [loose],
    ?_, rfl⟩
  unfold ASSolver.flStep
  rw [ASClass.step_nonneg _ _ _ _ zero_le_one]
  have L := RASProg.alawful m.rprog_ok (m.rprog_next _) m.isDP ⟨ArrOps.floats .fin CFl.ofComplex, (m.env Arith.exact).coefs⟩ flCheck
    (flComputeS .fin (if m.isDP then 5 else 4)) wild
  have hr := L.result m.flNew.sub m.flNew.accept ![⟨.pinf, .fin 0⟩, .ofComplex 1] 1 (L.reset_ready m.flNew.sub _)
  have ht : m.rprog.aTrial ⟨ArrOps.floats .fin CFl.ofComplex, (m.env Arith.exact).coefs⟩ flCheck wild 1
      ![⟨.pinf, .fin 0⟩, .ofComplex 1] = .ok (![⟨.pinf, .nan⟩, .ofComplex 5], ![.ofComplex 0, .ofComplex (1 / 600)]) := by
    rw [← wild_trial]
    unfold RASProg.aTrial
    simp only [hcoef]
    rfl
  rw [ht] at hr
  exact congrArg Prod.fst (ASClass.stepLoop_accept id loose _ 0 1 m.flNew _ hr x hx h1)

/-! ### Examples -/

/-- Numbers of absolute value greater than 100 overflow. -/
noncomputable def overflow (x : ℝ) : Ext ℝ := if 100 < x then .pinf else if x < -100 then .ninf else .fin x

theorem overflow_zero : overflow 0 = .fin 0 := by norm_num [overflow]

theorem CSSolver.aStep_fl_total (m : CSSolver ι) {coefs : ℝ → Except PyErr m.Coef} {h : ℝ} (hcf : ∃ c, coefs h = .ok c)
    (hnl : ∀ w, ∃ n, nl w = .ok n) (u : ι → CFl) : ∃ v, m.rprog.aStep ⟨ArrOps.floats rnd load, coefs⟩ nl h u = .ok v := by
  obtain ⟨c, hc⟩ := hcf
  obtain ⟨n, hn⟩ := hnl u
  simp only [RCSProg.aStep, hc, hn, Except.bind]
  cases hy : avals (ArrOps.floats rnd load) c h nl m.rprog.stages (Function.update (fun _ => u) .NL1 n) with
  | error e =>
    obtain ⟨w, hw⟩ := avals_floats_error _ hy
    obtain ⟨n', hn'⟩ := hnl w
    rw [hn'] at hw
    cases hw
  | ok y => exact ⟨_, rfl⟩

theorem CSSolver.flStep_total (m : CSSolver ι) {coefs : ℝ → Except PyErr m.Coef} {h : ℝ} (hh : 0 ≤ h) (hcf : ∃ c, coefs h = .ok c)
    (hnl : ∀ w, ∃ n, nl w = .ok n) (u : ι → CFl) : ∃ v, (m.flStep rnd load coefs nl u h m.flNew).1 = .ok v := by
  obtain ⟨v, hv⟩ := m.aStep_fl_total (rnd := rnd) (load := load) hcf hnl u
  refine ⟨v, ?_⟩
  unfold flStep
  rw [CSClass.step_apply _ _ hh]
  have L := RCSProg.alawful m.rprog_ok ⟨ArrOps.floats rnd load, coefs⟩ nl
  exact (L.result _ _ _ (L.reset_inv m.flNew.sub u)).trans hv

/-- One step of IF4 with an overflowing arithmetic and a nonlinearity that removes the `nan`: it is still there, in its entry. -/
example (c : IFCoef (Vec (Fin 2))) : let m := CSSolver.if4 (.diag (ι := Fin 2) ![-1, -4])
    ∃ v, (m.flStep overflow CFl.ofComplex (fun _ => .ok c) (fun _ => .ok fun _ => .ofComplex 1) ![⟨.nan, .fin 0⟩, .ofComplex 1] (1 / 2)
      m.flNew).1 = .ok v ∧ ¬ (v 0).IsFinite := by
  intro m
  obtain ⟨v, hv⟩ := m.flStep_total (rnd := overflow) (load := CFl.ofComplex) (coefs := fun _ => .ok c)
    (nl := fun _ => .ok fun _ => .ofComplex 1) (h := 1 / 2) (by norm_num) ⟨c, rfl⟩ (fun _ => ⟨_, rfl⟩) ![⟨.nan, .fin 0⟩, .ofComplex 1]
  exact ⟨v, hv, C80_step_cs m hv (i := 0) (by rintro ⟨⟨a, ha⟩, -⟩; cases ha)⟩

/-- With a matrix it is in both entries. -/
example (c : IFCoef (Mat (Fin 2))) : let m := CSSolver.if4 (.full (ι := Fin 2) !![-1, 2; 3, -4])
    ∃ v, (m.flStep overflow CFl.ofComplex (fun _ => .ok c) (fun _ => .ok fun _ => .ofComplex 1) ![⟨.nan, .fin 0⟩, .ofComplex 1] (1 / 2)
      m.flNew).1 = .ok v ∧ ¬ (v 1).IsFinite := by
  intro m
  obtain ⟨v, hv⟩ := m.flStep_total (rnd := overflow) (load := CFl.ofComplex) (coefs := fun _ => .ok c)
    (nl := fun _ => .ok fun _ => .ofComplex 1) (h := 1 / 2) (by norm_num) ⟨c, rfl⟩ (fun _ => ⟨_, rfl⟩) ![⟨.nan, .fin 0⟩, .ofComplex 1]
  exact ⟨v, hv, C80_step_full (m := m) rfl hv (i := 0) (by rintro ⟨⟨a, ha⟩, -⟩; cases ha) 1⟩

/-- A run of three steps from an array with an infinite entry returns an array whose entry is not finite either. -/
example (c : IFCoef (Vec (Fin 2))) : let m := CSSolver.if4 (.diag (ι := Fin 2) ![-1, -4])
    ∃ v, (m.flEvolve overflow CFl.ofComplex (fun _ => .ok c) .ok id true 4 ![.ofComplex 2, ⟨.fin 1, .ninf⟩] 0 3 1 true 1 m.flNew).1 =
      .ok (some v) ∧ ¬ (v 1).IsFinite := by
  intro m
  choose st hst using m.aStep_fl_total (rnd := overflow) (load := CFl.ofComplex) (coefs := fun _ => .ok c)
    (nl := .ok) (h := 1) ⟨c, rfl⟩ (fun _ => ⟨_, rfl⟩)
  have key := (CSClass.evolve_complete (RCSProg.alawful m.rprog_ok ⟨ArrOps.floats overflow CFl.ofComplex, fun _ => .ok c⟩ .ok) id true
    ![.ofComplex 2, ⟨.fin 1, .ninf⟩] 0 3 1 true 1 zero_le_one (by norm_num) (by norm_num)
    (fun k => st^[k] ![.ofComplex 2, ⟨.fin 1, .ninf⟩]) rfl 3
    (fun k hk => by
      rw [timeAt_id]
      have : (k : ℝ) < 3 := by exact_mod_cast hk
      linarith) (by rw [timeAt_id]; norm_num)
    (fun k _ => by rw [Function.iterate_succ_apply']; exact hst _) (fun k _ hk => by rintro ⟨-, -, h⟩; norm_num at h) m.flNew 4 (by norm_num)).1
  refine ⟨_, key, fun hf => ?_⟩
  obtain ⟨-, a, ha⟩ := ((C80_evolve_cs m id true 4 ![.ofComplex 2, ⟨.fin 1, .ninf⟩] 0 3 1 true 1 m.flNew 1).2 _ key hf).1
  cases ha

/-- The factor of a trial whose error estimate has a `nan` in an entry that counts. -/
example : ¬ Acceptable (flComputeS overflow 4 ⟨1 / 10000, 5 / 4, 17 / 20, 4 / 5, 1 / 100, 1 / 10 ^ 16⟩ (fun _ : Fin 1 => .ofComplex 3)
    fun _ => ⟨.fin 1, .nan⟩) := by
  refine C80_factor overflow_zero (by norm_num) (i := 0) (.inr ⟨?_, ?_⟩)
  · have : Real.sqrt (3 ^ 2 + 0 ^ 2) = 3 := by
      rw [show (3 : ℝ) ^ 2 + 0 ^ 2 = 3 ^ 2 by norm_num, Real.sqrt_sq (by norm_num)]
    have h3 : CFl.abs overflow (.ofComplex 3) = .fin 3 := by
      simp only [CFl.abs, CFl.ofComplex, Complex.re_ofNat, Complex.im_ofNat, this]
      norm_num [overflow]
    simp [Counts, h3, flMax, Ext.div, overflow, Ext.lt]
    norm_num
  · rintro ⟨-, a, ha⟩
    cases ha

/-- The hypotheses of C80_step_as and C80_evolve_as are met by a run of one step for `u' = u`. -/
example : (∃ v, (demo.flStep .fin CFl.ofComplex (demo.env Arith.exact).coefs .ok id demoCfg (flArr 1) 1 demo.flNew).1 = .ok (v, 1, 4) ∧
      (v 0).IsFinite) ∧
    ∃ v, (demo.flEvolve .fin CFl.ofComplex (demo.env Arith.exact).coefs .ok id true demoCfg 2 (flArr 1) 0 1 (some 1) true 1
      demo.flNew).1 = .ok (some v) ∧ (v 0).IsFinite := by
  have hnl : ∀ v : Vec (Fin 1), (.ok (flArr v) : Except PyErr (Fin 1 → CFl)) = (Except.ok v : Except PyErr _).map flArr := fun _ => rfl
  constructor
  · have h := ASClass.step_rel (RASProg.alawful demo.rprog_ok (demo.rprog_next _) demo.isDP
        ⟨ArrOps.floats .fin CFl.ofComplex, (demo.env Arith.exact).coefs⟩ flCheck (flComputeS .fin (if demo.isDP then 5 else 4)) .ok)
      (demo.lawful fun x => .ok x) (fun x v => x = flArr v) (fun x v => x.1 = flArr v.1 ∧ x.2 = flArr v.2) (fun _ _ h => h.1)
      (demo.flTrial_exact hnl) id demoCfg
      (by
        rintro ⟨x, e⟩ ⟨v, d⟩ ⟨rfl, rfl⟩
        exact flComputeS_exact _ _ _ _)
      (flArr 1) 1 1 demo.flNew demo.new rfl ((RASProg.alawful demo.rprog_ok (demo.rprog_next _) demo.isDP
        ⟨ArrOps.floats .fin CFl.ofComplex, (demo.env Arith.exact).coefs⟩ flCheck (flComputeS .fin (if demo.isDP then 5 else 4)) .ok).reset_ready
        demo.flNew.sub _) (demo.init_ready _ 1)
    rw [show ((demo.cls fun x => .ok x).step id demoCfg 1 1 demo.new).1 = _ from demo_step] at h
    cases hx : (demo.flStep .fin CFl.ofComplex (demo.env Arith.exact).coefs .ok id demoCfg (flArr 1) 1 demo.flNew).1 with
    | error e =>
      unfold ASSolver.flStep ASSolver.flCls at hx
      rw [hx] at h
      exact h.elim
    | ok r =>
      obtain ⟨v, a, b⟩ := r
      have hfin := C80_step_as demo rfl (by norm_num [demoCfg]) hx 0
      unfold ASSolver.flStep ASSolver.flCls at hx
      rw [hx] at h
      have h2 : (a, b) = ((1 : ℝ), (4 : ℝ)) := h.2
      exact ⟨v, by rw [h2], hfin⟩
  · have := (C80_exact_as demo hnl id true demoCfg 2 1 0 1 (some 1) true 1 demo.flNew demo.new).1
    rw [demo_evolve] at this
    exact ⟨_, this, (C80_evolve_as demo rfl id true (by norm_num [demoCfg]) 2 (flArr 1) 0 1 (some 1) true 1 demo.flNew).2 one_pos _ this 0⟩

/-- IF34 does not step from an array with an infinite entry. -/
example (c : IFCoef (Vec (Fin 2))) : let m := ASSolver.if34 (.diag (ι := Fin 2) ![-1, -4])
    let cfg : SolverConfig ℝ := ⟨1 / 10000, 5 / 4, 17 / 20, 4 / 5, 1 / 100, 1 / 10 ^ 16⟩
    ((m.flStep overflow CFl.ofComplex (fun _ => .ok c) .ok id cfg ![⟨.pinf, .fin 0⟩, .ofComplex 1] (1 / 2) m.flNew).1 =
        .error .minimumStepReached ∨
      (m.flStep overflow CFl.ofComplex (fun _ => .ok c) .ok id cfg ![⟨.pinf, .fin 0⟩, .ofComplex 1] (1 / 2) m.flNew).1 =
        .error .maxLoopsExceeded) ∧
    (m.flEvolve overflow CFl.ofComplex (fun _ => .ok c) .ok id true cfg 9 ![⟨.pinf, .fin 0⟩, .ofComplex 1] 0 1 none true 1 m.flNew).2.t =
      [0] := by
  intro m cfg
  have hi : ¬ ((![⟨.pinf, .fin 0⟩, .ofComplex 1] : Fin 2 → CFl) 0).IsFinite := by
    rintro ⟨⟨a, ha⟩, -⟩
    cases ha
  have hc : (0 : ℝ) ≤ cfg.adapt_cutoff := by norm_num [cfg]
  constructor
  · obtain ⟨e, he, h⟩ := C80_bad_step m overflow_zero (load := CFl.ofComplex) (coefs := fun _ => .ok c) (nl := .ok) (clk := id) hc hi
      (h := 1 / 2) (by norm_num)
    rcases h with rfl | rfl | ⟨_, h⟩ | ⟨_, h⟩
    · exact .inl he
    · exact .inr he
    · cases h
    · cases h
  · exact (C80_bad_evolve m overflow_zero id true hc 8 hi one_pos (hInit := none) (by norm_num [ASClass.firstSize, limitTo]) true 1
      m.flNew).2.1

end Verif
