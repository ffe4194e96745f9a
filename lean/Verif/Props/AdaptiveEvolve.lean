import Verif.Props.Adaptive

/-!
# Adaptive solvers: `evolve` (properties C11–C13, adaptive part of C04)

Exact time arithmetic (`rnd = id`); `s : m.State` is the arbitrary state in which `evolve` finds the object.
-/

set_option linter.unusedSectionVars false

namespace Verif

variable {ι : Type} [Fintype ι] [DecidableEq ι]

/-- `n` consecutive steps of newly constructed objects on the way to `tf`: step `k` starts at time `tm k` in state `st k`
with proposed size `hp k`, uses size `hu k` and suggests `hs k`; the next proposal is the suggestion limited to the rest
of the interval. -/
structure FreshRun (m : ASSolver ι) (nl : NlFunc ι) (cfg : SolverConfig ℝ) (tf : ℝ) (n : ℕ) (tm : ℕ → ℝ)
    (st : ℕ → Vec ι) (hp hu hs : ℕ → ℝ) : Prop where
  before_end : ∀ k, k < n → tm k < tf
  step : ∀ k, k < n → (m.step nl id cfg (st k) (hp k) m.new).1 = .ok (st (k + 1), hu k, hs k)
  time : ∀ k, k < n → tm (k + 1) = tm k + hu k
  next : ∀ k, k < n → hp (k + 1) = min (hs k) (tf - tm (k + 1))

/-- The first proposed size: `h_init` or a hundredth of the interval, limited to the interval. -/
noncomputable def firstProposal (t0 tf : ℝ) (hInit : Option ℝ) : ℝ := min (hInit.getD ((tf - t0) / 100)) (tf - t0)

theorem limitTo_id (t tf h : ℝ) : limitTo id t tf h = min h (tf - t) := by
  unfold limitTo
  simp only [id]
  split
  · rw [min_eq_right (by linarith)]
  · rw [min_eq_left (by linarith)]

/-- The run behind a call of `evolve`. -/
theorem ASSolver.evolve_freshRun (m : ASSolver ι) (nl : NlFunc ι) (pyDiv : Bool) (cfg : SolverConfig ℝ) (fuel : ℕ)
    (u : Vec ι) (t0 tf : ℝ) (hInit : Option ℝ) (storeData : Bool) (freq : ℤ) (s : m.State) :
    ∃ (n : ℕ) (tm : ℕ → ℝ) (st : ℕ → Vec ι) (hp hu hs : ℕ → ℝ),
      tm 0 = t0 ∧ st 0 = u ∧ hp 0 = firstProposal t0 tf hInit ∧
      AdaptiveRun (m.oneTrial nl) (m.factor nl cfg) cfg id tf n tm st hp hu ∧
      FreshRun m nl cfg tf n tm st hp hu hs ∧
      (m.evolve nl id pyDiv cfg fuel u t0 tf hInit storeData freq s).2.t =
        (if storeData then (storedUpTo freq n).map tm else []) ∧
      (m.evolve nl id pyDiv cfg fuel u t0 tf hInit storeData freq s).2.u =
        (if storeData then (storedUpTo freq n).map st else []) ∧
      ASClass.LoopEnd (m.oneTrial nl) (m.factor nl cfg) cfg id pyDiv storeData freq fuel 0 tf n (tm n) (st n) (hp n)
        (m.evolve nl id pyDiv cfg fuel u t0 tf hInit storeData freq s).1 ∧
      (∀ v, (m.evolve nl id pyDiv cfg fuel u t0 tf hInit storeData freq s).1 = .ok (some v) →
        (m.evolve nl id pyDiv cfg fuel u t0 tf hInit storeData freq s).2.tc = tm n) := by
  obtain ⟨n, tm, st, hp, hu, h1, h2, h3, h4, h5, h6, h7, h8⟩ := ASClass.evolve_run (m.lawful nl) id pyDiv cfg fuel u t0 tf
    hInit storeData freq s
  have hex : ∀ k, ∃ x, k < n → (m.step nl id cfg (st k) (hp k) m.new).1 = .ok (st (k + 1), hu k, x) ∧
      tm (k + 1) = tm k + hu k ∧ hp (k + 1) = min x (tf - tm (k + 1)) := by
    intro k
    by_cases hk : k < n
    · obtain ⟨a1, x, a2, a3, a4⟩ := h4.step k hk
      exact ⟨x, fun _ => ⟨(m.stepSpec_iff nl id cfg _ _ a1 _).mp a2, a3, by rw [a4, limitTo_id]⟩⟩
    · exact ⟨0, fun hc => absurd hc hk⟩
  choose hs hhs using hex
  refine ⟨n, tm, st, hp, hu, hs, h1, h2, ?_, h4, ⟨h4.before_end, fun k hk => (hhs k hk).1, fun k hk => (hhs k hk).2.1,
    fun k hk => (hhs k hk).2.2⟩, h5, h6, h7, h8⟩
  rw [h3, ASClass.firstSize, limitTo_id]; rfl

/-! ### C13 -/

/-- **C13.** Whether `evolve` returns or raises, the lists hold every `f`-th entry of one consistent trajectory; a
returned array is its last state. -/
theorem C13_stored (m : ASSolver ι) (nl : NlFunc ι) (pyDiv : Bool) (cfg : SolverConfig ℝ) (fuel : ℕ)
    (u : Vec ι) (t0 tf : ℝ) (hInit : Option ℝ) (storeData : Bool) (freq : ℤ) (hf : freq ≠ 0) (s : m.State) :
    ∃ (n : ℕ) (tm : ℕ → ℝ) (st : ℕ → Vec ι) (hp hu hs : ℕ → ℝ),
      tm 0 = t0 ∧ st 0 = u ∧ hp 0 = firstProposal t0 tf hInit ∧ FreshRun m nl cfg tf n tm st hp hu hs ∧
      (m.evolve nl id pyDiv cfg fuel u t0 tf hInit storeData freq s).2.t =
        (if storeData then (List.range (n / freq.natAbs + 1)).map (fun j => tm (j * freq.natAbs)) else []) ∧
      (m.evolve nl id pyDiv cfg fuel u t0 tf hInit storeData freq s).2.u =
        (if storeData then (List.range (n / freq.natAbs + 1)).map (fun j => st (j * freq.natAbs)) else []) ∧
      (∀ v, (m.evolve nl id pyDiv cfg fuel u t0 tf hInit storeData freq s).1 = .ok (some v) → v = st n ∧ tf ≤ tm n) ∧
      (∀ e, (m.evolve nl id pyDiv cfg fuel u t0 tf hInit storeData freq s).1 = .error e →
        tm n < tf ∧ ((m.step nl id cfg (st n) (hp n) m.new).1 = .error e ∨
          (e = .zeroDivisionError ∧ tf = 0 ∧ 100 ∣ n + 1))) := by
  obtain ⟨n, tm, st, hp, hu, hs, h1, h2, h3, h4, h5, h6, h7, h8, h9⟩ := m.evolve_freshRun nl pyDiv cfg fuel u t0 tf hInit
    storeData freq s
  refine ⟨n, tm, st, hp, hu, hs, h1, h2, h3, h5, ?_, ?_, ?_, ?_⟩
  · rw [h6, storedUpTo_closed _ hf, List.map_map]; rfl
  · rw [h7, storedUpTo_closed _ hf, List.map_map]; rfl
  · intro v hv
    rw [hv] at h8
    cases h8 with
    | returned _ hge => exact ⟨rfl, not_lt.mp hge⟩
  · intro e he
    rw [he] at h8
    cases h8 with
    | stepRaised _ a2 a3 a4 => exact ⟨a2, .inl ((m.stepSpec_iff nl id cfg _ _ a3 _).mp a4)⟩
    | negative _ a2 a3 =>
      exact ⟨a2, .inl (by rw [(C06_trials m nl id cfg _ _ m.new).2.2 a3])⟩
    | zeroDiv _ a2 a3 a4 a5 =>
      refine ⟨a2, .inr ⟨rfl, ?_⟩⟩
      rcases a5 with a5 | a5
      · exact ⟨a5.2.2, by have := a5.1; omega⟩
      · exact absurd a5.2 hf

/-! ### C11 -/

/-- **C11.** If `evolve` returns, its times increase strictly and end exactly at `tf`. -/
theorem C11_lands_on_tf (m : ASSolver ι) (nl : NlFunc ι) (pyDiv : Bool) (cfg : SolverConfig ℝ) (hd : cfg.decr_f < 1)
    (hm : 0 < cfg.minh) (fuel : ℕ) (u v : Vec ι) (t0 tf : ℝ) (ht : t0 ≤ tf) (hInit : Option ℝ)
    (hpos : ∀ h, hInit = some h → 0 < h) (storeData : Bool) (freq : ℤ) (s : m.State)
    (hret : (m.evolve nl id pyDiv cfg fuel u t0 tf hInit storeData freq s).1 = .ok (some v)) :
    ∃ (n : ℕ) (tm : ℕ → ℝ) (st : ℕ → Vec ι) (hp hu hs : ℕ → ℝ),
      tm 0 = t0 ∧ st 0 = u ∧ st n = v ∧ FreshRun m nl cfg tf n tm st hp hu hs ∧
      (∀ k, k < n → tm k < tm (k + 1) ∧ tm (k + 1) ≤ tf) ∧ tm n = tf ∧
      (m.evolve nl id pyDiv cfg fuel u t0 tf hInit storeData freq s).2.tc = tf := by
  obtain ⟨n, tm, st, hp, hu, hs, h1, h2, h3, h4, h5, h6, h7, h8, h9⟩ := m.evolve_freshRun nl pyDiv cfg fuel u t0 tf hInit
    storeData freq s
  have T := h4.times hd hm (by rw [h1]; exact ht) (by
    rw [h1, h3]
    intro hlt
    unfold firstProposal
    refine ⟨lt_min ?_ (by linarith), ?_⟩
    · cases hInit with
      | none => simp; linarith
      | some h => exact hpos h rfl
    · have := min_le_right (hInit.getD ((tf - t0) / 100)) (tf - t0); linarith)
  have hn : tm n = tf ∧ st n = v := by
    rw [hret] at h8
    cases h8 with
    | returned _ hge => exact ⟨le_antisymm (T n (le_refl _)).1 (not_lt.mp hge), rfl⟩
  refine ⟨n, tm, st, hp, hu, hs, h1, h2, hn.2, h5, ?_, hn.1, by rw [h9 v hret, hn.1]⟩
  intro k hk
  obtain ⟨-, -, t3⟩ := T k hk.le
  obtain ⟨u1, u2, u3⟩ := t3 hk
  exact ⟨by linarith, (T (k + 1) (by omega)).1⟩

/-- **C11.** With `tf ≤ t0` the given array is returned without a step. -/
theorem C11_empty_interval (m : ASSolver ι) (nl : NlFunc ι) (pyDiv : Bool) (cfg : SolverConfig ℝ) (fuel : ℕ)
    (hfuel : 0 < fuel) (u : Vec ι) (t0 tf : ℝ) (ht : tf ≤ t0) (hInit : Option ℝ) (storeData : Bool) (freq : ℤ)
    (s : m.State) :
    (m.evolve nl id pyDiv cfg fuel u t0 tf hInit storeData freq s).1 = .ok (some u) ∧
    (m.evolve nl id pyDiv cfg fuel u t0 tf hInit storeData freq s).2.trials = s.trials ∧
    ASSolver.evals (m.evolve nl id pyDiv cfg fuel u t0 tf hInit storeData freq s).2 = ASSolver.evals s := by
  obtain ⟨d, rfl⟩ : ∃ d, fuel = d + 1 := ⟨fuel - 1, by omega⟩
  unfold ASSolver.evolve
  rw [ASClass.evolve_apply, ASClass.loop]
  simp only [PyM.bind_get_apply, show ¬ (ASClass.start (m.cls nl) u t0 tf storeData s).tc <
    (ASClass.start (m.cls nl) u t0 tf storeData s).tf from not_lt.mpr ht, if_false]
  refine ⟨rfl, rfl, ?_⟩
  rcases m with (_ | _ | _) | ⟨_, _ | _ | _⟩ | ⟨_, _ | _ | _⟩ | _ <;> rfl

/-- Integrating backwards is refused silently: the initial array comes back. -/
example (s : demo.State) (cfg : SolverConfig ℝ) (u : Vec (Fin 1)) :
    (demo.evolve (fun x => .ok x) id true cfg 1 u 1 (-1) none true 1 s).1 = .ok (some u) :=
  (C11_empty_interval demo _ true cfg 1 (by norm_num) u 1 (-1) (by norm_num) none true 1 s).1

/-! ### C12 -/

/-- **C12.** `evolve` terminates: it does not need more than `(tf - t0)/min(h_init, minh) + 1` steps (where `h_init` is
`(tf - t0)/100` by default). -/
theorem C12_terminates (m : ASSolver ι) (nl : NlFunc ι) (pyDiv : Bool) (cfg : SolverConfig ℝ) (hd : cfg.decr_f < 1)
    (hm : 0 < cfg.minh) (fuel : ℕ) (u : Vec ι) (t0 tf : ℝ) (ht : t0 < tf) (hInit : Option ℝ)
    (hpos : ∀ h, hInit = some h → 0 < h) (storeData : Bool) (freq : ℤ) (s : m.State)
    (hfuel : (tf - t0) / min (hInit.getD ((tf - t0) / 100)) cfg.minh + 1 < fuel) :
    (∃ v, (m.evolve nl id pyDiv cfg fuel u t0 tf hInit storeData freq s).1 = .ok (some v)) ∨
    (∃ e, (m.evolve nl id pyDiv cfg fuel u t0 tf hInit storeData freq s).1 = .error e) := by
  obtain ⟨n, tm, st, hp, hu, hs, h1, h2, h3, h4, h5, h6, h7, h8, h9⟩ := m.evolve_freshRun nl pyDiv cfg fuel u t0 tf hInit
    storeData freq s
  set hi := hInit.getD ((tf - t0) / 100) with hhi
  have hi0 : 0 < hi := by
    rw [hhi]
    cases hInit with
    | none => simp; linarith
    | some h => exact hpos h rfl
  have hδ : 0 < min hi cfg.minh := lt_min hi0 hm
  have hcount := h4.count hd hm (by rw [h1]; exact ht.le) (by
    rw [h1, h3]
    intro hlt
    unfold firstProposal
    refine ⟨lt_min hi0 (by linarith), ?_⟩
    have := min_le_right hi (tf - t0); linarith) hδ.le (min_le_right _ _) (by
    rw [h3, h1]; unfold firstProposal
    rcases le_total hi (tf - t0) with hc | hc
    · left; rw [← hhi, min_eq_left hc]; exact min_le_left _ _
    · right; rw [← hhi, min_eq_right hc])
  cases hr : (m.evolve nl id pyDiv cfg fuel u t0 tf hInit storeData freq s).1 with
  | error e => exact .inr ⟨e, rfl⟩
  | ok o =>
    cases o with
    | some v => exact .inl ⟨v, rfl⟩
    | none =>
      exfalso
      rw [hr] at h8
      cases h8 with
      | running hn =>
        rw [h1] at hcount
        rw [hn] at hcount
        have h10 : (tf - t0) / min hi cfg.minh < fuel - 1 := by linarith
        rw [div_lt_iff₀ hδ] at h10
        linarith

/-- **C12.** The steps of a run: every step is at least `min(h_init, minh)` long, except one that ends at `tf`. -/
theorem C12_step_lengths (m : ASSolver ι) (nl : NlFunc ι) (pyDiv : Bool) (cfg : SolverConfig ℝ) (hd : cfg.decr_f < 1)
    (hm : 0 < cfg.minh) (fuel : ℕ) (u : Vec ι) (t0 tf : ℝ) (ht : t0 < tf) (hInit : Option ℝ)
    (hpos : ∀ h, hInit = some h → 0 < h) (storeData : Bool) (freq : ℤ) (s : m.State) :
    ∃ (n : ℕ) (tm : ℕ → ℝ) (st : ℕ → Vec ι) (hp hu hs : ℕ → ℝ),
      tm 0 = t0 ∧ st 0 = u ∧ FreshRun m nl cfg tf n tm st hp hu hs ∧
      (∀ k, k < n → min (hInit.getD ((tf - t0) / 100)) cfg.minh ≤ hu k ∨ tm (k + 1) = tf) ∧
      (n : ℝ) ≤ (tf - t0) / min (hInit.getD ((tf - t0) / 100)) cfg.minh + 1 ∧
      (∀ v, (m.evolve nl id pyDiv cfg fuel u t0 tf hInit storeData freq s).1 = .ok (some v) → v = st n) := by
  obtain ⟨n, tm, st, hp, hu, hs, h1, h2, h3, h4, h5, h6, h7, h8, h9⟩ := m.evolve_freshRun nl pyDiv cfg fuel u t0 tf hInit
    storeData freq s
  set hi := hInit.getD ((tf - t0) / 100) with hhi
  have hi0 : 0 < hi := by
    rw [hhi]
    cases hInit with
    | none => simp; linarith
    | some h => exact hpos h rfl
  have hδ : 0 < min hi cfg.minh := lt_min hi0 hm
  have hp0 : tm 0 < tf → 0 < hp 0 ∧ tm 0 + hp 0 ≤ tf := by
    rw [h1, h3]
    intro hlt
    unfold firstProposal
    refine ⟨lt_min hi0 (by linarith), ?_⟩
    have := min_le_right hi (tf - t0); linarith
  have hδ0 : min hi cfg.minh ≤ hp 0 ∨ hp 0 = tf - tm 0 := by
    rw [h3, h1]; unfold firstProposal
    rcases le_total hi (tf - t0) with hc | hc
    · left; rw [← hhi, min_eq_left hc]; exact min_le_left _ _
    · right; rw [← hhi, min_eq_right hc]
  have hcount := h4.count hd hm (by rw [h1]; exact ht.le) hp0 hδ.le (min_le_right _ _) hδ0
  have hlong := h4.long hd hm (by rw [h1]; exact ht.le) hp0 (min_le_right _ _) hδ0
  refine ⟨n, tm, st, hp, hu, hs, h1, h2, h5, fun k hk => (hlong k hk).2, ?_, ?_⟩
  · rw [h1] at hcount
    have : (n : ℝ) - 1 ≤ (tf - t0) / min hi cfg.minh := by rw [le_div_iff₀ hδ]; exact hcount
    linarith
  · intro v hv
    rw [hv] at h8
    cases h8 with
    | returned => rfl

/-- With `minh = 1/10` at most 11 steps are made on an interval of length `1`. -/
example (m : ASSolver (Fin 3)) (nl : NlFunc (Fin 3)) (u : Vec (Fin 3)) (s : m.State) :
    let cfg : SolverConfig ℝ := ⟨1 / 10000, 5 / 4, 17 / 20, 4 / 5, 1 / 100, 1 / 10⟩
    ∃ (n : ℕ) (tm : ℕ → ℝ) (st : ℕ → Vec (Fin 3)) (hp hu hs : ℕ → ℝ),
      tm 0 = 0 ∧ st 0 = u ∧ FreshRun m nl cfg 1 n tm st hp hu hs ∧ n ≤ 11 := by
  intro cfg
  obtain ⟨n, tm, st, hp, hu, hs, h1, h2, h3, -, h5, -⟩ := C12_step_lengths m nl true cfg (by norm_num [cfg]) (by norm_num [cfg]) 20 u 0 1
    (by norm_num) (some (1 / 5)) (by rintro h ⟨⟩; norm_num) true 1 s
  refine ⟨n, tm, st, hp, hu, hs, h1, h2, h3, ?_⟩
  have : (n : ℝ) ≤ 11 := by
    refine h5.trans ?_
    rw [min_eq_right (by norm_num [cfg])]
    norm_num [cfg]
  exact_mod_cast this

/-! ### C04, adaptive -/

/-- **C04.** An adaptive `evolve` raises `ZeroDivisionError` only after a completed step, and only if `tf = 0` in a run of
at least 100 steps or if `store_freq = 0` (when `nl_func` does not raise it itself). -/
theorem C04_adaptive_zeroDivision (m : ASSolver ι) (nl : NlFunc ι) (hnl : ∀ x, nl x ≠ .error .zeroDivisionError)
    (pyDiv : Bool) (cfg : SolverConfig ℝ) (fuel : ℕ) (u : Vec ι) (t0 tf : ℝ) (hInit : Option ℝ) (storeData : Bool)
    (freq : ℤ) (s : m.State)
    (he : (m.evolve nl id pyDiv cfg fuel u t0 tf hInit storeData freq s).1 = .error .zeroDivisionError) :
    ∃ (n : ℕ) (tm : ℕ → ℝ) (st : ℕ → Vec ι) (hp hu hs : ℕ → ℝ),
      tm 0 = t0 ∧ st 0 = u ∧ FreshRun m nl cfg tf n tm st hp hu hs ∧
      (∃ r, (m.step nl id cfg (st n) (hp n) m.new).1 = .ok r) ∧
      ((pyDiv = true ∧ tf = 0 ∧ 100 ∣ n + 1) ∨ (storeData = true ∧ freq = 0)) := by
  obtain ⟨n, tm, st, hp, hu, hs, h1, h2, h3, h4, h5, h6, h7, h8, h9⟩ := m.evolve_freshRun nl pyDiv cfg fuel u t0 tf hInit
    storeData freq s
  refine ⟨n, tm, st, hp, hu, hs, h1, h2, h5, ?_⟩
  rw [he] at h8
  cases h8 with
  | stepRaised _ a2 a3 a4 =>
    exfalso
    generalize hR : (Except.error .zeroDivisionError : Except PyErr (Vec ι × ℝ × ℝ)) = R at a4
    cases a4 with
    | raised b1 b2 b3 =>
      simp only [Except.error.injEq] at hR; subst hR
      rcases m.oneTrial_error nl _ _ _ b3 with h | ⟨x, hx⟩
      · simp at h
      · exact hnl x hx
    | _ => simp at hR
  | zeroDiv _ a2 a3 a4 a5 =>
    refine ⟨⟨_, (m.stepSpec_iff nl id cfg _ _ a3 _).mp a4⟩, ?_⟩
    rcases a5 with a5 | a5
    · exact .inl ⟨a5.2.1, a5.2.2, by have := a5.1; omega⟩
    · exact .inr a5

/-! ### A concrete run -/

/-- IF34 for `u' = u` from 0 to 1 with `h_init = 1`: one accepted step. -/
theorem demo_evolve (pyDiv storeData : Bool) (s : demo.State) :
    (demo.evolve (fun x => .ok x) id pyDiv demoCfg 2 1 0 1 (some 1) storeData 1 s).1 = .ok (some ((65 / 24 : ℂ) • 1)) := by
  obtain ⟨n, tm, st, hp, hu, hs, h1, h2, h3, h4, h5, h6, h7, h8, h9⟩ := demo.evolve_freshRun (fun x => .ok x) pyDiv demoCfg
    2 1 0 1 (some 1) storeData 1 s
  have hp0 : hp 0 = 1 := by rw [h3]; simp [firstProposal]
  have hstep : (demo.step (fun x => .ok x) id demoCfg (st 0) (hp 0) demo.new).1 = .ok ((65 / 24 : ℂ) • 1, 1, 4) := by
    rw [h2, hp0]; exact demo_step
  have hfirst : 0 < n → tm 1 = 1 ∧ st 1 = (65 / 24 : ℂ) • 1 := by
    intro hn
    have h10 := h5.step 0 hn
    rw [hstep] at h10
    simp only [Except.ok.injEq, Prod.mk.injEq] at h10
    have h11 := h5.time 0 hn
    rw [h1, ← h10.2.1] at h11
    exact ⟨by rw [h11]; norm_num, h10.1.symm⟩
  have hn : n ≤ 1 := by
    by_contra hc
    have := h5.before_end 1 (by omega)
    rw [(hfirst (by omega)).1] at this
    norm_num at this
  generalize (demo.evolve (fun x => .ok x) id pyDiv demoCfg 2 1 0 1 (some 1) storeData 1 s).1 = R at h8
  rcases Nat.eq_zero_or_pos n with h0 | hn1
  · subst h0
    exfalso
    cases h8 with
    | running hf => omega
    | returned _ hge => rw [h1] at hge; norm_num at hge
    | stepRaised _ _ a3 a4 =>
      rw [demo.stepSpec_iff _ _ _ _ _ a3, hstep] at a4; simp at a4
    | negative _ _ a3 => rw [hp0] at a3; norm_num at a3
    | zeroDiv _ _ _ _ a5 =>
      rcases a5 with a5 | a5
      · have := a5.2.2; norm_num at this
      · have := a5.2; norm_num at this
  · obtain rfl : n = 1 := by omega
    obtain ⟨e1, e2⟩ := hfirst hn1
    rw [e1, e2] at h8
    cases h8 with
    | running hf => omega
    | returned => rfl
    | stepRaised _ a2 => norm_num at a2
    | negative _ a2 => norm_num at a2
    | zeroDiv _ a2 => norm_num at a2

/-- C04: `store_freq = 0` with the accepted step of `demo`. -/
example (s : demo.State) :
    (demo.evolve (fun x => .ok x) id true demoCfg 2 1 0 1 (some 1) true 0 s).1 = .error .zeroDivisionError ∧
    ∃ n : ℕ, (∃ r, (demo.step (fun x => .ok x) id demoCfg 1 1 demo.new).1 = .ok r) ∧ ((0 : ℝ) = 1 ∧ 100 ∣ n + 1 ∨ (0 : ℤ) = 0) := by
  have he : (demo.evolve (fun x => .ok x) id true demoCfg 2 1 0 1 (some 1) true 0 s).1 = .error .zeroDivisionError := by
    rw [ASSolver.evolve, ASClass.evolve_apply, ASClass.loop]
    have h1 : ASClass.firstSize (K := ℝ) id 0 1 (some 1) = 1 := by norm_num [ASClass.firstSize, limitTo]
    have h2 : ((demo.cls fun x => .ok x).step id demoCfg 1 1 ((demo.cls fun x => .ok x).start 1 0 1 true s)).1 =
        .ok ((65 / 24 : ℂ) • 1, 1, 4) :=
      (ASClass.step_congr (demo.lawful _) id demoCfg 1 1 _ demo.new ((demo.lawful _).reset_ready _ _)
        (demo.init_ready _ 1)).trans demo_step
    have h3 : ((demo.cls fun x => .ok x).start 1 0 1 true s).tc < ((demo.cls fun x => .ok x).start 1 0 1 true s).tf :=
      zero_lt_one
    simp only [PyM.bind_get_apply, h1, h3, if_true]
    rw [PyM.bind_ok (Prod.ext h2 rfl)]
    simp only [PyM.bind_modify_apply]
    rw [PyM.bind_ok (CSClass.progress_apply true _ _ _ (by rintro ⟨h, -⟩; norm_num at h))]
    simp only [PyM.bind_get_apply]
    rw [PyM.bind_error (ASClass.store_raises _ _ _)]
  obtain ⟨n, _, _, _, _, _, _, _, _, _, h⟩ := C04_adaptive_zeroDivision demo _ (by simp) true demoCfg 2 1 0 1 (some 1) true 0 s he
  exact ⟨he, n, ⟨_, demo_step⟩, h.imp (fun h => ⟨h.2.1.symm, h.2.2⟩) fun h => h.2⟩

/-- C11 on the concrete run. -/
example (s : demo.State) :
    (demo.evolve (fun x => .ok x) id true demoCfg 2 1 0 1 (some 1) true 1 s).2.tc = 1 := by
  obtain ⟨_, _, _, _, _, _, _, _, _, _, _, _, h⟩ := C11_lands_on_tf demo (fun x => .ok x) true demoCfg
    (by norm_num [demoCfg]) (by norm_num [demoCfg]) 2 1 _ 0 1 (by norm_num) (some 1) (by rintro h ⟨⟩; norm_num) true 1 s
    (demo_evolve true true s)
  exact h

/-- C12: the hypotheses are met with the default settings; the bound on the number of steps is `2 * 10^16 + 1`. -/
example (m : ASSolver (Fin 4)) (nl : NlFunc (Fin 4)) (u : Vec (Fin 4)) (s : m.State) (fuel : ℕ)
    (hfuel : 2 * 10 ^ 16 + 1 < fuel) :
    let cfg : SolverConfig ℝ := ⟨1 / 10000, 5 / 4, 17 / 20, 4 / 5, 1 / 100, 1 / 10 ^ 16⟩
    (∃ v, (m.evolve nl id true cfg fuel u (-1) 1 none true 1 s).1 = .ok (some v)) ∨
    (∃ e, (m.evolve nl id true cfg fuel u (-1) 1 none true 1 s).1 = .error e) := by
  intro cfg
  refine C12_terminates m nl true cfg (by norm_num [cfg]) (by norm_num [cfg]) fuel u (-1) 1 (by norm_num) none (by simp)
    true 1 s ?_
  have : (2 * 10 ^ 16 + 1 : ℝ) < fuel := by exact_mod_cast hfuel
  refine lt_of_le_of_lt ?_ this
  rw [min_eq_right (by norm_num [cfg])]
  norm_num [cfg]

/-- C13 on the concrete run: both the initial and the final state are stored. -/
example (s : demo.State) :
    (demo.evolve (fun x => .ok x) id true demoCfg 2 1 0 1 (some 1) true 1 s).2.u.length = 2 := by
  obtain ⟨n, tm, st, hp, hu, hs, h1, h2, h3, h4, h5, h6, h7, -⟩ := C13_stored demo (fun x => .ok x) true demoCfg 2 1 0 1
    (some 1) true 1 (by norm_num) s
  obtain ⟨h8, h9⟩ := h7 _ (demo_evolve true true s)
  have hp0 : hp 0 = 1 := by rw [h3]; simp [firstProposal]
  have hn0 : n ≠ 0 := by rintro rfl; rw [h1] at h9; norm_num at h9
  have h10 := h4.step 0 (by omega)
  rw [h2, hp0, demo_step] at h10
  simp only [Except.ok.injEq, Prod.mk.injEq] at h10
  have h11 := h4.time 0 (by omega)
  rw [h1, ← h10.2.1] at h11
  have hn1 : n = 1 := by
    by_contra hc
    have := h4.before_end 1 (by omega)
    rw [h11] at this; norm_num at this
  rw [h6, hn1]
  simp [List.range_succ]

end Verif
