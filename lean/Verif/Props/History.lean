import Verif.Lemmas.Count
import Verif.Props.AdaptiveEvolve
import Verif.Props.ConstStep

/-!
# Solver objects over their life time (properties C14–C18, C20)

The state of a solver object between calls: what is cached, when it is right to use it, and what happens when it is not.
-/

set_option linter.unusedSectionVars false

namespace Verif

open Matrix

variable {ι : Type} [Fintype ι] [DecidableEq ι]

/-! ### C14: `evolve` forgets the past -/

/-- **C14.** `evolve` of a constant-step solver gives the same result and the same lists whatever state the object is
in. -/
theorem C14_evolve_fresh_cs (m : CSSolver ι) (nl : NlFunc ι) (rnd : ℝ → ℝ) (pyDiv : Bool) (fuel : ℕ) (u : Vec ι)
    (t0 tf h : ℝ) (storeData : Bool) (freq : ℤ) (s : m.State) :
    (m.evolve nl rnd pyDiv fuel u t0 tf h storeData freq s).1 =
      (m.evolve nl rnd pyDiv fuel u t0 tf h storeData freq m.new).1 ∧
    (m.evolve nl rnd pyDiv fuel u t0 tf h storeData freq s).2.t =
      (m.evolve nl rnd pyDiv fuel u t0 tf h storeData freq m.new).2.t ∧
    (m.evolve nl rnd pyDiv fuel u t0 tf h storeData freq s).2.u =
      (m.evolve nl rnd pyDiv fuel u t0 tf h storeData freq m.new).2.u :=
  CSClass.evolve_congr (m.lawful nl) rnd pyDiv fuel u t0 tf h storeData freq s m.new

/-- **C14.** The same for adaptive solvers. -/
theorem C14_evolve_fresh_as (m : ASSolver ι) (nl : NlFunc ι) (rnd : ℝ → ℝ) (pyDiv : Bool) (cfg : SolverConfig ℝ)
    (fuel : ℕ) (u : Vec ι) (t0 tf : ℝ) (hInit : Option ℝ) (storeData : Bool) (freq : ℤ) (s : m.State) :
    (m.evolve nl rnd pyDiv cfg fuel u t0 tf hInit storeData freq s).1 =
      (m.evolve nl rnd pyDiv cfg fuel u t0 tf hInit storeData freq m.new).1 ∧
    (m.evolve nl rnd pyDiv cfg fuel u t0 tf hInit storeData freq s).2.t =
      (m.evolve nl rnd pyDiv cfg fuel u t0 tf hInit storeData freq m.new).2.t ∧
    (m.evolve nl rnd pyDiv cfg fuel u t0 tf hInit storeData freq s).2.u =
      (m.evolve nl rnd pyDiv cfg fuel u t0 tf hInit storeData freq m.new).2.u :=
  ASClass.evolve_congr (m.lawful nl) rnd pyDiv cfg fuel u t0 tf hInit storeData freq s m.new

/-- A run of IF4 after an arbitrary other run, and a run of `demo` on an object in any state. -/
example (L u u' : Vec (Fin 2)) (s : demo.State) :
    (let m := CSSolver.if4 (.diag L)
     let s := (m.evolve (fun x => .ok (x + 1)) id true 9 u' 3 4 (1 / 5) true 2 m.new).2
     (m.evolve (fun x => .ok (x * x)) id true 9 u 0 1 (1 / 4) true 1 s).2.u =
      (m.evolve (fun x => .ok (x * x)) id true 9 u 0 1 (1 / 4) true 1 m.new).2.u) ∧
    (demo.evolve (fun x => .ok x) id true demoCfg 2 1 0 1 (some 1) true 1 s).2.t =
      (demo.evolve (fun x => .ok x) id true demoCfg 2 1 0 1 (some 1) true 1 demo.new).2.t :=
  ⟨(C14_evolve_fresh_cs ..).2.2, (C14_evolve_fresh_as ..).2.1⟩

/-! ### Which array a solver object expects next -/

/-- `m.Follows nl u s`: state `s` arises by a history of calls after which `u` is the array to continue with: a new or
reset object (any array), the array returned by the last `step` or `evolve`, or the array of a `step` that raised
(other than `LinAlgError`; this exception is treated in C19). -/
inductive CSSolver.Follows (m : CSSolver ι) (nl : NlFunc ι) : Vec ι → m.State → Prop
  | new (u) : Follows m nl u m.new
  | reset (u) (s : m.State) : Follows m nl u (m.reset nl s).2
  | step {u v h s s'} : Follows m nl u s → m.step nl u h s = (.ok v, s') → Follows m nl v s'
  | retry {u h e s s'} : Follows m nl u s → m.step nl u h s = (.error e, s') → e ≠ .linAlgError → Follows m nl u s'
  | evolve {u v rnd pyDiv fuel t0 tf h storeData freq} {s s' : m.State} :
      m.evolve nl rnd pyDiv fuel u t0 tf h storeData freq s = (.ok (some v), s') → Follows m nl v s'

/-- The same for adaptive solvers; the settings may change from call to call. -/
inductive ASSolver.Follows (m : ASSolver ι) (nl : NlFunc ι) : Vec ι → m.State → Prop
  | new (u) : Follows m nl u m.new
  | reset (u) (s : m.State) : Follows m nl u (m.reset nl s).2
  | step {u v h hu hs rnd cfg s s'} : Follows m nl u s → m.step nl rnd cfg u h s = (.ok (v, hu, hs), s') →
      Follows m nl v s'
  | retry {u h e rnd cfg s s'} : Follows m nl u s → m.step nl rnd cfg u h s = (.error e, s') → e ≠ .linAlgError →
      Follows m nl u s'
  | evolve {u v rnd pyDiv cfg fuel t0 tf hInit storeData freq} {s s' : m.State} :
      m.evolve nl rnd pyDiv cfg fuel u t0 tf hInit storeData freq s = (.ok (some v), s') → Follows m nl v s'

theorem CSSolver.coefOk_of_error (m : CSSolver ι) (nl : NlFunc ι) {h : ℝ} {u : Vec ι} {e : PyErr}
    (he : m.oneStep nl h u = .error e) (hne : e ≠ .linAlgError) : m.CoefOk h := by
  by_contra hc
  unfold CSSolver.oneStep at he
  rw [if_neg hc] at he
  exact hne (by simpa using he.symm)

theorem ASSolver.coefOk_of_error (m : ASSolver ι) (nl : NlFunc ι) {h : ℝ} {u : Vec ι} {e : PyErr}
    (he : m.oneTrial nl h u = .error e) (hne : e ≠ .linAlgError) : m.CoefOk h := by
  by_contra hc
  unfold ASSolver.oneTrial at he
  rw [if_neg hc] at he
  exact hne (by simpa using he.symm)

theorem CSSolver.Follows.inv {m : CSSolver ι} {nl : NlFunc ι} {u : Vec ι} {s : m.State} (hf : m.Follows nl u s) :
    (m.lawful nl).Inv s.sub u := by
  induction hf with
  | new u => exact m.init_inv nl u
  | reset u s => exact (m.lawful nl).reset_inv _ _
  | @step u v h s s' _ hst ih =>
    by_cases hh : 0 ≤ h
    · unfold CSSolver.step at hst
      rw [CSClass.step_apply _ _ hh] at hst
      simp only [Prod.mk.injEq] at hst
      rw [← hst.2]
      exact (m.lawful nl).inv_ok _ _ _ _ ih (by rw [← (m.lawful nl).result _ _ _ ih]; exact hst.1)
    · rw [m.step_neg nl u h (not_le.mp hh)] at hst; simp at hst
  | @retry u h e s s' _ hst hne ih =>
    by_cases hh : 0 ≤ h
    · unfold CSSolver.step at hst
      rw [CSClass.step_apply _ _ hh] at hst
      simp only [Prod.mk.injEq] at hst
      have he : m.oneStep nl h u = .error e := by rw [← (m.lawful nl).result _ _ _ ih]; exact hst.1
      rw [← hst.2]
      exact (m.lawful nl).inv_err _ _ _ _ ih (m.coefOk_of_error nl he hne) he
    · rw [m.step_neg nl u h (not_le.mp hh)] at hst
      simp only [Prod.mk.injEq] at hst
      rw [← hst.2]; exact ih
  | @evolve u v rnd pyDiv fuel t0 tf h storeData freq s s' hev =>
    unfold CSSolver.evolve at hev
    rw [CSClass.evolve_apply] at hev
    split at hev
    · simp at hev
    · have := CSClass.loop_inv (m.lawful nl) rnd pyDiv h storeData freq v fuel u 0
        ((m.cls nl).start u t0 tf storeData s) ((m.lawful nl).reset_inv _ _) (by rw [hev])
      rwa [hev] at this

theorem ASSolver.Follows.ready {m : ASSolver ι} {nl : NlFunc ι} {u : Vec ι} {s : m.State} (hf : m.Follows nl u s) :
    (m.lawful nl).Ready s.sub s.accept u := by
  induction hf with
  | new u => exact m.init_ready nl u
  | reset u s => exact (m.lawful nl).reset_ready _ _
  | @step u v h hu hs rnd cfg s s' _ hst ih =>
    unfold ASSolver.step at hst
    by_cases hh : 0 ≤ h
    · have := (ASClass.step_spec (m.lawful nl) rnd cfg u h hh s ih).2.2.1 v hu hs (by rw [hst])
      rw [hst] at this
      rw [this.1]; exact this.2
    · rw [ASClass.step_neg _ _ _ _ hh] at hst; simp at hst
  | @retry u h e rnd cfg s s' _ hst hne ih =>
    unfold ASSolver.step at hst
    by_cases hh : 0 ≤ h
    · rw [ASClass.step_nonneg _ _ _ _ hh] at hst
      have := ASClass.stepLoop_err_ready (m.lawful nl) rnd cfg u e
        (fun h' he => by rw [m.lawful_coefOk nl]; exact m.coefOk_of_error nl he hne) MAX_LOOPS 0 h s rfl (Nat.zero_le _) ih
        (by rw [hst])
      rwa [hst] at this
    · rw [ASClass.step_neg _ _ _ _ hh] at hst
      simp only [Prod.mk.injEq] at hst
      rw [← hst.2]; exact ih
  | @evolve u v rnd pyDiv cfg fuel t0 tf hInit storeData freq s s' hev =>
    unfold ASSolver.evolve at hev
    rw [ASClass.evolve_apply] at hev
    obtain ⟨n, tm, st, hp, hu, h1, h2, h3, h4, h5, h6, h7, h8, h9, -⟩ := ASClass.loop_run_with (m.lawful nl) rnd pyDiv cfg
      storeData freq (fun _ _ _ _ => True) (by intros; trivial) fuel u (ASClass.firstSize rnd t0 tf hInit) 0
      ((m.cls nl).start u t0 tf storeData s) ((m.lawful nl).reset_ready _ _) trivial
    have := (h9 v (by rw [hev])).1
    rwa [hev] at this

/-! ### C15: caching is unobservable -/

/-- **C15.** In every state reached by a history of calls, `step` with the array that the history ends with gives what a
newly constructed solver gives. -/
theorem C15_step_fresh_cs (m : CSSolver ι) (nl : NlFunc ι) (u : Vec ι) (s : m.State) (hf : m.Follows nl u s) (h : ℝ) :
    (m.step nl u h s).1 = (m.step nl u h m.new).1 := by
  by_cases hh : 0 ≤ h
  · rw [m.step_new nl u h hh]
    unfold CSSolver.step
    rw [CSClass.step_apply _ _ hh]
    exact (m.lawful nl).result _ _ _ hf.inv
  · rw [m.step_neg nl u h (not_le.mp hh), m.step_neg nl u h (not_le.mp hh)]

/-- **C15.** The same for adaptive solvers. -/
theorem C15_step_fresh_as (m : ASSolver ι) (nl : NlFunc ι) (u : Vec ι) (s : m.State) (hf : m.Follows nl u s)
    (rnd : ℝ → ℝ) (cfg : SolverConfig ℝ) (h : ℝ) :
    (m.step nl rnd cfg u h s).1 = (m.step nl rnd cfg u h m.new).1 :=
  ASClass.step_congr (m.lawful nl) rnd cfg u h s m.new hf.ready (m.init_ready nl u)

/-- `step` calls with sizes `hs`, each on the array returned by the one before. -/
noncomputable def CSSolver.chain (m : CSSolver ι) (nl : NlFunc ι) : List ℝ → Vec ι → PyM m.State (List (Vec ι))
  | [], _ => pure []
  | h :: hs, u => do
    let v ← m.step nl u h
    let vs ← CSSolver.chain m nl hs v
    pure (v :: vs)

/-- The same sequence of calls, each on a newly constructed object. -/
noncomputable def CSSolver.freshChain (m : CSSolver ι) (nl : NlFunc ι) : List ℝ → Vec ι → Except PyErr (List (Vec ι))
  | [], _ => .ok []
  | h :: hs, u => do
    let v ← (m.step nl u h m.new).1
    let vs ← CSSolver.freshChain m nl hs v
    .ok (v :: vs)

/-- `step` calls with sizes `hs`, each on the array returned by the one before. -/
noncomputable def ASSolver.chain (m : ASSolver ι) (nl : NlFunc ι) (rnd : ℝ → ℝ) (cfg : SolverConfig ℝ) :
    List ℝ → Vec ι → PyM m.State (List (Vec ι × ℝ × ℝ))
  | [], _ => pure []
  | h :: hs, u => do
    let v ← m.step nl rnd cfg u h
    let vs ← ASSolver.chain m nl rnd cfg hs v.1
    pure (v :: vs)

/-- The same sequence of calls, each on a newly constructed object. -/
noncomputable def ASSolver.freshChain (m : ASSolver ι) (nl : NlFunc ι) (rnd : ℝ → ℝ) (cfg : SolverConfig ℝ) :
    List ℝ → Vec ι → Except PyErr (List (Vec ι × ℝ × ℝ))
  | [], _ => .ok []
  | h :: hs, u => do
    let v ← (m.step nl rnd cfg u h m.new).1
    let vs ← ASSolver.freshChain m nl rnd cfg hs v.1
    .ok (v :: vs)

/-- **C15.** A chain of `step` calls on one object returns, call by call, what new objects return. -/
theorem C15_chain_cs (m : CSSolver ι) (nl : NlFunc ι) (hs : List ℝ) (u : Vec ι) (s : m.State) (hf : m.Follows nl u s) :
    (m.chain nl hs u s).1 = m.freshChain nl hs u := by
  induction hs generalizing u s with
  | nil => rfl
  | cons h hs ih =>
    have h1 := C15_step_fresh_cs m nl u s hf h
    simp only [CSSolver.chain, CSSolver.freshChain]
    rcases hst : m.step nl u h s with ⟨r, s'⟩
    rw [← h1, hst]
    cases r with
    | error e => rw [PyM.bind_error hst]; rfl
    | ok v =>
      rw [PyM.bind_ok hst]
      have h2 := ih v s' (hf.step hst)
      rcases hch : m.chain nl hs v s' with ⟨r', s''⟩
      rw [hch] at h2
      simp only at h2
      change _ = (do let vs ← m.freshChain nl hs v; Except.ok (v :: vs))
      rw [← h2]
      cases r' with
      | error e => rw [PyM.bind_error hch]; rfl
      | ok vs => rw [PyM.bind_ok hch]; rfl

/-- **C15.** The same for adaptive solvers. -/
theorem C15_chain_as (m : ASSolver ι) (nl : NlFunc ι) (rnd : ℝ → ℝ) (cfg : SolverConfig ℝ) (hs : List ℝ) (u : Vec ι)
    (s : m.State) (hf : m.Follows nl u s) :
    (m.chain nl rnd cfg hs u s).1 = m.freshChain nl rnd cfg hs u := by
  induction hs generalizing u s with
  | nil => rfl
  | cons h hs ih =>
    have h1 := C15_step_fresh_as m nl u s hf rnd cfg h
    simp only [ASSolver.chain, ASSolver.freshChain]
    rcases hst : m.step nl rnd cfg u h s with ⟨r, s'⟩
    rw [← h1, hst]
    cases r with
    | error e => rw [PyM.bind_error hst]; rfl
    | ok v =>
      rw [PyM.bind_ok hst]
      have h2 := ih v.1 s' (hf.step (v := v.1) (hu := v.2.1) (hs := v.2.2) hst)
      rcases hch : m.chain nl rnd cfg hs v.1 s' with ⟨r', s''⟩
      rw [hch] at h2
      simp only at h2
      change _ = (do let vs ← m.freshChain nl rnd cfg hs v.1; Except.ok (v :: vs))
      rw [← h2]
      cases r' with
      | error e => rw [PyM.bind_error hch]; rfl
      | ok vs => rw [PyM.bind_ok hch]; rfl

/-- Three steps of different sizes with IF4, and two with `demo`; the second step by itself. -/
example (L u : Vec (Fin 2)) :
    (let m := CSSolver.if4 (.diag L)
     (m.chain (fun x => .ok (x * x)) [1 / 10, 1 / 5, 1 / 10] u m.new).1 = m.freshChain (fun x => .ok (x * x)) [1 / 10, 1 / 5, 1 / 10] u ∧
     ∀ v s1, m.step (fun x => .ok (x * x)) u (1 / 10) m.new = (.ok v, s1) →
      (m.step (fun x => .ok (x * x)) v (1 / 5) s1).1 = (m.step (fun x => .ok (x * x)) v (1 / 5) m.new).1) ∧
    (demo.chain (fun x => .ok x) id demoCfg [1, 4] 1 demo.new).1 = demo.freshChain (fun x => .ok x) id demoCfg [1, 4] 1 ∧
    ∃ s1, demo.step (fun x => .ok x) id demoCfg 1 1 demo.new = (.ok ((65 / 24 : ℂ) • 1, 1, 4), s1) ∧
      (demo.step (fun x => .ok x) id demoCfg ((65 / 24 : ℂ) • 1) 4 s1).1 =
        (demo.step (fun x => .ok x) id demoCfg ((65 / 24 : ℂ) • 1) 4 demo.new).1 := by
  refine ⟨⟨C15_chain_cs _ _ _ _ _ (.new _), fun v s1 h => C15_step_fresh_cs _ _ _ _ (.step (.new _) h) _⟩, C15_chain_as _ _ _ _ _ _ _ (.new _),
    _, Prod.ext demo_step rfl, C15_step_fresh_as _ _ _ _ (.step (.new _) (Prod.ext demo_step rfl)) _ _ _⟩

/-! ### C18: retry after an exception -/

/-- **C18.** An exception of `nl_func` at whichever stage is the outcome of `step`, and afterwards `step` with the same
array and any step size behaves as on a new object. -/
theorem C18_retry_cs (m : CSSolver ι) (nl : NlFunc ι) (u : Vec ι) (s : m.State) (hf : m.Follows nl u s) (h : ℝ)
    (hh : 0 ≤ h) (hc : m.CoefOk h) (e : PyErr) (hr : (m.method h).step nl u = .error e) :
    (m.step nl u h s).1 = .error e ∧
    ∀ h', (m.step nl u h' (m.step nl u h s).2).1 = (m.step nl u h' m.new).1 := by
  have h1 : m.oneStep nl h u = .error e := by unfold CSSolver.oneStep; rw [if_pos hc, hr]; rfl
  have h2 : (m.step nl u h s).1 = .error e := by rw [C15_step_fresh_cs m nl u s hf h, m.step_new nl u h hh, h1]
  refine ⟨h2, fun h' => ?_⟩
  have hi : (m.lawful nl).Inv (m.step nl u h s).2.sub u := by
    unfold CSSolver.step
    rw [CSClass.step_apply _ _ hh]
    exact (m.lawful nl).inv_err _ _ _ _ hf.inv hc h1
  by_cases hh' : 0 ≤ h'
  · rw [m.step_new nl u h' hh']
    conv_lhs => unfold CSSolver.step
    rw [CSClass.step_apply _ _ hh']
    exact (m.lawful nl).result _ _ _ hi
  · rw [m.step_neg nl u h' (not_le.mp hh'), m.step_neg nl u h' (not_le.mp hh')]

/-- **C18.** For adaptive solvers: if a trial of `step` raises an exception of `nl_func` (any trial, any stage), it is
the outcome, and afterwards `step` with the same array and any step size behaves as on a new object. -/
theorem C18_retry_as (m : ASSolver ι) (nl : NlFunc ι) (rnd : ℝ → ℝ) (cfg : SolverConfig ℝ) (u : Vec ι) (s : m.State)
    (hf : m.Follows nl u s) (h : ℝ) (hh : 0 ≤ h) (j : ℕ) (hj : j ≤ 50) (hcur : ℝ)
    (hrej : RejectsTo (m.oneTrial nl) (m.factor nl cfg) cfg rnd u j h hcur) (e : PyErr)
    (hc : e ≠ .linAlgError ∨ ∀ h, m.CoefOk h) (hr : m.oneTrial nl hcur u = .error e) :
    (m.step nl rnd cfg u h s).1 = .error e ∧
    ∀ rnd' cfg' h', (m.step nl rnd' cfg' u h' (m.step nl rnd cfg u h s).2).1 = (m.step nl rnd' cfg' u h' m.new).1 := by
  have h2 : (m.step nl rnd cfg u h s).1 = .error e := by
    rw [C15_step_fresh_as m nl u s hf rnd cfg h, ← m.stepSpec_iff nl rnd cfg u h hh]
    exact .raised hj hrej hr
  refine ⟨h2, fun rnd' cfg' h' => ?_⟩
  have hi : (m.lawful nl).Ready (m.step nl rnd cfg u h s).2.sub (m.step nl rnd cfg u h s).2.accept u := by
    unfold ASSolver.step at h2 ⊢
    rw [ASClass.step_nonneg _ _ _ _ hh] at h2 ⊢
    exact ASClass.stepLoop_err_ready (m.lawful nl) rnd cfg u e (fun h' he => by
      rw [m.lawful_coefOk nl]; exact hc.elim (fun hc => m.coefOk_of_error nl he hc) (fun hc => hc h'))
      MAX_LOOPS 0 h s rfl (Nat.zero_le _) hf.ready h2
  exact ASClass.step_congr (m.lawful nl) rnd' cfg' u h' _ _ hi (m.init_ready nl u)

/-- A term that is only defined at 1: the first step raises; after that the object behaves like a new one. -/
noncomputable def onlyOne : NlFunc (Fin 1) := fun v => if v = 1 then .ok 1 else .error (.nlFunc 7)

example (h' : ℝ) (cfg cfg' : SolverConfig ℝ) :
    (let m := CSSolver.if4 (.diag (0 : Vec (Fin 1)))
     (m.step onlyOne 1 1 m.new).1 = .error (.nlFunc 7) ∧
      (m.step onlyOne 1 h' (m.step onlyOne 1 1 m.new).2).1 = (m.step onlyOne 1 h' m.new).1) ∧
    (demo.step onlyOne id cfg 1 1 demo.new).1 = .error (.nlFunc 7) ∧
      (demo.step onlyOne id cfg' 1 h' (demo.step onlyOne id cfg 1 1 demo.new).2).1 = (demo.step onlyOne id cfg' 1 h' demo.new).1 := by
  have he : ∀ θ : ℝ, expm (0 : Mat (Fin 1)) θ = 1 := fun θ => by rw [← Matrix.diagonal_zero]; exact expm_zeroMat θ
  have h1 : ((CSSolver.if4 (.diag (0 : Vec (Fin 1)))).method 1).step onlyOne 1 = .error (.nlFunc 7) := by
    simp [CSSolver.method, lawson, LinOp.mat, he, rk4, ERK.step, ERK.stages, ERK.arg,
      onlyOne, Function.update, smul_mulVec]
  have h2 : demo.oneTrial onlyOne 1 1 = .error (.nlFunc 7) := by
    simp [demo, ASSolver.oneTrial, ASSolver.CoefOk, ASSolver.method, ASSolver.op, ASOp.inner, ASOp.emb, ASOp.prj, lawson, LinOp.mat, he,
      rk4, ERK.step, ERK.stages, ERK.arg, onlyOne, Function.update, Except.map, smul_mulVec]
  refine ⟨?_, ?_⟩
  · obtain ⟨a, b⟩ := C18_retry_cs (.if4 (.diag 0)) onlyOne 1 _ (.new _) 1 zero_le_one trivial _ h1
    exact ⟨a, b h'⟩
  · obtain ⟨a, b⟩ := C18_retry_as demo onlyOne id cfg 1 _ (.new _) 1 zero_le_one 0 (by norm_num) 1 (.zero 1) _ (Or.inl (by simp)) h2
    exact ⟨a, b id cfg' h'⟩

/-! ### C16: another array after a successful step -/

/-- **C16.** After a successful `step` that returned `v`, constant-step solvers use `nl_func(v)` as first stage value for
every array `u'`. -/
theorem C16_stale_cs (m : CSSolver ι) (nl : NlFunc ι) (u v : Vec ι) (s s1 : m.State) (hf : m.Follows nl u s) (h : ℝ)
    (hst : m.step nl u h s = (.ok v, s1)) :
    ∃ n, nl v = .ok n ∧ ∀ (u' : Vec ι) (h' : ℝ), 0 ≤ h' → m.CoefOk h' →
      (m.step nl u' h' s1).1 = ((m.method h').stepFrom nl n u').map Prod.fst := by
  have hh : 0 ≤ h := by
    by_contra hc; rw [m.step_neg nl u h (not_le.mp hc)] at hst; simp at hst
  unfold CSSolver.step at hst
  rw [CSClass.step_apply _ _ hh] at hst
  simp only [Prod.mk.injEq] at hst
  obtain ⟨hs1, hs2⟩ := hst
  have hi := hf.inv
  have hΦ : m.oneStep nl h u = .ok v := by rw [← (m.lawful nl).result _ _ _ hi]; exact hs1
  rw [m.cls_eq nl] at hs1 hs2
  unfold CSSolver.oneStep at hΦ
  split at hΦ
  swap
  · simp at hΦ
  rename_i hc
  cases hr : (m.method h).step nl u with
  | error e => rw [hr] at hΦ; simp [Except.map] at hΦ
  | ok r =>
    rw [hr] at hΦ
    obtain rfl : r.1 = v := by simpa [Except.map] using hΦ
    obtain ⟨n, w1, w2⟩ := (m.law nl).wrap_ok hi hc hr
    refine ⟨n, w2, fun u' h' hh' hc' => ?_⟩
    have hsub : s1.sub = ⟨true, some h, ⟨(m.law nl).coefs h, n, s.sub.method.evals + (if s.sub.n1init then 0 else 1) +
        (m.law nl).cost⟩⟩ := by
      rw [← hs2]
      show (IF4.updateStages (m.strategy nl) u h s.sub).2 = _
      rw [w1]
    unfold CSSolver.step
    rw [CSClass.step_apply _ _ hh', m.cls_eq nl]
    show (IF4.updateStages (m.strategy nl) u' h' s1.sub).1 = _
    have hi1 : (m.law nl).Inv s1.sub r.1 := by
      rw [hsub]; exact ⟨by rintro h' ⟨⟩; exact ⟨hc, rfl⟩, fun _ => w2⟩
    unfold IF4.updateStages
    rw [PyM.bind_ok ((m.law nl).wrap_coeffs_ok hi1 hc')]
    simp only [PyM.bind_get_apply, hsub, Bool.true_eq_false, if_false]
    obtain ⟨g1, g2⟩ := (m.law nl).stages u' h' ⟨(m.law nl).coefs h', n, s.sub.method.evals +
      (if s.sub.n1init then 0 else 1) + (m.law nl).cost⟩ rfl
    cases hq : (m.method h').stepFrom nl n u' with
    | ok q => obtain ⟨n', k1, -⟩ := g1 q hq; simp [Wrap.onMethod, k1, Except.map]
    | error e => obtain ⟨j, -, k1⟩ := g2 e hq; simp [Wrap.onMethod, k1, Except.map]

/-- The trial map in which `n` is used in place of `nl_func(w)`. -/
noncomputable def ASSolver.trialFrom (m : ASSolver ι) (nl : NlFunc ι) (n : Vec ι) (h : ℝ) (w : Vec ι) :
    Except PyErr (Vec ι × Vec ι) :=
  open Classical in
  if m.CoefOk h then
    ((m.method h).stepFrom (fun x => (nl (m.op.emb x)).map m.op.prj) (m.op.prj n) (m.op.prj w)).map
      fun r => (m.op.emb r.1, r.2)
  else .error .linAlgError

theorem ASSolver.trialFrom_eq (m : ASSolver ι) (nl : NlFunc ι) (n : Vec ι) (h : ℝ) (w : Vec ι) :
    m.trialFrom nl n h w = staleStep m.CoefOk m.method m.op.emb m.op.prj nl (m.op.prj n) (m.op.prj w) h := rfl

theorem ASSolver.conj_prj (m : ASSolver ι) (nl : NlFunc ι) (u n1 : Vec ι)
    (h : conj m.op.emb m.op.prj nl (m.op.prj u) = .ok n1) : ∃ n, nl u = .ok n ∧ m.op.prj n = n1 := by
  unfold conj at h
  rw [m.emb_prj] at h
  cases hn : nl u with
  | error e => rw [hn] at h; simp [Except.map] at h
  | ok n => rw [hn] at h; exact ⟨n, rfl, by simpa [Except.map] using h⟩

/-- **C16.** After a successful `step` that returned `v`, IF34, ETD34 and IF45DP use `nl_func(v)` as first stage value
for every array `u'`, in all trials of the step. -/
theorem C16_stale_as (m : ASSolver ι) (hm : ∀ cfg L, m ≠ .etd35 cfg L) (nl : NlFunc ι) (rnd : ℝ → ℝ)
    (cfg : SolverConfig ℝ) (u v : Vec ι) (s s1 : m.State) (hf : m.Follows nl u s) (h hu hs : ℝ)
    (hst : m.step nl rnd cfg u h s = (.ok (v, hu, hs), s1)) :
    ∃ n, nl v = .ok n ∧ ∀ (rnd' : ℝ → ℝ) (cfg' : SolverConfig ℝ) (u' : Vec ι) (h' : ℝ), 0 ≤ h' →
      StepSpec (m.trialFrom nl n) (m.factor nl cfg') cfg' rnd' u' h' (m.step nl rnd' cfg' u' h' s1).1 := by
  have hfs : m.isFsal := by
    cases m with
    | etd35 c L => exact absurd rfl (hm c L)
    | _ => trivial
  have hh : 0 ≤ h := by
    by_contra hc
    unfold ASSolver.step at hst
    rw [ASClass.step_neg _ _ _ _ hc] at hst; simp at hst
  obtain ⟨l1, l2, -, l4, -⟩ := m.step_left nl rnd cfg u h hh s hf.ready (by rw [hst]; simp)
  rw [hst] at l1 l2 l4
  simp only at l1 l2 l4
  obtain ⟨acc, l5⟩ := l4 _ rfl
  rw [m.fsal_next nl hfs] at l5
  obtain ⟨n, hn1, hn2⟩ := m.conj_prj nl v _ l5
  refine ⟨n, hn1, fun rnd' cfg' u' h' hh' => ?_⟩
  have hw : ∀ s : m.Sub, (m.useV = true → s.method.v = m.op.prj u') → working m.useV m.op.prj s.method u' = m.op.prj u' := by
    intro s hv
    unfold working
    cases hu : m.useV with
    | true => exact hv hu
    | false => rfl
  have key : ∀ (s : m.Sub) (a : Bool) (k : ℝ), (s.n1init = true ∧
      (∀ h, s.hCoeff = some h → m.CoefOk h ∧ s.method.coef = (m.stale nl).coefs h) ∧
      (a = true → s.method.NLlast = m.op.prj n) ∧
      (a = false → s.method.NL1 = m.op.prj n ∧ (m.useV = true → s.method.v = m.op.prj u'))) →
      (IF34.updateStages (m.strategy nl) u' k a s).1 = m.trialFrom nl n k u' ∧
      ∀ r, (IF34.updateStages (m.strategy nl) u' k a s).1 = .ok r →
        (IF34.updateStages (m.strategy nl) u' k a s).2.n1init = true ∧
        (∀ h', (IF34.updateStages (m.strategy nl) u' k a s).2.hCoeff = some h' → m.CoefOk h' ∧
          (IF34.updateStages (m.strategy nl) u' k a s).2.method.coef = (m.stale nl).coefs h') ∧
        (IF34.updateStages (m.strategy nl) u' k a s).2.method.NL1 = m.op.prj n ∧
        (m.useV = true → (IF34.updateStages (m.strategy nl) u' k a s).2.method.v = m.op.prj u') := by
    rintro s a k ⟨p1, p2, p3, p4⟩
    rw [m.trialFrom_eq]
    cases a with
    | true =>
      obtain ⟨q1, q2⟩ := m.trial_acc nl hfs u' k s p1 p2
      rw [p3 rfl] at q1 q2
      exact ⟨q1, q2⟩
    | false =>
      obtain ⟨q1, q2⟩ := (m.stale nl).trial u' k s p1 p2
      rw [hw s (p4 rfl).2, (p4 rfl).1] at q1
      refine ⟨q1, fun r hr => ?_⟩
      obtain ⟨r1, r2, r3, r4⟩ := q2 r hr
      exact ⟨r1, r2, by rw [r3]; exact (p4 rfl).1, fun hv => by rw [r4]; exact (p4 rfl).2 hv⟩
  unfold ASSolver.step
  refine ASClass.step_spec_of (Φ := m.trialFrom nl n)
    (fun s a => s.n1init = true ∧ (∀ h, s.hCoeff = some h → m.CoefOk h ∧ s.method.coef = (m.stale nl).coefs h) ∧
      (a = true → s.method.NLlast = m.op.prj n) ∧
      (a = false → s.method.NL1 = m.op.prj n ∧ (m.useV = true → s.method.v = m.op.prj u'))) rnd' cfg' u' ?_ ?_ h' hh' s1
      ⟨l1, l2, fun _ => hn2.symm, by rw [acc]; simp⟩
  · intro s a k hp
    rw [m.updateStages_eq nl u' k a s (by rw [hp.1]; simp)]
    exact (key s a k hp).1
  · intro s a k r hp hr
    rw [m.updateStages_eq nl u' k a s (by rw [hp.1]; simp)]
    obtain ⟨k1, k2⟩ := key s a k hp
    obtain ⟨r1, r2, r3, r4⟩ := k2 r (by rw [k1]; exact hr)
    exact ⟨r1, r2, by simp, fun _ => ⟨r3, r4⟩⟩

/-- **C16.** After a successful `step`, ETD35 treats every array as a new object does. -/
theorem C16_etd35 (m : ASSolver ι) (hm : ∃ cfg L, m = .etd35 cfg L) (nl : NlFunc ι) (rnd : ℝ → ℝ)
    (cfg : SolverConfig ℝ) (u v : Vec ι) (s s1 : m.State) (hf : m.Follows nl u s) (h hu hs : ℝ)
    (hst : m.step nl rnd cfg u h s = (.ok (v, hu, hs), s1)) (rnd' : ℝ → ℝ) (cfg' : SolverConfig ℝ) (u' : Vec ι)
    (h' : ℝ) : (m.step nl rnd' cfg' u' h' s1).1 = (m.step nl rnd' cfg' u' h' m.new).1 := by
  have hfs : ¬ m.isFsal := by obtain ⟨c, L, rfl⟩ := hm; exact id
  have hh : 0 ≤ h := by
    by_contra hc
    unfold ASSolver.step at hst
    rw [ASClass.step_neg _ _ _ _ hc] at hst; simp at hst
  obtain ⟨l1, l2, -, l4, -⟩ := m.step_left nl rnd cfg u h hh s hf.ready (by rw [hst]; simp)
  rw [hst] at l1 l2 l4
  simp only at l1 l2 l4
  obtain ⟨acc, l5⟩ := l4 _ rfl
  refine ASClass.step_congr (m.lawful nl) rnd' cfg' u' h' s1 m.new ?_ (m.init_ready nl u')
  rw [m.lawful_ready nl]
  refine ⟨?_, by rw [l1]; simp, ?_⟩
  · rw [m.aslaw_coefs nl]; exact l2
  · intro _
    rw [acc]
    exact ⟨fun _ => m.fresh_next nl hfs _ _, by simp⟩

/-- After the step of `demo`, a step on another array `w` starts with the term of `(65/24)`; ETD35 does not. -/
example (w : Vec (Fin 1)) (L u v : Vec (Fin 1)) (e : ETDConfig ℝ) (cfg cfg' : SolverConfig ℝ) (hu hs : ℝ) :
    (∃ s1, demo.step (fun x => .ok x) id demoCfg 1 1 demo.new = (.ok ((65 / 24 : ℂ) • 1, 1, 4), s1) ∧
      StepSpec (demo.trialFrom (fun x => .ok x) ((65 / 24 : ℂ) • 1)) (demo.factor (fun x => .ok x) demoCfg) demoCfg id w 1
        (demo.step (fun x => .ok x) id demoCfg w 1 s1).1) ∧
    (let m := ASSolver.etd35 e (.diag L)
     ∀ s1, m.step (fun x => .ok (x * x)) id cfg u 1 m.new = (.ok (v, hu, hs), s1) →
      (m.step (fun x => .ok (x * x)) id cfg' w 2 s1).1 = (m.step (fun x => .ok (x * x)) id cfg' w 2 m.new).1) := by
  refine ⟨⟨_, Prod.ext demo_step rfl, ?_⟩, fun s1 h => C16_etd35 _ ⟨e, _, rfl⟩ _ _ _ _ _ _ _ (.new _) _ _ _ h _ _ _ _⟩
  obtain ⟨n, h1, h2⟩ := C16_stale_as demo (by simp [demo]) (fun x => .ok x) id demoCfg 1 _ _ _ (.new _) 1 _ _ (Prod.ext demo_step rfl)
  simp only [Except.ok.injEq] at h1
  rw [h1]
  exact h2 id demoCfg w 1 zero_le_one

/-- The same for IF4 with `u' = u`: the first step returns `65/24`. -/
example (w v : Vec (Fin 1)) (s1 : (CSSolver.if4 (.diag (0 : Vec (Fin 1)))).State)
    (hst : (CSSolver.if4 (.diag 0)).step (fun x => .ok x) 1 1 (CSSolver.if4 (.diag 0)).new = (.ok v, s1)) :
    ((CSSolver.if4 (.diag 0)).step (fun x => .ok x) w 2 s1).1 =
      (((CSSolver.if4 (.diag 0)).method 2).stepFrom (fun x => .ok x) v w).map Prod.fst := by
  obtain ⟨n, h1, h2⟩ := C16_stale_cs (.if4 (.diag 0)) (fun x => .ok x) 1 v _ s1 (.new _) 1 hst
  simp only [Except.ok.injEq] at h1
  rw [h1]
  exact h2 w 2 (by norm_num) trivial

/-! ### C17: another array after a failed step -/

theorem ASSolver.oneTrial_err_nl (m : ASSolver ι) (nl : NlFunc ι) {h : ℝ} {u : Vec ι} {e : PyErr}
    (he : e = .minimumStepReached ∨ e = .maxLoopsExceeded) (hnl : ∀ x, nl x ≠ .error e) : m.oneTrial nl h u ≠ .error e := by
  intro ho
  rcases m.oneTrial_error nl h u e ho with h1 | ⟨x, h1⟩
  · rcases he with rfl | rfl <;> simp at h1
  · exact hnl x h1

/-- The state after a step that gave up. -/
theorem ASSolver.gave_up (m : ASSolver ι) (nl : NlFunc ι) (rnd : ℝ → ℝ) (cfg : SolverConfig ℝ) (u : Vec ι)
    (s s1 : m.State) (hf : m.Follows nl u s) (h : ℝ) (e : PyErr) (he : e = .minimumStepReached ∨ e = .maxLoopsExceeded)
    (hnl : ∀ x, nl x ≠ .error e) (hst : m.step nl rnd cfg u h s = (.error e, s1)) :
    ∃ n, nl u = .ok n ∧ s1.sub.n1init = true ∧ s1.accept = false ∧
      (∀ h', s1.sub.hCoeff = some h' → m.CoefOk h' ∧ s1.sub.method.coef = (m.stale nl).coefs h') ∧
      s1.sub.method.NL1 = m.op.prj n ∧ (m.useV = true → s1.sub.method.v = m.op.prj u) := by
  have hh : 0 ≤ h := by
    by_contra hc
    unfold ASSolver.step at hst
    rw [ASClass.step_neg _ _ _ _ hc] at hst
    rcases he with rfl | rfl <;> simp at hst
  obtain ⟨l1, l2, l3, -, l5⟩ := m.step_left nl rnd cfg u h hh s hf.ready (by
    rw [hst]; rintro e' ⟨⟩ h'; exact m.oneTrial_err_nl nl he hnl)
  rw [hst] at l1 l2 l3 l5
  simp only at l1 l2 l3 l5
  obtain ⟨n, hn1, hn2⟩ := m.conj_prj nl u _ l3.1
  exact ⟨n, hn1, l1, l5 _ rfl, l2, hn2.symm, l3.2⟩

/-- A step from a state left behind by a failed one: first stage value `n1`, start `w` when the strategy keeps it. -/
theorem ASSolver.step_stale (m : ASSolver ι) (nl : NlFunc ι) (rnd : ℝ → ℝ) (cfg : SolverConfig ℝ) (s : m.State)
    (u n1 w : Vec ι) (hn : s.sub.n1init = true) (ha : s.accept = false)
    (hc : ∀ h', s.sub.hCoeff = some h' → m.CoefOk h' ∧ s.sub.method.coef = (m.stale nl).coefs h')
    (h1 : s.sub.method.NL1 = n1) (h2 : working m.useV m.op.prj s.sub.method u = w)
    (h : ℝ) (hh : 0 ≤ h) :
    StepSpec (fun h _ => staleStep m.CoefOk m.method m.op.emb m.op.prj nl n1 w h) (m.factor nl cfg) cfg rnd u h
      (m.step nl rnd cfg u h s).1 := by
  unfold ASSolver.step
  refine ASClass.step_spec_of
    (fun s a => a = false ∧ s.n1init = true ∧
      (∀ h, s.hCoeff = some h → m.CoefOk h ∧ s.method.coef = (m.stale nl).coefs h) ∧
      s.method.NL1 = n1 ∧ working m.useV m.op.prj s.method u = w) rnd cfg u ?_ ?_ h hh s
      ⟨ha, hn, hc, h1, h2⟩
  · rintro s a k ⟨rfl, p1, p2, p3, p4⟩
    rw [m.updateStages_eq nl u k false s (fun _ => rfl), ((m.stale nl).trial u k s p1 p2).1, p3, p4]
  · rintro s a k r ⟨rfl, p1, p2, p3, p4⟩ hr
    rw [m.updateStages_eq nl u k false s (fun _ => rfl)]
    obtain ⟨q1, q2⟩ := (m.stale nl).trial u k s p1 p2
    rw [p3, p4] at q1
    obtain ⟨r1, r2, r3, r4⟩ := q2 r (by rw [q1]; exact hr)
    refine ⟨rfl, r1, r2, by rw [r3, p3], ?_⟩
    rw [← p4]
    unfold working
    rw [r4]

theorem RejectsTo.congr_at {V : Type} {Φ Φ' : ℝ → V → Except PyErr (V × V)} {S : V × V → Ext ℝ} {cfg : SolverConfig ℝ}
    {rnd : ℝ → ℝ} {u u' : V} (hΦ : ∀ k, Φ k u = Φ' k u') {j : ℕ} {h h' : ℝ} (hr : RejectsTo Φ S cfg rnd u j h h') :
    RejectsTo Φ' S cfg rnd u' j h h' := by
  induction hr with
  | zero h => exact .zero h
  | succ _ hok hna hm ih => exact .succ ih (by rw [← hΦ]; exact hok) hna hm

/-- The outcome of a step depends only on the trials with the given array. -/
theorem StepSpec.congr_at {V : Type} {Φ Φ' : ℝ → V → Except PyErr (V × V)} {S : V × V → Ext ℝ} {cfg : SolverConfig ℝ}
    {rnd : ℝ → ℝ} {u u' : V} (hΦ : ∀ k, Φ k u = Φ' k u') {h : ℝ} {r : Except PyErr (V × ℝ × ℝ)}
    (hs : StepSpec Φ S cfg rnd u h r) : StepSpec Φ' S cfg rnd u' h r := by
  cases hs with
  | accept hj hr hok hx h1 => exact .accept hj (hr.congr_at hΦ) (by rw [← hΦ]; exact hok) hx h1
  | minStep hj hr hok hna hm => exact .minStep hj (hr.congr_at hΦ) (by rw [← hΦ]; exact hok) hna hm
  | maxLoops hr hok hna => exact .maxLoops (hr.congr_at hΦ) (by rw [← hΦ]; exact hok) hna
  | raised hj hr hok => exact .raised hj (hr.congr_at hΦ) (by rw [← hΦ]; exact hok)

/-- **C17.** After a `step` on `u` that gave up, a solver without diagonalization uses `nl_func(u)` as first stage value
for every array `u'`, in all trials. -/
theorem C17_stale (m : ASSolver ι) (hm : ∀ lam S Sinv hS, m.op ≠ .eig lam S Sinv hS) (nl : NlFunc ι) (rnd : ℝ → ℝ)
    (cfg : SolverConfig ℝ) (u : Vec ι) (s s1 : m.State) (hf : m.Follows nl u s) (h : ℝ) (e : PyErr)
    (he : e = .minimumStepReached ∨ e = .maxLoopsExceeded) (hnl : ∀ x, nl x ≠ .error e)
    (hst : m.step nl rnd cfg u h s = (.error e, s1)) :
    ∃ n, nl u = .ok n ∧ ∀ (rnd' : ℝ → ℝ) (cfg' : SolverConfig ℝ) (u' : Vec ι) (h' : ℝ), 0 ≤ h' →
      StepSpec (m.trialFrom nl n) (m.factor nl cfg') cfg' rnd' u' h' (m.step nl rnd' cfg' u' h' s1).1 := by
  obtain ⟨n, g1, g2, g3, g4, g5, -⟩ := m.gave_up nl rnd cfg u s s1 hf h e he hnl hst
  have hv : m.useV = false := by
    unfold ASSolver.useV
    cases ho : m.op with
    | eig lam S Sinv hS => exact absurd ho (hm lam S Sinv hS)
    | _ => rfl
  refine ⟨n, g1, fun rnd' cfg' u' h' hh' => ?_⟩
  have hw : working m.useV m.op.prj s1.sub.method u' = m.op.prj u' := by rw [hv]; rfl
  have := m.step_stale nl rnd' cfg' s1 u' _ _ g2 g3 g4 g5 hw h' hh'
  exact this.congr_at fun k => (m.trialFrom_eq nl n k u').symm

/-- **C17.** With the diagonalized strategy the array `u'` is not looked at: the result is that for `u`. -/
theorem C17_ignored (m : ASSolver ι) (hm : ∃ lam S Sinv hS, m.op = .eig lam S Sinv hS) (nl : NlFunc ι) (rnd : ℝ → ℝ)
    (cfg : SolverConfig ℝ) (u : Vec ι) (s s1 : m.State) (hf : m.Follows nl u s) (h : ℝ) (e : PyErr)
    (he : e = .minimumStepReached ∨ e = .maxLoopsExceeded) (hnl : ∀ x, nl x ≠ .error e)
    (hst : m.step nl rnd cfg u h s = (.error e, s1)) (rnd' : ℝ → ℝ) (cfg' : SolverConfig ℝ) (u' : Vec ι) (h' : ℝ) :
    (m.step nl rnd' cfg' u' h' s1).1 = (m.step nl rnd' cfg' u h' m.new).1 := by
  obtain ⟨n, g1, g2, g3, g4, g5, g6⟩ := m.gave_up nl rnd cfg u s s1 hf h e he hnl hst
  have hv : m.useV = true := by
    obtain ⟨lam, S, Sinv, hS, ho⟩ := hm
    unfold ASSolver.useV
    rw [ho]
  by_cases hh' : 0 ≤ h'
  · have hw : working m.useV m.op.prj s1.sub.method u' = m.op.prj u := by rw [← g6 hv]; rw [hv]; rfl
    have hw' : working m.useV m.op.prj s1.sub.method u = m.op.prj u := by rw [← g6 hv]; rw [hv]; rfl
    have a1 := m.step_stale nl rnd' cfg' s1 u' _ _ g2 g3 g4 g5 hw h' hh'
    have a2 := m.step_stale nl rnd' cfg' s1 u _ _ g2 g3 g4 g5 hw' h' hh'
    have hne : e ≠ .linAlgError := by rcases he with rfl | rfl <;> simp
    rw [← C15_step_fresh_as m nl u s1 (hf.retry hst hne) rnd' cfg' h']
    exact StepSpec.det (StepSpec.congr_at (u := u') (u' := u) (fun k => rfl) a1) a2
  · unfold ASSolver.step
    rw [ASClass.step_neg _ _ _ _ hh', ASClass.step_neg _ _ _ _ hh']

/-- A step of a linear problem gives up.  A second step on another array `w` then starts with the term of the first array,
or, for a diagonalized strategy, from the first array itself. -/
example (w : Vec (Fin 1)) : (∃ e s1, demo.step (fun _ => .ok 0) id demoCfg 1 1 demo.new = (.error e, s1) ∧
      StepSpec (demo.trialFrom (fun _ => .ok 0) 0) (demo.factor (fun _ => .ok 0) demoCfg) demoCfg id w 1
        (demo.step (fun _ => .ok 0) id demoCfg w 1 s1).1) ∧
    let m := ASSolver.if34 (.eig ![-1] (1 : Mat (Fin 1)) 1 (mul_one 1))
    ∃ e s1, m.step (fun _ => .ok 0) id demoCfg 1 1 m.new = (.error e, s1) ∧
      (m.step (fun _ => .ok 0) id demoCfg w 1 s1).1 = (m.step (fun _ => .ok 0) id demoCfg 1 1 m.new).1 := by
  have key : ∀ m : ASSolver (Fin 1), (∀ h, m.CoefOk h) → ∃ e, (e = .minimumStepReached ∨ e = .maxLoopsExceeded) ∧
      (m.step (fun _ => .ok 0) id demoCfg 1 1 m.new).1 = .error e := by
    intro m hm
    rcases C10_linear_step m id demoCfg 1 1 zero_le_one with h | h | ⟨-, h, hc⟩
    · exact ⟨_, Or.inl rfl, h⟩
    · exact ⟨_, Or.inr rfl, h⟩
    · exact absurd (hm h) hc
  constructor
  · obtain ⟨e, he, h⟩ := key demo fun _ => trivial
    obtain ⟨n, h1, h2⟩ := C17_stale demo (by simp [demo, ASSolver.op]) (fun _ => .ok 0) id demoCfg 1 _ _ (.new _) 1 e he (by simp)
      (Prod.ext h rfl)
    simp only [Except.ok.injEq] at h1
    subst h1
    refine ⟨e, _, Prod.ext h rfl, ?_⟩
    exact h2 id demoCfg w 1 zero_le_one
  · obtain ⟨e, he, h⟩ := key (ASSolver.if34 (.eig ![-1] (1 : Mat (Fin 1)) 1 (mul_one 1))) fun _ => trivial
    exact ⟨e, _, Prod.ext h rfl, C17_ignored _ ⟨_, _, _, _, rfl⟩ _ _ _ _ _ _ (.new _) _ e he (by simp) (Prod.ext h rfl) _ _ _ _⟩

/-- **C17.** After `reset` every array is treated as by a new object. -/
theorem C17_reset (m : ASSolver ι) (nl : NlFunc ι) (s : m.State) (rnd : ℝ → ℝ) (cfg : SolverConfig ℝ) (u : Vec ι) (h : ℝ) :
    (m.step nl rnd cfg u h (m.reset nl s).2).1 = (m.step nl rnd cfg u h m.new).1 :=
  C15_step_fresh_as m nl u _ (.reset u s) rnd cfg h

/-- **C17.** The same for constant-step solvers. -/
theorem C17_reset_cs (m : CSSolver ι) (nl : NlFunc ι) (s : m.State) (u : Vec ι) (h : ℝ) :
    (m.step nl u h (m.reset nl s).2).1 = (m.step nl u h m.new).1 :=
  C15_step_fresh_cs m nl u _ (.reset u s) h

/-- `reset` after a step that gave up, and in the middle of anything. -/
example (w : Vec (Fin 1)) (L u : Vec (Fin 2)) (s : (CSSolver.if4 (.diag L)).State) :
    (demo.step (fun _ => .ok 0) id demoCfg w 1 (demo.reset (fun _ => .ok 0) (demo.step (fun _ => .ok 0) id demoCfg 1 1 demo.new).2).2).1 =
      (demo.step (fun _ => .ok 0) id demoCfg w 1 demo.new).1 ∧
    ((CSSolver.if4 (.diag L)).step (fun x => .ok (x * x)) u 1 ((CSSolver.if4 (.diag L)).reset (fun x => .ok (x * x)) s).2).1 =
      ((CSSolver.if4 (.diag L)).step (fun x => .ok (x * x)) u 1 (CSSolver.if4 (.diag L)).new).1 :=
  ⟨C17_reset .., C17_reset_cs ..⟩

/-! ### C20: evaluations of `nl_func` -/

/-- Evaluations in a step that returns. -/
theorem CSSolver.stages_count (m : CSSolver ι) (nl : NlFunc ι) (h : ℝ) (u v : Vec ι) (s : m.Sub)
    (hi : (m.lawful nl).Inv s u) (hΦ : m.oneStep nl h u = .ok v) :
    ((m.cls nl).updateStages u h s).2.n1init = true ∧
    ((m.cls nl).updateStages u h s).2.method.evals = s.method.evals + (if s.n1init then 0 else 1) + m.cost := by
  rw [m.cls_eq nl]
  show (IF4.updateStages (m.strategy nl) u h s).2.n1init = true ∧ (IF4.updateStages (m.strategy nl) u h s).2.method.evals = _
  unfold CSSolver.oneStep at hΦ
  split at hΦ
  swap
  · simp at hΦ
  rename_i hc
  cases hr : (m.method h).step nl u with
  | error e => rw [hr] at hΦ; simp [Except.map] at hΦ
  | ok r =>
    obtain ⟨n, w1, w2⟩ := (m.law nl).wrap_ok (by rw [← m.lawful_inv nl]; exact hi) hc hr
    rw [w1, m.law_cost nl]
    exact ⟨rfl, rfl⟩

/-- **C20.** A constant-step run that returns has called `nl_func` `4n+1` times (IF4, ETD4) or `6n+1` times (ETD5), where
`n ≥ 1` is its number of steps, and not at all for `n = 0`. -/
theorem C20_evals_cs (m : CSSolver ι) (nl : NlFunc ι) (rnd : ℝ → ℝ) (pyDiv : Bool) (fuel : ℕ) (u v : Vec ι)
    (t0 tf h : ℝ) (storeData : Bool) (freq : ℤ) (s : m.State)
    (hret : (m.evolve nl rnd pyDiv fuel u t0 tf h storeData freq s).1 = .ok (some v)) :
    ∃ n : ℕ, (∀ k, k < n → timeAt rnd h t0 k < tf) ∧ ¬ timeAt rnd h t0 n < tf ∧
      CSSolver.evals (m.evolve nl rnd pyDiv fuel u t0 tf h storeData freq s).2 = CSSolver.evals s +
        if n = 0 then 0 else match m with
          | .if4 _ => 4 * n + 1
          | .etd4 _ _ => 4 * n + 1
          | .etd5 _ _ => 6 * n + 1 := by
  unfold CSSolver.evolve at hret ⊢
  rw [CSClass.evolve_apply] at hret ⊢
  split at hret
  · simp at hret
  rename_i hsp
  rw [if_neg hsp]
  have hst : ((m.cls nl).start u t0 tf storeData s).sub.n1init = false ∧
      ((m.cls nl).start u t0 tf storeData s).sub.method.evals = CSSolver.evals s := by
    rcases m with (_ | _) | ⟨_, _ | _⟩ | ⟨_, _ | _⟩ <;> exact ⟨rfl, rfl⟩
  obtain ⟨-, n, h1, h2, h3⟩ := CSClass.loop_inv_with (m.lawful nl) rnd pyDiv h storeData freq v
    (fun k sub => if k = 0 then sub.n1init = false ∧ sub.method.evals = CSSolver.evals s
      else sub.n1init = true ∧ sub.method.evals = CSSolver.evals s + (m.cost * k + 1)) (by
        intro k u v sub hi hΦ hp
        obtain ⟨c1, c2⟩ := m.stages_count nl h u v sub hi hΦ
        rw [if_neg (by omega)]
        refine ⟨c1, ?_⟩
        rw [c2]
        split at hp
        · rename_i hk; rw [hp.1, hp.2, hk]; simp; omega
        · rw [hp.1, hp.2]; simp; ring)
    fuel u 0 ((m.cls nl).start u t0 tf storeData s) ((m.lawful nl).reset_inv _ _) (by rw [if_pos rfl]; exact hst) hret
  refine ⟨n, h1, h2, ?_⟩
  rw [zero_add] at h3
  split at h3
  · rename_i hn; rw [if_pos hn]; exact h3.2
  · rename_i hn
    rw [if_neg hn]
    refine h3.2.trans ?_
    cases m <;> rfl

/-- **C20.** Evaluations of an adaptive run with `n` accepted steps and `a` trials: `4a+1` (IF34, ETD34), `6a+1` (IF45DP),
and for ETD35 `5a+1` and one more for each step accepted before the last trial; also if the run gives up. -/
theorem C20_evals_as (m : ASSolver ι) (nl : NlFunc ι) (pyDiv : Bool) (cfg : SolverConfig ℝ) (fuel : ℕ) (u : Vec ι)
    (t0 tf : ℝ) (hInit : Option ℝ) (storeData : Bool) (freq : ℤ) (s : m.State) (r : Except PyErr (Option (Vec ι)))
    (s' : m.State) (hrun : m.evolve nl id pyDiv cfg fuel u t0 tf hInit storeData freq s = (r, s')) :
    ∃ (n a : ℕ) (tm : ℕ → ℝ) (st : ℕ → Vec ι) (hp hu hs : ℕ → ℝ), tm 0 = t0 ∧ st 0 = u ∧
      hp 0 = firstProposal t0 tf hInit ∧ FreshRun m nl cfg tf n tm st hp hu hs ∧
      (∀ v, r = .ok (some v) → st n = v ∧ tf ≤ tm n ∧ s'.trials = s.trials + a ∧ n ≤ a ∧
        ASSolver.evals s' = ASSolver.evals s + if n = 0 then 0 else match m with
          | .if34 _ => 4 * a + 1
          | .etd34 _ _ => 4 * a + 1
          | .if45dp _ => 6 * a + 1
          | .etd35 _ _ => 5 * a + (n - 1) + 1) ∧
      (∀ e, r = .error e → e = .minimumStepReached ∨ e = .maxLoopsExceeded → (∀ x, nl x ≠ .error e) →
        tm n < tf ∧ (m.step nl id cfg (st n) (hp n) m.new).1 = .error e ∧ s'.trials = s.trials + a ∧ n < a ∧
        ASSolver.evals s' = ASSolver.evals s + match m with
          | .if34 _ => 4 * a + 1
          | .etd34 _ _ => 4 * a + 1
          | .if45dp _ => 6 * a + 1
          | .etd35 _ _ => 5 * a + n + 1) := by
  have hst : ((m.cls nl).start u t0 tf storeData s).sub.n1init = false ∧
      ((m.cls nl).start u t0 tf storeData s).sub.method.evals = ASSolver.evals s ∧
      ((m.cls nl).start u t0 tf storeData s).accept = false := by
    rcases m with (_ | _ | _) | ⟨_, _ | _ | _⟩ | ⟨_, _ | _ | _⟩ | _ <;> exact ⟨rfl, rfl, rfl⟩
  unfold ASSolver.evolve at hrun
  rw [ASClass.evolve_apply] at hrun
  obtain ⟨n, tm, st, hp, hu, h1, h2, h3, h4, h5, h6, h7, h8, h9, h10⟩ := ASClass.loop_run_with (m.lawful nl) id pyDiv cfg
    storeData freq (fun k sub acc tr => if k = 0 then sub.n1init = false ∧ sub.method.evals = ASSolver.evals s ∧
      acc = false ∧ tr = s.trials
      else sub.n1init = true ∧ acc = true ∧ ∃ a, k ≤ a ∧ tr = s.trials + a ∧
        sub.method.evals = ASSolver.evals s + (m.cost * a + m.refresh * (k - 1) + 1)) (by
        intro k u h s0 s1 r hr hp hstep
        have hh : 0 ≤ h := by
          by_contra hc; rw [ASClass.step_neg _ _ _ _ hc] at hstep; simp at hstep
        have hstep' : m.step nl id cfg u h s0 = (.ok r, s1) := hstep
        obtain ⟨j, c1, c2, c3⟩ := m.step_count nl id cfg u h hh s0 hr (by rw [hstep']; simp)
        have c4 := (C06_trials m nl id cfg u h s0).2.1 hh
        obtain ⟨-, -, -, c5, -⟩ := m.step_left nl id cfg u h hh s0 hr (by rw [hstep']; simp)
        rw [hstep'] at c1 c2 c3 c4 c5
        simp only at c1 c2 c3 c4 c5
        rw [if_neg (by omega)]
        refine ⟨c3, (c5 r rfl).1, ?_⟩
        have c2' : s1.sub.method.evals = s0.sub.method.evals + (if s0.sub.n1init = true then 0 else 1) + m.cost * j +
          (if s0.accept = true then m.refresh else 0) := c2
        split at hp
        · rename_i hk
          subst hk
          obtain ⟨p1, p2, p3, p4⟩ := hp
          refine ⟨j, by omega, by omega, ?_⟩
          rw [c2', p1, p2, p3]; simp; ring
        · rename_i hk
          obtain ⟨p1, p2, a, p3, p4, p5⟩ := hp
          refine ⟨a + j, by omega, by omega, ?_⟩
          obtain ⟨d, rfl⟩ : ∃ d, k = d + 1 := ⟨k - 1, by omega⟩
          rw [c2', p1, p2, p5]; simp; ring)
    fuel u (ASClass.firstSize id t0 tf hInit) 0 ((m.cls nl).start u t0 tf storeData s) ((m.lawful nl).reset_ready _ _) (by
      rw [if_pos rfl]; exact ⟨hst.1, hst.2.1, hst.2.2, rfl⟩)
  rw [zero_add] at h9 h10
  rw [hrun] at h7 h8 h9 h10
  simp only at h7 h8 h9 h10
  have hex : ∀ k, ∃ x, k < n → (m.step nl id cfg (st k) (hp k) m.new).1 = .ok (st (k + 1), hu k, x) ∧
      tm (k + 1) = tm k + hu k ∧ hp (k + 1) = min x (tf - tm (k + 1)) := by
    intro k
    by_cases hk : k < n
    · obtain ⟨a1, x, a2, a3, a4⟩ := h4.step k hk
      exact ⟨x, fun _ => ⟨(m.stepSpec_iff nl id cfg _ _ a1 _).mp a2, a3, by rw [a4, limitTo_id]; rfl⟩⟩
    · exact ⟨0, fun hc => absurd hc hk⟩
  choose hs hhs using hex
  have hFR : FreshRun m nl cfg tf n tm st hp hu hs := ⟨h4.before_end, fun k hk => (hhs k hk).1, fun k hk => (hhs k hk).2.1,
    fun k hk => (hhs k hk).2.2⟩
  have hfp : hp 0 = firstProposal t0 tf hInit := by rw [h3, ASClass.firstSize, limitTo_id]; rfl
  cases r with
  | ok o =>
    cases o with
    | none => exact ⟨n, 0, tm, st, hp, hu, hs, h1, h2, hfp, hFR, by simp, by simp⟩
    | some v =>
      obtain ⟨-, h9⟩ := h9 v rfl
      have hend : st n = v ∧ tf ≤ tm n := by
        cases h7 with
        | returned _ hge => exact ⟨rfl, not_lt.mp hge⟩
      split at h9
      · rename_i hn
        refine ⟨n, 0, tm, st, hp, hu, hs, h1, h2, hfp, hFR, ?_, by simp⟩
        rintro v' ⟨⟩
        exact ⟨hend.1, hend.2, h9.2.2.2, by omega, by rw [if_pos hn]; exact h9.2.1⟩
      · rename_i hn
        obtain ⟨p1, p2, a, p3, p4, p5⟩ := h9
        refine ⟨n, a, tm, st, hp, hu, hs, h1, h2, hfp, hFR, ?_, by simp⟩
        rintro v' ⟨⟩
        refine ⟨hend.1, hend.2, p4, p3, ?_⟩
        rw [if_neg hn]
        refine p5.trans ?_
        cases m <;> simp [ASSolver.cost, ASSolver.refresh]
  | error e =>
    by_cases he : (e = .minimumStepReached ∨ e = .maxLoopsExceeded) ∧ ∀ x, nl x ≠ .error e
    swap
    · exact ⟨n, 0, tm, st, hp, hu, hs, h1, h2, hfp, hFR, by simp, by rintro e' ⟨⟩ h1 h2; exact absurd ⟨h1, h2⟩ he⟩
    obtain ⟨he, hnl⟩ := he
    obtain ⟨s0, r0, p0, st0⟩ := h10 e rfl (by rcases he with rfl | rfl <;> simp)
    have hst0 : m.step nl id cfg (st n) (hp n) s0 = (.error e, s') := st0
    have hh : 0 ≤ hp n := by
      by_contra hc
      rw [ASClass.step_neg _ _ _ _ hc] at st0
      rcases he with rfl | rfl <;> simp at st0
    obtain ⟨j, c1, c2, c3⟩ := m.step_count nl id cfg (st n) (hp n) hh s0 r0 (by
      rw [hst0]; rintro e' ⟨⟩ h'; exact m.oneTrial_err_nl nl he hnl)
    have c4 := (C06_trials m nl id cfg (st n) (hp n) s0).2.1 hh
    have hfresh : (m.step nl id cfg (st n) (hp n) m.new).1 = .error e := by
      have := ASClass.step_congr (m.lawful nl) id cfg (st n) (hp n) s0 m.new r0 (m.init_ready nl _)
      rw [st0] at this
      exact this.symm
    rw [hst0] at c1 c2 c3 c4
    simp only at c1 c2 c3 c4
    have c2' : s'.sub.method.evals = s0.sub.method.evals + (if s0.sub.n1init = true then 0 else 1) + m.cost * j +
      (if s0.accept = true then m.refresh else 0) := c2
    have hlt : tm n < tf := by
      cases h7 with
      | stepRaised _ a2 _ _ => exact a2
      | negative _ a2 _ => exact a2
      | zeroDiv _ a2 _ _ _ => exact a2
    split at p0
    · rename_i hn
      obtain ⟨p1, p2, p3, p4⟩ := p0
      refine ⟨n, j, tm, st, hp, hu, hs, h1, h2, hfp, hFR, by simp, ?_⟩
      rintro e' ⟨⟩ - -
      refine ⟨hlt, hfresh, by omega, by omega, ?_⟩
      refine c2'.trans ?_
      rw [p1, p2, p3, hn]
      cases m <;> simp [ASSolver.cost] <;> ring
    · rename_i hn
      obtain ⟨p1, p2, a, p3, p4, p5⟩ := p0
      refine ⟨n, a + j, tm, st, hp, hu, hs, h1, h2, hfp, hFR, by simp, ?_⟩
      rintro e' ⟨⟩ - -
      refine ⟨hlt, hfresh, by omega, by omega, ?_⟩
      refine c2'.trans ?_
      rw [p1, p2, p5]
      obtain ⟨d, rfl⟩ : ∃ d, n = d + 1 := ⟨n - 1, by omega⟩
      cases m <;> simp [ASSolver.cost, ASSolver.refresh] <;> ring

/-- Four steps of ETD5 cost 25 calls of `nl_func`. -/
example (e : ETDConfig ℝ) (L u : Vec (Fin 2)) (s : (CSSolver.etd5 e (.diag L)).State) :
    CSSolver.evals ((CSSolver.etd5 e (.diag L)).evolve (fun x => .ok (x * x)) id true 10 u 0 1 (1 / 4) true 1 s).2 =
      CSSolver.evals s + 25 := by
  have n1 : ⌈((1 : ℝ) - 0) / (1 / 4)⌉₊ = 4 := by rw [Nat.ceil_eq_iff (by norm_num)]; norm_num
  obtain ⟨v, hv⟩ := (C04_zeroDivision_iff (.etd5 e (.diag L)) (fun x => .ok (x * x)) (fun x => ⟨_, rfl⟩) true u 0 1 (1 / 4) true 1
    (by norm_num) (by norm_num) trivial s 10 (by rw [n1]; norm_num)).2 (by norm_num)
  obtain ⟨n, h1, h2, h3⟩ := C20_evals_cs (.etd5 e (.diag L)) (fun x => .ok (x * x)) id true 10 u v 0 1 (1 / 4) true 1 s hv
  have ht : ∀ k : ℕ, timeAt id (1 / 4 : ℝ) 0 k = k / 4 := by
    intro k
    rw [timeAt_id]
    ring
  have : n = 4 := by
    simp only [ht] at h1 h2
    have h4 : (4 : ℝ) ≤ n := by linarith
    have h4' : 4 ≤ n := by exact_mod_cast h4
    by_contra hne
    have := h1 4 (by omega)
    norm_num at this
  rw [h3, this]
  norm_num

/-- One step of `demo`, one trial: 5 calls. -/
example (s : demo.State) : ∃ a, (demo.evolve (fun x => .ok x) id true demoCfg 2 1 0 1 (some 1) true 1 s).2.trials = s.trials + a ∧ 1 ≤ a ∧
    ASSolver.evals (demo.evolve (fun x => .ok x) id true demoCfg 2 1 0 1 (some 1) true 1 s).2 = ASSolver.evals s + (4 * a + 1) := by
  have hv := demo_evolve true true s
  rcases hrun : demo.evolve (fun x => .ok x) id true demoCfg 2 1 0 1 (some 1) true 1 s with ⟨r, s'⟩
  rw [hrun] at hv
  obtain ⟨n, a, tm, st, hp, hu, hs, h0, -, -, -, h1, -⟩ := C20_evals_as demo (fun x => .ok x) true demoCfg 2 1 0 1 (some 1) true 1 s
    r s' hrun
  obtain ⟨-, h2, h3, h4, h5⟩ := h1 _ hv
  have hn : n ≠ 0 := by rintro rfl; rw [h0] at h2; norm_num at h2
  refine ⟨a, h3, by omega, ?_⟩
  rw [h5, if_neg hn]
  rfl

end Verif
