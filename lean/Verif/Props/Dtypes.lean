import Verif.Lemmas.DtypesReal
import Verif.Lemmas.NonFiniteExact
import Verif.Props.ConstStep
import Verif.Props.AdaptiveEvolve

/-!
# Dtypes (property C83)

`tyStep`, `tyEvolve` are `step` and `evolve` on arrays with a `dtype`.  `F` is any arithmetic and any computation of the coefficients, `d`
the dtype of `lin_op`, `e` that of the arrays that `np.linalg.eig` returns.
-/

set_option linter.unusedSectionVars false

namespace Verif

variable {ι A : Type} [Fintype ι] [DecidableEq ι] {nl : TArr A → Except PyErr (TArr A)} {check : A → A → Except PyErr Unit}
  {fac : SolverConfig ℝ → A → A → Ext ℝ}

theorem CSSolver.ty_ge (m : CSSolver ι) (d : DType) (F : AEnv m.Coef ι A) {ν : DType → DType} (hm : DType.Mono ν) (hν : NlGe nl ν)
    (clk : ℝ → ℝ) (pyDiv : Bool) (fuel : ℕ) (u : TArr A) (t0 tf h : ℝ) (storeData : Bool) (freq : ℤ) (s : m.TySt A) :
    RunTail (fun v => (stepTy (m.coefTy d) ν u.ty).le v.ty) u storeData t0 tf
      (m.tyEvolve d F nl clk pyDiv fuel u t0 tf h storeData freq s).1 (m.tyEvolve d F nl clk pyDiv fuel u t0 tf h storeData freq s).2.u :=
  CSClass.evolve_tail (RCSProg.alawful m.rprog_ok ⟨F.ops.typed (m.coefTy d) (m.coefTy d), F.coefs⟩ nl) _ clk pyDiv fuel u t0 tf h
    (fun w v hw hv => DType.le_trans (hw.elim (fun h => by rw [h]; exact DType.le_refl _)
      fun h => DType.le_trans h (le_stepTy _ _ _)) (m.aStep_ge hm hν hv)) storeData freq s

theorem CSSolver.ty_le (m : CSSolver ι) (d : DType) (F : AEnv m.Coef ι A) {ν : DType → DType} (hm : DType.Mono ν) (hν : NlLe nl ν)
    (clk : ℝ → ℝ) (pyDiv : Bool) (fuel : ℕ) (u : TArr A) (t0 tf h : ℝ) (storeData : Bool) (freq : ℤ) (s : m.TySt A) :
    RunTail (fun v => v.ty.le (stepTy (m.coefTy d) ν u.ty)) u storeData t0 tf
      (m.tyEvolve d F nl clk pyDiv fuel u t0 tf h storeData freq s).1 (m.tyEvolve d F nl clk pyDiv fuel u t0 tf h storeData freq s).2.u :=
  CSClass.evolve_tail (RCSProg.alawful m.rprog_ok ⟨F.ops.typed (m.coefTy d) (m.coefTy d), F.coefs⟩ nl) _ clk pyDiv fuel u t0 tf h
    (fun w v hw hv => DType.le_trans (m.aStep_le hm hν hv) (hw.elim (fun h => by rw [h]; exact DType.le_refl _)
      fun h => stepTy_stepTy _ _ u.ty ▸ stepTy_mono _ _ h)) storeData freq s

theorem ASSolver.ty_ge (m : ASSolver ι) (d e : DType) (F : AEnv m.Coef ι A) {ν : DType → DType} (hm : DType.Mono ν) (hν : NlGe nl ν)
    (clk : ℝ → ℝ) (pyDiv : Bool) (cfg : SolverConfig ℝ) (fuel : ℕ) (u : TArr A) (t0 tf : ℝ) (hInit : Option ℝ) (storeData : Bool)
    (freq : ℤ) (s : m.TySt A) :
    RunTail (fun v => (stepTy (m.coefTy d e) ν u.ty).le v.ty) u storeData t0 tf
      (m.tyEvolve d e F check fac nl clk pyDiv cfg fuel u t0 tf hInit storeData freq s).1
      (m.tyEvolve d e F check fac nl clk pyDiv cfg fuel u t0 tf hInit storeData freq s).2.u :=
  ASClass.evolve_tail (RASProg.alawful m.rprog_ok (m.rprog_next _) m.isDP ⟨F.ops.typed (m.coefTy d e) (m.matTy d e), F.coefs⟩
    (fun u err => check u.val err.val) (fun cfg u err => fac cfg u.val err.val) nl) (fun v => (stepTy (m.coefTy d e) ν u.ty).le v.ty) clk pyDiv cfg fuel u t0 tf
    (fun h w v hw hv => DType.le_trans (hw.elim (fun h => by rw [h]; exact DType.le_refl _)
      fun h => DType.le_trans h (le_stepTy _ _ _)) (m.aTrial_ge hm hν hv)) hInit storeData freq s

theorem ASSolver.ty_le (m : ASSolver ι) (d e : DType) (F : AEnv m.Coef ι A) {ν : DType → DType} (hm : DType.Mono ν) (hν : NlLe nl ν)
    (clk : ℝ → ℝ) (pyDiv : Bool) (cfg : SolverConfig ℝ) (fuel : ℕ) (u : TArr A) (t0 tf : ℝ) (hInit : Option ℝ) (storeData : Bool)
    (freq : ℤ) (s : m.TySt A) :
    RunTail (fun v => v.ty.le (stepTy (m.coefTy d e) ν u.ty)) u storeData t0 tf
      (m.tyEvolve d e F check fac nl clk pyDiv cfg fuel u t0 tf hInit storeData freq s).1
      (m.tyEvolve d e F check fac nl clk pyDiv cfg fuel u t0 tf hInit storeData freq s).2.u :=
  ASClass.evolve_tail (RASProg.alawful m.rprog_ok (m.rprog_next _) m.isDP ⟨F.ops.typed (m.coefTy d e) (m.matTy d e), F.coefs⟩
    (fun u err => check u.val err.val) (fun cfg u err => fac cfg u.val err.val) nl) _ clk pyDiv cfg fuel u t0 tf
    (fun h w v hw hv => DType.le_trans (m.aTrial_le hm hν hv) (hw.elim (fun h => by rw [h]; exact DType.le_refl _)
      fun h => stepTy_stepTy _ _ u.ty ▸ stepTy_mono _ _ h)) hInit storeData freq s

theorem RunTail.imp {P Q : TArr A → Prop} {u : TArr A} {storeData : Bool} {t0 tf : ℝ} {r : Except PyErr (Option (TArr A))}
    {rec : List (TArr A)} (hr : RunTail P u storeData t0 tf r rec) (h : ∀ v, P v → Q v) : RunTail Q u storeData t0 tf r rec :=
  ⟨hr.1, fun a ha => h a (hr.2.1 a ha), fun v hv => (hr.2.2 v hv).imp id (h v)⟩

theorem RunTail.and {P Q : TArr A → Prop} {u : TArr A} {storeData : Bool} {t0 tf : ℝ} {r : Except PyErr (Option (TArr A))}
    {rec : List (TArr A)} (hr : RunTail P u storeData t0 tf r rec) (hq : RunTail Q u storeData t0 tf r rec) :
    RunTail (fun v => P v ∧ Q v) u storeData t0 tf r rec :=
  ⟨hr.1, fun a ha => ⟨hr.2.1 a ha, hq.2.1 a ha⟩, fun v hv => by
    rcases hr.2.2 v hv with h | h
    · exact .inl h
    · exact (hq.2.2 v hv).imp id fun h' => ⟨h, h'⟩⟩

theorem DType.mono_const (a : DType) : DType.Mono fun _ => a := fun _ _ _ => DType.le_refl a

theorem nlGe_int : NlGe nl fun _ => .int64 := fun _ v _ => by cases v.ty <;> rfl

/-! ### All cases -/

/-- **C83.** The dtypes of a constant-step run: `evolve` keeps the initial array as it is, and all arrays that it records afterwards, as
well as the one that it returns, have the largest of the dtypes of the coefficients, of the initial array and of the values of
`nl_func` at `float64` arrays. -/
theorem C83_dtype_cs (m : CSSolver ι) (d : DType) (F : AEnv m.Coef ι A) {ν : DType → DType} (hm : DType.Mono ν)
    (hν : ∀ x v, nl x = .ok v → v.ty = ν x.ty) (clk : ℝ → ℝ) (pyDiv : Bool) (fuel : ℕ) (u : TArr A) (t0 tf h : ℝ) (storeData : Bool)
    (freq : ℤ) (s : m.TySt A) :
    RunTail (fun v => v.ty = stepTy (m.coefTy d) ν u.ty) u storeData t0 tf
      (m.tyEvolve d F nl clk pyDiv fuel u t0 tf h storeData freq s).1 (m.tyEvolve d F nl clk pyDiv fuel u t0 tf h storeData freq s).2.u :=
  ((m.ty_ge d F hm (fun x v h => by rw [hν x v h]; exact DType.le_refl _) clk pyDiv fuel u t0 tf h storeData freq s).and
    (m.ty_le d F hm (fun x v h => by rw [hν x v h]; exact DType.le_refl _) clk pyDiv fuel u t0 tf h storeData freq s)).imp
      fun _ h => DType.le_antisymm h.2 h.1

/-- **C83.** The same for adaptive runs. -/
theorem C83_dtype_as (m : ASSolver ι) (d e : DType) (F : AEnv m.Coef ι A) {ν : DType → DType} (hm : DType.Mono ν)
    (hν : ∀ x v, nl x = .ok v → v.ty = ν x.ty) (clk : ℝ → ℝ) (pyDiv : Bool) (cfg : SolverConfig ℝ) (fuel : ℕ) (u : TArr A) (t0 tf : ℝ)
    (hInit : Option ℝ) (storeData : Bool) (freq : ℤ) (s : m.TySt A) :
    RunTail (fun v => v.ty = stepTy (m.coefTy d e) ν u.ty) u storeData t0 tf
      (m.tyEvolve d e F check fac nl clk pyDiv cfg fuel u t0 tf hInit storeData freq s).1
      (m.tyEvolve d e F check fac nl clk pyDiv cfg fuel u t0 tf hInit storeData freq s).2.u :=
  ((m.ty_ge d e F hm (fun x v h => by rw [hν x v h]; exact DType.le_refl _) clk pyDiv cfg fuel u t0 tf hInit storeData freq s).and
    (m.ty_le d e F hm (fun x v h => by rw [hν x v h]; exact DType.le_refl _) clk pyDiv cfg fuel u t0 tf hInit storeData freq s)).imp
      fun _ h => DType.le_antisymm h.2 h.1

/-! ### Complex results -/

/-- **C83.** With a constant-step solver everything after the initial array is `complex128` if the solver is an ETD solver, even if
`lin_op`, `u` and `nl_func` are real; or if `lin_op` or the initial array is complex. -/
theorem C83_complex_cs (m : CSSolver ι) (d : DType) (F : AEnv m.Coef ι A) (clk : ℝ → ℝ) (pyDiv : Bool) (fuel : ℕ) (u : TArr A)
    (t0 tf h : ℝ) (storeData : Bool) (freq : ℤ) (s : m.TySt A) (hc : m.IsETD ∨ d = .complex128 ∨ u.ty = .complex128) :
    RunTail (fun v => v.ty = .complex128) u storeData t0 tf
      (m.tyEvolve d F nl clk pyDiv fuel u t0 tf h storeData freq s).1
      (m.tyEvolve d F nl clk pyDiv fuel u t0 tf h storeData freq s).2.u := by
  refine (m.ty_ge d F (DType.mono_const .int64) nlGe_int clk pyDiv fuel u t0 tf h storeData freq s).imp fun v hv => ?_
  refine DType.complex_of_le hv ?_
  rcases m with L | ⟨cfg, L⟩ | ⟨cfg, L⟩
  · rcases hc with hc | rfl | hc
    · exact hc.elim
    · rfl
    · show ((d.promote .float64).promote u.ty).promote .int64 = _
      rw [hc]; cases d <;> rfl
  · rfl
  · rfl

/-- **C83.** The same for adaptive solvers; with `diagonalize` in IF34 it is the dtype of the eigenvalues that counts. -/
theorem C83_complex_as (m : ASSolver ι) (d e : DType) (F : AEnv m.Coef ι A) (clk : ℝ → ℝ) (pyDiv : Bool) (cfg : SolverConfig ℝ)
    (fuel : ℕ) (u : TArr A) (t0 tf : ℝ) (hInit : Option ℝ) (storeData : Bool) (freq : ℤ) (s : m.TySt A)
    (hc : m.IsETD ∨ (¬ m.IsEig ∧ d = .complex128) ∨ (m.IsEig ∧ e = .complex128) ∨ u.ty = .complex128) :
    RunTail (fun v => v.ty = .complex128) u storeData t0 tf
      (m.tyEvolve d e F check fac nl clk pyDiv cfg fuel u t0 tf hInit storeData freq s).1
      (m.tyEvolve d e F check fac nl clk pyDiv cfg fuel u t0 tf hInit storeData freq s).2.u := by
  refine (m.ty_ge d e F (DType.mono_const .int64) nlGe_int clk pyDiv cfg fuel u t0 tf hInit storeData freq s).imp fun v hv => ?_
  refine DType.complex_of_le hv ?_
  have key : ∀ a t : DType, a = .complex128 ∨ t = .complex128 → stepTy (a.promote .float64) (fun _ => .int64) t = .complex128 := by
    rintro a t (rfl | rfl)
    · rfl
    · cases a <;> rfl
  rcases m with (L | L | ⟨l, S, T, hS⟩) | ⟨cfg, L⟩ | ⟨cfg, L⟩ | L
  · exact key _ _ (by simpa [ASSolver.IsETD, ASSolver.IsEig] using hc)
  · exact key _ _ (by simpa [ASSolver.IsETD, ASSolver.IsEig] using hc)
  · exact key _ _ (by simpa [ASSolver.IsETD, ASSolver.IsEig] using hc)
  · rfl
  · rfl
  · exact key _ _ (by simpa [ASSolver.IsETD, ASSolver.IsEig] using hc)

/-- **C83.** And if `nl_func` returns `complex128` arrays for `float64` and `complex128` arrays. -/
theorem C83_complex_nl (m : CSSolver ι) (d : DType) (F : AEnv m.Coef ι A)
    (hn : ∀ x v, nl x = .ok v → x.ty ≠ .int64 → v.ty = .complex128) (clk : ℝ → ℝ) (pyDiv : Bool) (fuel : ℕ) (u : TArr A) (t0 tf h : ℝ)
    (storeData : Bool) (freq : ℤ) (s : m.TySt A) :
    RunTail (fun v => v.ty = .complex128) u storeData t0 tf
      (m.tyEvolve d F nl clk pyDiv fuel u t0 tf h storeData freq s).1
      (m.tyEvolve d F nl clk pyDiv fuel u t0 tf h storeData freq s).2.u := by
  refine (m.ty_ge d F (ν := fun t => if t = .int64 then .int64 else .complex128) ?_ ?_ clk pyDiv fuel u t0 tf h storeData freq s).imp
    fun v hv => ?_
  · rintro (_ | _ | _) (_ | _ | _) <;> simp [DType.le, DType.promote]
  · intro x v h1
    by_cases hx : x.ty = .int64
    · simp only [hx, if_true]; cases v.ty <;> rfl
    · simp only [hx, if_false, hn x v h1 hx]; rfl
  · refine DType.complex_of_le hv ?_
    simp only [stepTy, reduceCtorEq, if_false]
    cases (m.coefTy d).promote u.ty <;> rfl

/-- **C83.** The same for adaptive solvers. -/
theorem C83_complex_nl_as (m : ASSolver ι) (d e : DType) (F : AEnv m.Coef ι A)
    (hn : ∀ x v, nl x = .ok v → x.ty ≠ .int64 → v.ty = .complex128) (clk : ℝ → ℝ) (pyDiv : Bool) (cfg : SolverConfig ℝ) (fuel : ℕ)
    (u : TArr A) (t0 tf : ℝ) (hInit : Option ℝ) (storeData : Bool) (freq : ℤ) (s : m.TySt A) :
    RunTail (fun v => v.ty = .complex128) u storeData t0 tf
      (m.tyEvolve d e F check fac nl clk pyDiv cfg fuel u t0 tf hInit storeData freq s).1
      (m.tyEvolve d e F check fac nl clk pyDiv cfg fuel u t0 tf hInit storeData freq s).2.u := by
  refine (m.ty_ge d e F (ν := fun t => if t = .int64 then .int64 else .complex128) ?_ ?_ clk pyDiv cfg fuel u t0 tf hInit storeData
    freq s).imp fun v hv => ?_
  · rintro (_ | _ | _) (_ | _ | _) <;> simp [DType.le, DType.promote]
  · intro x v h1
    by_cases hx : x.ty = .int64
    · simp only [hx, if_true]; cases v.ty <;> rfl
    · simp only [hx, if_false, hn x v h1 hx]; rfl
  · refine DType.complex_of_le hv ?_
    simp only [stepTy, reduceCtorEq, if_false]
    cases (m.coefTy d e).promote u.ty <;> rfl

/-- **C83.** Single steps, whatever the solver object went through before: the result of `step` of a constant-step solver has at least the
dtype of the coefficients and that of its argument; with an ETD solver it is `complex128`. -/
theorem C83_step_cs (m : CSSolver ι) (d : DType) (F : AEnv m.Coef ι A) {u v : TArr A} {h : ℝ} {s : m.TySt A}
    (hv : (m.tyStep d F nl u h s).1 = .ok v) :
    (d.promote .float64).le v.ty ∧ u.ty.le v.ty ∧ (m.IsETD → v.ty = .complex128) := by
  have key : ((m.coefTy d).promote u.ty).le v.ty := by
    unfold CSSolver.tyStep at hv
    by_cases hh : 0 ≤ h
    · rw [CSClass.step_apply _ _ hh] at hv
      exact m.updateStages_ty d s.sub trivial v _ (Prod.ext hv rfl)
    · rw [CSClass.step_neg _ _ hh] at hv
      simp at hv
  refine ⟨DType.le_trans ?_ (DType.le_trans (DType.le_promote_left _ _) key), DType.le_trans (DType.le_promote_right _ _) key, fun he => ?_⟩
  · rcases m with L | ⟨cfg, L⟩ | ⟨cfg, L⟩
    · exact DType.le_refl _
    · cases d <;> rfl
    · cases d <;> rfl
  · refine DType.complex_of_le key ?_
    rcases m with L | ⟨cfg, L⟩ | ⟨cfg, L⟩
    · exact he.elim
    · rfl
    · rfl

/-! ### Real results -/

theorem nlLe_real (hn : NlReal nl) : NlLe nl fun t => if t = .complex128 then .complex128 else .float64 := by
  intro x v h1
  by_cases hx : x.ty = .complex128
  · simp only [hx, if_true]; cases v.ty <;> rfl
  · have := hn x v h1 hx
    simp only [hx, if_false]
    revert this
    cases v.ty <;> simp [DType.le, DType.promote]

theorem mono_real : DType.Mono fun t => if t = .complex128 then .complex128 else .float64 := by
  rintro (_ | _ | _) (_ | _ | _) <;> simp [DType.le, DType.promote]

theorem stepTy_real {d t : DType} (hd : d ≠ .complex128) (ht : t ≠ .complex128) :
    stepTy (d.promote .float64) (fun t => if t = .complex128 then .complex128 else .float64) t = .float64 ∧
    stepTy (d.promote .float64) (fun _ => .int64) t = .float64 := by
  cases d <;> cases t <;> simp_all [stepTy, DType.promote]

/-- **C83.** IF4 with a real `lin_op`, a real initial array (which may have integers) and an `nl_func` that returns real arrays for real
arrays: everything after the initial array is `float64`. -/
theorem C83_real_if4 (L : LinOp ι) {d : DType} (hd : d ≠ .complex128) (F : AEnv (CSSolver.if4 L).Coef ι A) (hn : NlReal nl) (clk : ℝ → ℝ)
    (pyDiv : Bool) (fuel : ℕ) {u : TArr A} (hu : u.ty ≠ .complex128) (t0 tf h : ℝ) (storeData : Bool) (freq : ℤ)
    (s : (CSSolver.if4 L).TySt A) :
    RunTail (fun v => v.ty = .float64) u storeData t0 tf
      ((CSSolver.if4 L).tyEvolve d F nl clk pyDiv fuel u t0 tf h storeData freq s).1
      ((CSSolver.if4 L).tyEvolve d F nl clk pyDiv fuel u t0 tf h storeData freq s).2.u := by
  refine (((CSSolver.if4 L).ty_ge d F (DType.mono_const .int64) nlGe_int clk pyDiv fuel u t0 tf h storeData freq s).and
    ((CSSolver.if4 L).ty_le d F mono_real (nlLe_real hn) clk pyDiv fuel u t0 tf h storeData freq s)).imp fun v hv => ?_
  have := stepTy_real hd hu
  simp only [CSSolver.coefTy, this.1, this.2] at hv
  exact DType.le_antisymm hv.2 hv.1

/-- **C83.** The same for IF34 and IF45DP; for IF34 with `diagonalize` if the eigenvalues are real. -/
theorem C83_real_as {m : ASSolver ι} (hm : ¬ m.IsETD) {d e : DType} (hd : ¬ m.IsEig → d ≠ .complex128) (he : m.IsEig → e ≠ .complex128)
    (F : AEnv m.Coef ι A) (hn : NlReal nl) (clk : ℝ → ℝ) (pyDiv : Bool) (cfg : SolverConfig ℝ) (fuel : ℕ) {u : TArr A}
    (hu : u.ty ≠ .complex128) (t0 tf : ℝ) (hInit : Option ℝ) (storeData : Bool) (freq : ℤ) (s : m.TySt A) :
    RunTail (fun v => v.ty = .float64) u storeData t0 tf
      (m.tyEvolve d e F check fac nl clk pyDiv cfg fuel u t0 tf hInit storeData freq s).1
      (m.tyEvolve d e F check fac nl clk pyDiv cfg fuel u t0 tf hInit storeData freq s).2.u := by
  refine ((m.ty_ge d e F (DType.mono_const .int64) nlGe_int clk pyDiv cfg fuel u t0 tf hInit storeData freq s).and
    (m.ty_le d e F mono_real (nlLe_real hn) clk pyDiv cfg fuel u t0 tf hInit storeData freq s)).imp fun v hv => ?_
  obtain ⟨a, ha, hc⟩ : ∃ a : DType, a ≠ .complex128 ∧ m.coefTy d e = a.promote .float64 := by
    rcases m with (L | L | ⟨l, S, T, hS⟩) | ⟨cfg, L⟩ | ⟨cfg, L⟩ | L
    · exact ⟨d, hd (by simp [ASSolver.IsEig]), rfl⟩
    · exact ⟨d, hd (by simp [ASSolver.IsEig]), rfl⟩
    · exact ⟨e, he trivial, rfl⟩
    · exact (hm trivial).elim
    · exact (hm trivial).elim
    · exact ⟨d, hd (by simp [ASSolver.IsEig]), rfl⟩
  have := stepTy_real ha hu
  rw [hc, this.1, this.2] at hv
  exact DType.le_antisymm hv.2 hv.1

/-! ### The entries -/

/-- **C83.** The dtypes of the model are consistent with the entries: with exact arithmetic, if `lin_op`, the initial array and the values
of `nl_func` have real entries whenever their dtype is real, then so do all arrays that a run records and the one that it returns. -/
theorem C83_entries_cs (m : CSSolver ι) {d : DType} (hm : m.OpFits d) {nl : TArr (Vec ι) → Except PyErr (TArr (Vec ι))}
    (hn : ∀ x v, nl x = .ok v → x.Fits → v.Fits) (clk : ℝ → ℝ) (pyDiv : Bool) (fuel : ℕ) {u : TArr (Vec ι)} (hu : u.Fits) (t0 tf h : ℝ)
    (storeData : Bool) (freq : ℤ) (s : m.TySt (Vec ι)) :
    RunTail TArr.Fits u storeData t0 tf
      (m.tyEvolve d ⟨ArrOps.exact ι, (m.env Arith.exact).coefs⟩ nl clk pyDiv fuel u t0 tf h storeData freq s).1
      (m.tyEvolve d ⟨ArrOps.exact ι, (m.env Arith.exact).coefs⟩ nl clk pyDiv fuel u t0 tf h storeData freq s).2.u :=
  CSClass.evolve_tail (RCSProg.alawful m.rprog_ok ⟨(ArrOps.exact ι).typed (m.coefTy d) (m.coefTy d), (m.env Arith.exact).coefs⟩ nl) _ clk
    pyDiv fuel u t0 tf h (fun _ _ hw hv => m.aStep_fits hm hn (hw.elim (fun h => h ▸ hu) id) hv) storeData freq s

/-- **C83.** The same for adaptive solvers. -/
theorem C83_entries_as (m : ASSolver ι) {d e : DType} (hm : m.OpFits d e) {check : Vec ι → Vec ι → Except PyErr Unit}
    {fac : SolverConfig ℝ → Vec ι → Vec ι → Ext ℝ} {nl : TArr (Vec ι) → Except PyErr (TArr (Vec ι))}
    (hn : ∀ x v, nl x = .ok v → x.Fits → v.Fits) (clk : ℝ → ℝ) (pyDiv : Bool) (cfg : SolverConfig ℝ) (fuel : ℕ) {u : TArr (Vec ι)}
    (hu : u.Fits) (t0 tf : ℝ) (hInit : Option ℝ) (storeData : Bool) (freq : ℤ) (s : m.TySt (Vec ι)) :
    RunTail TArr.Fits u storeData t0 tf
      (m.tyEvolve d e ⟨ArrOps.exact ι, (m.env Arith.exact).coefs⟩ check fac nl clk pyDiv cfg fuel u t0 tf hInit storeData freq s).1
      (m.tyEvolve d e ⟨ArrOps.exact ι, (m.env Arith.exact).coefs⟩ check fac nl clk pyDiv cfg fuel u t0 tf hInit storeData freq s).2.u :=
  ASClass.evolve_tail (RASProg.alawful m.rprog_ok (m.rprog_next _) m.isDP
    ⟨(ArrOps.exact ι).typed (m.coefTy d e) (m.matTy d e), (m.env Arith.exact).coefs⟩ (fun u err => check u.val err.val)
    (fun cfg u err => fac cfg u.val err.val) nl) _ clk pyDiv cfg fuel u t0 tf
    (fun _ _ _ hw hv => m.aTrial_fits hm hn (hw.elim (fun h => h ▸ hu) id) hv) hInit storeData freq s

theorem tyCoefs_rel {Coef : Type} (O : ArrOps ι A) (cv cm : DType) (c : Except PyErr Coef) (is : List (RInstr Coef ι)) :
    RelE (CofRel (fun _ (x : TArr A) v => x.val = v) (O.typed cv cm) O is) c c := by
  cases c with
  | error e => rfl
  | ok c => exact fun i _ => ⟨fun p _ => rfl, fun _ _ => rfl⟩

theorem tyNl_rel {nl' : A → Except PyErr A} (hnl : ∀ x, (nl x).map TArr.val = nl' x.val) (a : TArr A) (b : A) (hab : a.val = b) :
    RelE (fun (x : TArr A) v => x.val = v) (nl a) (nl' b) := by
  subst hab
  rw [← hnl a]
  cases nl a with
  | error e => rfl
  | ok v => rfl

theorem tyRun_eq {a : Except PyErr (Option (TArr A))} {b : Except PyErr (Option A)} {l : List (TArr A)} {k : List A}
    (h1 : RelE (RelO fun (x : TArr A) v => x.val = v) a b) (h2 : List.Forall₂ (fun (x : TArr A) v => x.val = v) l k) :
    a.map (Option.map TArr.val) = b ∧ l.map TArr.val = k := by
  constructor
  · rcases a with e | _ | x <;> rcases b with e' | _ | v <;> simp_all [RelE, RelO, Except.map]
  · induction h2 with
    | nil => rfl
    | cons h _ ih => rw [List.map_cons, ih, h]

/-- **C83.** The entries do not depend on the dtypes: for an `nl_func` whose entries depend only on the entries of its argument, a run
returns and records the same entries as in the model of the other properties. -/
theorem C83_values_cs (m : CSSolver ι) (d : DType) {nl : TArr (Vec ι) → Except PyErr (TArr (Vec ι))} {nl' : NlFunc ι}
    (hnl : ∀ x, (nl x).map TArr.val = nl' x.val) (clk : ℝ → ℝ) (pyDiv : Bool) (fuel : ℕ) (u : TArr (Vec ι)) (t0 tf h : ℝ)
    (storeData : Bool) (freq : ℤ) (s : m.TySt (Vec ι)) (s' : m.State) :
    (m.tyEvolve d ⟨ArrOps.exact ι, (m.env Arith.exact).coefs⟩ nl clk pyDiv fuel u t0 tf h storeData freq s).1.map (Option.map TArr.val) =
      (m.evolve nl' clk pyDiv fuel u.val t0 tf h storeData freq s').1 ∧
    (m.tyEvolve d ⟨ArrOps.exact ι, (m.env Arith.exact).coefs⟩ nl clk pyDiv fuel u t0 tf h storeData freq s).2.t =
      (m.evolve nl' clk pyDiv fuel u.val t0 tf h storeData freq s').2.t ∧
    (m.tyEvolve d ⟨ArrOps.exact ι, (m.env Arith.exact).coefs⟩ nl clk pyDiv fuel u t0 tf h storeData freq s).2.u.map TArr.val =
      (m.evolve nl' clk pyDiv fuel u.val t0 tf h storeData freq s').2.u := by
  have := CSClass.evolve_rel (RCSProg.alawful m.rprog_ok
      ⟨(ArrOps.exact ι).typed (m.coefTy d) (m.coefTy d), (m.env Arith.exact).coefs⟩ nl) (m.lawful nl')
    (fun (x : TArr (Vec ι)) v => x.val = v) clk pyDiv fuel u u.val t0 tf h (fun a b hab => by
      have := RCSProg.aStep_rel (P := m.rprog)
        (F := ⟨(ArrOps.exact ι).typed (m.coefTy d) (m.coefTy d), (m.env Arith.exact).coefs⟩)
        (F' := ⟨ArrOps.exact ι, (m.env Arith.exact).coefs⟩) (h := h) (relOps_typed _ _ _) (tyNl_rel hnl)
        (by rcases m with (L | L) | ⟨cfg, L | L⟩ | ⟨cfg, L | L⟩ <;> rfl) (tyCoefs_rel _ _ _ _ _) hab
      rw [RCSProg.aStep_exact m.rprog_ok] at this
      rwa [← m.env_step nl' h b]) storeData freq s s' rfl
  obtain ⟨h1, h2⟩ := tyRun_eq this.1 this.2.2
  exact ⟨h1, this.2.1, h2⟩

/-- **C83.** The same for adaptive solvers. -/
theorem C83_values_as (m : ASSolver ι) (d e : DType) {nl : TArr (Vec ι) → Except PyErr (TArr (Vec ι))} {nl' : NlFunc ι}
    (hnl : ∀ x, (nl x).map TArr.val = nl' x.val) (clk : ℝ → ℝ) (pyDiv : Bool) (cfg : SolverConfig ℝ) (fuel : ℕ) (u : TArr (Vec ι))
    (t0 tf : ℝ) (hInit : Option ℝ) (storeData : Bool) (freq : ℤ) (s : m.TySt (Vec ι)) (s' : m.State) :
    (m.tyEvolve d e ⟨ArrOps.exact ι, (m.env Arith.exact).coefs⟩ (fun _ _ => .ok ()) (computeS (if m.isDP then 5 else 4)) nl clk pyDiv cfg
      fuel u t0 tf hInit storeData freq s).1.map (Option.map TArr.val) =
      (m.evolve nl' clk pyDiv cfg fuel u.val t0 tf hInit storeData freq s').1 ∧
    (m.tyEvolve d e ⟨ArrOps.exact ι, (m.env Arith.exact).coefs⟩ (fun _ _ => .ok ()) (computeS (if m.isDP then 5 else 4)) nl clk pyDiv cfg
      fuel u t0 tf hInit storeData freq s).2.t =
      (m.evolve nl' clk pyDiv cfg fuel u.val t0 tf hInit storeData freq s').2.t ∧
    (m.tyEvolve d e ⟨ArrOps.exact ι, (m.env Arith.exact).coefs⟩ (fun _ _ => .ok ()) (computeS (if m.isDP then 5 else 4)) nl clk pyDiv cfg
      fuel u t0 tf hInit storeData freq s).2.u.map TArr.val =
      (m.evolve nl' clk pyDiv cfg fuel u.val t0 tf hInit storeData freq s').2.u := by
  have := ASClass.evolve_rel (RASProg.alawful m.rprog_ok (m.rprog_next _) m.isDP
      ⟨(ArrOps.exact ι).typed (m.coefTy d e) (m.matTy d e), (m.env Arith.exact).coefs⟩ (fun _ _ => .ok ())
      (fun cfg u err => computeS (if m.isDP then 5 else 4) cfg u.val err.val) nl) (m.lawful nl')
    (fun (x : TArr (Vec ι)) v => x.val = v) (fun x v => x.1.val = v.1 ∧ x.2.val = v.2) (fun _ _ h => h.1) (fun h a b hab => by
      have := RASProg.aTrial_rel (P := m.rprog)
        (F := ⟨(ArrOps.exact ι).typed (m.coefTy d e) (m.matTy d e), (m.env Arith.exact).coefs⟩)
        (F' := ⟨ArrOps.exact ι, (m.env Arith.exact).coefs⟩) (h := h) (check := fun _ _ => .ok ()) (check' := fun _ _ => .ok ())
        (relOps_typed _ _ _) (tyNl_rel hnl) (fun _ _ _ _ _ _ => trivial)
        (by rcases m with (L | L | ⟨l, S, T, hS⟩) | ⟨cfg, L | L | ⟨l, S, T, hS⟩⟩ | ⟨cfg, L | L | ⟨l, S, T, hS⟩⟩ | L <;> rfl)
        (by rcases m with (L | L | ⟨l, S, T, hS⟩) | ⟨cfg, L | L | ⟨l, S, T, hS⟩⟩ | ⟨cfg, L | L | ⟨l, S, T, hS⟩⟩ | L <;> rfl)
        (by rcases m with (L | L | ⟨l, S, T, hS⟩) | ⟨cfg, L | L | ⟨l, S, T, hS⟩⟩ | ⟨cfg, L | L | ⟨l, S, T, hS⟩⟩ | L <;> rfl)
        (tyCoefs_rel _ _ _ _ _) hab
      rw [RASProg.aTrial_exact m.rprog_ok] at this
      rwa [← m.env_trial nl' h b]) clk pyDiv cfg
    (by
      rintro ⟨x, e⟩ ⟨v, d⟩ ⟨rfl, rfl⟩
      show computeS (if m.isDP then 5 else 4) cfg x.val e.val = (m.cls nl').computeS cfg x.val e.val
      rcases m with (L | L | ⟨l, S, T, hS⟩) | ⟨cfg, L | L | ⟨l, S, T, hS⟩⟩ | ⟨cfg, L | L | ⟨l, S, T, hS⟩⟩ | L <;> rfl)
    fuel u u.val t0 tf hInit storeData freq s s' rfl
  obtain ⟨h1, h2⟩ := tyRun_eq this.1 this.2.2
  exact ⟨h1, this.2.1, h2⟩

/-! ### Examples -/

/-- `nl_func = lambda x: x * x`. -/
noncomputable def tySquare (x : TArr (Vec ι)) : Except PyErr (TArr (Vec ι)) := .ok ⟨x.ty, x.val * x.val⟩

theorem tySquare_fits (x v : TArr (Vec ι)) (hv : tySquare x = .ok v) (hx : x.Fits) : v.Fits := by
  simp only [tySquare, Except.ok.injEq] at hv
  subst hv
  exact hx.imp id fun h i => by simp [h i]

/-- A run of four steps returns. -/
theorem tySquare_run (m : CSSolver ι) (hc : m.CoefOk (3 / 10)) (d : DType) (u : TArr (Vec ι)) (s : m.TySt (Vec ι)) :
    ∃ v, (m.tyEvolve d ⟨ArrOps.exact ι, (m.env Arith.exact).coefs⟩ tySquare id true 10 u 0 1 (3 / 10) true 2 s).1 = .ok (some v) := by
  have n1 : ⌈((1 : ℝ) - 0) / (3 / 10)⌉₊ = 4 := by rw [Nat.ceil_eq_iff (by norm_num)]; norm_num
  obtain ⟨v, hv⟩ := (C04_zeroDivision_iff m (fun x => .ok (x * x)) (fun x => ⟨_, rfl⟩) true u.val 0 1 (3 / 10) true 2
    (by norm_num) (by norm_num) hc m.new 10 (by rw [n1]; norm_num)).2 (by norm_num)
  have := (C83_values_cs m d (nl := tySquare) (nl' := fun x => .ok (x * x)) (fun _ => rfl) id true 10 u 0 1 (3 / 10) true 2 s m.new).1
  rw [hv] at this
  rcases h : (m.tyEvolve d ⟨ArrOps.exact ι, (m.env Arith.exact).coefs⟩ tySquare id true 10 u 0 1 (3 / 10) true 2 s).1 with e | _ | w
  · rw [h] at this; simp [Except.map] at this
  · rw [h] at this; simp [Except.map] at this
  · exact ⟨w, rfl⟩

/-- IF4 with integers: the run returns a `float64` array. -/
example : let m := CSSolver.if4 (.diag (ι := Fin 2) ![-1, -4])
    ∃ v, (m.tyEvolve .int64 ⟨ArrOps.exact _, (m.env Arith.exact).coefs⟩ tySquare id true 10 ⟨.int64, ![1, 2]⟩ 0 1 (3 / 10) true 2
      (m.tyNew (ArrOps.exact _))).1 = .ok (some v) ∧ v.ty = .float64 ∧ ∀ i, (v.val i).im = 0 := by
  intro m
  obtain ⟨v, hv⟩ := tySquare_run m trivial .int64 ⟨.int64, ![1, 2]⟩ (m.tyNew (ArrOps.exact _))
  have h1 := (C83_real_if4 (.diag (ι := Fin 2) ![-1, -4]) (d := .int64) (by simp) ⟨ArrOps.exact _, (m.env Arith.exact).coefs⟩
    (nl := tySquare) (fun x v hv hx => by
      simp only [tySquare, Except.ok.injEq] at hv
      rw [← hv]; exact hx) id true 10 (u := ⟨.int64, ![1, 2]⟩) (by simp) 0 1 (3 / 10) true 2 (m.tyNew (ArrOps.exact _))).2.2 v hv
  have h2 := (C83_entries_cs m (d := .int64) (.inr fun i j => by
      fin_cases i <;> fin_cases j <;> simp [m, CSSolver.op, LinOp.mat, Matrix.diagonal])
    tySquare_fits id true 10 (u := ⟨.int64, ![1, 2]⟩) (.inr fun i => by fin_cases i <;> simp) 0 1 (3 / 10) true 2
    (m.tyNew (ArrOps.exact _))).2.2 v hv
  have h1 : v.ty = .float64 := h1.resolve_left fun h => h.2 one_pos
  refine ⟨v, hv, h1, ?_⟩
  rcases h2 with h | h | h
  · exact absurd one_pos h.2
  · rw [h1] at h; cases h
  · exact h

/-- ETD4 with the same data: a `complex128` array. -/
example (cfg : ETDConfig ℝ) :
    let m := CSSolver.etd4 cfg (.diag (ι := Fin 2) ![-1, -4])
    ∃ v, (m.tyEvolve .int64 ⟨ArrOps.exact _, (m.env Arith.exact).coefs⟩ tySquare id true 10 ⟨.int64, ![1, 2]⟩ 0 1 (3 / 10) true 2
      (m.tyNew (ArrOps.exact _))).1 = .ok (some v) ∧ v.ty = .complex128 := by
  intro m
  obtain ⟨v, hv⟩ := tySquare_run m trivial .int64 ⟨.int64, ![1, 2]⟩ (m.tyNew (ArrOps.exact _))
  exact ⟨v, hv, ((C83_complex_cs m .int64 _ id true 10 ⟨.int64, ![1, 2]⟩ 0 1 (3 / 10) true 2 _ (.inl trivial)).2.2 v hv).resolve_left
    fun h => h.2 one_pos⟩

/-- An adaptive run of IF34 with real data returns a `float64` array; with an `nl_func` that converts to `complex128`, a `complex128`
array with the same entries. -/
example (t : DType) (ht : t = .int64 ∨ t = .complex128) :
    ∃ v, (demo.tyEvolve .int64 .float64 ⟨ArrOps.exact _, (demo.env Arith.exact).coefs⟩ (fun _ _ => .ok ()) (computeS 4)
      (fun x => .ok ⟨x.ty.promote t, x.val⟩) id true demoCfg 2 ⟨.int64, 1⟩ 0 1 (some 1) true 1 (demo.tyNew (ArrOps.exact _))).1 =
        .ok (some v) ∧ v.val = (65 / 24 : ℂ) • 1 ∧ v.ty = (if t = .int64 then .float64 else .complex128) := by
  have h0 := (C83_values_as demo .int64 .float64 (nl := fun x => .ok ⟨x.ty.promote t, x.val⟩) (nl' := fun x => .ok x) (fun _ => rfl) id true
    demoCfg 2 ⟨.int64, 1⟩ 0 1 (some 1) true 1 (demo.tyNew (ArrOps.exact _)) demo.new).1
  rw [demo_evolve] at h0
  rcases h : (demo.tyEvolve .int64 .float64 ⟨ArrOps.exact _, (demo.env Arith.exact).coefs⟩ (fun _ _ => .ok ())
    (computeS (if demo.isDP then 5 else 4)) (fun x => .ok ⟨x.ty.promote t, x.val⟩) id true demoCfg 2 ⟨.int64, 1⟩ 0 1 (some 1) true 1
    (demo.tyNew (ArrOps.exact _))).1 with e | _ | w
  · rw [h] at h0; simp [Except.map] at h0
  · rw [h] at h0; simp [Except.map] at h0
  · rw [h] at h0
    simp only [Except.map, Option.map, Except.ok.injEq, Option.some.injEq] at h0
    refine ⟨w, h, h0, ?_⟩
    rcases ht with rfl | rfl
    · exact ((C83_real_as (m := demo) (by simp [demo, ASSolver.IsETD]) (d := .int64) (e := .float64) (by simp) (by simp) _
        (nl := fun x => .ok ⟨x.ty.promote .int64, x.val⟩) (fun x v hv hx => by
          simp only [Except.ok.injEq] at hv
          rw [← hv]
          revert hx
          cases x.ty <;> simp [DType.promote])
        id true demoCfg 2 (u := ⟨.int64, 1⟩) (by simp) 0 1 (some 1) true 1 _).2.2 w h).resolve_left fun h => h.2 one_pos
    · exact ((C83_complex_nl_as demo .int64 .float64 _ (nl := fun x => .ok ⟨x.ty.promote .complex128, x.val⟩) (fun x v hv hx => by
          simp only [Except.ok.injEq] at hv
          rw [← hv]
          cases x.ty <;> rfl)
        id true demoCfg 2 ⟨.int64, 1⟩ 0 1 (some 1) true 1 _).2.2 w h).resolve_left fun h => h.2 one_pos

end Verif
