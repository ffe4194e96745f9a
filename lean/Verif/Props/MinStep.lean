import Verif.Props.StepGrowth

/-!
# C100: the minimum step size
-/

set_option linter.unusedSectionVars false

namespace Verif

variable {ι : Type} [Fintype ι] [DecidableEq ι]

theorem ASSolver.factor_minh (m : ASSolver ι) (nl : NlFunc ι) (cfg : SolverConfig ℝ) (x : ℝ) :
    m.factor nl { cfg with minh := x } = m.factor nl cfg := by
  funext r
  rw [factor_eq, factor_eq]
  rfl

theorem RejectsTo.minh {Φ : ℝ → Vec ι → Except PyErr (Vec ι × Vec ι)} {S : Vec ι × Vec ι → Ext ℝ} {cfg : SolverConfig ℝ} {rnd : ℝ → ℝ}
    {u : Vec ι} {x : ℝ} (hx : x ≤ cfg.minh) {j : ℕ} {h h' : ℝ} (hr : RejectsTo Φ S cfg rnd u j h h') :
    RejectsTo Φ S { cfg with minh := x } rnd u j h h' := by
  induction hr with
  | zero h => exact .zero h
  | succ _ h1 h2 h3 ih => exact .succ ih h1 h2 (hx.trans h3)

/-- **C100.** A successful adaptive step does not change when `minh` is lowered. -/
theorem C100_step (m : ASSolver ι) (nl : NlFunc ι) (rnd : ℝ → ℝ) (cfg : SolverConfig ℝ) {x : ℝ} (hx : x ≤ cfg.minh) (u v : Vec ι)
    (h hu hs : ℝ) (hret : (m.step nl rnd cfg u h m.new).1 = .ok (v, hu, hs)) :
    (m.step nl rnd { cfg with minh := x } u h m.new).1 = .ok (v, hu, hs) := by
  have hh : 0 ≤ h := by
    by_contra hc
    rw [(C06_trials m nl rnd cfg u h m.new).2.2 (not_le.mp hc)] at hret
    simp at hret
  rw [← m.stepSpec_iff nl rnd _ u h hh] at hret ⊢
  rw [m.factor_minh]
  generalize hR : (Except.ok (v, hu, hs) : Except PyErr (Vec ι × ℝ × ℝ)) = R at hret ⊢
  cases hret with
  | @accept j h' y r hj hrej hok hy h1 => exact StepSpec.accept (cfg := { cfg with minh := x }) hj (hrej.minh hx) hok hy h1
  | _ => simp at hR

theorem FreshRun.minh {m : ASSolver ι} {nl : NlFunc ι} {cfg : SolverConfig ℝ} {x tf : ℝ} (hx : x ≤ cfg.minh) {n n' : ℕ} {tm tm' : ℕ → ℝ}
    {st st' : ℕ → Vec ι} {hp hu hs hp' hu' hs' : ℕ → ℝ} (R : FreshRun m nl cfg tf n tm st hp hu hs)
    (R' : FreshRun m nl { cfg with minh := x } tf n' tm' st' hp' hu' hs') (e1 : tm' 0 = tm 0) (e2 : st' 0 = st 0) (e3 : hp' 0 = hp 0) :
    ∀ k ≤ n, k ≤ n' → tm' k = tm k ∧ st' k = st k ∧ hp' k = hp k := by
  intro k
  induction k with
  | zero => exact fun _ _ => ⟨e1, e2, e3⟩
  | succ k ih =>
    intro hn hn'
    obtain ⟨i1, i2, i3⟩ := ih (by omega) (by omega)
    have hs1 := R'.step k (by omega)
    rw [i2, i3, C100_step m nl id cfg hx _ _ _ _ _ (R.step k (by omega))] at hs1
    simp only [Except.ok.injEq, Prod.mk.injEq] at hs1
    obtain ⟨a1, a2, a3⟩ := hs1
    have ht : tm' (k + 1) = tm (k + 1) := by rw [R'.time k (by omega), R.time k (by omega), i1, a2]
    exact ⟨ht, a1.symm, by rw [R'.next k (by omega), R.next k (by omega), ht, a3]⟩

/-- **C100.** A successful adaptive run does not change when `minh` is lowered: same result, same stored times and states. -/
theorem C100_evolve (m : ASSolver ι) (nl : NlFunc ι) (pyDiv : Bool) (cfg : SolverConfig ℝ) {x : ℝ} (hx : x ≤ cfg.minh) (fuel : ℕ)
    (u v : Vec ι) (t0 tf : ℝ) (hz : tf ≠ 0) (hInit : Option ℝ) (storeData : Bool) (freq : ℤ) (hf : freq ≠ 0) (s s' : m.State)
    (hret : (m.evolve nl id pyDiv cfg fuel u t0 tf hInit storeData freq s).1 = .ok (some v)) :
    let r := m.evolve nl id pyDiv cfg fuel u t0 tf hInit storeData freq s
    let r' := m.evolve nl id pyDiv { cfg with minh := x } fuel u t0 tf hInit storeData freq s'
    r'.1 = .ok (some v) ∧ r'.2.t = r.2.t ∧ r'.2.u = r.2.u := by
  intro r r'
  obtain ⟨n, tm, st, hp, hu, hs, h1, h2, h3, -, R, h5, h6, h7, -⟩ := m.evolve_freshRun nl pyDiv cfg fuel u t0 tf hInit storeData freq s
  obtain ⟨n', tm', st', hp', hu', hs', g1, g2, g3, -, R', g5, g6, g7, -⟩ :=
    m.evolve_freshRun nl pyDiv { cfg with minh := x } fuel u t0 tf hInit storeData freq s'
  have A := R.minh hx R' (g1.trans h1.symm) (g2.trans h2.symm) (g3.trans h3.symm)
  rw [hret] at h7
  obtain ⟨hnf, hge, rfl⟩ : n < fuel ∧ tf ≤ tm n ∧ st n = v := by
    generalize hR : (Except.ok (some v) : Except PyErr (Option (Vec ι))) = Q at h7
    cases h7 with
    | returned a b =>
      simp only [Except.ok.injEq, Option.some.injEq] at hR
      exact ⟨a, not_lt.mp b, hR.symm⟩
    | _ => simp at hR
  have hle : n' ≤ n := by
    by_contra hc
    have := R'.before_end n (by omega)
    rw [(A n le_rfl (by omega)).1] at this
    linarith
  obtain ⟨b1, b2, b3⟩ := A n' hle le_rfl
  have hn : n' = n := by
    by_contra hc
    have hlt : n' < n := by omega
    have hb := R.before_end n' hlt
    have hst := C100_step m nl id cfg hx _ _ _ _ _ (R.step n' hlt)
    rw [b1, b2, b3] at g7
    revert g7
    generalize (m.evolve nl id pyDiv { cfg with minh := x } fuel u t0 tf hInit storeData freq s').1 = Q
    intro g7
    cases g7 with
    | running a => omega
    | returned _ a => exact a hb
    | stepRaised _ _ a b => rw [m.stepSpec_iff nl id _ _ _ a, hst] at b; simp at b
    | negative _ _ a =>
      rw [(C06_trials m nl id _ _ _ m.new).2.2 a] at hst
      simp at hst
    | zeroDiv _ _ _ _ a =>
      rcases a with a | a
      · exact hz a.2.2
      · exact hf a.2
  subst hn
  have ht : ∀ k ∈ storedUpTo freq n', tm' k = tm k ∧ st' k = st k := by
    intro k hk
    have : k ≤ n' := by
      rw [storedUpTo_closed _ hf] at hk
      obtain ⟨j, hj, rfl⟩ := List.mem_map.mp hk
      rw [List.mem_range] at hj
      exact (Nat.mul_le_mul_right _ (by omega)).trans (Nat.div_mul_le_self _ _)
    exact ⟨(A k this this).1, (A k this this).2.1⟩
  refine ⟨?_, ?_, ?_⟩
  · show (m.evolve nl id pyDiv { cfg with minh := x } fuel u t0 tf hInit storeData freq s').1 = _
    rw [b1, b2, b3] at g7
    revert g7
    generalize (m.evolve nl id pyDiv { cfg with minh := x } fuel u t0 tf hInit storeData freq s').1 = Q
    intro g7
    cases g7 with
    | returned _ _ => rfl
    | running a => omega
    | stepRaised _ a => linarith
    | negative _ a => linarith
    | zeroDiv _ a => linarith
  · show (m.evolve nl id pyDiv { cfg with minh := x } fuel u t0 tf hInit storeData freq s').2.t = _
    rw [g5, show r.2.t = _ from h5]
    split
    · exact List.map_congr_left fun k hk => (ht k hk).1
    · rfl
  · show (m.evolve nl id pyDiv { cfg with minh := x } fuel u t0 tf hInit storeData freq s').2.u = _
    rw [g6, show r.2.u = _ from h6]
    split
    · exact List.map_congr_left fun k hk => (ht k hk).2
    · rfl

/-- **C100.** Two successful runs whose configurations differ in `minh` only are the same. -/
theorem C100_both (m : ASSolver ι) (nl : NlFunc ι) (pyDiv : Bool) (cfg : SolverConfig ℝ) (x : ℝ) (fuel : ℕ)
    (u v w : Vec ι) (t0 tf : ℝ) (hz : tf ≠ 0) (hInit : Option ℝ) (storeData : Bool) (freq : ℤ) (hf : freq ≠ 0) (s s' : m.State)
    (hv : (m.evolve nl id pyDiv cfg fuel u t0 tf hInit storeData freq s).1 = .ok (some v))
    (hw : (m.evolve nl id pyDiv { cfg with minh := x } fuel u t0 tf hInit storeData freq s').1 = .ok (some w)) :
    w = v ∧ (m.evolve nl id pyDiv { cfg with minh := x } fuel u t0 tf hInit storeData freq s').2.t =
      (m.evolve nl id pyDiv cfg fuel u t0 tf hInit storeData freq s).2.t := by
  rcases le_total x cfg.minh with h | h
  · obtain ⟨a1, a2, -⟩ := C100_evolve m nl pyDiv cfg h fuel u v t0 tf hz hInit storeData freq hf s s' hv
    rw [a1] at hw
    simp only [Except.ok.injEq, Option.some.injEq] at hw
    exact ⟨hw.symm, a2⟩
  · obtain ⟨a1, a2, -⟩ := C100_evolve m nl pyDiv { cfg with minh := x } (x := cfg.minh) h fuel u w t0 tf hz hInit storeData freq hf s' s hw
    change (m.evolve nl id pyDiv cfg fuel u t0 tf hInit storeData freq s).1 = _ at a1
    rw [a1] at hv
    simp only [Except.ok.injEq, Option.some.injEq] at hv
    exact ⟨hv, a2.symm⟩

/-! ### Examples -/

/-- The concrete step of C07 with another `minh`. -/
example : ∃ hs, (demo.step (fun x => .ok x) id { demoCfg with minh := 0 } 1 1 demo.new).1 = .ok ((65 / 24 : ℂ) • 1, 1, hs) :=
  ⟨_, C100_step demo (fun x => .ok x) id demoCfg (by norm_num [demoCfg]) 1 _ 1 _ _ demo_step⟩

/-- The run of C95 has the same times with `minh = 1e-16`. -/
example (s s' : demo.State) : (demo.evolve (fun x => .ok x) id true demoCfg 200 1 0 1 none true 1 s').2.t =
    [0, 1 / 100, 5 / 100, 21 / 100, 85 / 100, 1] := by
  obtain ⟨⟨v, hv⟩, ht⟩ := demo_five_steps s
  rw [← ht]
  exact (C100_evolve demo (fun x => .ok x) true { demoCfg with minh := 1 / 100 } (x := demoCfg.minh) (by norm_num [demoCfg]) 200 1 v 0 1 one_ne_zero
    none true 1 one_ne_zero s s' hv).2.1

/-- Any two values of `minh` with which IF34 solves `u' = u` on `[0, 1]` give the same state. -/
example (s s' : demo.State) (x : ℝ) (w : Vec (Fin 1))
    (hw : (demo.evolve (fun x => .ok x) id true { demoCfg with minh := x } 200 1 0 1 none true 1 s').1 = .ok (some w)) :
    (demo.evolve (fun x => .ok x) id true { demoCfg with minh := 1 / 100 } 200 1 0 1 none true 1 s).1 = .ok (some w) := by
  obtain ⟨⟨v, hv⟩, -⟩ := demo_five_steps s
  rw [hv, (C100_both demo (fun x => .ok x) true { demoCfg with minh := 1 / 100 } x 200 1 v w 0 1 one_ne_zero none true 1 one_ne_zero s s' hv hw).1]

end Verif
