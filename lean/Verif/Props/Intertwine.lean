import Verif.Lemmas.Intertwine
import Verif.Lemmas.Subspace
import Verif.Props.ConstStep
import Verif.Props.History
import Verif.Props.Symmetry

/-!
# Linear maps between problems, invariant subspaces, conserved quantities (property C66)

What the linear structure of a problem gives, its numerical solutions have exactly, for every step size, every number of contour
points, and every rounding of the clock.
-/

set_option linter.unusedSectionVars false

namespace Verif

open Matrix

variable {ι κ : Type} [Fintype ι] [DecidableEq ι] [Fintype κ] [DecidableEq κ]

/-! ### Linear maps -/

/-- **C66.** If `P` maps one problem to another, it maps the steps of a constant-step solver (and their exceptions). -/
theorem C66_step {P : Matrix κ ι ℂ} {m : CSSolver ι} {m' : CSSolver κ} (hm : m.Intertwined P m') {nl : NlFunc ι}
    {nl' : NlFunc κ} (hnl : MapsNl P nl nl') (u : Vec ι) (h : ℝ) (hc : m.CoefOk h) (hc' : m'.CoefOk h) (s : m.State)
    (s' : m'.State) (hs : m.Follows nl u s) (hs' : m'.Follows nl' (P *ᵥ u) s') :
    (m'.step nl' (P *ᵥ u) h s').1 = (m.step nl u h s).1.map fun v => P *ᵥ v := by
  by_cases hh : 0 ≤ h
  · unfold CSSolver.step
    rw [CSClass.step_apply _ _ hh, CSClass.step_apply _ _ hh]
    simp only
    rw [(m.lawful nl).result _ _ _ hs.inv, (m'.lawful nl').result _ _ _ hs'.inv]
    exact (hm.oneStep hnl hc hc' u _ rfl).eq_map
  · rw [m.step_neg nl u h (not_le.mp hh), m'.step_neg nl' _ h (not_le.mp hh)]
    rfl

/-- **C66.** Constant-step runs: the result, the times and the snapshots. -/
theorem C66_evolve {P : Matrix κ ι ℂ} {m : CSSolver ι} {m' : CSSolver κ} (hm : m.Intertwined P m') {nl : NlFunc ι}
    {nl' : NlFunc κ} (hnl : MapsNl P nl nl') (rnd : ℝ → ℝ) (pyDiv : Bool) (fuel : ℕ) (u : Vec ι) (t0 tf h : ℝ)
    (hc : m.CoefOk h) (hc' : m'.CoefOk h) (storeData : Bool) (freq : ℤ) (s : m.State) (s' : m'.State) :
    (m'.evolve nl' rnd pyDiv fuel (P *ᵥ u) t0 tf h storeData freq s').1 =
      (m.evolve nl rnd pyDiv fuel u t0 tf h storeData freq s).1.map (Option.map fun v => P *ᵥ v) ∧
    (m'.evolve nl' rnd pyDiv fuel (P *ᵥ u) t0 tf h storeData freq s').2.t =
      (m.evolve nl rnd pyDiv fuel u t0 tf h storeData freq s).2.t ∧
    (m'.evolve nl' rnd pyDiv fuel (P *ᵥ u) t0 tf h storeData freq s').2.u =
      (m.evolve nl rnd pyDiv fuel u t0 tf h storeData freq s).2.u.map fun v => P *ᵥ v := by
  have := CSClass.evolve_rel (m.lawful nl) (m'.lawful nl') (mapRel P) rnd pyDiv fuel u (P *ᵥ u) t0 tf h
    (fun u u' hu => hm.oneStep hnl hc hc' u u' hu) storeData freq s s' rfl
  exact ⟨(this.1.mono fun a b h => RelO.eq_map h).eq_map, this.2.1.symm, forall2_eq_map this.2.2⟩

/-- **C66.** Trials of adaptive solvers: the trial solution, and the exceptions.  (The sizes chosen afterwards may differ, because
they depend on the norms of all of `u` and of the error.) -/
theorem C66_trial {P : Matrix κ ι ℂ} {m : ASSolver ι} {m' : ASSolver κ} (hm : m.Intertwined P m') {nl : NlFunc ι}
    {nl' : NlFunc κ} (hnl : MapsNl P nl nl') (u : Vec ι) (h : ℝ) (hc : m.CoefOk h) (hc' : m'.CoefOk h) (s : m.State)
    (s' : m'.State) (hs : m.Follows nl u s) (hs' : m'.Follows nl' (P *ᵥ u) s') :
    (m'.trial nl' (P *ᵥ u) h s').1.map Prod.fst = (m.trial nl u h s).1.map fun r => P *ᵥ r.1 := by
  unfold ASSolver.trial
  rw [ASClass.trial_apply, ASClass.trial_apply]
  simp only
  rw [(m.lawful nl).result _ _ _ _ hs.ready, (m'.lawful nl').result _ _ _ _ hs'.ready]
  have := hm.oneTrial hnl hc hc' u _ rfl
  cases h1 : m.oneTrial nl h u with
  | error e => rw [this.error h1]; rfl
  | ok r =>
    obtain ⟨r', h2, h3⟩ := this.ok h1
    rw [h2]
    exact congrArg Except.ok h3.1

/-- **C66.** Without diagonalization also the error estimate. -/
theorem C66_trial_error {P : Matrix κ ι ℂ} {m : ASSolver ι} {m' : ASSolver κ} (hm : m.Intertwined P m') (hd : ∀ l S T hS, m.op ≠ .eig l S T hS)
    (hd' : ∀ l S T hS, m'.op ≠ .eig l S T hS) {nl : NlFunc ι}
    {nl' : NlFunc κ} (hnl : MapsNl P nl nl') (u : Vec ι) (h : ℝ) (hc : m.CoefOk h) (hc' : m'.CoefOk h) (s : m.State)
    (s' : m'.State) (hs : m.Follows nl u s) (hs' : m'.Follows nl' (P *ᵥ u) s') :
    (m'.trial nl' (P *ᵥ u) h s').1 = (m.trial nl u h s).1.map fun r => (P *ᵥ r.1, P *ᵥ r.2) := by
  unfold ASSolver.trial
  rw [ASClass.trial_apply, ASClass.trial_apply]
  simp only
  rw [(m.lawful nl).result _ _ _ _ hs.ready, (m'.lawful nl').result _ _ _ _ hs'.ready]
  have := hm.oneTrial hnl hc hc' u _ rfl
  have h1 : m.op.embM = 1 := by
    cases ho : m.op with
    | eig l S T hS => exact absurd ho (hd l S T hS)
    | _ => rfl
  have h2 : m'.op.prjM = 1 := by
    cases ho : m'.op with
    | eig l S T hS => exact absurd ho (hd' l S T hS)
    | _ => rfl
  have hw : ASOp.working P m.op m'.op = P := by rw [ASOp.working, h1, h2, Matrix.one_mul, Matrix.mul_one]
  rw [hw] at this
  exact (this.mono fun a b h => (Prod.ext h.1 h.2 : b = (fun r => (P *ᵥ r.1, P *ᵥ r.2)) a)).eq_map

/-! ### Invariant subspaces -/

/-- **C66.** A subspace that is invariant under the operator and the nonlinear function is invariant under steps: of constant-step
solvers, -/
theorem C66_subspace_step (m : CSSolver ι) (nl : NlFunc ι) (W : Submodule ℂ (Vec ι)) (hW : ∀ v ∈ W, m.op.mat *ᵥ v ∈ W)
    (hnl : ∀ v n, v ∈ W → nl v = .ok n → n ∈ W) (u : Vec ι) (hu : u ∈ W) (h : ℝ) (s : m.State) (hs : m.Follows nl u s) (v : Vec ι)
    (hv : (m.step nl u h s).1 = .ok v) : v ∈ W :=
  m.step_invariant nl (· ∈ W) (fun _ _ _ hu hv => CSSolver.oneStep_sub hW hnl hu hv) u hu h hs.inv v hv

/-- **C66.** of adaptive solvers (also diagonalized ones, for which the subspace is that of the user's arrays), -/
theorem C66_subspace_adaptive_step (m : ASSolver ι) (nl : NlFunc ι) (W : Submodule ℂ (Vec ι)) (hW : ∀ v ∈ W, m.op.mat *ᵥ v ∈ W)
    (hnl : ∀ v n, v ∈ W → nl v = .ok n → n ∈ W) (rnd : ℝ → ℝ) (cfg : SolverConfig ℝ) (u : Vec ι) (hu : u ∈ W) (h : ℝ)
    (s : m.State) (hs : m.Follows nl u s) (v : Vec ι) (h1 h2 : ℝ) (hv : (m.step nl rnd cfg u h s).1 = .ok (v, h1, h2)) : v ∈ W :=
  m.step_invariant nl (· ∈ W) (fun _ _ _ hu hr => ASSolver.oneTrial_sub hW hnl hu hr) rnd cfg u hu h hs.ready v h1 h2 hv

/-- **C66.** and in runs: in the result and in all snapshots. -/
theorem C66_subspace_evolve (m : CSSolver ι) (nl : NlFunc ι) (W : Submodule ℂ (Vec ι)) (hW : ∀ v ∈ W, m.op.mat *ᵥ v ∈ W)
    (hnl : ∀ v n, v ∈ W → nl v = .ok n → n ∈ W) (rnd : ℝ → ℝ) (pyDiv : Bool) (fuel : ℕ) (u : Vec ι) (hu : u ∈ W) (t0 tf h : ℝ)
    (storeData : Bool) (freq : ℤ) (s : m.State) :
    (∀ v, (m.evolve nl rnd pyDiv fuel u t0 tf h storeData freq s).1 = .ok (some v) → v ∈ W) ∧
    ∀ v ∈ (m.evolve nl rnd pyDiv fuel u t0 tf h storeData freq s).2.u, v ∈ W :=
  m.evolve_invariant nl (· ∈ W) rnd pyDiv fuel u hu t0 tf h (fun _ _ hu hv => CSSolver.oneStep_sub hW hnl hu hv) storeData freq s

theorem C66_subspace_adaptive_evolve (m : ASSolver ι) (nl : NlFunc ι) (W : Submodule ℂ (Vec ι)) (hW : ∀ v ∈ W, m.op.mat *ᵥ v ∈ W)
    (hnl : ∀ v n, v ∈ W → nl v = .ok n → n ∈ W) (rnd : ℝ → ℝ) (pyDiv : Bool) (cfg : SolverConfig ℝ) (fuel : ℕ) (u : Vec ι)
    (hu : u ∈ W) (t0 tf : ℝ) (hInit : Option ℝ) (storeData : Bool) (freq : ℤ) (s : m.State) :
    (∀ v, (m.evolve nl rnd pyDiv cfg fuel u t0 tf hInit storeData freq s).1 = .ok (some v) → v ∈ W) ∧
    ∀ v ∈ (m.evolve nl rnd pyDiv cfg fuel u t0 tf hInit storeData freq s).2.u, v ∈ W :=
  m.evolve_invariant nl (· ∈ W) (fun _ _ _ hu hr => ASSolver.oneTrial_sub hW hnl hu hr) rnd pyDiv cfg fuel u hu t0 tf hInit
    storeData freq s

/-! ### Linear functionals -/

theorem StepSpec.trial {Φ : ℝ → Vec ι → Except PyErr (Vec ι × Vec ι)} {S : Vec ι × Vec ι → Ext ℝ} {cfg : SolverConfig ℝ}
    {rnd : ℝ → ℝ} {u v : Vec ι} {h h1 h2 : ℝ} (hsp : StepSpec Φ S cfg rnd u h (.ok (v, h1, h2))) :
    ∃ r, Φ h1 u = .ok r ∧ r.1 = v := by
  generalize hx : (Except.ok (v, h1, h2) : Except PyErr (Vec ι × ℝ × ℝ)) = x at hsp
  cases hsp with
  | @accept j h' x r a1 a2 a3 a4 a5 =>
    simp only [Except.ok.injEq, Prod.mk.injEq] at hx
    rw [hx.2.1, hx.1]
    exact ⟨r, a3, rfl⟩
  | _ => simp at hx

/-- **C66.** A functional `w` with `w L = λ w` on which the nonlinear function vanishes: `w·u` is multiplied by `exp(λ h)` in every
constant step, -/
theorem C66_functional_step (m : CSSolver ι) (nl : NlFunc ι) (w : Vec ι) (lam : ℂ) (hw : w ᵥ* m.op.mat = lam • w)
    (hnl : ∀ v n, nl v = .ok n → w ⬝ᵥ n = 0) (u : Vec ι) (h : ℝ) (s : m.State) (hs : m.Follows nl u s) (v : Vec ι)
    (hv : (m.step nl u h s).1 = .ok v) : w ⬝ᵥ v = Complex.exp (h * lam) * w ⬝ᵥ u := by
  by_cases hh : 0 ≤ h
  · unfold CSSolver.step at hv
    rw [CSClass.step_apply _ _ hh] at hv
    simp only at hv
    rw [(m.lawful nl).result _ _ _ hs.inv] at hv
    exact dot_expm hw h v u (CSSolver.oneStep_mod (keeps_ker hw) hnl hv)
  · rw [m.step_neg nl u h (not_le.mp hh)] at hv
    simp at hv

/-- **C66.** and by `exp(λ h_u)` in every adaptive step, where `h_u` is the size used. -/
theorem C66_functional_adaptive_step (m : ASSolver ι) (nl : NlFunc ι) (w : Vec ι) (lam : ℂ) (hw : w ᵥ* m.op.mat = lam • w)
    (hnl : ∀ v n, nl v = .ok n → w ⬝ᵥ n = 0) (rnd : ℝ → ℝ) (cfg : SolverConfig ℝ) (u : Vec ι) (h : ℝ) (s : m.State)
    (hs : m.Follows nl u s) (v : Vec ι) (h1 h2 : ℝ) (hv : (m.step nl rnd cfg u h s).1 = .ok (v, h1, h2)) :
    w ⬝ᵥ v = Complex.exp (h1 * lam) * w ⬝ᵥ u := by
  by_cases hh : 0 ≤ h
  · have hsp := (ASClass.step_spec (m.lawful nl) rnd cfg u h hh s hs.ready).1
    unfold ASSolver.step at hv
    rw [hv] at hsp
    obtain ⟨r, h3, rfl⟩ := hsp.trial
    exact dot_expm hw h1 r.1 u (ASSolver.oneTrial_mod (keeps_ker hw) hnl h3)
  · unfold ASSolver.step at hv
    rw [ASClass.step_neg _ _ _ _ hh] at hv
    simp at hv

/-- **C66.** If `λ = 0`, `w·u` is conserved, in runs of constant-step solvers -/
theorem C66_conserved (m : CSSolver ι) (nl : NlFunc ι) (w : Vec ι) (hw : w ᵥ* m.op.mat = 0)
    (hnl : ∀ v n, nl v = .ok n → w ⬝ᵥ n = 0) (rnd : ℝ → ℝ) (pyDiv : Bool) (fuel : ℕ) (u : Vec ι) (t0 tf h : ℝ)
    (storeData : Bool) (freq : ℤ) (s : m.State) :
    (∀ v, (m.evolve nl rnd pyDiv fuel u t0 tf h storeData freq s).1 = .ok (some v) → w ⬝ᵥ v = w ⬝ᵥ u) ∧
    ∀ v ∈ (m.evolve nl rnd pyDiv fuel u t0 tf h storeData freq s).2.u, w ⬝ᵥ v = w ⬝ᵥ u := by
  have hw' : w ᵥ* m.op.mat = (0 : ℂ) • w := by rw [hw, zero_smul]
  refine m.evolve_invariant nl (fun v => w ⬝ᵥ v = w ⬝ᵥ u) rnd pyDiv fuel u rfl t0 tf h (fun a b ha hb => ?_) storeData freq s
  rw [dot_expm hw' h b a (CSSolver.oneStep_mod (keeps_ker hw') hnl hb), ha]
  simp

/-- **C66.** and of adaptive solvers, whatever steps they choose. -/
theorem C66_conserved_adaptive (m : ASSolver ι) (nl : NlFunc ι) (w : Vec ι) (hw : w ᵥ* m.op.mat = 0)
    (hnl : ∀ v n, nl v = .ok n → w ⬝ᵥ n = 0) (rnd : ℝ → ℝ) (pyDiv : Bool) (cfg : SolverConfig ℝ) (fuel : ℕ) (u : Vec ι)
    (t0 tf : ℝ) (hInit : Option ℝ) (storeData : Bool) (freq : ℤ) (s : m.State) :
    (∀ v, (m.evolve nl rnd pyDiv cfg fuel u t0 tf hInit storeData freq s).1 = .ok (some v) → w ⬝ᵥ v = w ⬝ᵥ u) ∧
    ∀ v ∈ (m.evolve nl rnd pyDiv cfg fuel u t0 tf hInit storeData freq s).2.u, w ⬝ᵥ v = w ⬝ᵥ u := by
  have hw' : w ᵥ* m.op.mat = (0 : ℂ) • w := by rw [hw, zero_smul]
  refine m.evolve_invariant nl (fun v => w ⬝ᵥ v = w ⬝ᵥ u) (fun h a b ha hb => ?_) rnd pyDiv cfg fuel u rfl t0 tf hInit storeData
    freq s
  rw [dot_expm hw' h b.1 a (ASSolver.oneTrial_mod (keeps_ker hw') hnl hb), ha]
  simp

/-- **C66.** For other `λ` every snapshot of a constant-step run with exact clock satisfies `w·u(t) = exp(λ (t - t0)) w·u`, and so does
the result at the time `t0 + n h` where the run ends. -/
theorem C66_exponential (m : CSSolver ι) (f : Vec ι → Vec ι) (w : Vec ι) (lam : ℂ) (hw : w ᵥ* m.op.mat = lam • w)
    (hnl : ∀ v, w ⬝ᵥ f v = 0) (u : Vec ι) (t0 tf h : ℝ) (hh : 0 < h) (hspan : t0 + h ≤ tf) (hc : m.CoefOk h) (n : ℕ)
    (hn : IsLeast {n : ℕ | tf ≤ t0 + n * h} n) (storeData : Bool) (freq : ℤ) (hf : storeData = true → freq ≠ 0) (s : m.State)
    (fuel : ℕ) (hfuel : n < fuel) :
    (∃ v, (m.evolve (total f) id false fuel u t0 tf h storeData freq s).1 = .ok (some v) ∧
      w ⬝ᵥ v = Complex.exp ((n * h : ℝ) * lam) * w ⬝ᵥ u) ∧
    List.Forall₂ (fun t v => w ⬝ᵥ v = Complex.exp ((t - t0 : ℝ) * lam) * w ⬝ᵥ u)
      (m.evolve (total f) id false fuel u t0 tf h storeData freq s).2.t
      (m.evolve (total f) id false fuel u t0 tf h storeData freq s).2.u := by
  have htot := m.oneStep_total (total f) (fun v => ⟨f v, rfl⟩) h hc
  choose g hg using htot
  have key : ∀ k : ℕ, w ⬝ᵥ (g^[k] u) = Complex.exp ((k * h : ℝ) * lam) * w ⬝ᵥ u := by
    intro k
    induction k with
    | zero => simp
    | succ k ih =>
      rw [Function.iterate_succ_apply', dot_expm hw h _ _ (CSSolver.oneStep_mod (keeps_ker hw)
        (fun v n hn => by cases hn; exact hnl v) (hg (g^[k] u))), ih, ← mul_assoc, ← Complex.exp_add]
      congr 2
      push_cast
      ring
  obtain ⟨e1, e2, e3, -⟩ := m.evolve_ok (total f) false u t0 tf h storeData freq hh hspan hf n hn (by simp) (fun k => g^[k] u) rfl
    (fun k _ => by simp only [hg, Function.iterate_succ_apply']) s fuel hfuel
  refine ⟨⟨_, e1, key n⟩, ?_⟩
  rw [e2, e3]
  split
  · rw [List.forall₂_map_left_iff, List.forall₂_map_right_iff]
    refine List.forall₂_same.mpr fun k _ => ?_
    rw [key k, add_sub_cancel_left]
  · exact .nil

/-- **C66.** Every snapshot of an adaptive run with exact clock satisfies the same, and so does the result at the time where the run
ended. -/
theorem C66_exponential_adaptive (m : ASSolver ι) (nl : NlFunc ι) (w : Vec ι) (lam : ℂ) (hw : w ᵥ* m.op.mat = lam • w)
    (hnl : ∀ v n, nl v = .ok n → w ⬝ᵥ n = 0) (pyDiv : Bool) (cfg : SolverConfig ℝ) (fuel : ℕ) (u : Vec ι)
    (t0 tf : ℝ) (hInit : Option ℝ) (storeData : Bool) (freq : ℤ) (s : m.State) :
    (∀ v, (m.evolve nl id pyDiv cfg fuel u t0 tf hInit storeData freq s).1 = .ok (some v) →
      w ⬝ᵥ v = Complex.exp (((m.evolve nl id pyDiv cfg fuel u t0 tf hInit storeData freq s).2.tc - t0 : ℝ) * lam) * w ⬝ᵥ u) ∧
    List.Forall₂ (fun t v => w ⬝ᵥ v = Complex.exp ((t - t0 : ℝ) * lam) * w ⬝ᵥ u)
      (m.evolve nl id pyDiv cfg fuel u t0 tf hInit storeData freq s).2.t
      (m.evolve nl id pyDiv cfg fuel u t0 tf hInit storeData freq s).2.u := by
  obtain ⟨n, tm, st, hp, hu, h1, h2, h3, h4, h5, h6, h7, h8⟩ := ASClass.evolve_run (m.lawful nl) id pyDiv cfg
    fuel u t0 tf hInit storeData freq s
  have key : ∀ k ≤ n, w ⬝ᵥ st k = Complex.exp ((tm k - t0 : ℝ) * lam) * w ⬝ᵥ u := by
    intro k
    induction k with
    | zero => intro _; rw [h1, h2]; simp
    | succ k ih =>
      intro hk
      obtain ⟨-, hs, h9, h10, -⟩ := h4.step k (by omega)
      obtain ⟨r, h11, h12⟩ := h9.trial
      rw [← h12, dot_expm hw _ _ _ (ASSolver.oneTrial_mod (keeps_ker hw) hnl h11), ih (by omega), h10, ← mul_assoc,
        ← Complex.exp_add]
      congr 2
      simp only [id]
      push_cast
      ring
  have hstored : ∀ k ∈ storedUpTo freq n, k ≤ n := by
    intro k hk
    have := List.mem_range.mp (List.mem_filter.mp hk).1
    omega
  unfold ASSolver.evolve
  refine ⟨fun v hv => ?_, ?_⟩
  · rw [h8 v hv]
    have : v = st n := by
      rw [hv] at h7
      cases h7 with
      | returned => rfl
    rw [this]
    exact key n le_rfl
  · rw [h5, h6]
    split
    · rw [List.forall₂_map_left_iff, List.forall₂_map_right_iff]
      exact List.forall₂_same.mpr fun k hk => key k (hstored k hk)
    · exact .nil

/-! ### Examples -/

/-- Exchange between two compartments, as a full matrix. -/
def exchange : Mat (Fin 2) := !![-1, 1; 1, -1]

/-- The sum of the compartments satisfies an equation of its own, which a solver with a diagonal operator solves. -/
theorem exchange_sum :
    CSSolver.Intertwined (!![1, 1] : Matrix (Fin 1) (Fin 2) ℂ) (.if4 (.full exchange)) (.if4 (.diag 0)) ∧
    MapsNl (!![1, 1] : Matrix (Fin 1) (Fin 2) ℂ) (total fun v => ![(v 0 + v 1) ^ 2, 1]) (total fun v => ![v 0 ^ 2 + 1]) := by
  constructor
  · refine .if4 ?_
    ext i j
    fin_cases i
    fin_cases j <;> simp [exchange, LinOp.mat, Matrix.mul_apply, Fin.sum_univ_two]
  · intro v
    simp only [total, Except.map]
    congr 1
    ext i
    fin_cases i
    simp [Matrix.mulVec, dotProduct, Fin.sum_univ_two]

/-- One step of IF4, and one trial of IF34, for the sum of two components. -/
example (u : Vec (Fin 2)) :
    ((CSSolver.if4 (.diag (0 : Vec (Fin 1)))).step (total fun v => ![v 0 ^ 2 + 1]) ((!![1, 1] : Matrix (Fin 1) (Fin 2) ℂ) *ᵥ u) (1 / 8)
      (CSSolver.if4 (.diag (0 : Vec (Fin 1)))).new).1 =
      ((CSSolver.if4 (.full exchange)).step (total fun v => ![(v 0 + v 1) ^ 2, 1]) u (1 / 8) (CSSolver.if4 (.full exchange)).new).1.map
        fun v => (!![1, 1] : Matrix (Fin 1) (Fin 2) ℂ) *ᵥ v :=
  C66_step exchange_sum.1 exchange_sum.2 u (1 / 8) trivial trivial _ _ (.new _) (.new _)

example (u : Vec (Fin 2)) : let m := ASSolver.if34 (.full exchange)
    let m' := ASSolver.if34 (.diag (0 : Vec (Fin 1)))
    (m'.trial (total fun v => ![v 0 ^ 2 + 1]) ((!![1, 1] : Matrix (Fin 1) (Fin 2) ℂ) *ᵥ u) (1 / 8) m'.new).1 =
      (m.trial (total fun v => ![(v 0 + v 1) ^ 2, 1]) u (1 / 8) m.new).1.map
        (fun r => ((!![1, 1] : Matrix (Fin 1) (Fin 2) ℂ) *ᵥ r.1, (!![1, 1] : Matrix (Fin 1) (Fin 2) ℂ) *ᵥ r.2)) ∧
    (m'.trial (total fun v => ![v 0 ^ 2 + 1]) ((!![1, 1] : Matrix (Fin 1) (Fin 2) ℂ) *ᵥ u) (1 / 8) m'.new).1.map Prod.fst =
      (m.trial (total fun v => ![(v 0 + v 1) ^ 2, 1]) u (1 / 8) m.new).1.map fun r => (!![1, 1] : Matrix (Fin 1) (Fin 2) ℂ) *ᵥ r.1 := by
  intro m m'
  have hm : m.Intertwined (!![1, 1] : Matrix (Fin 1) (Fin 2) ℂ) m' := by
    refine .if34 ?_
    ext i j
    fin_cases i
    fin_cases j <;> simp [exchange, ASOp.mat, Matrix.mul_apply, Fin.sum_univ_two]
  exact ⟨C66_trial_error hm (by simp [m, ASSolver.op]) (by simp [m', ASSolver.op]) exchange_sum.2 u (1 / 8) trivial trivial _ _ (.new _) (.new _),
    C66_trial hm exchange_sum.2 u (1 / 8) trivial trivial _ _ (.new _) (.new _)⟩

theorem exchange_diff {w : Vec (Fin 2)} (hw : ![1, -1] ⬝ᵥ w = 0) : ![1, -1] ⬝ᵥ (exchange *ᵥ w) = 0 := by
  simp [exchange, Matrix.mulVec, dotProduct, Fin.sum_univ_two] at hw ⊢
  linear_combination (-2) * hw

/-- Equal components stay equal: constant and adaptive steps, adaptive runs. -/
example (e : ETDConfig ℝ) (cfg : SolverConfig ℝ) (v : Vec (Fin 2)) (h1 h2 : ℝ) :
    (let m := CSSolver.etd4 e (.full exchange)
     (m.step (total fun v => v * v) ![3, 3] (1 / 8) m.new).1 = .ok v → v ∈ kerOf ![1, -1]) ∧
    (let m := ASSolver.etd34 e (.full exchange)
     ((m.step (total fun v => v * v) id cfg ![3, 3] (1 / 8) m.new).1 = .ok (v, h1, h2) → v ∈ kerOf ![1, -1]) ∧
     ((m.evolve (total fun v => v * v) id true cfg 100 ![3, 3] 0 1 none true 1 m.new).1 = .ok (some v) → v ∈ kerOf ![1, -1])) := by
  have hu : (![3, 3] : Vec (Fin 2)) ∈ kerOf ![1, -1] := by
    show ![1, -1] ⬝ᵥ _ = 0
    simp [dotProduct, Fin.sum_univ_two]
  have hn : ∀ v n : Vec (Fin 2), v ∈ kerOf ![1, -1] → (total fun v => v * v) v = .ok n → n ∈ kerOf ![1, -1] := by
    intro v n hv hn
    cases hn
    have h0 : v 0 = v 1 := by
      have : ![1, -1] ⬝ᵥ v = 0 := hv
      simpa [dotProduct, Fin.sum_univ_two, ← sub_eq_add_neg, sub_eq_zero] using this
    show ![1, -1] ⬝ᵥ _ = 0
    simp [dotProduct, Fin.sum_univ_two, h0]
  exact ⟨fun hv => C66_subspace_step (.etd4 e (.full exchange)) _ _ (fun _ => exchange_diff) hn _ hu _ _ (.new _) v hv,
    fun hv => C66_subspace_adaptive_step (.etd34 e (.full exchange)) _ _ (fun _ => exchange_diff) hn _ _ _ hu _ _ (.new _) v _ _ hv,
    fun hv => (C66_subspace_adaptive_evolve (.etd34 e (.full exchange)) _ _ (fun _ => exchange_diff) hn _ _ _ _ _ hu _ _ _ _ _ _).1 v hv⟩

/-- A step of size `h` multiplies the difference of the components by `e^(-2h)` when the term does not change it. -/
example (e : ETDConfig ℝ) (cfg : SolverConfig ℝ) (u v : Vec (Fin 2)) (h h1 h2 : ℝ) :
    (let m := CSSolver.etd5 e (.full exchange)
     (m.step (total fun v => ![v 0 * v 1, v 0 * v 1]) u h m.new).1 = .ok v →
      ![1, -1] ⬝ᵥ v = Complex.exp (h * (-2)) * ![1, -1] ⬝ᵥ u) ∧
    (let m := ASSolver.etd35 e (.full exchange)
     (m.step (total fun v => ![v 0 * v 1, v 0 * v 1]) id cfg u h m.new).1 = .ok (v, h1, h2) →
      ![1, -1] ⬝ᵥ v = Complex.exp (h1 * (-2)) * ![1, -1] ⬝ᵥ u) := by
  have hw : (![1, -1] : Vec (Fin 2)) ᵥ* exchange = (-2 : ℂ) • ![1, -1] := by
    ext i
    fin_cases i <;> simp [exchange, Matrix.vecMul, dotProduct, Fin.sum_univ_two] <;> norm_num
  have hn : ∀ v n : Vec (Fin 2), (total fun v => ![v 0 * v 1, v 0 * v 1]) v = .ok n → ![1, -1] ⬝ᵥ n = 0 := by
    intro v n hn
    cases hn
    simp [dotProduct, Fin.sum_univ_two]
  exact ⟨C66_functional_step (.etd5 e (.full exchange)) _ _ _ hw hn u h _ (.new _) v,
    C66_functional_adaptive_step (.etd35 e (.full exchange)) _ _ _ hw hn _ cfg u h _ (.new _) v h1 h2⟩

example (u : Vec (Fin 2)) (rnd : ℝ → ℝ) (s : (CSSolver.if4 (.full exchange)).State) :
    ((CSSolver.if4 (.diag (0 : Vec (Fin 1)))).evolve (total fun v => ![v 0 ^ 2 + 1]) rnd true 100 ((!![1, 1] : Matrix (Fin 1) (Fin 2) ℂ) *ᵥ u)
        0 1 (1 / 8) true 2 (CSSolver.if4 (.diag (0 : Vec (Fin 1)))).new).2.u =
      ((CSSolver.if4 (.full exchange)).evolve (total fun v => ![(v 0 + v 1) ^ 2, 1]) rnd true 100 u 0 1 (1 / 8) true 2 s).2.u.map
        fun v => (!![1, 1] : Matrix (Fin 1) (Fin 2) ℂ) *ᵥ v :=
  (C66_evolve exchange_sum.1 exchange_sum.2 rnd true 100 u 0 1 (1 / 8) trivial trivial true 2 s _).2.2

/-- Arrays with equal entries stay so, for every solver of every class. -/
example (m : CSSolver (Fin 2)) (hm : m.op = .full exchange) (rnd : ℝ → ℝ) (t0 tf h : ℝ) (s : m.State) :
    ∀ v ∈ (m.evolve (total fun v => v * v) rnd true 1000 ![3, 3] t0 tf h true 1 s).2.u, v 0 = v 1 := by
  let W : Submodule ℂ (Vec (Fin 2)) := kerOf ![1, -1]
  have hW : ∀ v : Vec (Fin 2), v ∈ W ↔ v 0 = v 1 := by
    intro v
    show ![1, -1] ⬝ᵥ v = 0 ↔ _
    simp [dotProduct, Fin.sum_univ_two, ← sub_eq_add_neg, sub_eq_zero]
  intro v hv
  refine (hW v).mp ((C66_subspace_evolve m _ W (fun v hv => ?_) (fun v n hv hn => ?_) rnd true 1000 ![3, 3] ((hW _).mpr (by simp)) t0 tf h
    true 1 s).2 v hv)
  · rw [hm, hW] at *
    simp [LinOp.mat, exchange, Matrix.mulVec, dotProduct, Fin.sum_univ_two, hv]
  · cases hn
    rw [hW] at *
    simp [hv]

/-- What one compartment loses the other gains: the sum is conserved by the adaptive solvers, diagonalized or not. -/
example (m : ASSolver (Fin 2)) (hm : m.op.mat = exchange) (rnd : ℝ → ℝ) (cfg : SolverConfig ℝ) (u v : Vec (Fin 2)) (s : m.State)
    (hv : (m.evolve (total fun v => ![v 0 * v 1, -(v 0 * v 1)]) rnd true cfg 1000 u 0 10 none false 1 s).1 = .ok (some v)) :
    v 0 + v 1 = u 0 + u 1 := by
  have := (C66_conserved_adaptive m (total fun v => ![v 0 * v 1, -(v 0 * v 1)]) ![1, 1] (by
    rw [hm]
    ext i
    fin_cases i <;> simp [exchange, Matrix.vecMul, dotProduct, Fin.sum_univ_two]) (fun v n hn => by
    cases hn
    simp [dotProduct, Fin.sum_univ_two]) rnd true cfg 1000 u 0 10 none false 1 s).1 v hv
  simpa [dotProduct, Fin.sum_univ_two] using this

/-- The difference of the compartments decays like `exp(-2t)`. -/
example (m : ASSolver (Fin 2)) (hm : m.op.mat = exchange) (cfg : SolverConfig ℝ) (u : Vec (Fin 2)) (s : m.State) :
    List.Forall₂ (fun t v => v 0 - v 1 = Complex.exp ((t - 0 : ℝ) * -2) * (u 0 - u 1))
      (m.evolve (total fun v => ![v 0 * v 1, v 0 * v 1]) id true cfg 1000 u 0 10 none true 1 s).2.t
      (m.evolve (total fun v => ![v 0 * v 1, v 0 * v 1]) id true cfg 1000 u 0 10 none true 1 s).2.u := by
  have := (C66_exponential_adaptive m (total fun v => ![v 0 * v 1, v 0 * v 1]) ![1, -1] (-2) (by
    rw [hm]
    ext i
    fin_cases i <;> simp [exchange, Matrix.vecMul, dotProduct, Fin.sum_univ_two] <;> norm_num) (fun v n hn => by
    cases hn
    simp [dotProduct, Fin.sum_univ_two]) true cfg 1000 u 0 10 none true 1 s).2
  simpa [dotProduct, Fin.sum_univ_two, ← sub_eq_add_neg] using this

end Verif
