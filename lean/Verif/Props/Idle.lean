import Verif.Spec.Idle
import Verif.Props.Schemes
import Verif.Props.Adaptive
import Verif.Props.Conservation
import Verif.Lemmas.Subspace
import Verif.Lemmas.BroadcastFlat

/-!
# C94: states on which `nl_func` has no effect
-/

set_option linter.unusedSectionVars false

namespace Verif

open Matrix

variable {ι : Type} [Fintype ι] [DecidableEq ι]

theorem Idle.expm {L : Mat ι} {nl : NlFunc ι} {u : Vec ι} (hu : Idle L nl u) (s : ℝ) : Idle L nl (expm L s *ᵥ u) := fun t => by
  rw [expm_mulVec_add]; exact hu _

/-- Equilibria of both parts. -/
theorem Idle.of_still {L : Vec ι} {nl : NlFunc ι} {u : Vec ι} (h1 : ∀ i, u i ≠ 0 → L i = 0) (h2 : nl u = .ok 0) : Idle (Matrix.diagonal L) nl u := by
  intro t
  have : Verif.expm (Matrix.diagonal L) t *ᵥ u = u := by
    rw [expm_diagonal]
    funext i
    rw [mulVec_diagonal]
    by_cases h : u i = 0
    · rw [h, mul_zero]
    · rw [h1 i h]; simp
  rw [this, h2]

theorem krogstad_flowE (φ : ℕ → ℝ → Mat ι) (L : Mat ι) (h : ℝ) (i : ℕ) : ∃ x : ℝ, (krogstad φ L h).E i = expm L x := by
  rcases i with _ | _ | _ | _ | _ | i
  exacts [⟨0, (expm_zero L).symm⟩, ⟨_, rfl⟩, ⟨_, rfl⟩, ⟨_, rfl⟩, ⟨_, rfl⟩, ⟨0, (expm_zero L).symm⟩]

theorem etd5_flowE (b : Bool) (φ : ℕ → ℝ → Mat ι) (L : Mat ι) (h : ℝ) (i : ℕ) : ∃ x : ℝ, (etd5Method b φ L h).E i = expm L x := by
  rcases i with _ | _ | _ | _ | _ | _ | _ | i
  exacts [⟨0, (expm_zero L).symm⟩, ⟨_, rfl⟩, ⟨_, rfl⟩, ⟨_, rfl⟩, ⟨_, rfl⟩, ⟨_, rfl⟩, ⟨_, rfl⟩, ⟨0, (expm_zero L).symm⟩]

theorem CSSolver.method_E (m : CSSolver ι) (h : ℝ) (i : ℕ) : ∃ x : ℝ, (m.method h).E i = expm m.op.mat x := by
  rcases m with L | ⟨cfg, L⟩ | ⟨cfg, L⟩
  · first | exact ⟨_, rfl⟩ | exact krogstad_flowE _ _ _ _ | exact etd5_flowE _ _ _ _ _
  · first | exact ⟨_, rfl⟩ | exact krogstad_flowE _ _ _ _ | exact etd5_flowE _ _ _ _ _
  · first | exact ⟨_, rfl⟩ | exact krogstad_flowE _ _ _ _ | exact etd5_flowE _ _ _ _ _

theorem ASSolver.user_E (m : ASSolver ι) (h : ℝ) (i : ℕ) : ∃ x : ℝ, (m.op.user (m.method h)).E i = expm m.op.mat x := by
  rcases m with L | ⟨cfg, L⟩ | ⟨cfg, L⟩ | L
  · exact ⟨_, congrArg (fun M => ERK.E M i) (L.user_lawson rk4 h)⟩
  · obtain ⟨x, hx⟩ := krogstad_flowE (L.phi cfg h) L.mat h i
    exact ⟨x, (congrArg (fun M => ERK.E M i) (L.user_krogstad cfg h)).trans hx⟩
  · obtain ⟨x, hx⟩ := etd5_flowE false (L.phi cfg h) L.mat h i
    exact ⟨x, (congrArg (fun M => ERK.E M i) (L.user_etd5 false cfg h)).trans hx⟩
  · exact ⟨_, rfl⟩

theorem ERK.step_idle (M : ERK ι) {L : Mat ι} (hE : ∀ i, ∃ x : ℝ, M.E i = expm L x) {nl : NlFunc ι} {u : Vec ι} (hu : Idle L nl u) :
    M.step nl u = .ok (M.Eout *ᵥ u, 0) := by
  rw [M.step_of nl u (N := 0) fun i _ => by
    obtain ⟨x, hx⟩ := hE i
    simp [ERK.arg, hx, hu x]]
  simp [ERK.out, ERK.err]

/-- **C94.** A constant step from a state on which `nl_func` has no effect is `exp(h L) u`. -/
theorem C94_step (m : CSSolver ι) {nl : NlFunc ι} {u : Vec ι} (hu : Idle m.op.mat nl u) (h : ℝ) (hh : 0 ≤ h) (hc : m.CoefOk h) :
    (m.step nl u h m.new).1 = .ok (expm m.op.mat h *ᵥ u) := by
  rw [CSSolver.step_method _ _ _ _ hh hc, ERK.step_idle _ (m.method_E h) hu]
  have hE : (m.method h).Eout = expm m.op.mat h := by cases m <;> rfl
  rw [hE]; rfl

/-- **C94.** A constant-step run of `n` steps returns `exp(n h L) u`. -/
theorem C94_evolve (m : CSSolver ι) {nl : NlFunc ι} {u : Vec ι} (hu : Idle m.op.mat nl u) (t0 tf h : ℝ) (hh : 0 < h) (hspan : t0 + h ≤ tf)
    (hc : m.CoefOk h) (n : ℕ) (hn : IsLeast {n : ℕ | tf ≤ t0 + n * h} n) (s : m.State) (fuel : ℕ) (hfuel : n < fuel) :
    (m.evolve nl id false fuel u t0 tf h false 1 s).1 = .ok (some (expm m.op.mat (n * h) *ᵥ u)) := by
  refine (m.evolve_ok nl false u t0 tf h false 1 hh hspan (by simp) n hn (by simp)
    (fun k => expm m.op.mat (k * h) *ᵥ u) (by simp) (fun k _ => ?_) s fuel hfuel).1
  rw [← CSSolver.step_new _ _ _ _ hh.le, C94_step m (hu.expm _) h hh.le hc, expm_iter]

theorem ASSolver.oneTrial_idle (m : ASSolver ι) {nl : NlFunc ι} {u : Vec ι} (hu : Idle m.op.mat nl u) (h : ℝ) :
    (m.oneTrial nl h u = .error .linAlgError ∧ ¬ m.CoefOk h) ∨ m.oneTrial nl h u = .ok (expm m.op.mat h *ᵥ u, 0) := by
  by_cases hc : m.CoefOk h
  · right
    have hE : (m.op.user (m.method h)).Eout = expm m.op.mat h := m.userMethod_Eout h
    rw [m.oneTrial_user nl h u hc, ERK.step_idle _ (m.user_E h) hu, hE]
    simp [Except.map, ASOp.prj_zero]
  · exact .inl ⟨by unfold oneTrial; rw [if_neg hc], hc⟩

theorem ASSolver.stepSpec_idle (m : ASSolver ι) {nl : NlFunc ι} {u : Vec ι} (hu : Idle m.op.mat nl u) (rnd : ℝ → ℝ) (cfg : SolverConfig ℝ)
    (h : ℝ) {r : Except PyErr (Vec ι × ℝ × ℝ)} (hs : StepSpec (m.oneTrial nl) (m.factor nl cfg) cfg rnd u h r) :
    r = .error .minimumStepReached ∨ r = .error .maxLoopsExceeded ∨ (r = .error .linAlgError ∧ ∃ h, ¬ m.CoefOk h) := by
  cases hs with
  | @accept j h' x r hj hrej hok hx h1 =>
    exfalso
    rcases m.oneTrial_idle hu h' with ⟨he, -⟩ | hv
    · rw [he] at hok; simp at hok
    · rw [hv] at hok
      obtain rfl : (_, 0) = r := by simpa using hok
      exact C10_zero_error_rejected m _ cfg _ 0 (fun _ _ => rfl) ⟨x, hx, h1⟩
  | minStep => exact .inl rfl
  | maxLoops => exact .inr (.inl rfl)
  | @raised j h' e hj hrej he =>
    rcases m.oneTrial_idle hu h' with ⟨he', hc⟩ | hv
    · rw [he'] at he
      obtain rfl : PyErr.linAlgError = e := by simpa using he
      exact .inr (.inr ⟨rfl, h', hc⟩)
    · rw [hv] at he; simp at he

/-- **C94.** No adaptive solver can make a step from a state on which `nl_func` has no effect. -/
theorem C94_adaptive_step (m : ASSolver ι) {nl : NlFunc ι} {u : Vec ι} (hu : Idle m.op.mat nl u) (rnd : ℝ → ℝ) (cfg : SolverConfig ℝ) (h : ℝ)
    (hh : 0 ≤ h) :
    let r := (m.step nl rnd cfg u h m.new).1
    r = .error .minimumStepReached ∨ r = .error .maxLoopsExceeded ∨ (r = .error .linAlgError ∧ ∃ h, ¬ m.CoefOk h) :=
  m.stepSpec_idle hu rnd cfg h (m.step_new_spec _ rnd cfg u h hh)

/-- **C94.** `evolve` of an adaptive solver from such a state never succeeds: the object then holds the initial state only. -/
theorem C94_adaptive_evolve (m : ASSolver ι) {nl : NlFunc ι} {u : Vec ι} (hu : Idle m.op.mat nl u) (pyDiv : Bool) (cfg : SolverConfig ℝ)
    (fuel : ℕ) (hfuel : 0 < fuel) (t0 tf : ℝ) (ht : t0 < tf) (hInit : Option ℝ) (storeData : Bool) (freq : ℤ) (s : m.State) :
    let r := (m.evolve nl id pyDiv cfg fuel u t0 tf hInit storeData freq s).1
    (∀ v, r ≠ .ok v) ∧
    (r = .error .minimumStepReached ∨ r = .error .maxLoopsExceeded ∨ (r = .error .assertionError ∧ ∃ h, hInit = some h ∧ h < 0) ∨
      (r = .error .linAlgError ∧ ∃ h, ¬ m.CoefOk h)) ∧
    (m.evolve nl id pyDiv cfg fuel u t0 tf hInit storeData freq s).2.t = (if storeData then [t0] else []) := by
  intro r
  obtain ⟨n, tm, st, hp, hu', h1, h2, h3, h4, h5, h6, h7, h8⟩ := ASClass.evolve_run (m.lawful nl) id pyDiv cfg
    fuel u t0 tf hInit storeData freq s
  have h2u : Idle m.op.mat nl (st 0) := by rw [h2]; exact hu
  have hn : n = 0 := by
    rw [← Nat.le_zero]; by_contra hc
    obtain ⟨-, hs, h9, -⟩ := h4.step 0 (by omega)
    rcases m.stepSpec_idle h2u id cfg _ h9 with h | h | h <;> simp at h
  subst hn
  refine ⟨?_, ?_, ?_⟩
  · intro v hv
    change (m.evolve _ _ _ _ _ _ _ _ _ _ _ _).1 = _ at hv
    unfold ASSolver.evolve at hv
    rw [hv] at h7
    cases h7 with
    | running hf => omega
    | returned _ hf => exact hf (by rw [h1]; exact ht)
  · change ASClass.LoopEnd _ _ _ _ _ _ _ _ _ _ _ _ _ _ r at h7
    clear_value r
    cases h7 with
    | running hf => omega
    | returned _ hf => exact absurd (by rw [h1]; exact ht) hf
    | stepRaised _ _ _ h9 =>
      rcases m.stepSpec_idle h2u id cfg _ h9 with h | h | h
      · exact .inl (by simpa using h)
      · exact .inr (.inl (by simpa using h))
      · exact .inr (.inr (.inr (by simpa using h)))
    | negative _ _ hneg =>
      refine .inr (.inr (.inl ⟨rfl, ?_⟩))
      rw [h3] at hneg
      unfold ASClass.firstSize limitTo at hneg
      simp only [id] at hneg
      cases hInit with
      | none => split at hneg <;> simp at hneg <;> linarith
      | some h =>
        refine ⟨h, rfl, ?_⟩
        split at hneg
        · linarith
        · exact hneg
    | zeroDiv _ _ _ h9 => rcases m.stepSpec_idle h2u id cfg _ h9 with h | h | h <;> simp at h
  · unfold ASSolver.evolve
    rw [h5]
    simp [storedUpTo, h1]

/-! ### Homogeneous states of the model equations -/

section Homogeneous

variable {M : ℕ}

theorem advection_homogeneous (hM : M ≠ 0) {kx : Fin (M + 1) → ℝ} (hk : kx 0 = 0) {uf : Vec (Fin (M + 1))} (hu : ∀ m, m ≠ 0 → uf m = 0) :
    advection kx uf = .ok 0 := by
  have h0 : (fun m => Complex.I * (kx m : ℂ) * uf m) = 0 := by
    funext m
    by_cases h : m = 0
    · subst h; simp [hk]
    · simp [hu m h]
  have hs : specExt (0 : Vec (Fin (M + 1))) = 0 := by funext n; simp [specExt]
  unfold advection
  rw [if_neg hM]
  simp only [h0, hs]
  congr 1
  funext m
  simp [rfft1, irfft1, fft1]

/-- **C94.** `nl_func` of `kdv_ops` and `burgers_ops` has no effect on the spectra of constant functions. -/
theorem C94_homogeneous (hM : M ≠ 0) {kx : Fin (M + 1) → ℝ} (hk : kx 0 = 0) {uf : Vec (Fin (M + 1))} (hu : ∀ m, m ≠ 0 → uf m = 0) (mu : ℝ) :
    Idle (Matrix.diagonal (kdvLin kx)) (kdvNl kx) uf ∧ Idle (Matrix.diagonal (burgersLin kx mu)) (burgersNl kx) uf := by
  constructor
  · refine .of_still (fun m h => ?_) (by rw [kdvNl, advection_homogeneous hM hk hu]; show Except.ok _ = _; congr 1; funext m; simp)
    obtain rfl : m = 0 := by by_contra h'; exact h (hu m h')
    simp [kdvLin, hk]
  · refine .of_still (fun m h => ?_) (by rw [burgersNl, advection_homogeneous hM hk hu]; show Except.ok _ = _; congr 1; funext m; simp)
    obtain rfl : m = 0 := by by_contra h'; exact h (hu m h')
    simp [burgersLin, hk]

end Homogeneous

/-- KdV from the constant 1 on four points (spectrum `[4, 0, 0]`): no adaptive solver gets anywhere, ETD4 is exact. -/
example (cfg : SolverConfig ℝ) (s : (ASSolver.if45dp (kdvLin ![0, 1, 2])).State) :
    (∀ v, ((ASSolver.if45dp (kdvLin ![0, 1, 2])).evolve (kdvNl ![0, 1, 2]) id true cfg 10 ![4, 0, 0] 0 1 none true 1 s).1 ≠ .ok v) ∧
    (((ASSolver.etd35 ⟨1, 32, 1⟩ (.diag (kdvLin ![0, 1, 2]))).step (kdvNl ![0, 1, 2]) id cfg ![4, 0, 0] 1
        (ASSolver.etd35 ⟨1, 32, 1⟩ (.diag (kdvLin ![0, 1, 2]))).new).1 = .error .minimumStepReached ∨
      ((ASSolver.etd35 ⟨1, 32, 1⟩ (.diag (kdvLin ![0, 1, 2]))).step (kdvNl ![0, 1, 2]) id cfg ![4, 0, 0] 1
        (ASSolver.etd35 ⟨1, 32, 1⟩ (.diag (kdvLin ![0, 1, 2]))).new).1 = .error .maxLoopsExceeded) ∧
    ((CSSolver.etd4 ⟨1, 32, 1⟩ (.diag (kdvLin ![0, 1, 2]))).step (kdvNl ![0, 1, 2]) ![4, 0, 0] 1
        (CSSolver.etd4 ⟨1, 32, 1⟩ (.diag (kdvLin ![0, 1, 2]))).new).1 = .ok ![4, 0, 0] := by
  have hi := (C94_homogeneous (M := 2) (kx := ![0, 1, 2]) (by norm_num) rfl (uf := ![4, 0, 0])
    (fun m hm => by fin_cases m <;> simp_all) 1).1
  refine ⟨(C94_adaptive_evolve (.if45dp _) hi true cfg 10 (by norm_num) 0 1 one_pos none true 1 s).1, ?_, ?_⟩
  · rcases C94_adaptive_step (.etd35 ⟨1, 32, 1⟩ (.diag _)) hi id cfg 1 zero_le_one with h | h | ⟨-, h', hc⟩
    · exact .inl h
    · exact .inr h
    · exact absurd trivial hc
  · rw [C94_step (.etd4 ⟨1, 32, 1⟩ (.diag _)) hi 1 zero_le_one (CSSolver.coefOk_diag rfl 1)]
    congr 1
    show expm (Matrix.diagonal (kdvLin ![0, 1, 2])) 1 *ᵥ ![4, 0, 0] = _
    rw [expm_diagonal]
    funext i
    rw [mulVec_diagonal]
    fin_cases i <;> simp [kdvLin]

/-- `u_1' = -u_1`, `u_2' = u_1 u_2` from `u_2 = 0`: two steps of IF4 are exact, though `nl_func` is not zero. -/
example (s : (CSSolver.if4 (.diag ![-1, 0])).State) :
    ((CSSolver.if4 (.diag ![-1, 0])).evolve (total fun v => ![0, v 0 * v 1]) id false 3 ![1, 0] 0 2 1 false 1 s).1 =
      .ok (some (expm (Matrix.diagonal ![-1, 0]) ((2 : ℕ) * 1) *ᵥ ![1, 0])) := by
  refine C94_evolve (.if4 (.diag ![-1, 0])) (fun t => ?_) 0 2 1 one_pos (by norm_num) (CSSolver.coefOk_diag rfl 1) 2 ⟨by norm_num, ?_⟩ s 3 (by norm_num)
  · show Except.ok _ = _
    congr 1
    change ![0, (expm (Matrix.diagonal ![-1, 0]) t *ᵥ ![1, 0]) 0 * (expm (Matrix.diagonal ![-1, 0]) t *ᵥ ![1, 0]) 1] = 0
    rw [expm_diagonal]
    funext i
    fin_cases i <;> simp [mulVec_diagonal]
  · intro n hn
    have h : (2 : ℝ) ≤ 0 + n * 1 := hn
    have : (2 : ℝ) ≤ n := by linarith
    exact_mod_cast this

end Verif
