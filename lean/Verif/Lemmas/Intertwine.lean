import Verif.Spec.Intertwine
import Verif.Lemmas.Relate
import Verif.Lemmas.Conj

/-!
# Linear maps between problems
-/

set_option linter.unusedSectionVars false

namespace Verif

open Matrix

variable {ι κ : Type} [Fintype ι] [DecidableEq ι] [Fintype κ] [DecidableEq κ] {P : Matrix κ ι ℂ}

/-- `v' = P v`. -/
def mapRel (P : Matrix κ ι ℂ) (v : Vec ι) (v' : Vec κ) : Prop := v' = P *ᵥ v

theorem mapRel_linear (P : Matrix κ ι ℂ) : RealLinear (mapRel P) where
  zero := by simp [mapRel]
  add := by intro v w v' w' h h'; unfold mapRel at *; rw [h, h', mulVec_add]
  smul := by intro r v v' h; unfold mapRel at *; rw [h, mulVec_smul]

theorem mapRel_mat {X : Mat ι} {X' : Mat κ} (h : P * X = X' * P) : MatRel (mapRel P) X X' :=
  ⟨fun v v' hv => by unfold mapRel at *; rw [hv, mulVec_mulVec, mulVec_mulVec, h]⟩

section
attribute [local instance] Matrix.linftyOpNormedRing Matrix.linftyOpNormedAlgebra Matrix.linftyOpNormedAddCommGroup

theorem pow_intertw {L : Mat ι} {L' : Mat κ} (h : P * L = L' * P) (n : ℕ) : P * L ^ n = L' ^ n * P := by
  induction n with
  | zero => simp
  | succ n ih => rw [pow_succ, ← Matrix.mul_assoc, ih, Matrix.mul_assoc, h, ← Matrix.mul_assoc, ← pow_succ]

theorem expm_intertw {L : Mat ι} {L' : Mat κ} (h : P * L = L' * P) (θ : ℝ) : P * expm L θ = expm L' θ * P := by
  have h' : P * ((θ : ℂ) • L) = ((θ : ℂ) • L') * P := by rw [Matrix.mul_smul, h, Matrix.smul_mul]
  unfold expm
  have s1 := NormedSpace.exp_series_hasSum_exp' (𝕂 := ℂ) ((θ : ℂ) • L)
  have s2 := NormedSpace.exp_series_hasSum_exp' (𝕂 := ℂ) ((θ : ℂ) • L')
  have t1 : HasSum (fun n : ℕ => P * ((n.factorial : ℂ)⁻¹ • ((θ : ℂ) • L) ^ n)) (P * NormedSpace.exp ((θ : ℂ) • L)) :=
    s1.map (AddMonoidHom.mk' (fun X : Mat ι => P * X) (Matrix.mul_add P)) (continuous_const.matrix_mul continuous_id)
  have t2 : HasSum (fun n : ℕ => ((n.factorial : ℂ)⁻¹ • ((θ : ℂ) • L') ^ n) * P) (NormedSpace.exp ((θ : ℂ) • L') * P) :=
    s2.map (AddMonoidHom.mk' (fun X : Mat κ => X * P) fun X Y => Matrix.add_mul X Y P) (continuous_id.matrix_mul continuous_const)
  refine t1.unique ?_
  convert t2 using 2 with n
  rw [Matrix.mul_smul, Matrix.smul_mul, pow_intertw h']

end

theorem diagonal_intertw_iff {d : Vec ι} {d' : Vec κ} :
    P * diagonal d = diagonal d' * P ↔ ∀ k i, P k i ≠ 0 → d i = d' k := by
  constructor
  · intro h k i hp
    have := congrFun (congrFun h k) i
    rw [mul_diagonal, diagonal_mul, mul_comm] at this
    exact mul_right_cancel₀ hp this
  · intro h
    ext k i
    rw [mul_diagonal, diagonal_mul]
    by_cases hp : P k i = 0
    · rw [hp]; simp
    · rw [h k i hp, mul_comm]

theorem diagonal_intertw {d : Vec ι} {d' : Vec κ} (h : P * diagonal d = diagonal d' * P) (f : ℂ → ℂ) :
    P * diagonal (fun i => f (d i)) = diagonal (fun k => f (d' k)) * P :=
  diagonal_intertw_iff.mpr fun k i hp => congrArg f (diagonal_intertw_iff.mp h k i hp)

theorem inv_intertw {X : Mat ι} {X' : Mat κ} (hX : IsUnit X.det) (hX' : IsUnit X'.det) (h : P * X = X' * P) :
    P * X⁻¹ = X'⁻¹ * P := by
  calc P * X⁻¹ = X'⁻¹ * X' * (P * X⁻¹) := by rw [Matrix.nonsing_inv_mul _ hX', Matrix.one_mul]
    _ = X'⁻¹ * (X' * P) * X⁻¹ := by simp only [Matrix.mul_assoc]
    _ = X'⁻¹ * (P * X) * X⁻¹ := by rw [h]
    _ = X'⁻¹ * P * (X * X⁻¹) := by simp only [Matrix.mul_assoc]
    _ = X'⁻¹ * P := by rw [Matrix.mul_nonsing_inv _ hX, Matrix.mul_one]

theorem phiFull_intertw {R : ℝ} {N : ℕ} {L : Mat ι} {L' : Mat κ} {h : ℝ} {c : ℝ} {cs : List ℝ} (hc : c ∈ cs)
    (hL : ContourOk R N L cs h) (hL' : ContourOk R N L' cs h) (hP : P * L = L' * P) (k : ℕ) :
    P * phiFull R N L h k c = phiFull R N L' h k c * P := by
  unfold phiFull
  rw [Matrix.mul_sum, Matrix.sum_mul]
  refine Finset.sum_congr rfl fun m hm => ?_
  have hm := Finset.mem_range.mp hm
  rw [Matrix.mul_smul, Matrix.smul_mul, inv_intertw (hL m hm c hc) (hL' m hm c hc)]
  rw [Matrix.mul_sub, Matrix.sub_mul, Matrix.mul_smul, Matrix.mul_smul, Matrix.smul_mul, Matrix.smul_mul, hP, Matrix.mul_one,
    Matrix.one_mul]

/-- The approximations of the φ functions. -/
theorem LinOp.phi_intertw {L : LinOp ι} {L' : LinOp κ} (hP : P * L.mat = L'.mat * P) (hf : L.isFull = L'.isFull)
    {cfg : ETDConfig ℝ} {cs : List ℝ} {h : ℝ} (hL : L.CoefOk cfg cs h) (hL' : L'.CoefOk cfg cs h) (k : ℕ) {c : ℝ} (hc : c ∈ cs) :
    P * L.phi cfg h k c = L'.phi cfg h k c * P := by
  rcases L with L | L <;> rcases L' with L' | L'
  · exact diagonal_intertw hP fun z => phiMode cfg.modecutoff cfg.contour_radius cfg.contour_points.toNat k c (h * z)
  · simp [LinOp.isFull] at hf
  · simp [LinOp.isFull] at hf
  · exact phiFull_intertw hc hL hL' hP k

open Classical in
/-- The values `φ k c` for `c` in a list, and zero for others. -/
noncomputable def restrictTo (cs : List ℝ) (φ : ℕ → ℝ → Mat ι) : ℕ → ℝ → Mat ι := fun k c => if c ∈ cs then φ k c else 0

theorem krogstad_restrict (φ : ℕ → ℝ → Mat ι) (L : Mat ι) (h : ℝ) :
    krogstad (restrictTo [1 / 2, 1] φ) L h = krogstad φ L h := by
  have h1 : ∀ k, restrictTo [1 / 2, 1] φ k (1 / 2) = φ k (1 / 2) := fun k => if_pos (by simp)
  have h2 : ∀ k, restrictTo [1 / 2, 1] φ k 1 = φ k 1 := fun k => if_pos (by simp)
  unfold krogstad
  simp only [h1, h2]

theorem etd5_restrict (fsal : Bool) (φ : ℕ → ℝ → Mat ι) (L : Mat ι) (h : ℝ) :
    etd5Method fsal (restrictTo [1 / 4, 1 / 2, 3 / 4, 1] φ) L h = etd5Method fsal φ L h := by
  have h1 : ∀ k, restrictTo [1 / 4, 1 / 2, 3 / 4, 1] φ k (1 / 4) = φ k (1 / 4) := fun k => if_pos (by simp)
  have h2 : ∀ k, restrictTo [1 / 4, 1 / 2, 3 / 4, 1] φ k (1 / 2) = φ k (1 / 2) := fun k => if_pos (by simp)
  have h3 : ∀ k, restrictTo [1 / 4, 1 / 2, 3 / 4, 1] φ k (3 / 4) = φ k (3 / 4) := fun k => if_pos (by simp)
  have h4 : ∀ k, restrictTo [1 / 4, 1 / 2, 3 / 4, 1] φ k 1 = φ k 1 := fun k => if_pos (by simp)
  unfold etd5Method
  simp only [h1, h2, h3, h4]

theorem restrict_intertw {cs : List ℝ} {φ : ℕ → ℝ → Mat ι} {φ' : ℕ → ℝ → Mat κ}
    (h : ∀ k, ∀ c ∈ cs, P * φ k c = φ' k c * P) (k : ℕ) (c : ℝ) :
    MatRel (mapRel P) (restrictTo cs φ k c) (restrictTo cs φ' k c) := by
  unfold restrictTo
  split
  · exact mapRel_mat (h k c ‹_›)
  · exact MatRel.zero (mapRel_linear P)

theorem MapsNl.rel {nl : NlFunc ι} {nl' : NlFunc κ} (h : MapsNl P nl nl') (w : Vec ι) (w' : Vec κ) (hw : mapRel P w w') :
    RelE (mapRel P) (nl w) (nl' w') := by
  rw [hw, h w]
  cases nl w <;> exact rfl

theorem CSSolver.Intertwined.oneStep {m : CSSolver ι} {m' : CSSolver κ} (hm : m.Intertwined P m') {nl : NlFunc ι}
    {nl' : NlFunc κ} (hnl : MapsNl P nl nl') {h : ℝ} (hc : m.CoefOk h) (hc' : m'.CoefOk h) (u : Vec ι) (u' : Vec κ)
    (hu : mapRel P u u') : RelE (mapRel P) (m.oneStep nl h u) (m'.oneStep nl' h u') := by
  have hR := mapRel_linear P
  have key : (m.method h).Rel (mapRel P) (m'.method h) := by
    cases hm with
    | if4 hL => exact lawson_rel hR _ (fun θ => mapRel_mat (expm_intertw hL θ)) h
    | etd4 cfg hL hf =>
      simp only [CSSolver.method]
      have a := krogstad_rel hR h (fun θ => mapRel_mat (expm_intertw hL θ))
        (restrict_intertw fun k c hcs => LinOp.phi_intertw hL hf hc hc' k hcs)
      rwa [krogstad_restrict, krogstad_restrict] at a
    | etd5 cfg hL hf =>
      simp only [CSSolver.method]
      have a := etd5_rel hR true h (fun θ => mapRel_mat (expm_intertw hL θ))
        (restrict_intertw fun k c hcs => LinOp.phi_intertw hL hf hc hc' k hcs)
      rwa [etd5_restrict, etd5_restrict] at a
  unfold CSSolver.oneStep
  rw [if_pos hc, if_pos hc']
  exact (ERK.step_rel hR key hnl.rel hu).map fun _ _ h => h.1

/-- The matrices of the changes of coordinates. -/
def ASOp.embM : ASOp ι → Mat ι
  | eig _ S _ _ => S
  | _ => 1

def ASOp.prjM : ASOp ι → Mat ι
  | eig _ _ Sinv _ => Sinv
  | _ => 1

theorem ASOp.emb_eq (L : ASOp ι) (w : Vec ι) : L.emb w = L.embM *ᵥ w := by
  cases L <;> simp [ASOp.emb, ASOp.embM]

theorem ASOp.prj_eq (L : ASOp ι) (w : Vec ι) : L.prj w = L.prjM *ᵥ w := by
  cases L <;> simp [ASOp.prj, ASOp.prjM]

theorem ASOp.emb_prj (L : ASOp ι) : L.embM * L.prjM = 1 := by
  cases L with
  | eig _ _ _ hS => exact hS
  | _ => exact Matrix.one_mul 1

theorem ASOp.mat_eq (L : ASOp ι) : L.mat = L.embM * L.inner.mat * L.prjM := by
  cases L <;> simp [ASOp.mat, ASOp.inner, LinOp.mat, ASOp.embM, ASOp.prjM]

/-- `P` in the working coordinates. -/
def ASOp.working (P : Matrix κ ι ℂ) (L : ASOp ι) (L' : ASOp κ) : Matrix κ ι ℂ := L'.prjM * P * L.embM

theorem ASOp.working_inner {L : ASOp ι} {L' : ASOp κ} (h : P * L.mat = L'.mat * P) :
    ASOp.working P L L' * L.inner.mat = L'.inner.mat * ASOp.working P L L' := by
  have e1 : L.prjM * L.embM = 1 := mul_eq_one_comm.mp L.emb_prj
  have e2 : L'.prjM * L'.embM = 1 := mul_eq_one_comm.mp L'.emb_prj
  have h' : L'.prjM * (P * L.mat) * L.embM = L'.prjM * (L'.mat * P) * L.embM := by rw [h]
  rw [L.mat_eq, L'.mat_eq] at h'
  calc ASOp.working P L L' * L.inner.mat = L'.prjM * (P * (L.embM * L.inner.mat * L.prjM)) * L.embM := by
        unfold ASOp.working
        simp only [Matrix.mul_assoc, e1, Matrix.mul_one]
    _ = L'.prjM * (L'.embM * L'.inner.mat * L'.prjM * P) * L.embM := h'
    _ = (L'.prjM * L'.embM) * L'.inner.mat * ASOp.working P L L' := by
        unfold ASOp.working
        simp only [Matrix.mul_assoc]
    _ = _ := by rw [e2, Matrix.one_mul]

theorem ASSolver.Intertwined.oneTrial {m : ASSolver ι} {m' : ASSolver κ} (hm : m.Intertwined P m') {nl : NlFunc ι}
    {nl' : NlFunc κ} (hnl : MapsNl P nl nl') {h : ℝ} (hc : m.CoefOk h) (hc' : m'.CoefOk h) (u : Vec ι) (u' : Vec κ)
    (hu : mapRel P u u') :
    RelE (fun r r' => mapRel P r.1 r'.1 ∧ mapRel (ASOp.working P m.op m'.op) r.2 r'.2) (m.oneTrial nl h u) (m'.oneTrial nl' h u') := by
  set Q := ASOp.working P m.op m'.op with hQ
  have hR := mapRel_linear Q
  have key : (m.method h).Rel (mapRel Q) (m'.method h) := by
    cases hm with
    | if34 hL =>
      exact lawson_rel hR _ (fun θ => mapRel_mat (expm_intertw (ASOp.working_inner hL) θ)) h
    | etd34 cfg hL hf =>
      simp only [ASSolver.method]
      have a := krogstad_rel hR h (fun θ => mapRel_mat (expm_intertw (ASOp.working_inner hL) θ))
        (restrict_intertw fun k c hcs => LinOp.phi_intertw (ASOp.working_inner hL) hf hc hc' k hcs)
      rwa [krogstad_restrict, krogstad_restrict] at a
    | etd35 cfg hL hf =>
      simp only [ASSolver.method]
      have a := etd5_rel hR false h (fun θ => mapRel_mat (expm_intertw (ASOp.working_inner hL) θ))
        (restrict_intertw fun k c hcs => LinOp.phi_intertw (ASOp.working_inner hL) hf hc hc' k hcs)
      rwa [etd5_restrict, etd5_restrict] at a
    | @if45dp L L' hL =>
      exact lawson_rel hR _ (fun θ => mapRel_mat (expm_intertw (ASOp.working_inner (L := .diag L) (L' := .diag L') hL) θ)) h
  have hprj : ∀ w w', mapRel P w w' → mapRel Q (m.op.prj w) (m'.op.prj w') := by
    intro w w' hw
    unfold mapRel at *
    rw [ASOp.prj_eq, ASOp.prj_eq, hw, mulVec_mulVec, mulVec_mulVec, hQ]
    unfold ASOp.working
    rw [Matrix.mul_assoc _ _ m.op.prjM, ASOp.emb_prj, Matrix.mul_one]
  have hemb : ∀ w w', mapRel Q w w' → mapRel P (m.op.emb w) (m'.op.emb w') := by
    intro w w' hw
    unfold mapRel at *
    rw [ASOp.emb_eq, ASOp.emb_eq, hw, mulVec_mulVec, mulVec_mulVec, hQ]
    unfold ASOp.working
    rw [← Matrix.mul_assoc, ← Matrix.mul_assoc, ASOp.emb_prj, Matrix.one_mul]
  unfold ASSolver.oneTrial
  rw [if_pos hc, if_pos hc']
  refine (ERK.step_rel hR key (fun w w' hw => ?_) (hprj _ _ hu)).map fun _ _ h => ⟨hemb _ _ h.1, h.2⟩
  exact (hnl.rel _ _ (hemb _ _ hw)).map fun _ _ h => hprj _ _ h

end Verif
