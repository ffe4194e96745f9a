import Verif.Lemmas.Invariant
import Verif.Lemmas.User
import Verif.Lemmas.OneStep
import Mathlib.LinearAlgebra.Lagrange
import Mathlib.Topology.Algebra.Module.FiniteDimension
import Mathlib.LinearAlgebra.Matrix.ToLin

/-!
# Invariant subspaces
-/

set_option linter.unusedSectionVars false

namespace Verif

open Matrix

variable {ι : Type} [Fintype ι] [DecidableEq ι] {W : Submodule ℂ (Vec ι)}

/-- The matrix maps the subspace into itself. -/
def Keeps (W : Submodule ℂ (Vec ι)) (X : Mat ι) : Prop := ∀ v ∈ W, X *ᵥ v ∈ W

namespace Keeps

theorem one : Keeps W 1 := fun v hv => by rwa [one_mulVec]

theorem zero : Keeps W 0 := fun v _ => by rw [zero_mulVec]; exact W.zero_mem

theorem add {X Y : Mat ι} (hX : Keeps W X) (hY : Keeps W Y) : Keeps W (X + Y) := fun v hv => by
  rw [add_mulVec]; exact W.add_mem (hX v hv) (hY v hv)

theorem smul {X : Mat ι} (c : ℂ) (hX : Keeps W X) : Keeps W (c • X) := fun v hv => by
  rw [smul_mulVec]; exact W.smul_mem c (hX v hv)

theorem sub {X Y : Mat ι} (hX : Keeps W X) (hY : Keeps W Y) : Keeps W (X - Y) := fun v hv => by
  rw [sub_mulVec]; exact W.sub_mem (hX v hv) (hY v hv)

theorem mul {X Y : Mat ι} (hX : Keeps W X) (hY : Keeps W Y) : Keeps W (X * Y) := fun v hv => by
  rw [← mulVec_mulVec]; exact hX _ (hY v hv)

theorem pow {X : Mat ι} (hX : Keeps W X) : ∀ n : ℕ, Keeps W (X ^ n)
  | 0 => by rw [pow_zero]; exact one
  | n + 1 => by rw [pow_succ]; exact (hX.pow n).mul hX

theorem sum {α : Type} (s : Finset α) {X : α → Mat ι} (h : ∀ a ∈ s, Keeps W (X a)) : Keeps W (∑ a ∈ s, X a) := fun v hv => by
  rw [Matrix.sum_mulVec]; exact W.sum_mem fun a ha => h a ha v hv

theorem inv {X : Mat ι} (hX : Keeps W X) : Keeps W X⁻¹ := by
  by_cases hd : IsUnit X.det
  · intro v hv
    let f : W →ₗ[ℂ] W := (Matrix.mulVecLin X).restrict hX
    have hinj : Function.Injective f := by
      intro a b hab
      have h1 : X *ᵥ (a : Vec ι) = X *ᵥ (b : Vec ι) := congrArg Subtype.val hab
      have h2 := congrArg (fun z => X⁻¹ *ᵥ z) h1
      simp only [mulVec_mulVec, Matrix.nonsing_inv_mul _ hd, one_mulVec] at h2
      exact Subtype.ext h2
    obtain ⟨a, ha⟩ := LinearMap.injective_iff_surjective.mp hinj ⟨v, hv⟩
    have h1 : X *ᵥ (a : Vec ι) = v := congrArg Subtype.val ha
    rw [← h1, mulVec_mulVec, Matrix.nonsing_inv_mul _ hd, one_mulVec]
    exact a.2
  · rw [Matrix.nonsing_inv_apply_not_isUnit _ hd]; exact zero

section
attribute [local instance] Matrix.linftyOpNormedRing Matrix.linftyOpNormedAlgebra Matrix.linftyOpNormedAddCommGroup

theorem expm {L : Mat ι} (hL : Keeps W L) (θ : ℝ) : Keeps W (expm L θ) := by
  intro v hv
  have hθ := hL.smul (θ : ℂ)
  have s1 := NormedSpace.exp_series_hasSum_exp' (𝕂 := ℂ) ((θ : ℂ) • L)
  have t1 : HasSum (fun n : ℕ => ((n.factorial : ℂ)⁻¹ • ((θ : ℂ) • L) ^ n) *ᵥ v) (NormedSpace.exp ((θ : ℂ) • L) *ᵥ v) :=
    s1.map (AddMonoidHom.mk' (fun X : Mat ι => X *ᵥ v) fun X Y => Matrix.add_mulVec X Y v)
      (continuous_id.matrix_mulVec continuous_const)
  have hcl : IsClosed (W : Set (Vec ι)) := W.closed_of_finiteDimensional
  exact hcl.mem_of_tendsto t1 (Filter.Eventually.of_forall fun s => W.sum_mem fun n _ => (hθ.pow n).smul _ v hv)

end

theorem diagonal {d : Vec ι} (hd : Keeps W (diagonal d)) (f : ℂ → ℂ) : Keeps W (Matrix.diagonal fun i => f (d i)) := by
  classical
  set p := Lagrange.interpolate (Finset.univ.image d) id f with hp
  have he : ∀ i, p.eval (d i) = f (d i) := fun i =>
    Lagrange.eval_interpolate_at_node (s := Finset.univ.image d) (v := id) f (fun a _ b _ h => h)
      (Finset.mem_image_of_mem d (Finset.mem_univ i))
  have hm : (Matrix.diagonal fun i => f (d i)) = ∑ k ∈ Finset.range (p.natDegree + 1), p.coeff k • Matrix.diagonal d ^ k := by
    ext i j
    rw [Matrix.sum_apply]
    simp only [Matrix.smul_apply, Matrix.diagonal_pow, smul_eq_mul]
    by_cases hij : i = j
    · subst hij
      simp only [Matrix.diagonal_apply_eq, Pi.pow_apply]
      rw [← he i, Polynomial.eval_eq_sum_range]
    · simp [Matrix.diagonal_apply_ne _ hij]
  rw [hm]
  exact sum _ fun k _ => (hd.pow k).smul _

theorem phiFull {R : ℝ} {N : ℕ} {L : Mat ι} {h : ℝ} {c : ℝ} (hL : Keeps W L) (k : ℕ) : Keeps W (phiFull R N L h k c) := by
  unfold Verif.phiFull
  exact sum _ fun m _ => ((one.smul _).sub (hL.smul _)).inv.smul _

end Keeps

theorem LinOp.phi_keeps {L : LinOp ι} (hL : Keeps W L.mat) (cfg : ETDConfig ℝ) (h : ℝ) (k : ℕ) (c : ℝ) :
    Keeps W (L.phi cfg h k c) := by
  rcases L with L | L
  · exact hL.diagonal fun z => phiMode cfg.modecutoff cfg.contour_radius cfg.contour_points.toNat k c (h * z)
  · exact hL.phiFull k

/-- The subspace in working coordinates. -/
theorem keeps_comap {S Sinv D : Mat ι} (hS : S * Sinv = 1) :
    Keeps (W.comap (Matrix.mulVecLin S)) D ↔ Keeps W (S * D * Sinv) := by
  have hS' : Sinv * S = 1 := mul_eq_one_comm.mp hS
  constructor
  · intro h v hv
    rw [← mulVec_mulVec, ← mulVec_mulVec]
    refine h (Sinv *ᵥ v) ?_
    show S *ᵥ (Sinv *ᵥ v) ∈ W
    rwa [mulVec_mulVec, hS, one_mulVec]
  · intro h v hv
    show S *ᵥ (D *ᵥ v) ∈ W
    have := h (S *ᵥ v) hv
    rwa [mulVec_mulVec, Matrix.mul_assoc, hS', Matrix.mul_one, ← mulVec_mulVec] at this

theorem ASOp.phi_keeps {L : ASOp ι} (hL : Keeps W L.mat) (cfg : ETDConfig ℝ) (h : ℝ) (k : ℕ) (c : ℝ) :
    Keeps W (L.phi cfg h k c) := by
  rcases L with L | L | ⟨lam, S, T, hS⟩
  · exact LinOp.phi_keeps (L := .diag L) hL cfg h k c
  · exact LinOp.phi_keeps (L := .full L) hL cfg h k c
  · exact (keeps_comap hS).mp (LinOp.phi_keeps (L := .diag lam) ((keeps_comap hS).mpr hL) cfg h k c)

/-- Equal arrays of the subspace. -/
def subRel (W : Submodule ℂ (Vec ι)) (v v' : Vec ι) : Prop := v' = v ∧ v ∈ W

theorem subRel_linear (W : Submodule ℂ (Vec ι)) : RealLinear (subRel W) where
  zero := ⟨rfl, W.zero_mem⟩
  add := fun h1 h2 => ⟨by rw [h1.1, h2.1], W.add_mem h1.2 h2.2⟩
  smul := fun r _ _ h => ⟨by rw [h.1], W.smul_mem _ h.2⟩

theorem Keeps.rel {X : Mat ι} (h : Keeps W X) : MatRel (subRel W) X X := ⟨fun v v' hv => ⟨by rw [hv.1], h v hv.2⟩⟩

theorem CSSolver.method_keeps {m : CSSolver ι} (hm : Keeps W m.op.mat) (h : ℝ) : (m.method h).Rel (subRel W) (m.method h) := by
  rcases m with L | ⟨cfg, L⟩ | ⟨cfg, L⟩
  · exact lawson_rel (subRel_linear W) _ (fun θ => (hm.expm θ).rel) h
  · exact krogstad_rel (subRel_linear W) h (fun θ => (hm.expm θ).rel) fun k c => (LinOp.phi_keeps hm cfg h k c).rel
  · exact etd5_rel (subRel_linear W) true h (fun θ => (hm.expm θ).rel) fun k c => (LinOp.phi_keeps hm cfg h k c).rel

theorem ASSolver.method_keeps {m : ASSolver ι} (hm : Keeps W m.op.mat) (h : ℝ) :
    (m.userMethod h).Rel (subRel W) (m.userMethod h) := by
  rcases m with L | ⟨cfg, L⟩ | ⟨cfg, L⟩ | L
  · show (L.user (lawson rk4 L.inner.mat h)).Rel _ (L.user (lawson rk4 L.inner.mat h))
    rw [L.user_lawson]
    exact lawson_rel (subRel_linear W) _ (fun θ => (hm.expm θ).rel) h
  · show (L.user (krogstad (L.inner.phi cfg h) L.inner.mat h)).Rel _ (L.user (krogstad (L.inner.phi cfg h) L.inner.mat h))
    rw [L.user_krogstad]
    exact krogstad_rel (subRel_linear W) h (fun θ => (hm.expm θ).rel) fun k c => (ASOp.phi_keeps hm cfg h k c).rel
  · show (L.user (etd5Method false (L.inner.phi cfg h) L.inner.mat h)).Rel _
      (L.user (etd5Method false (L.inner.phi cfg h) L.inner.mat h))
    rw [L.user_etd5]
    exact etd5_rel (subRel_linear W) false h (fun θ => (hm.expm θ).rel) fun k c => (ASOp.phi_keeps hm cfg h k c).rel
  · exact lawson_rel (subRel_linear W) _ (fun θ => (hm.expm θ).rel) h

theorem ASSolver.userMethod_Eout (m : ASSolver ι) (h : ℝ) : (m.userMethod h).Eout = expm m.op.mat h := by
  rcases m with (_ | _ | ⟨_, _, _, hS⟩) | ⟨_, _ | _ | ⟨_, _, _, hS⟩⟩ | ⟨_, _ | _ | ⟨_, _, _, hS⟩⟩ | _ <;>
    first
    | rfl
    | exact (expm_conj _ _ _ hS h).symm

/-- Stage values in the subspace change the result by an element of the subspace. -/
theorem ERK.step_mod {M : ERK ι} (hM : M.Rel (subRel W) M) {nl : NlFunc ι} (hnl : ∀ w n, nl w = .ok n → n ∈ W) {u : Vec ι}
    {r : Vec ι × Vec ι} (hr : M.step nl u = .ok r) : r.1 - M.Eout *ᵥ u ∈ W := by
  obtain ⟨N, h1, rfl⟩ := M.step_ok_iff nl u |>.mp hr
  show M.out u N - _ ∈ W
  rw [ERK.out, add_sub_cancel_left]
  exact W.sum_mem fun j hj => ((hM.B j).app _ _ ⟨rfl, hnl _ _ (h1 j (Finset.mem_range.mp hj))⟩).2

theorem subNl_rel {nl : NlFunc ι} (hnl : ∀ w n, w ∈ W → nl w = .ok n → n ∈ W) (w w' : Vec ι) (hw : subRel W w w') :
    RelE (subRel W) (nl w) (nl w') := by
  rw [hw.1]
  exact relE_self _ fun a ha => hnl w a hw.2 ha

theorem CSSolver.oneStep_sub {m : CSSolver ι} (hm : Keeps W m.op.mat) {nl : NlFunc ι}
    (hnl : ∀ w n, w ∈ W → nl w = .ok n → n ∈ W) {h : ℝ} {u v : Vec ι} (hu : u ∈ W) (hv : m.oneStep nl h u = .ok v) : v ∈ W := by
  unfold oneStep at hv
  split at hv
  · have := ERK.step_rel (subRel_linear W) (method_keeps hm h) (subNl_rel hnl) (u := u) (u' := u) ⟨rfl, hu⟩
    cases hs : (m.method h).step nl u with
    | error e => rw [hs] at hv; simp [Except.map] at hv
    | ok r =>
      rw [hs] at hv this
      simp only [Except.map, Except.ok.injEq] at hv
      rw [← hv]
      exact this.1.2
  · simp at hv

theorem ASSolver.oneTrial_sub {m : ASSolver ι} (hm : Keeps W m.op.mat) {nl : NlFunc ι}
    (hnl : ∀ w n, w ∈ W → nl w = .ok n → n ∈ W) {h : ℝ} {u : Vec ι} {r : Vec ι × Vec ι} (hu : u ∈ W)
    (hr : m.oneTrial nl h u = .ok r) : r.1 ∈ W := by
  by_cases hc : m.CoefOk h
  · rw [m.oneTrial_user nl h u hc] at hr
    have := ERK.step_rel (subRel_linear W) (method_keeps hm h) (subNl_rel hnl) (u := u) (u' := u) ⟨rfl, hu⟩
    unfold userMethod at this
    cases hs : (m.op.user (m.method h)).step nl u with
    | error e => rw [hs] at hr; simp [Except.map] at hr
    | ok r' =>
      rw [hs] at hr this
      simp only [Except.map, Except.ok.injEq] at hr
      rw [← hr]
      exact this.1.2
  · unfold oneTrial at hr
    rw [if_neg hc] at hr
    simp at hr

theorem CSSolver.oneStep_mod {m : CSSolver ι} (hm : Keeps W m.op.mat) {nl : NlFunc ι} (hnl : ∀ w n, nl w = .ok n → n ∈ W)
    {h : ℝ} {u v : Vec ι} (hv : m.oneStep nl h u = .ok v) : v - expm m.op.mat h *ᵥ u ∈ W := by
  unfold oneStep at hv
  split at hv
  · have hE : (m.method h).Eout = expm m.op.mat h := by cases m <;> rfl
    cases hs : (m.method h).step nl u with
    | error e => rw [hs] at hv; simp [Except.map] at hv
    | ok r =>
      rw [hs] at hv
      simp only [Except.map, Except.ok.injEq] at hv
      rw [← hv, ← hE]
      exact ERK.step_mod (method_keeps hm h) hnl hs
  · simp at hv

theorem ASSolver.oneTrial_mod {m : ASSolver ι} (hm : Keeps W m.op.mat) {nl : NlFunc ι} (hnl : ∀ w n, nl w = .ok n → n ∈ W)
    {h : ℝ} {u : Vec ι} {r : Vec ι × Vec ι} (hr : m.oneTrial nl h u = .ok r) : r.1 - expm m.op.mat h *ᵥ u ∈ W := by
  by_cases hc : m.CoefOk h
  · rw [m.oneTrial_user nl h u hc] at hr
    rw [← m.userMethod_Eout]
    cases hs : (m.op.user (m.method h)).step nl u with
    | error e => rw [hs] at hr; simp [Except.map] at hr
    | ok r' =>
      rw [hs] at hr
      simp only [Except.map, Except.ok.injEq] at hr
      rw [← hr]
      exact ERK.step_mod (M := m.userMethod h) (r := r') (method_keeps hm h) hnl hs
  · unfold oneTrial at hr
    rw [if_neg hc] at hr
    simp at hr

/-! ### Linear functionals -/

/-- The arrays on which the functional vanishes. -/
def kerOf (w : Vec ι) : Submodule ℂ (Vec ι) where
  carrier := {v | w ⬝ᵥ v = 0}
  zero_mem' := dotProduct_zero w
  add_mem' := fun {a b} ha hb => by
    simp only [Set.mem_ofPred_eq] at *
    rw [dotProduct_add, ha, hb, add_zero]
  smul_mem' := fun c a ha => by
    simp only [Set.mem_ofPred_eq] at *
    rw [dotProduct_smul, ha, smul_zero]

theorem keeps_ker {w : Vec ι} {X : Mat ι} {lam : ℂ} (h : w ᵥ* X = lam • w) : Keeps (kerOf w) X := fun v (hv : w ⬝ᵥ v = 0) => by
  show w ⬝ᵥ (X *ᵥ v) = 0
  rw [dotProduct_mulVec, h, smul_dotProduct, hv, smul_zero]

section
attribute [local instance] Matrix.linftyOpNormedRing Matrix.linftyOpNormedAlgebra Matrix.linftyOpNormedAddCommGroup

theorem vecMul_expm {w : Vec ι} {L : Mat ι} {lam : ℂ} (h : w ᵥ* L = lam • w) (θ : ℝ) :
    w ᵥ* expm L θ = Complex.exp (θ * lam) • w := by
  have hp : ∀ n : ℕ, w ᵥ* ((θ : ℂ) • L) ^ n = ((θ : ℂ) * lam) ^ n • w := by
    intro n
    induction n with
    | zero => simp
    | succ n ih => rw [pow_succ, ← vecMul_vecMul, ih, smul_vecMul, vecMul_smul, h, smul_smul, smul_smul, pow_succ]; congr 1; ring
  have s1 := NormedSpace.exp_series_hasSum_exp' (𝕂 := ℂ) ((θ : ℂ) • L)
  have t1 : HasSum (fun n : ℕ => w ᵥ* ((n.factorial : ℂ)⁻¹ • ((θ : ℂ) • L) ^ n)) (w ᵥ* NormedSpace.exp ((θ : ℂ) • L)) :=
    s1.map (AddMonoidHom.mk' (fun X : Mat ι => w ᵥ* X) fun X Y => Matrix.vecMul_add X Y w)
      (continuous_const.matrix_vecMul continuous_id)
  have s2 := (NormedSpace.exp_series_hasSum_exp' (𝕂 := ℂ) ((θ : ℂ) * lam)).smul_const w
  rw [← Complex.exp_eq_exp_ℂ] at s2
  refine t1.unique ?_
  convert s2 using 2 with n
  rw [vecMul_smul, hp, smul_assoc]

end

theorem dot_expm {w : Vec ι} {L : Mat ι} {lam : ℂ} (h : w ᵥ* L = lam • w) (θ : ℝ) (v u : Vec ι)
    (hv : v - expm L θ *ᵥ u ∈ kerOf w) : w ⬝ᵥ v = Complex.exp (θ * lam) * w ⬝ᵥ u := by
  have : w ⬝ᵥ (v - expm L θ *ᵥ u) = 0 := hv
  rw [dotProduct_sub, sub_eq_zero] at this
  rw [this, dotProduct_mulVec, vecMul_expm h, smul_dotProduct, smul_eq_mul]

end Verif
