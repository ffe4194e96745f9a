import Verif.Lemmas.Relate
import Verif.Lemmas.Contour

/-!
# Conjugating and relabelling the coefficients
-/

set_option linter.unusedSectionVars false

namespace Verif

open Matrix

variable {ι κ : Type} [Fintype ι] [DecidableEq ι] [Fintype κ] [DecidableEq κ]

theorem RelE.eq_map {α β : Type} {f : α → β} {x : Except PyErr α} {y : Except PyErr β}
    (h : RelE (fun a b => b = f a) x y) : y = x.map f := by
  cases x <;> cases y
  · exact congrArg _ (show _ = _ from h).symm
  · exact h.elim
  · exact h.elim
  · exact congrArg _ h

theorem RelO.eq_map {α β : Type} {f : α → β} {x : Option α} {y : Option β}
    (h : RelO (fun a b => b = f a) x y) : y = x.map f := by
  cases x <;> cases y
  · rfl
  · exact h.elim
  · exact h.elim
  · exact congrArg _ h

theorem forall2_eq_map {α β : Type} {f : α → β} {x : List α} {y : List β}
    (h : List.Forall₂ (fun a b => b = f a) x y) : y = x.map f := by
  induction h with
  | nil => rfl
  | cons h1 _ ih => rw [List.map_cons, h1, ih]

/-! ### Conjugation -/

theorem node_conj (R : ℝ) {N m : ℕ} (hm : m < N) : star (node R N m) = node R N (N - 1 - m) := by
  unfold node
  have hN : (N : ℂ) ≠ 0 := by exact_mod_cast (by omega : N ≠ 0)
  rw [Complex.star_def, map_mul, Complex.conj_ofReal, ← Complex.exp_conj]
  congr 1
  have hc : (((N - 1 - m : ℕ) : ℂ)) = (N : ℂ) - 1 - m := by
    rw [Nat.cast_sub (by omega), Nat.cast_sub (by omega)]; simp
  rw [← Complex.exp_periodic, hc]
  congr 1
  simp only [map_div₀, map_mul, map_add, Complex.conj_ofReal, Complex.conj_I, map_natCast, map_ofNat, map_one]
  field_simp
  ring

theorem sum_node_conj (R : ℝ) (N : ℕ) {M : Type} [AddCommMonoid M] (f : ℂ → M) :
    ∑ m ∈ Finset.range N, f (star (node R N m)) = ∑ m ∈ Finset.range N, f (node R N m) := by
  rw [← Finset.sum_range_reflect (fun m => f (node R N m))]
  refine Finset.sum_congr rfl fun m hm => ?_
  rw [node_conj R (Finset.mem_range.mp hm)]

theorem phiDiv_conj (k : ℕ) (z : ℂ) : phiDiv k (star z) = star (phiDiv k z) := by
  unfold phiDiv
  simp only [Complex.star_def, map_div₀, map_sub, map_sum, map_pow, map_natCast, Complex.exp_conj]

theorem phiMode_conj (cut R : ℝ) (N k : ℕ) (c : ℝ) (z : ℂ) :
    phiMode cut R N k c (star z) = star (phiMode cut R N k c z) := by
  unfold phiMode
  rw [norm_star]
  have hc : ∀ w : ℂ, (c : ℂ) * star w = star ((c : ℂ) * w) := by intro w; simp
  split
  · unfold contourMean
    rw [← sum_node_conj R N (fun x => phiDiv k (c * (star z + x)))]
    rw [Complex.star_def, map_div₀, map_natCast, map_sum]
    congr 1
    refine Finset.sum_congr rfl fun m _ => ?_
    rw [← Complex.star_def, ← star_add, hc, phiDiv_conj, Complex.star_def]
  · rw [hc, phiDiv_conj]

theorem map_star_eq (X : Mat ι) : X.map star = Xᴴᵀ := rfl

theorem expm_map_star (L : Mat ι) (θ : ℝ) : expm (L.map star) θ = (expm L θ).map star := by
  unfold expm
  rw [map_star_eq, map_star_eq, ← Matrix.exp_conjTranspose, ← Matrix.exp_transpose, conjTranspose_smul, transpose_smul]
  simp

theorem inv_map_star (X : Mat ι) : (X.map star)⁻¹ = X⁻¹.map star := by
  rw [map_star_eq, map_star_eq, conjTranspose_nonsing_inv, transpose_nonsing_inv]

theorem diagonal_map_star (L : Vec ι) : (Matrix.diagonal L).map star = Matrix.diagonal (star L) := by
  rw [Matrix.diagonal_map (star_zero _)]; rfl

theorem shift_map_star (x : ℂ) (r : ℝ) (L : Mat ι) :
    (x • (1 : Mat ι) - (r : ℂ) • L).map star = star x • (1 : Mat ι) - (r : ℂ) • L.map star := by
  ext i j
  by_cases h : i = j <;> simp [Matrix.map_apply, h]

theorem phiFull_map_star (R : ℝ) (N : ℕ) (L : Mat ι) (h : ℝ) (k : ℕ) (c : ℝ) :
    phiFull R N (L.map star) h k c = (phiFull R N L h k c).map star := by
  unfold phiFull
  rw [← sum_node_conj R N (fun x => (x * phiDiv k x / N) • (x • (1 : Mat ι) - ((c * h : ℝ) : ℂ) • L.map star)⁻¹)]
  ext i j
  simp only [Matrix.sum_apply, Matrix.map_apply, star_sum, Matrix.smul_apply, smul_eq_mul]
  refine Finset.sum_congr rfl fun m _ => ?_
  rw [← shift_map_star, inv_map_star, Matrix.map_apply, phiDiv_conj]
  simp

theorem contourOk_map_star (R : ℝ) (N : ℕ) (L : Mat ι) (cs : List ℝ) (h : ℝ) :
    ContourOk R N (L.map star) cs h ↔ ContourOk R N L cs h := by
  have key : ∀ (x : ℂ) (r : ℝ), IsUnit (star x • (1 : Mat ι) - (r : ℂ) • L.map star).det ↔
      IsUnit (x • (1 : Mat ι) - (r : ℂ) • L).det := by
    intro x r
    rw [← shift_map_star, map_star_eq, det_transpose, det_conjTranspose]
    simp
  unfold ContourOk
  constructor
  · intro H m hm c hc
    have := H (N - 1 - m) (by omega) c hc
    rw [← node_conj R hm, key] at this
    exact this
  · intro H m hm c hc
    have := H (N - 1 - m) (by omega) c hc
    rw [← key, node_conj R (by omega), show N - 1 - (N - 1 - m) = m by omega] at this
    exact this

theorem LinOp.conj_mat (L : LinOp ι) : L.conj.mat = L.mat.map star := by
  cases L
  · exact (diagonal_map_star _).symm
  · rfl

theorem LinOp.conj_phi (cfg : ETDConfig ℝ) (h : ℝ) (L : LinOp ι) (k : ℕ) (c : ℝ) :
    L.conj.phi cfg h k c = (L.phi cfg h k c).map star := by
  cases L with
  | diag L =>
    simp only [conj, phi, phiDiag]
    rw [diagonal_map_star]
    congr 1
    funext i
    rw [Pi.star_apply, Pi.star_apply, ← phiMode_conj]
    simp
  | full L => exact phiFull_map_star _ _ _ _ _ _

theorem LinOp.conj_coefOk (cfg : ETDConfig ℝ) (cs : List ℝ) (h : ℝ) (L : LinOp ι) :
    L.conj.CoefOk cfg cs h ↔ L.CoefOk cfg cs h := by
  cases L
  · exact Iff.rfl
  · exact contourOk_map_star _ _ _ _ _

theorem map_star_mulVec (X : Mat ι) (v : Vec ι) : X.map star *ᵥ star v = star (X *ᵥ v) := by
  funext i
  simp [mulVec, dotProduct]

/-- One array is the conjugate of the other. -/
def ConjRel (v v' : Vec ι) : Prop := v' = star v

theorem conjRel_linear : RealLinear (ConjRel (ι := ι)) where
  zero := by simp [ConjRel]
  add := by rintro v w _ _ rfl rfl; simp [ConjRel]
  smul := by
    rintro r v _ rfl
    funext i
    simp

theorem MatRel.conj (X : Mat ι) : MatRel ConjRel X (X.map star) := ⟨by
  rintro v _ rfl
  exact map_star_mulVec X v⟩

theorem LinOp.conj_rel (L : LinOp ι) : L.Rel ConjRel L.conj where
  exp := fun θ => by rw [conj_mat, expm_map_star]; exact MatRel.conj _
  phi := fun cfg h k c => by rw [conj_phi]; exact MatRel.conj _
  ok := fun cfg cs h => (conj_coefOk cfg cs h L).symm

theorem ASOp.conj_rel (L : ASOp ι) : L.Rel ConjRel L.conj := by
  have hi : L.conj.inner = L.inner.conj := by cases L <;> rfl
  refine ⟨by rw [hi]; exact LinOp.conj_rel _, ?_, ?_⟩
  · rcases L with _ | _ | ⟨lam, S, Sinv, hS⟩
    · exact fun _ _ h => h
    · exact fun _ _ h => h
    · exact fun w w' h => (MatRel.conj S).app w w' h
  · rcases L with _ | _ | ⟨lam, S, Sinv, hS⟩
    · exact fun _ _ h => h
    · exact fun _ _ h => h
    · exact fun w w' h => (MatRel.conj Sinv).app w w' h

theorem CSSolver.conj_rel (m : CSSolver ι) : m.Rel ConjRel m.conj := by
  cases m with
  | if4 L => exact .if4 L.conj_rel
  | etd4 cfg L => exact .etd4 cfg L.conj_rel
  | etd5 cfg L => exact .etd5 cfg L.conj_rel

theorem ASSolver.conj_rel (m : ASSolver ι) : m.Rel ConjRel m.conj := by
  cases m with
  | if34 L => exact .if34 L.conj_rel
  | etd34 cfg L => exact .etd34 cfg L.conj_rel
  | etd35 cfg L => exact .etd35 cfg L.conj_rel
  | if45dp L => exact .if45dp (ASOp.diag L).conj_rel

theorem conjNl_rel (nl : NlFunc ι) (w w' : Vec ι) (h : ConjRel w w') : RelE ConjRel (nl w) (conjNl nl w') := by
  have : w' = star w := h
  subst this
  unfold conjNl
  rw [star_star]
  cases nl w
  · rfl
  · show star _ = star _; rfl

theorem conjRel_norm (v v' : Vec ι) (h : ConjRel v v') (k : ι) : ‖v' k‖ = ‖v (Equiv.refl ι k)‖ := by
  have : v' = star v := h
  subst this
  simp

/-! ### Real problems -/

/-- The same real array. -/
def RealRel (v v' : Vec ι) : Prop := v' = v ∧ IsReal v

theorem isReal_iff (v : Vec ι) : IsReal v ↔ star v = v := by
  constructor
  · intro h; funext i; exact Complex.conj_eq_iff_im.mpr (h i)
  · intro h i; exact Complex.conj_eq_iff_im.mp (congrFun h i)

theorem realRel_linear : RealLinear (RealRel (ι := ι)) where
  zero := ⟨rfl, fun i => by simp⟩
  add := by rintro v w _ _ ⟨rfl, h1⟩ ⟨rfl, h2⟩; exact ⟨rfl, fun i => by simp [h1 i, h2 i]⟩
  smul := by rintro r v _ ⟨rfl, h1⟩; exact ⟨rfl, fun i => by simp [h1 i]⟩

theorem MatRel.real {X : Mat ι} (hX : X.map star = X) : MatRel RealRel X X := ⟨by
  rintro v _ ⟨rfl, h⟩
  refine ⟨rfl, ?_⟩
  rw [isReal_iff] at h ⊢
  rw [← map_star_mulVec, hX, h]⟩

theorem LinOp.real_rel {L : LinOp ι} (hL : L.conj = L) : L.Rel RealRel L where
  exp := fun θ => MatRel.real (by rw [← expm_map_star, ← conj_mat, hL])
  phi := fun cfg h k c => MatRel.real (by rw [← conj_phi, hL])
  ok := fun cfg cs h => Iff.rfl

theorem ASOp.real_rel {L : ASOp ι} (hL : L.conj = L) : L.Rel RealRel L := by
  have hi : L.conj.inner = L.inner.conj := by cases L <;> rfl
  refine ⟨LinOp.real_rel (by rw [← hi, hL]), ?_, ?_⟩
  · rcases L with _ | _ | ⟨lam, S, Sinv, hS⟩
    · exact fun _ _ h => h
    · exact fun _ _ h => h
    · simp only [ASOp.conj, ASOp.eig.injEq] at hL
      exact fun w w' h => (MatRel.real hL.2.1).app w w' h
  · rcases L with _ | _ | ⟨lam, S, Sinv, hS⟩
    · exact fun _ _ h => h
    · exact fun _ _ h => h
    · simp only [ASOp.conj, ASOp.eig.injEq] at hL
      exact fun w w' h => (MatRel.real hL.2.2).app w w' h

theorem CSSolver.real_rel {m : CSSolver ι} (hm : m.conj = m) : m.Rel RealRel m := by
  cases m with
  | if4 L => exact .if4 (LinOp.real_rel (by simpa [conj] using hm))
  | etd4 cfg L => exact .etd4 cfg (LinOp.real_rel (by simpa [conj] using hm))
  | etd5 cfg L => exact .etd5 cfg (LinOp.real_rel (by simpa [conj] using hm))

theorem ASSolver.real_rel {m : ASSolver ι} (hm : m.conj = m) : m.Rel RealRel m := by
  cases m with
  | if34 L => exact .if34 (ASOp.real_rel (by simpa [conj] using hm))
  | etd34 cfg L => exact .etd34 cfg (ASOp.real_rel (by simpa [conj] using hm))
  | etd35 cfg L => exact .etd35 cfg (ASOp.real_rel (by simpa [conj] using hm))
  | if45dp L => exact .if45dp (ASOp.real_rel (by simpa [conj, ASOp.conj] using hm))

theorem realNl_rel {nl : NlFunc ι} (hnl : ∀ w n, IsReal w → nl w = .ok n → IsReal n) (w w' : Vec ι) (h : RealRel w w') :
    RelE RealRel (nl w) (nl w') := by
  obtain ⟨rfl, hw⟩ := h
  cases hn : nl w'
  · rfl
  · exact ⟨rfl, hnl _ _ hw hn⟩

/-! ### Relabelling the modes -/

/-- One array is the other with relabelled modes. -/
def LabelRel (σ : κ ≃ ι) (v : Vec ι) (v' : Vec κ) : Prop := v' = v ∘ σ

theorem labelRel_linear (σ : κ ≃ ι) : RealLinear (LabelRel σ) where
  zero := rfl
  add := by rintro v w _ _ rfl rfl; rfl
  smul := by rintro r v _ rfl; rfl

theorem MatRel.label (σ : κ ≃ ι) (X : Mat ι) : MatRel (LabelRel σ) X (X.submatrix σ σ) := ⟨by
  rintro v _ rfl
  funext k
  simp only [mulVec, dotProduct, submatrix_apply, Function.comp]
  exact Equiv.sum_comp σ fun j => X (σ k) j * v j⟩

open scoped Matrix.Norms.Operator in
theorem expm_submatrix (σ : κ ≃ ι) (L : Mat ι) (θ : ℝ) : expm (L.submatrix σ σ) θ = (expm L θ).submatrix σ σ := by
  unfold expm
  have := NormedSpace.map_exp (Matrix.reindexAlgEquiv ℂ ℂ σ.symm)
    (LinearMap.continuous_of_finiteDimensional (Matrix.reindexAlgEquiv ℂ ℂ σ.symm).toLinearMap) ((θ : ℂ) • L)
  simp only [coe_reindexAlgEquiv, reindex_apply, Equiv.symm_symm] at this
  exact this.symm

theorem LinOp.relabel_mat (σ : κ ≃ ι) (L : LinOp ι) : (L.relabel σ).mat = L.mat.submatrix σ σ := by
  cases L
  · simp only [relabel, mat]; rw [Matrix.submatrix_diagonal_equiv]
  · rfl

theorem shift_submatrix (σ : κ ≃ ι) (x r : ℂ) (L : Mat ι) :
    (x • (1 : Mat ι) - r • L).submatrix σ σ = x • (1 : Mat κ) - r • L.submatrix σ σ := by
  rw [← Matrix.submatrix_one_equiv σ]; rfl

theorem LinOp.relabel_phi (σ : κ ≃ ι) (cfg : ETDConfig ℝ) (h : ℝ) (L : LinOp ι) (k : ℕ) (c : ℝ) :
    (L.relabel σ).phi cfg h k c = (L.phi cfg h k c).submatrix σ σ := by
  cases L with
  | diag L =>
    simp only [relabel, phi, phiDiag]
    rw [Matrix.submatrix_diagonal_equiv]
    rfl
  | full L =>
    simp only [relabel, phi, phiFull]
    ext i j
    simp only [Matrix.sum_apply, submatrix_apply, Matrix.smul_apply]
    refine Finset.sum_congr rfl fun m _ => ?_
    rw [← shift_submatrix, Matrix.inv_submatrix_equiv]
    rfl

theorem LinOp.relabel_coefOk (σ : κ ≃ ι) (cfg : ETDConfig ℝ) (cs : List ℝ) (h : ℝ) (L : LinOp ι) :
    (L.relabel σ).CoefOk cfg cs h ↔ L.CoefOk cfg cs h := by
  cases L with
  | diag L => exact Iff.rfl
  | full L =>
    simp only [relabel, CoefOk, ContourOk]
    refine forall_congr' fun m => forall_congr' fun _ => forall_congr' fun c => forall_congr' fun _ => ?_
    rw [← shift_submatrix, Matrix.det_submatrix_equiv_self]

theorem LinOp.relabel_rel (σ : κ ≃ ι) (L : LinOp ι) : L.Rel (LabelRel σ) (L.relabel σ) where
  exp := fun θ => by rw [relabel_mat, expm_submatrix]; exact MatRel.label σ _
  phi := fun cfg h k c => by rw [relabel_phi]; exact MatRel.label σ _
  ok := fun cfg cs h => (relabel_coefOk σ cfg cs h L).symm

theorem ASOp.relabel_rel (σ : κ ≃ ι) (L : ASOp ι) : L.Rel (LabelRel σ) (L.relabel σ) := by
  have hi : (L.relabel σ).inner = L.inner.relabel σ := by cases L <;> rfl
  refine ⟨by rw [hi]; exact LinOp.relabel_rel σ _, ?_, ?_⟩
  · rcases L with _ | _ | ⟨lam, S, Sinv, hS⟩
    · exact fun _ _ h => h
    · exact fun _ _ h => h
    · exact fun w w' h => (MatRel.label σ S).app w w' h
  · rcases L with _ | _ | ⟨lam, S, Sinv, hS⟩
    · exact fun _ _ h => h
    · exact fun _ _ h => h
    · exact fun w w' h => (MatRel.label σ Sinv).app w w' h

theorem CSSolver.relabel_rel (σ : κ ≃ ι) (m : CSSolver ι) : m.Rel (LabelRel σ) (m.relabel σ) := by
  cases m with
  | if4 L => exact .if4 (L.relabel_rel σ)
  | etd4 cfg L => exact .etd4 cfg (L.relabel_rel σ)
  | etd5 cfg L => exact .etd5 cfg (L.relabel_rel σ)

theorem ASSolver.relabel_rel (σ : κ ≃ ι) (m : ASSolver ι) : m.Rel (LabelRel σ) (m.relabel σ) := by
  cases m with
  | if34 L => exact .if34 (L.relabel_rel σ)
  | etd34 cfg L => exact .etd34 cfg (L.relabel_rel σ)
  | etd35 cfg L => exact .etd35 cfg (L.relabel_rel σ)
  | if45dp L => exact .if45dp ((ASOp.diag L).relabel_rel σ)

theorem relabelNl_rel (σ : κ ≃ ι) (nl : NlFunc ι) (w : Vec ι) (w' : Vec κ) (h : LabelRel σ w w') :
    RelE (LabelRel σ) (nl w) (relabelNl σ nl w') := by
  have : w' = w ∘ σ := h
  subst this
  unfold relabelNl
  have e : (w ∘ σ) ∘ σ.symm = w := by funext i; simp
  rw [e]
  cases nl w
  · rfl
  · exact (rfl : _ ∘ σ = _ ∘ σ)

theorem labelRel_norm (σ : κ ≃ ι) (v : Vec ι) (v' : Vec κ) (h : LabelRel σ v v') (k : κ) : ‖v' k‖ = ‖v (σ k)‖ := by
  have : v' = v ∘ σ := h
  subst this
  rfl

/-! ### Single modes -/

/-- The arrays agree in one mode. -/
def ModeRel (i : ι) (k : κ) (v : Vec ι) (v' : Vec κ) : Prop := v i = v' k

theorem modeRel_linear (i : ι) (k : κ) : RealLinear (ModeRel i k) where
  zero := rfl
  add := by
    intro v w v' w' h1 h2
    exact congrArg₂ (· + ·) (show v i = v' k from h1) h2
  smul := by
    intro r v v' h
    exact congrArg (fun x => (r : ℂ) * x) (show v i = v' k from h)

theorem MatRel.mode {i : ι} {k : κ} {d : Vec ι} {d' : Vec κ} (h : d i = d' k) :
    MatRel (ModeRel i k) (Matrix.diagonal d) (Matrix.diagonal d') := ⟨by
  intro v v' hv
  have hv' : v i = v' k := hv
  show (Matrix.diagonal d *ᵥ v) i = (Matrix.diagonal d' *ᵥ v') k
  rw [mulVec_diagonal, mulVec_diagonal, h, hv']⟩

theorem LinOp.mode_rel {i : ι} {k : κ} {L : Vec ι} {L' : Vec κ} (h : L i = L' k) :
    (LinOp.diag L).Rel (ModeRel i k) (LinOp.diag L') where
  exp := fun θ => by
    simp only [mat]
    rw [expm_diagonal, expm_diagonal]
    exact MatRel.mode (by rw [h])
  phi := fun cfg hh p c => by
    simp only [phi, phiDiag]
    exact MatRel.mode (by rw [h])
  ok := fun _ _ _ => Iff.rfl

theorem ASOp.mode_rel {i : ι} {k : κ} {L : Vec ι} {L' : Vec κ} (h : L i = L' k) :
    (ASOp.diag L).Rel (ModeRel i k) (ASOp.diag L') :=
  ⟨LinOp.mode_rel h, fun _ _ h => h, fun _ _ h => h⟩

theorem CSSolver.SameMode.rel {i : ι} {k : κ} {m : CSSolver ι} {m' : CSSolver κ} (h : m.SameMode i k m') :
    m.Rel (ModeRel i k) m' := by
  cases h with
  | if4 L L' h => exact .if4 (LinOp.mode_rel h)
  | etd4 cfg L L' h => exact .etd4 cfg (LinOp.mode_rel h)
  | etd5 cfg L L' h => exact .etd5 cfg (LinOp.mode_rel h)

theorem ASSolver.SameMode.rel {i : ι} {k : κ} {m : ASSolver ι} {m' : ASSolver κ} (h : m.SameMode i k m') :
    m.Rel (ModeRel i k) m' := by
  cases h with
  | if34 L L' h => exact .if34 (ASOp.mode_rel h)
  | etd34 cfg L L' h => exact .etd34 cfg (ASOp.mode_rel h)
  | etd35 cfg L L' h => exact .etd35 cfg (ASOp.mode_rel h)
  | if45dp L L' h => exact .if45dp (ASOp.mode_rel h)

end Verif
