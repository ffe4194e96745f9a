import Verif.Lemmas.NonFiniteRun

/-!
# Without overflow the solvers with floats are the exact solvers
-/

set_option linter.unusedSectionVars false

namespace Verif

open Matrix

namespace CFl

@[simp] theorem ofComplex_add (z w : ℂ) : add .fin (ofComplex z) (ofComplex w) = ofComplex (z + w) := rfl

@[simp] theorem ofComplex_neg (z : ℂ) : neg (ofComplex z) = ofComplex (-z) := rfl

@[simp] theorem ofComplex_sub (z w : ℂ) : sub .fin (ofComplex z) (ofComplex w) = ofComplex (z - w) := by
  simp [sub, ofComplex, Ext.sub, Ext.neg, Ext.add, sub_eq_add_neg]

@[simp] theorem ofComplex_mul (z w : ℂ) : mul .fin (ofComplex z) (ofComplex w) = ofComplex (z * w) := by
  simp [mul, ofComplex, Ext.sub, Ext.neg, Ext.add, Ext.mul, sub_eq_add_neg]

@[simp] theorem ofComplex_quot (z : ℂ) (n : ℕ) : quot .fin (ofComplex z) n = ofComplex (z / n) := by
  simp [quot, ofComplex, Ext.sub, Ext.neg, Ext.add, Ext.mul, div_eq_mul_inv]
  have : ((n : ℝ))⁻¹ = n * ((n : ℝ)⁻¹ * (n : ℝ)⁻¹) := by
    by_cases h : (n : ℝ) = 0
    · simp [h]
    · field_simp
  exact ⟨.inl this, .inl this⟩

theorem ofComplex_dot {ι : Type} (a x : ι → ℂ) (l : List ι) :
    dot .fin (fun j => ofComplex (a j)) (fun j => ofComplex (x j)) l = ofComplex ((l.map fun j => a j * x j).sum) := by
  induction l with
  | nil => rfl
  | cons j l ih => simp [dot, ih]

theorem ofComplex_abs (z : ℂ) : abs .fin (ofComplex z) = .fin ‖z‖ := by
  simp only [abs, ofComplex]
  rw [Complex.norm_def, Complex.normSq_apply]
  simp [sq]

theorem isFinite_ofComplex (z : ℂ) : (ofComplex z).IsFinite := ⟨⟨_, rfl⟩, ⟨_, rfl⟩⟩

end CFl

variable {ι : Type} [Fintype ι]

/-- An array of finite numbers. -/
def flArr (v : Vec ι) : ι → CFl := fun i => CFl.ofComplex (v i)

theorem relOps_exact : RelOps true (fun _ (x : ι → CFl) v => x = flArr v) (ArrOps.floats .fin CFl.ofComplex) (ArrOps.exact ι) where
  add := by rintro _ _ _ x _ y rfl rfl; rfl
  sub := by rintro _ _ _ x _ y rfl rfl; exact funext fun i => CFl.ofComplex_sub _ _
  mul := by rintro _ _ _ x _ y rfl rfl; exact funext fun i => CFl.ofComplex_mul _ _
  neg := by rintro _ _ x rfl; rfl
  quot := by
    rintro _ _ x n rfl
    exact funext fun i => CFl.ofComplex_quot _ _
  scalar := fun z => rfl
  dot := by
    rintro _ M _ x rfl
    refine funext fun i => ?_
    refine (CFl.ofComplex_dot (M i) x _).trans ?_
    simp only [flArr]
    congr 1
    rw [Matrix.mulVec, dotProduct, ← Finset.sum_map_toList]

/-! ### The error factor -/

theorem foldr_fin (l : List ℝ) : (l.map Ext.fin).foldr (Ext.add .fin) (.fin 0) = .fin l.sum := by
  induction l with
  | nil => rfl
  | cons x l ih => simp [ih, Ext.add]

theorem flNorm_exact (l : List ℂ) : flNorm .fin (l.map CFl.ofComplex) = .fin (Real.sqrt (l.map fun z => ‖z‖ ^ 2).sum) := by
  unfold flNorm
  have h1 : (l.map CFl.ofComplex).map (fun z => Ext.mul .fin z.re z.re) = (l.map fun z => z.re * z.re).map Ext.fin := by
    simp [CFl.ofComplex, Ext.mul, Function.comp_def]
  have h2 : (l.map CFl.ofComplex).map (fun z => Ext.mul .fin z.im z.im) = (l.map fun z => z.im * z.im).map Ext.fin := by
    simp [CFl.ofComplex, Ext.mul, Function.comp_def]
  rw [h1, h2, foldr_fin, foldr_fin]
  have h3 : (l.map fun z => z.re * z.re).sum + (l.map fun z => z.im * z.im).sum = (l.map fun z => ‖z‖ ^ 2).sum := by
    rw [← List.sum_map_add]
    congr 1
    refine List.map_congr_left fun z _ => ?_
    rw [Complex.sq_norm, Complex.normSq_apply]
  simp only [Ext.add, Ext.sqrt, h3]
  rw [if_neg]
  refine not_lt.mpr (List.sum_nonneg ?_)
  intro x hx
  obtain ⟨z, -, rfl⟩ := List.mem_map.mp hx
  positivity

theorem foldl_max_fin (l : List ℝ) : ∀ x, (l.map Ext.fin).foldl Ext.max (.fin x) = .fin (l.foldl max x) := by
  induction l with
  | nil => intro x; rfl
  | cons y l ih =>
    intro x
    have : Ext.max (.fin x) (.fin y) = .fin (max x y) := by
      simp only [Ext.max, Ext.lt, decide_eq_true_eq]
      split_ifs with h
      · rw [max_eq_right h.le]
      · rw [max_eq_left (not_lt.mp h)]
    simp only [List.map_cons, List.foldl_cons, this, ih]

theorem foldl_max_isGreatest (l : List ℝ) : ∀ x, IsGreatest {y | y ∈ x :: l} (l.foldl max x) := by
  induction l with
  | nil => intro x; exact ⟨by simp, by simp [upperBounds]⟩
  | cons y l ih =>
    intro x
    obtain ⟨h1, h2⟩ := ih (max x y)
    refine ⟨?_, ?_⟩
    · rcases List.mem_cons.mp h1 with h | h
      · show (y :: l).foldl max x ∈ x :: y :: l
        rw [List.foldl_cons, h]
        rcases max_choice x y with h' | h' <;> rw [h'] <;> simp
      · simp [List.foldl_cons]; right; right; exact h
    · intro z hz
      have h3 : max x y ≤ l.foldl max (max x y) := h2 (by simp)
      replace hz := List.mem_cons.mp hz
      rw [List.mem_cons] at hz
      rcases hz with rfl | rfl | hz
      · exact (le_max_left _ _).trans h3
      · exact (le_max_right _ _).trans h3
      · exact h2 (by simp [hz])

theorem flMax_exact [Nonempty ι] (v : Vec ι) :
    flMax (Finset.univ.toList.map fun i => (flArr v i).abs .fin) = .fin (⨆ i, ‖v i‖) := by
  have h1 : (Finset.univ.toList.map fun i => (flArr v i).abs .fin) = ((Finset.univ : Finset ι).toList.map fun i => ‖v i‖).map Ext.fin := by
    simp [flArr, CFl.ofComplex_abs, Function.comp_def]
  rw [h1]
  cases hl : (Finset.univ : Finset ι).toList with
  | nil => exact absurd (Finset.toList_eq_nil.mp hl) Finset.univ_nonempty.ne_empty
  | cons j l =>
    simp only [List.map_cons, flMax]
    rw [foldl_max_fin]
    congr 1
    obtain ⟨g1, g2⟩ := foldl_max_isGreatest (l.map fun i => ‖v i‖) ‖v j‖
    apply le_antisymm
    · have : ∃ i, ‖v i‖ = (l.map fun i => ‖v i‖).foldl max ‖v j‖ := by
        rcases List.mem_cons.mp g1 with h | h
        · exact ⟨j, h.symm⟩
        · obtain ⟨i, -, hi⟩ := List.mem_map.mp h
          exact ⟨i, hi⟩
      obtain ⟨i, hi⟩ := this
      rw [← hi]
      exact le_ciSup (f := fun i => ‖v i‖) (Set.finite_range _).bddAbove i
    · refine ciSup_le fun i => g2 ?_
      have : i ∈ j :: l := by rw [← hl]; simp
      rcases List.mem_cons.mp this with rfl | h
      · simp
      · exact List.mem_cons_of_mem _ (List.mem_map.mpr ⟨i, h, rfl⟩)

theorem flComputeS_exact [Nonempty ι] (q : ℕ) (cfg : SolverConfig ℝ) (u err : Vec ι) :
    flComputeS .fin q cfg (flArr u) (flArr err) = computeS q cfg u err := by
  classical
  unfold flComputeS computeS
  simp only [flMax_exact]
  set mx := ⨆ i, ‖u i‖
  have hsel : (fun i => Ext.lt (.fin cfg.adapt_cutoff) (.div .fin ((flArr u i).abs .fin) (.fin mx))) =
      fun i => decide (mx ≠ 0 ∧ cfg.adapt_cutoff < ‖u i‖ / mx) := by
    funext i
    simp only [flArr, CFl.ofComplex_abs, Ext.div]
    by_cases h : mx = 0
    · simp only [h, if_true, Ext.infTimes]
      have : ‖u i‖ = 0 := le_antisymm (h ▸ le_ciSup (f := fun i => ‖u i‖) (Set.finite_range _).bddAbove i) (norm_nonneg _)
      simp [this, Ext.lt]
    · simp [h, Ext.lt]
  rw [hsel]
  have hn : ∀ w : Vec ι, flNorm .fin ((Finset.univ.toList.filter fun i => decide (mx ≠ 0 ∧ cfg.adapt_cutoff < ‖u i‖ / mx)).map (flArr w)) =
      .fin (maskedNorm (fun i => mx ≠ 0 ∧ cfg.adapt_cutoff < ‖u i‖ / mx) w) := by
    intro w
    rw [show flArr w = CFl.ofComplex ∘ w from rfl, ← List.map_map, flNorm_exact]
    unfold maskedNorm
    congr 2
    rw [List.map_map, ← Finset.sum_map_toList]
    generalize (Finset.univ : Finset ι).toList = l
    induction l with
    | nil => rfl
    | cons i l ih =>
      by_cases h : mx ≠ 0 ∧ cfg.adapt_cutoff < ‖u i‖ / mx
      · rw [List.filter_cons_of_pos (by simpa using h)]
        simp only [List.map_cons, List.sum_cons, ih, if_pos h, Function.comp]
      · rw [List.filter_cons_of_neg (by simpa using h)]
        simp only [List.map_cons, List.sum_cons, ih, if_neg h, zero_add]
  have hn' := hn u
  have hn'' := hn err
  rw [hn', hn'']
  have h1 : ∀ x y : ℝ, Ext.div .fin (.fin x) (.fin y) = npDiv x y := fun x y => rfl
  have h2 : ∀ (x : Ext ℝ) (p : ℝ), Ext.power .fin x p = npPower x p := fun x p => by cases x <;> rfl
  have h3 : ∀ (c : ℝ) (x : Ext ℝ), Ext.mul .fin (.fin c) x = npScale c x := by
    intro c x
    cases x with
    | ninf =>
      simp only [Ext.mul, Ext.infTimes, npScale, neg_eq_zero, Left.neg_pos_iff]
      split_ifs with a1 a2 a3 a3
      · rfl
      · exact absurd (a2.trans a3) (lt_irrefl _)
      · rfl
      · rfl
      · exact absurd (le_antisymm (not_lt.mp a3) (not_lt.mp a2)) a1
    | _ => rfl
  rw [show Ext.mul .fin (.fin cfg.epsilon) (.fin (maskedNorm (fun i => mx ≠ 0 ∧ cfg.adapt_cutoff < ‖u i‖ / mx) u)) =
    .fin (cfg.epsilon * maskedNorm (fun i => mx ≠ 0 ∧ cfg.adapt_cutoff < ‖u i‖ / mx) u) from rfl, h1, h2, h3]

end Verif
