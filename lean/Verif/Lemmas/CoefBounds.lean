import Verif.Lemmas.Stability

/-!
# Bounds on the coefficients of the methods

The coefficients of the ETD methods are linear in the φ values; those of all methods are bounded for small steps, and the solvers'
coefficients are close to the exact ones.
-/

set_option linter.unusedSectionVars false

namespace Verif

open Matrix Finset
open scoped Matrix.Norms.Operator

variable {ι : Type} [Fintype ι] [DecidableEq ι]

/-- A combination of φ values that is linear, with a bounded norm. -/
def LinB (X : (ℕ → ℝ → Mat ι) → Mat ι) : Prop :=
  X 0 = 0 ∧ ∃ K : ℝ, 0 ≤ K ∧ ∀ (φ φ' : ℕ → ℝ → Mat ι) (b : ℝ), (∀ k c, ‖φ k c - φ' k c‖ ≤ b) → ‖X φ - X φ'‖ ≤ K * b

namespace LinB

variable {X Y : (ℕ → ℝ → Mat ι) → Mat ι}

theorem eval (k : ℕ) (c : ℝ) : LinB fun φ : ℕ → ℝ → Mat ι => φ k c :=
  ⟨rfl, 1, zero_le_one, fun φ φ' b h => by rw [one_mul]; exact h k c⟩

theorem zero : LinB fun _ : ℕ → ℝ → Mat ι => 0 := ⟨rfl, 0, le_rfl, fun φ φ' b _ => by simp⟩

theorem add (hX : LinB X) (hY : LinB Y) : LinB fun φ => X φ + Y φ := by
  obtain ⟨h0, K, hK, h⟩ := hX
  obtain ⟨h0', K', hK', h'⟩ := hY
  refine ⟨by simp only [h0, h0', add_zero], K + K', by positivity, fun φ φ' b hb => ?_⟩
  rw [add_sub_add_comm, add_mul]
  exact (norm_add_le _ _).trans (add_le_add (h φ φ' b hb) (h' φ φ' b hb))

theorem sub (hX : LinB X) (hY : LinB Y) : LinB fun φ => X φ - Y φ := by
  obtain ⟨h0, K, hK, h⟩ := hX
  obtain ⟨h0', K', hK', h'⟩ := hY
  refine ⟨by simp only [h0, h0', sub_zero], K + K', by positivity, fun φ φ' b hb => ?_⟩
  rw [sub_sub_sub_comm, add_mul]
  exact (norm_sub_le _ _).trans (add_le_add (h φ φ' b hb) (h' φ φ' b hb))

theorem neg (hX : LinB X) : LinB fun φ => -X φ := by
  obtain ⟨h0, K, hK, h⟩ := hX
  refine ⟨by simp only [h0, neg_zero], K, hK, fun φ φ' b hb => ?_⟩
  rw [← neg_sub_neg, neg_neg, neg_neg, norm_sub_rev]
  exact h φ φ' b hb

theorem smul (a : ℂ) (hX : LinB X) : LinB fun φ => a • X φ := by
  obtain ⟨h0, K, hK, h⟩ := hX
  refine ⟨by simp only [h0, smul_zero], ‖a‖ * K, by positivity, fun φ φ' b hb => ?_⟩
  rw [← smul_sub, norm_smul, mul_assoc]
  exact mul_le_mul_of_nonneg_left (h φ φ' b hb) (norm_nonneg _)

/-- One constant for finitely many combinations. -/
theorem unif {κ : Type} (s : Finset κ) {X : κ → (ℕ → ℝ → Mat ι) → Mat ι} (hX : ∀ a, LinB (X a)) : ∃ K : ℝ, 0 ≤ K ∧
    ∀ a ∈ s, ∀ (φ φ' : ℕ → ℝ → Mat ι) (b : ℝ), 0 ≤ b → (∀ k c, ‖φ k c - φ' k c‖ ≤ b) → ‖X a φ - X a φ'‖ ≤ K * b := by
  choose h0 K hK h using hX
  refine ⟨∑ a ∈ s, K a, sum_nonneg fun a _ => hK a, fun a ha φ φ' b hb hφ => (h a φ φ' b hφ).trans ?_⟩
  exact mul_le_mul_of_nonneg_right (single_le_sum (fun a _ => hK a) ha) hb

end LinB

/-- A family of methods whose weights are `h` times combinations of φ values. -/
structure PhiMethod (s : ℕ) (mk : (ℕ → ℝ → Mat ι) → Mat ι → ℝ → ERK ι) (α : ℕ → ℕ → (ℕ → ℝ → Mat ι) → Mat ι)
    (β : ℕ → (ℕ → ℝ → Mat ι) → Mat ι) : Prop where
  s : ∀ φ L h, (mk φ L h).s = s
  clip : ∀ φ L h, mk (clip φ) L h = mk φ L h
  E : ∀ φ φ' L h i, (mk φ L h).E i = (mk φ' L h).E i
  E_bd : ∀ φ L h i, 0 ≤ h → h ≤ 1 → ‖(mk φ L h).E i‖ ≤ Real.exp ‖L‖
  Eout : ∀ φ L h, (mk φ L h).Eout = expm L h
  A : ∀ φ L h i j, (mk φ L h).A i j = (h : ℂ) • α i j φ
  B : ∀ φ L h j, (mk φ L h).B j = (h : ℂ) • β j φ
  linA : ∀ i j, LinB (α i j)
  linB : ∀ j, LinB (β j)

theorem expm_norm_le (L : Mat ι) (θ : ℝ) : ‖expm L θ‖ ≤ Real.exp (|θ| * ‖L‖) := by
  have h : HasSum (fun n : ℕ => ‖(θ : ℂ) • L‖ ^ n / (n.factorial : ℝ)) (Real.exp ‖(θ : ℂ) • L‖) := by
    rw [Real.exp_eq_exp_ℝ]; exact NormedSpace.expSeries_div_hasSum_exp _
  have e : ‖(θ : ℂ) • L‖ = |θ| * ‖L‖ := by rw [norm_smul, Complex.norm_real, Real.norm_eq_abs]
  unfold expm
  rw [NormedSpace.exp_eq_tsum ℂ, ← e]
  refine tsum_of_norm_bounded h fun j => ?_
  rw [norm_smul, norm_inv, Complex.norm_natCast, div_eq_inv_mul]
  exact mul_le_mul_of_nonneg_left (norm_pow_mat_le _ _) (by positivity)

theorem expm_norm_le_one (L : Mat ι) {θ : ℝ} (h : |θ| ≤ 1) : ‖expm L θ‖ ≤ Real.exp ‖L‖ :=
  (expm_norm_le L θ).trans (Real.exp_le_exp.mpr (mul_le_of_le_one_left (norm_nonneg _) h))

theorem expm_norm_le_add (L : Mat ι) {h : ℝ} (h0 : 0 ≤ h) (h1 : h ≤ 1) : ‖expm L h‖ ≤ 1 + ‖L‖ * Real.exp ‖L‖ * h := by
  refine (expm_norm_le L h).trans ?_
  rw [abs_of_nonneg h0]
  have h2 := Real.add_one_le_exp (-(h * ‖L‖))
  rw [Real.exp_neg] at h2
  have h3 := Real.exp_pos (h * ‖L‖)
  have h4 : Real.exp (h * ‖L‖) ≤ Real.exp ‖L‖ := Real.exp_le_exp.mpr (mul_le_of_le_one_left (norm_nonneg _) h1)
  have h5 : Real.exp (h * ‖L‖) - 1 ≤ h * ‖L‖ * Real.exp (h * ‖L‖) := by
    have h6 := mul_le_mul_of_nonneg_left h2 h3.le
    rw [mul_inv_cancel₀ h3.ne'] at h6
    linarith
  have h7 : h * ‖L‖ * Real.exp (h * ‖L‖) ≤ h * ‖L‖ * Real.exp ‖L‖ := mul_le_mul_of_nonneg_left h4 (by positivity)
  linarith

theorem phiExact_norm_le (L : Mat ι) {h : ℝ} (h0 : 0 ≤ h) (h1 : h ≤ 1) (k : ℕ) {c : ℝ} (c0 : 0 < c) (c1 : c ≤ 1) :
    ‖phiExact L h k c‖ ≤ Real.exp ‖L‖ := by
  refine (phiMat_norm_le _ _).trans (Real.exp_le_exp.mpr ?_)
  rw [norm_smul, Complex.norm_real, Real.norm_of_nonneg (by positivity)]
  exact mul_le_of_le_one_left (norm_nonneg _) (by nlinarith)

theorem clip_close {φ φ' : ℕ → ℝ → Mat ι} {b : ℝ} (hb : 0 ≤ b) (h : ∀ k c, 0 < c → c ≤ 1 → ‖φ k c - φ' k c‖ ≤ b) (k : ℕ) (c : ℝ) :
    ‖clip φ k c - clip φ' k c‖ ≤ b := by
  unfold clip
  split
  · next hc => exact h k c hc.1 hc.2
  · simpa using hb

theorem clip_zero : clip (0 : ℕ → ℝ → Mat ι) = 0 := by
  funext k c; simp [clip]

namespace PhiMethod

variable {s : ℕ} {mk : (ℕ → ℝ → Mat ι) → Mat ι → ℝ → ERK ι} {α : ℕ → ℕ → (ℕ → ℝ → Mat ι) → Mat ι} {β : ℕ → (ℕ → ℝ → Mat ι) → Mat ι}

theorem consts (hm : PhiMethod s mk α β) : ∃ K : ℝ, 0 ≤ K ∧
    ∀ (φ φ' : ℕ → ℝ → Mat ι) (b : ℝ), 0 ≤ b → (∀ k c, 0 < c → c ≤ 1 → ‖φ k c - φ' k c‖ ≤ b) →
      (∀ i < s, ∀ j < i, ‖α i j (Verif.clip φ) - α i j (Verif.clip φ')‖ ≤ K * b) ∧
        ∀ j < s, ‖β j (Verif.clip φ) - β j (Verif.clip φ')‖ ≤ K * b := by
  obtain ⟨K, hK, h⟩ := LinB.unif (range s ×ˢ range s) (X := fun p : ℕ × ℕ => α p.1 p.2) fun p => hm.linA p.1 p.2
  obtain ⟨K', hK', h'⟩ := LinB.unif (range s) hm.linB
  refine ⟨K + K', by positivity, fun φ φ' b hb hφ => ⟨fun i hi j hj => ?_, fun j hj => ?_⟩⟩
  · refine (h (i, j) (mem_product.mpr ⟨mem_range.mpr hi, mem_range.mpr (hj.trans hi)⟩) _ _ b hb (clip_close hb hφ)).trans ?_
    exact mul_le_mul_of_nonneg_right (by linarith) hb
  · refine (h' j (mem_range.mpr hj) _ _ b hb (clip_close hb hφ)).trans ?_
    exact mul_le_mul_of_nonneg_right (by linarith) hb

theorem bounded (hm : PhiMethod s mk α β) (L : Mat ι) : ∃ c : ℝ, 0 ≤ c ∧ ∀ h, 0 ≤ h → h ≤ 1 → (mk (phiExact L h) L h).Bounded c h := by
  obtain ⟨K, hK, hc⟩ := hm.consts
  have hE := Real.exp_pos ‖L‖
  refine ⟨Real.exp ‖L‖ + ‖L‖ * Real.exp ‖L‖ + K * Real.exp ‖L‖, by positivity, fun h h0 h1 => ?_⟩
  obtain ⟨hA, hB⟩ := hc (phiExact L h) 0 (Real.exp ‖L‖) hE.le fun k c c0 c1 => by
    simpa using phiExact_norm_le L h0 h1 k c0 c1
  have hn := norm_nonneg L
  have p1 : 0 ≤ ‖L‖ * Real.exp ‖L‖ := by positivity
  have p2 : 0 ≤ K * Real.exp ‖L‖ := by positivity
  refine ⟨fun i _ => (hm.E_bd _ L h i h0 h1).trans (by linarith), fun i hi j hj => ?_, ?_, fun j hj => ?_⟩
  · rw [hm.s] at hi
    have := hA i hi j hj
    rw [clip_zero, (hm.linA i j).1, sub_zero] at this
    rw [← hm.clip, hm.A, norm_smul, Complex.norm_real, Real.norm_of_nonneg h0]
    have h2 : h * ‖α i j (Verif.clip (phiExact L h))‖ ≤ 1 * ‖α i j (Verif.clip (phiExact L h))‖ :=
      mul_le_mul_of_nonneg_right h1 (norm_nonneg _)
    linarith
  · rw [hm.Eout]
    refine (expm_norm_le_add L h0 h1).trans ?_
    have : ‖L‖ * Real.exp ‖L‖ * h ≤ (Real.exp ‖L‖ + ‖L‖ * Real.exp ‖L‖ + K * Real.exp ‖L‖) * h :=
      mul_le_mul_of_nonneg_right (by linarith) h0
    linarith
  · rw [hm.s] at hj
    have := hB j hj
    rw [clip_zero, (hm.linB j).1, sub_zero] at this
    rw [← hm.clip, hm.B, norm_smul, Complex.norm_real, Real.norm_of_nonneg h0, mul_comm]
    exact mul_le_mul_of_nonneg_right (by linarith) h0

theorem close (hm : PhiMethod s mk α β) : ∃ K : ℝ, 0 ≤ K ∧ ∀ (L : Mat ι) (h : ℝ) (φ φ' : ℕ → ℝ → Mat ι) (b : ℝ), 0 ≤ h → h ≤ 1 → 0 ≤ b →
    (∀ k c, 0 < c → c ≤ 1 → ‖φ' k c - φ k c‖ ≤ b) → (mk φ L h).Close (mk φ' L h) (K * b) h := by
  obtain ⟨K, hK, hc⟩ := hm.consts
  refine ⟨K, hK, fun L h φ φ' b h0 h1 hb hφ => ?_⟩
  obtain ⟨hA, hB⟩ := hc φ' φ b hb hφ
  refine ⟨by rw [hm.s, hm.s], fun i _ => hm.E _ _ _ _ _, fun i hi j hj => ?_, by rw [hm.Eout, hm.Eout], fun j hj => ?_⟩
  · rw [hm.s] at hi
    rw [← hm.clip φ, ← hm.clip φ', hm.A, hm.A, ← smul_sub, norm_smul, Complex.norm_real, Real.norm_of_nonneg h0]
    have := hA i hi j hj
    have h2 := mul_le_mul_of_nonneg_right h1 (norm_nonneg (α i j (Verif.clip φ') - α i j (Verif.clip φ)))
    linarith
  · rw [hm.s] at hj
    rw [← hm.clip φ, ← hm.clip φ', hm.B, hm.B, ← smul_sub, norm_smul, Complex.norm_real, Real.norm_of_nonneg h0, mul_comm]
    exact mul_le_mul_of_nonneg_right (hB j hj) h0

end PhiMethod

theorem norm_one_le_exp (L : Mat ι) : ‖(1 : Mat ι)‖ ≤ Real.exp ‖L‖ :=
  norm_one_le.trans (Real.one_le_exp (norm_nonneg _))

theorem krogstad_phiMethod : PhiMethod 5 (krogstad (ι := ι)) (fun i j φ => (krogstad φ 0 1).A i j) fun j φ => (krogstad φ 0 1).B j where
  s _ _ _ := rfl
  clip := krogstad_clip
  E _ _ _ _ _ := rfl
  E_bd φ L h i h0 h1 := by
    simp only [krogstad]
    split <;> first
      | exact norm_one_le_exp L
      | exact expm_norm_le_one L (by rw [abs_of_nonneg (by linarith)]; linarith)
  Eout _ _ _ := rfl
  A φ L h i j := by simp only [krogstad, Complex.ofReal_one, one_smul]
  B φ L h j := by simp only [krogstad, Complex.ofReal_one, one_smul]
  linA i j := by
    simp only [krogstad]
    split <;> repeat' first
      | with_reducible exact LinB.eval _ _
      | with_reducible exact LinB.zero
      | with_reducible apply LinB.smul
      | with_reducible apply LinB.sub
      | with_reducible apply LinB.add
      | with_reducible apply LinB.neg
  linB j := by
    simp only [krogstad]
    split <;> repeat' first
      | with_reducible exact LinB.eval _ _
      | with_reducible exact LinB.zero
      | with_reducible apply LinB.smul
      | with_reducible apply LinB.sub
      | with_reducible apply LinB.add
      | with_reducible apply LinB.neg

theorem etd5_phiMethod (b : Bool) : PhiMethod (if b then 7 else 6) (etd5Method (ι := ι) b) (fun i j φ => (etd5Method b φ 0 1).A i j)
    fun j φ => (etd5Method b φ 0 1).B j where
  s _ _ _ := rfl
  clip := etd5_clip b
  E _ _ _ _ _ := rfl
  E_bd φ L h i h0 h1 := by
    simp only [etd5Method]
    split <;> first
      | exact norm_one_le_exp L
      | exact expm_norm_le_one L (by rw [abs_of_nonneg (by linarith)]; linarith)
  Eout _ _ _ := rfl
  A φ L h i j := by simp only [etd5Method, Complex.ofReal_one, one_smul]
  B φ L h j := by simp only [etd5Method, Complex.ofReal_one, one_smul]
  linA i j := by
    simp only [etd5Method]
    split <;> try (split)
    all_goals repeat' first
      | with_reducible exact LinB.eval _ _
      | with_reducible exact LinB.zero
      | with_reducible apply LinB.smul
      | with_reducible apply LinB.sub
      | with_reducible apply LinB.add
  linB j := by
    simp only [etd5Method]
    split <;> repeat' first
      | with_reducible exact LinB.eval _ _
      | with_reducible exact LinB.zero
      | with_reducible apply LinB.smul
      | with_reducible apply LinB.sub
      | with_reducible apply LinB.add

/-- Integrating factor methods with abscissae in `[0, 1]`. -/
theorem lawson_bounded (T : Tableau) (hT : ∀ i, 0 ≤ T.c i ∧ T.c i ≤ 1) (L : Mat ι) :
    ∃ c : ℝ, 0 ≤ c ∧ ∀ h, 0 ≤ h → h ≤ 1 → (lawson T L h).Bounded c h := by
  set e := Real.exp ‖L‖ with he
  have e0 : 0 < e := Real.exp_pos _
  set a := ∑ p ∈ range T.s ×ˢ range T.s, |T.a p.1 p.2| with ha
  set b := ∑ j ∈ range T.s, |T.b j| with hb
  have a0 : 0 ≤ a := sum_nonneg fun _ _ => abs_nonneg _
  have b0 : 0 ≤ b := sum_nonneg fun _ _ => abs_nonneg _
  have n0 := norm_nonneg L
  have p1 : 0 ≤ a * e := by positivity
  have p2 : 0 ≤ b * e := by positivity
  have p3 : 0 ≤ ‖L‖ * e := by positivity
  refine ⟨e + ‖L‖ * e + a * e + b * e, by positivity, fun h h0 h1 => ⟨fun i _ => ?_, fun i hi j hj => ?_, ?_, fun j hj => ?_⟩⟩
  · refine (expm_norm_le_one L ?_).trans (show e ≤ _ by linarith)
    rw [abs_of_nonneg (mul_nonneg (hT i).1 h0)]
    exact mul_le_one₀ (hT i).2 h0 h1
  · show ‖((h * T.a i j : ℝ) : ℂ) • expm L ((T.c i - T.c j) * h)‖ ≤ _
    have h2 : |T.a i j| ≤ a := single_le_sum (f := fun p : ℕ × ℕ => |T.a p.1 p.2|) (fun _ _ => abs_nonneg _)
      (show (i, j) ∈ range T.s ×ˢ range T.s from mem_product.mpr ⟨mem_range.mpr hi, mem_range.mpr (hj.trans hi)⟩)
    have h3 : ‖expm L ((T.c i - T.c j) * h)‖ ≤ e := expm_norm_le_one L (by
      rw [abs_mul, abs_of_nonneg h0]
      refine mul_le_one₀ ?_ h0 h1
      rw [abs_le]
      constructor <;> linarith [(hT i).1, (hT i).2, (hT j).1, (hT j).2])
    rw [norm_smul, Complex.norm_real, Real.norm_eq_abs, abs_mul, abs_of_nonneg h0]
    have h4 : h * |T.a i j| ≤ a := (mul_le_of_le_one_left (abs_nonneg _) h1).trans h2
    have h5 := mul_le_mul h4 h3 (norm_nonneg _) a0
    linarith
  · refine (expm_norm_le_add L h0 h1).trans ?_
    have : ‖L‖ * e * h ≤ (e + ‖L‖ * e + a * e + b * e) * h := mul_le_mul_of_nonneg_right (by linarith) h0
    linarith
  · show ‖((h * T.b j : ℝ) : ℂ) • expm L ((1 - T.c j) * h)‖ ≤ _
    have h2 : |T.b j| ≤ b := single_le_sum (f := fun j => |T.b j|) (fun _ _ => abs_nonneg _) (mem_range.mpr hj)
    have h3 : ‖expm L ((1 - T.c j) * h)‖ ≤ e := expm_norm_le_one L (by
      rw [abs_mul, abs_of_nonneg h0]
      refine mul_le_one₀ ?_ h0 h1
      rw [abs_le]
      constructor <;> linarith [(hT j).1, (hT j).2])
    rw [norm_smul, Complex.norm_real, Real.norm_eq_abs, abs_mul, abs_of_nonneg h0]
    have h5 := mul_le_mul h2 h3 (norm_nonneg _) b0
    calc h * |T.b j| * ‖expm L ((1 - T.c j) * h)‖ = |T.b j| * ‖expm L ((1 - T.c j) * h)‖ * h := by ring
      _ ≤ (e + ‖L‖ * e + a * e + b * e) * h := mul_le_mul_of_nonneg_right (by linarith) h0

theorem rk4_c (i : ℕ) : 0 ≤ rk4.c i ∧ rk4.c i ≤ 1 := by
  simp only [rk4]; split <;> norm_num

theorem dp_c (r : ℝ) (i : ℕ) : 0 ≤ (dpWith r).c i ∧ (dpWith r).c i ≤ 1 := by
  simp only [dpWith, dormandPrince]; split <;> norm_num

theorem CSSolver.exact_bounded (m : CSSolver ι) : ∃ c : ℝ, 0 ≤ c ∧ ∀ h, 0 ≤ h → h ≤ 1 → (m.exact h).Bounded c h := by
  rcases m with L | ⟨cfg, L⟩ | ⟨cfg, L⟩
  · exact lawson_bounded rk4 rk4_c L.mat
  · exact krogstad_phiMethod.bounded L.mat
  · exact (etd5_phiMethod true).bounded L.mat

theorem ASSolver.exact_bounded (m : ASSolver ι) : ∃ c : ℝ, 0 ≤ c ∧ ∀ h, 0 ≤ h → h ≤ 1 → (m.exact h).Bounded c h := by
  rcases m with L | ⟨cfg, L⟩ | ⟨cfg, L⟩ | L
  · exact lawson_bounded rk4 rk4_c L.mat
  · exact krogstad_phiMethod.bounded L.mat
  · exact (etd5_phiMethod false).bounded L.mat
  · exact lawson_bounded _ (dp_c _) _

end Verif
