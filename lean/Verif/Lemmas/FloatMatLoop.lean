import Verif.Lemmas.FloatMatNear
import Verif.Lemmas.LawETD4
import Verif.Lemmas.FloatBranch

/-!
# Rounding errors of the loop over the contour for matrices
-/

set_option linter.unusedSectionVars false

namespace Verif

open Asymptotics Filter Matrix
open scoped Matrix.Norms.Operator

variable {ι : Type} [Fintype ι] [DecidableEq ι]
variable {T : Type} {l : Filter T} {A : T → CArith} {B : T → LinAlg ι} {ρ g : T → ℝ} {N : T → ℕ}

/-- `acc = 0; for k in range(n): acc += w k`. -/
def Fl.accSum {A : CArith} (w : ℕ → Fl A) (n : ℕ) : Fl A := (List.range n).foldl (fun a k => a + w k) 0

theorem Fl.accSum_zero {A : CArith} (w : ℕ → Fl A) : (Fl.accSum w 0).val = 0 := by
  change ((0 : ℕ) : ℂ) = 0
  simp

theorem Fl.accSum_succ {A : CArith} (w : ℕ → Fl A) (n : ℕ) : Fl.accSum w (n + 1) = Fl.accSum w n + w n := by
  rw [Fl.accSum, List.range_succ, List.foldl_append]
  rfl

theorem FlNear.num_zero {T : Type} {l : Filter T} {A : T → CArith} {g : T → ℝ} :
    FlNear l A g (fun t => (0 : Fl (A t))) (fun _ => (0 : ℂ)) := by
  refine ⟨isBigO_zero _ _, (isBigO_zero g l).congr_left fun t => ?_⟩
  change (0 : ℂ) = ((0 : ℕ) : ℂ) - _
  simp

/-- One term of a mean of `N` numbers. -/
theorem term_near (hf : Long l A ρ N g) {x' : ∀ p : T × ℕ, Fl (A p.1)} {x : T × ℕ → ℂ}
    (hx : FlNear (below l N) (fun p => A p.1) (fun p => g p.1) x' x) :
    (fun p : T × ℕ => (x' p / Fl.lit (N p.1 : ℂ)).val - x p / (N p.1 : ℂ)) =O[below l N] fun p => g p.1 / (N p.1 : ℝ) := by
  have hb := hf.below
  have hn1 : ∀ᶠ p : T × ℕ in below l N, (1 : ℝ) ≤ N p.1 := hb.pos.mono fun p hp => by exact_mod_cast hp
  obtain ⟨C, hC, h1⟩ := FlNear.exists_le (hx.bdd' hb.fine)
  have e1 : (fun p : T × ℕ => (x' p / Fl.lit (N p.1 : ℂ)).val - (x' p).val / (N p.1 : ℂ)) =O[below l N] fun p => ρ p.1 := by
    refine FlNear.round hb.fine (1 + C) ?_
    filter_upwards [h1, hn1, hb.fine.nonneg, hb.within (C + 1)] with p b1 b2 b3 b4
    have hN : (N p.1 : ℂ) ≠ 0 := by
      have : (0 : ℝ) < N p.1 := by linarith
      exact_mod_cast this.ne'
    have b5 : ‖(x' p).val / (N p.1 : ℂ)‖ ≤ C := by
      rw [norm_div, Complex.norm_natCast]
      exact (div_le_self (norm_nonneg _) b2).trans b1
    have b6 : C ≤ (C + 1) * N p.1 := by nlinarith
    refine (b4.div _ _ hN (b1.trans b6) ?_ ?_ (b5.trans b6)).trans (mul_le_mul_of_nonneg_left (by linarith) b3)
    · rw [Complex.norm_natCast]; nlinarith
    · rw [norm_inv, Complex.norm_natCast]
      have := inv_le_one_of_one_le₀ b2
      nlinarith
  have e2 : (fun p : T × ℕ => ρ p.1) =O[below l N] fun p => g p.1 / (N p.1 : ℝ) := by
    have := hb.mul_le.mul (isBigO_refl (fun p : T × ℕ => ((N p.1 : ℝ))⁻¹) (below l N))
    refine (this.congr' ?_ ?_)
    · filter_upwards [hn1] with p hp
      rw [mul_comm, ← mul_assoc, inv_mul_cancel₀ (by linarith), one_mul]
    · exact Eventually.of_forall fun p => by simp only [div_eq_mul_inv]
  have e3 : (fun p : T × ℕ => ((x' p).val - x p) / (N p.1 : ℂ)) =O[below l N] fun p => g p.1 / (N p.1 : ℝ) := by
    obtain ⟨D, hD⟩ := hx.err.bound
    refine IsBigO.of_bound D (hD.mono fun p hp => ?_)
    rw [norm_div, norm_div, Complex.norm_natCast, Real.norm_natCast, ← mul_div_assoc]
    exact div_le_div_of_nonneg_right hp (Nat.cast_nonneg _)
  exact ((e1.trans e2).add e3).congr_left fun p => by rw [sub_div]; ring

/-- A sum of `N` numbers of size `1 / N`, one after the other. -/
theorem accum_near (hf : Long l A ρ N g) (hg : Tendsto g l (nhds 0)) {w' : ∀ p : T × ℕ, Fl (A p.1)} {x : T × ℕ → ℂ}
    (hx : x =O[below l N] (1 : T × ℕ → ℝ))
    (hw : (fun p : T × ℕ => (w' p).val - x p / (N p.1 : ℂ)) =O[below l N] fun p => g p.1 / (N p.1 : ℝ)) :
    FlNear l A g (fun t => Fl.accSum (fun k => w' (t, k)) (N t))
      (fun t => ∑ k ∈ Finset.range (N t), x (t, k) / (N t : ℂ)) := by
  obtain ⟨C, hC, h1⟩ := FlNear.exists_le hx
  obtain ⟨D, hD, h2⟩ := hw.exists_nonneg
  rw [eventually_below] at h1
  have h2' := eventually_below.1 h2.bound
  have hNρ : Tendsto (fun t => (N t : ℝ) * ρ t) l (nhds 0) := hf.mul_le.trans_tendsto hg
  set R := C + 1 with hR
  have hsmall : ∀ᶠ t in l, D * ‖g t‖ + (N t : ℝ) * ρ t * (1 + 2 * R) ≤ 1 := by
    have e : Tendsto (fun t => D * ‖g t‖ + (N t : ℝ) * ρ t * (1 + 2 * R)) l (nhds (D * ‖(0 : ℝ)‖ + 0 * (1 + 2 * R))) :=
      (hg.norm.const_mul D).add (hNρ.mul_const _)
    rw [norm_zero, mul_zero, zero_mul, add_zero] at e
    exact (e.eventually (gt_mem_nhds one_pos)).mono fun t ht => le_of_lt ht
  have key : ∀ᶠ t in l, ∀ n ≤ N t, ‖(Fl.accSum (A := A t) (fun k => w' (t, k)) n).val -
      ∑ k ∈ Finset.range n, x (t, k) / (N t : ℂ)‖ ≤ n * (D * (‖g t‖ / N t) + ρ t * (1 + 2 * R)) := by
    filter_upwards [h1, h2', hsmall, hf.pos, hf.fine.nonneg, hf.fine.within (2 * R)] with t b1 b2 b3 b4 b5 b6
    have n1 : (1 : ℝ) ≤ N t := by exact_mod_cast b4
    have n0 : (0 : ℝ) < N t := by linarith
    set e := D * (‖g t‖ / N t) + ρ t * (1 + 2 * R) with he
    have e0 : 0 ≤ e := by positivity
    have hNe : N t * e ≤ 1 := by
      rw [he]
      calc (N t : ℝ) * (D * (‖g t‖ / N t) + ρ t * (1 + 2 * R)) = D * ‖g t‖ + N t * ρ t * (1 + 2 * R) := by field_simp
        _ ≤ 1 := b3
    have hxk : ∀ k < N t, ‖x (t, k) / (N t : ℂ)‖ ≤ C / N t := fun k hk => by
      rw [norm_div, Complex.norm_natCast]
      exact div_le_div_of_nonneg_right (b1 k hk) n0.le
    have hS : ∀ n ≤ N t, ‖∑ k ∈ Finset.range n, x (t, k) / (N t : ℂ)‖ ≤ C := fun n hn => by
      refine (norm_sum_le_of_le _ (n := fun _ => C / N t) fun k hk => hxk k (lt_of_lt_of_le (Finset.mem_range.1 hk) hn)).trans ?_
      rw [Finset.sum_const, Finset.card_range, nsmul_eq_mul, ← mul_div_assoc, div_le_iff₀ n0, mul_comm]
      exact mul_le_mul_of_nonneg_left (by exact_mod_cast hn) hC
    intro n
    induction n with
    | zero => intro _; rw [Fl.accSum_zero]; simp
    | succ n ih =>
      intro hn
      have i := ih (by omega)
      set a := Fl.accSum (A := A t) (fun k => w' (t, k)) n with ha
      set S := ∑ k ∈ Finset.range n, x (t, k) / (N t : ℂ) with hSn
      have hnN : (n : ℝ) * e ≤ 1 := (mul_le_mul_of_nonneg_right (by exact_mod_cast (by omega : n ≤ N t)) e0).trans hNe
      have a1 : ‖a.val‖ ≤ R := by
        have := norm_le_norm_sub_add a.val S
        have := hS n (by omega)
        linarith
      have a2 := b2 n (by omega)
      rw [norm_div, Real.norm_natCast] at a2
      have a3 : ‖(w' (t, n)).val‖ ≤ R := by
        have c1 := norm_le_norm_sub_add (w' (t, n)).val (x (t, n) / (N t : ℂ))
        have c2 := hxk n (by omega)
        have c3 : C / N t ≤ C := div_le_self hC n1
        have c4 : D * (‖g t‖ / N t) ≤ 1 := by
          have : e ≤ N t * e := le_mul_of_one_le_left e0 n1
          have : 0 ≤ ρ t * (1 + 2 * R) := by positivity
          linarith
        linarith
      have a4 : ‖a.val + (w' (t, n)).val‖ ≤ 2 * R := (norm_add_le _ _).trans (by linarith)
      have a5 := b6.add a.val (w' (t, n)).val (by linarith) (by linarith) a4
      have a6 : ‖(a + w' (t, n)).val - (a.val + (w' (t, n)).val)‖ ≤ ρ t * (1 + 2 * R) :=
        a5.trans (mul_le_mul_of_nonneg_left (by linarith) b5)
      rw [Fl.accSum_succ, Finset.sum_range_succ, ← ha, ← hSn]
      have split : (a + w' (t, n)).val - (S + x (t, n) / (N t : ℂ)) = ((a + w' (t, n)).val - (a.val + (w' (t, n)).val)) +
          (a.val - S) + ((w' (t, n)).val - x (t, n) / (N t : ℂ)) := by ring
      rw [split]
      refine (norm_add₃_le).trans ?_
      push_cast
      rw [add_mul, one_mul]
      linarith
  have hbd : (fun t => ∑ k ∈ Finset.range (N t), x (t, k) / (N t : ℂ)) =O[l] (1 : T → ℝ) := by
    refine IsBigO.of_bound C ?_
    filter_upwards [h1, hf.pos] with t b1 b4
    have n0 : (0 : ℝ) < N t := by exact_mod_cast b4
    rw [Pi.one_apply, norm_one, mul_one]
    refine (norm_sum_le_of_le _ (n := fun _ => C / N t) fun k hk => ?_).trans ?_
    · rw [norm_div, Complex.norm_natCast]
      exact div_le_div_of_nonneg_right (b1 k (Finset.mem_range.1 hk)) n0.le
    · rw [Finset.sum_const, Finset.card_range, nsmul_eq_mul, ← mul_div_assoc, div_le_iff₀ n0, mul_comm]
  refine ⟨hbd, ?_⟩
  have e1 : (fun t => (Fl.accSum (A := A t) (fun k => w' (t, k)) (N t)).val -
      ∑ k ∈ Finset.range (N t), x (t, k) / (N t : ℂ)) =O[l] fun t => D * ‖g t‖ + (N t : ℝ) * ρ t * (1 + 2 * R) := by
    refine IsBigO.of_bound 1 ?_
    filter_upwards [key, hf.pos, hf.fine.nonneg] with t b1 b4 b5
    have n0 : (0 : ℝ) < N t := by exact_mod_cast b4
    refine (b1 (N t) le_rfl).trans ?_
    rw [one_mul]
    refine le_trans (le_of_eq ?_) (le_abs_self _)
    field_simp
  refine e1.trans (IsBigO.add ?_ ?_)
  · exact (IsBigO.of_bound 1 (Eventually.of_forall fun t => by simp)).const_mul_left D
  · exact (hf.mul_le.const_mul_left (1 + 2 * R)).congr_left fun t => by ring

/-- A loop that never raises. -/
theorem foldlM_ok {α : Type} {body : α → ℕ → Except PyErr α} {step : α → ℕ → α} (ks : List ℕ)
    (h : ∀ k ∈ ks, ∀ a, body a k = .ok (step a k)) (a : α) : ks.foldlM body a = .ok (ks.foldl step a) := by
  induction ks generalizing a with
  | nil => rfl
  | cons k ks ih =>
    rw [List.foldlM_cons, List.foldl_cons, h k List.mem_cons_self]
    exact ih (fun k' hk' => h k' (List.mem_cons_of_mem _ hk')) _

theorem foldl_field {α β : Type} (f : α → β) {step : α → ℕ → α} {step' : β → ℕ → β} (h : ∀ a k, f (step a k) = step' (f a) k)
    (ks : List ℕ) (a : α) : f (ks.foldl step a) = ks.foldl step' (f a) := by
  induction ks generalizing a with
  | nil => rfl
  | cons k ks ih => rw [List.foldl_cons, List.foldl_cons, ih, h]

theorem shift_near (hf : Long l A ρ N g) (cfg : ETDConfig ℝ) {y' : ∀ t, ι → ι → Fl (A t)} {Y : T → Mat ι}
    (hy : ∀ i j, FlNear l A g (fun t => y' t i j) (fun t => Y t i j)) :
    MatNear (below l N) (fun p => g p.1) (fun p => Fl.shift (Fl.point (cfg.withPoints (N p.1)) p.2) (y' p.1))
      (fun p => node cfg.contour_radius (N p.1) p.2 • (1 : Mat ι) - Y p.1) := by
  refine MatNear.of_entries fun i j => ?_
  have hb := hf.below.fine
  by_cases hij : i = j
  · have h1 := ((point_near hf cfg).mul hb (FlNear.num_one hb)).sub hb (hy i j).below
    simp only [hij, if_true]
    rw [hij] at h1
    refine h1.congr_eq (Eventually.of_forall fun p => ?_)
    simp
  · have h1 := ((point_near hf cfg).mul hb FlNear.num_zero).sub hb (hy i j).below
    simp only [hij, if_false]
    refine h1.congr_eq (Eventually.of_forall fun p => ?_)
    simp [hij]

/-- `Σ_k point * f(point) * Q_k / contour_points`, one entry. -/
noncomputable def Fl.accMat {A : CArith} (cfg : ETDConfig ℝ) (f : Fl A → Fl A) (Q : ℕ → Mat ι) (n : ℕ) (i j : ι) : Fl A :=
  Fl.accSum (fun k => Fl.point cfg k * f (Fl.point cfg k) * Fl.lit (Q k i j) / Fl.lit (cfg.contour_points : ℂ)) n

theorem withPoints_cast (cfg : ETDConfig ℝ) (n : ℕ) : ((cfg.withPoints n).contour_points : ℂ) = n := by
  simp [ETDConfig.withPoints]

theorem withPoints_npts (cfg : ETDConfig ℝ) (n : ℕ) : (cfg.withPoints n).npts = n := by
  simp [ETDConfig.withPoints, ETDConfig.npts]

/-- The inverses on the contour exist and the means of them are computed up to `O(g)`. -/
theorem contour_near (hf : Long l A ρ N g) (hg : Tendsto g l (nhds 0)) (hB : FineMat l B ρ) (cfg : ETDConfig ℝ) (hr : 0 < cfg.contour_radius)
    {h : T → ℝ} {H : ℝ} (hh0 : ∀ᶠ t in l, 0 ≤ h t) (hhH : ∀ᶠ t in l, h t ≤ H) (L : Mat ι)
    (hL : ∀ μ ∈ spectrum ℂ L, H * ‖μ‖ < cfg.contour_radius) {c : ℝ} (hc0 : 0 ≤ c) (hc1 : c ≤ 1) {y' : ∀ t, ι → ι → Fl (A t)}
    (hy : ∀ i j, FlNear l A g (fun t => y' t i j) (fun t => ((c * h t : ℝ) : ℂ) * L i j)) :
    ∃ Q : T → ℕ → Mat ι, (∀ᶠ p in below l N, (B p.1).inv (Fl.shift (Fl.point (cfg.withPoints (N p.1)) p.2) (y' p.1)) = .ok (Q p.1 p.2)) ∧
      ∀ i j,
        FlNear l A g (fun t => Fl.accMat (cfg.withPoints (N t)) Fl.psi1 (Q t) (N t) i j) (fun t => (cfg.withPoints (N t)).phiF L (h t) 1 c i j) ∧
        FlNear l A g (fun t => Fl.accMat (cfg.withPoints (N t)) Fl.psi2 (Q t) (N t) i j)
          (fun t => 2 * (cfg.withPoints (N t)).phiF L (h t) 2 c i j) ∧
        FlNear l A g (fun t => Fl.accMat (cfg.withPoints (N t)) Fl.psi3 (Q t) (N t) i j)
          (fun t => 6 * (cfg.withPoints (N t)).phiF L (h t) 3 c i j) := by
  obtain ⟨hu, C, hC⟩ := resolvent_bdd L hr hL
  have hb := hf.below
  have hg' : Tendsto (fun p : T × ℕ => g p.1) (below l N) (nhds 0) := hg.comp tendsto_below
  have hnode (p : T × ℕ) : ‖node cfg.contour_radius (N p.1) p.2‖ = cfg.contour_radius := norm_node _ _ _ hr.le
  have hs : ∀ᶠ p : T × ℕ in below l N, 0 ≤ c * h p.1 ∧ c * h p.1 ≤ H := by
    filter_upwards [tendsto_below.eventually hh0, tendsto_below.eventually hhH] with p h1 h2
    exact ⟨mul_nonneg hc0 h1, (mul_le_of_le_one_left h1 hc1).trans h2⟩
  have hsh := shift_near hf cfg (Y := fun t => ((c * h t : ℝ) : ℂ) • L) (y' := y') (fun i j => by simpa using hy i j)
  obtain ⟨Q, hQ, hQn⟩ := MatNear.inv hB.below hb.fine.nonneg hb.fine.le hg' hsh
    (hs.mono fun p hp => hu _ (hnode p) _ hp.1 hp.2)
    (IsBigO.of_bound C (hs.mono fun p hp => by simpa using hC _ (hnode p) _ hp.1 hp.2))
  refine ⟨fun t k => Q (t, k), hQ, fun i j => ?_⟩
  have hQ' : FlNear (below l N) (fun p => A p.1) (fun p => g p.1) (fun p => Fl.lit (Q p i j))
      (fun p => (node cfg.contour_radius (N p.1) p.2 • (1 : Mat ι) - ((c * h p.1 : ℝ) : ℂ) • L)⁻¹ i j) :=
    ⟨isBigO_mat.1 hQn.bdd i j, isBigO_mat.1 hQn.err i j⟩
  have hp := point_near hf cfg
  have hge : ∀ᶠ p : T × ℕ in below l N, cfg.contour_radius ≤ ‖node cfg.contour_radius (N p.1) p.2‖ :=
    Eventually.of_forall fun p => (hnode p).ge
  have main (f' : ∀ t, Fl (A t) → Fl (A t)) (f : ℂ → ℂ) (a : ℂ) (q : ℕ) (hfq : ∀ w, f w = a * phiDiv q w)
      (hF : FlNear (below l N) (fun p => A p.1) (fun p => g p.1) (fun p => f' p.1 (Fl.point (cfg.withPoints (N p.1)) p.2))
        (fun p => f (node cfg.contour_radius (N p.1) p.2))) :
      FlNear l A g (fun t => Fl.accMat (cfg.withPoints (N t)) (f' t) (fun k => Q (t, k)) (N t) i j)
        (fun t => a * (cfg.withPoints (N t)).phiF L (h t) q c i j) := by
    have h1 := (hp.mul hb.fine hF).mul hb.fine hQ'
    refine ((accum_near hf hg h1.bdd (term_near hf h1)).congr_left ?_).congr_eq ?_
    · refine Eventually.of_forall fun t => ?_
      simp only [Fl.accMat, withPoints_cast]
    · refine Eventually.of_forall fun t => ?_
      simp only [ETDConfig.phiF, phiFull, withPoints_npts, Matrix.sum_apply, Matrix.smul_apply, Finset.mul_sum, smul_eq_mul, hfq]
      refine Finset.sum_congr rfl fun k _ => ?_
      simp only [ETDConfig.withPoints]
      ring
  refine ⟨?_, ?_, ?_⟩
  · exact (main (fun _ => Fl.psi1) psi1 1 1 psi1_eq' (hp.psi1 hb.fine hg' hr hge)).congr_eq (Eventually.of_forall fun t => one_mul _)
  · exact main (fun _ => Fl.psi2) psi2 2 2 psi2_eq (hp.psi2 hb.fine hg' hr hge)
  · exact main (fun _ => Fl.psi3) psi3 6 3 psi3_eq (hp.psi3 hb.fine hg' hr hge)

/-- One entry of the accumulators. -/
def Psis.entry {α : Type} (p : Psis (ι → ι → α)) (i j : ι) : Psis α :=
  ⟨p.psi1_14 i j, p.psi2_14 i j, p.psi1_12 i j, p.psi2_12 i j, p.psi1_34 i j, p.psi2_34 i j, p.psi1_1 i j, p.psi2_1 i j, p.psi3_1 i j⟩

/-- The values of `Psis.ofPhi` that ETD4 and ETD34 use. -/
noncomputable def Psis.ofPhi4 (φ : ℕ → ℝ → ℂ) : Psis ℂ :=
  ⟨0, 0, φ 1 (1 / 2), 2 * φ 2 (1 / 2), 0, 0, φ 1 1, 2 * φ 2 1, 6 * φ 3 1⟩

noncomputable def Psis.ofPhi5 (φ : ℕ → ℝ → ℂ) : Psis ℂ :=
  ⟨φ 1 (1 / 4), 2 * φ 2 (1 / 4), φ 1 (1 / 2), 2 * φ 2 (1 / 2), φ 1 (3 / 4), 2 * φ 2 (3 / 4), φ 1 1, 2 * φ 2 1, 6 * φ 3 1⟩

theorem flZ_near (hf : Fine l A ρ g) {h : T → ℝ} (hh : (fun t => (h t : ℂ)) =O[l] (1 : T → ℝ)) {L : Mat ι} {L' : T → Mat ι}
    (hL' : ∀ i j, (fun t => L' t i j - L i j) =O[l] g) (i j : ι) :
    FlNear l A g (fun t => flZ (A t) (L' t) (h t) i j) (fun t => h t * L i j) :=
  (FlNear.lit hf hh).mul hf ⟨isBigO_const_const (L i j) (one_ne_zero (α := ℝ)) _, hL' i j⟩

theorem bdd_of_mem {h : T → ℝ} {H : ℝ} (hh0 : ∀ᶠ t in l, 0 ≤ h t) (hhH : ∀ᶠ t in l, h t ≤ H) : (fun t => (h t : ℂ)) =O[l] (1 : T → ℝ) := by
  refine IsBigO.of_bound H ?_
  filter_upwards [hh0, hhH] with t h1 h2
  simpa [abs_of_nonneg h1] using h2

/-- The loop of ETD4 and ETD34. -/
theorem round4_near (hf : Long l A ρ N g) (hg : Tendsto g l (nhds 0)) (hB : FineMat l B ρ) (cfg : ETDConfig ℝ) (hr : 0 < cfg.contour_radius)
    {h : T → ℝ} {H : ℝ} (hh0 : ∀ᶠ t in l, 0 ≤ h t) (hhH : ∀ᶠ t in l, h t ≤ H) (L : Mat ι) {L' : T → Mat ι}
    (hL' : ∀ i j, (fun t => L' t i j - L i j) =O[l] g) (hL : ∀ μ ∈ spectrum ℂ L, H * ‖μ‖ < cfg.contour_radius) :
    ∃ P : ∀ t, Psis (ι → ι → Fl (A t)),
      (∀ᶠ t in l, (List.range (cfg.withPoints (N t)).npts).foldlM (Fl.round4 (B t) (cfg.withPoints (N t)) (flZ (A t) (L' t) (h t))) Fl.zeros
        = .ok (P t)) ∧
      ∀ i j, NearPsis l A g (fun t => (P t).entry i j) (fun t => Psis.ofPhi4 fun k c => (cfg.withPoints (N t)).phiF L (h t) k c i j) := by
  have hz := flZ_near hf.fine (bdd_of_mem hh0 hhH) hL'
  obtain ⟨Q, hQ, nQ⟩ := contour_near hf hg hB cfg hr hh0 hhH L hL (c := 1) zero_le_one le_rfl
    (y' := fun t => flZ (A t) (L' t) (h t)) (fun i j => (hz i j).congr_eq (Eventually.of_forall fun t => by simp))
  obtain ⟨Q2, hQ2, nQ2⟩ := contour_near hf hg hB cfg hr hh0 hhH L hL (c := 1 / 2) (by norm_num) (by norm_num)
    (y' := fun t i j => flZ (A t) (L' t) (h t) i j / 2)
    (fun i j => ((hz i j).div_num hf.fine 2).congr_eq (Eventually.of_forall fun t => by push_cast; ring))
  rw [eventually_below] at hQ hQ2
  let step (t : T) (acc : Psis (ι → ι → Fl (A t))) (k : ℕ) : Psis (ι → ι → Fl (A t)) :=
    let c := cfg.withPoints (N t)
    let p : Fl (A t) := Fl.point c k
    { acc with
      psi1_12 := Fl.accum c p (Fl.psi1 p) (Q2 t k) acc.psi1_12
      psi2_12 := Fl.accum c p (Fl.psi2 p) (Q2 t k) acc.psi2_12
      psi1_1 := Fl.accum c p (Fl.psi1 p) (Q t k) acc.psi1_1
      psi2_1 := Fl.accum c p (Fl.psi2 p) (Q t k) acc.psi2_1
      psi3_1 := Fl.accum c p (Fl.psi3 p) (Q t k) acc.psi3_1 }
  refine ⟨fun t => (List.range (N t)).foldl (step t) Fl.zeros, ?_, fun i j => ?_⟩
  · filter_upwards [hQ, hQ2] with t b1 b2
    rw [withPoints_npts]
    refine foldlM_ok _ (fun k hk a => ?_) _
    have hk' := List.mem_range.1 hk
    have e1 := b1 k hk'
    have e2 := b2 k hk'

    unfold Fl.round4
    simp only [e1, e2]
    rfl
  · have fld (t : T) (f : Psis (ι → ι → Fl (A t)) → Fl (A t)) (w : ℕ → Fl (A t)) (h0 : f Fl.zeros = 0) (h1 : ∀ a k, f (step t a k) = f a + w k) :
        f ((List.range (N t)).foldl (step t) Fl.zeros) = Fl.accSum w (N t) := by
      rw [Fl.accSum, ← h0]
      exact foldl_field f h1 _ _
    have zer (t : T) (f : Psis (ι → ι → Fl (A t)) → Fl (A t)) (h0 : f Fl.zeros = 0) (h1 : ∀ a k, f (step t a k) = f a) :
        f ((List.range (N t)).foldl (step t) Fl.zeros) = 0 := by
      rw [foldl_field f (step' := fun b _ => b) h1, h0]
      generalize List.range (N t) = ks
      induction ks with
      | nil => rfl
      | cons k ks ih => exact ih
    constructor
    · exact FlNear.num_zero.congr_left (Eventually.of_forall fun t => (zer t (fun a => a.psi1_14 i j) rfl fun _ _ => rfl).symm)
    · exact FlNear.num_zero.congr_left (Eventually.of_forall fun t => (zer t (fun a => a.psi2_14 i j) rfl fun _ _ => rfl).symm)
    · exact (nQ2 i j).1.congr_left (Eventually.of_forall fun t => (fld t (fun a => a.psi1_12 i j) _ rfl fun _ _ => rfl).symm)
    · exact (nQ2 i j).2.1.congr_left (Eventually.of_forall fun t => (fld t (fun a => a.psi2_12 i j) _ rfl fun _ _ => rfl).symm)
    · exact FlNear.num_zero.congr_left (Eventually.of_forall fun t => (zer t (fun a => a.psi1_34 i j) rfl fun _ _ => rfl).symm)
    · exact FlNear.num_zero.congr_left (Eventually.of_forall fun t => (zer t (fun a => a.psi2_34 i j) rfl fun _ _ => rfl).symm)
    · exact (nQ i j).1.congr_left (Eventually.of_forall fun t => (fld t (fun a => a.psi1_1 i j) _ rfl fun _ _ => rfl).symm)
    · exact (nQ i j).2.1.congr_left (Eventually.of_forall fun t => (fld t (fun a => a.psi2_1 i j) _ rfl fun _ _ => rfl).symm)
    · exact (nQ i j).2.2.congr_left (Eventually.of_forall fun t => (fld t (fun a => a.psi3_1 i j) _ rfl fun _ _ => rfl).symm)

/-- The loop of ETD5 and ETD35. -/
theorem round5_near (hf : Long l A ρ N g) (hg : Tendsto g l (nhds 0)) (hB : FineMat l B ρ) (cfg : ETDConfig ℝ) (hr : 0 < cfg.contour_radius)
    {h : T → ℝ} {H : ℝ} (hh0 : ∀ᶠ t in l, 0 ≤ h t) (hhH : ∀ᶠ t in l, h t ≤ H) (L : Mat ι) {L' : T → Mat ι}
    (hL' : ∀ i j, (fun t => L' t i j - L i j) =O[l] g) (hL : ∀ μ ∈ spectrum ℂ L, H * ‖μ‖ < cfg.contour_radius) :
    ∃ P : ∀ t, Psis (ι → ι → Fl (A t)),
      (∀ᶠ t in l, (List.range (cfg.withPoints (N t)).npts).foldlM (Fl.round5 (B t) (cfg.withPoints (N t)) (flZ (A t) (L' t) (h t))) Fl.zeros
        = .ok (P t)) ∧
      ∀ i j, NearPsis l A g (fun t => (P t).entry i j) (fun t => Psis.ofPhi5 fun k c => (cfg.withPoints (N t)).phiF L (h t) k c i j) := by
  have hz := flZ_near hf.fine (bdd_of_mem hh0 hhH) hL'
  obtain ⟨Q, hQ, nQ⟩ := contour_near hf hg hB cfg hr hh0 hhH L hL (c := 1) zero_le_one le_rfl
    (y' := fun t => flZ (A t) (L' t) (h t)) (fun i j => (hz i j).congr_eq (Eventually.of_forall fun t => by simp))
  obtain ⟨Q1, hQ1, nQ1⟩ := contour_near hf hg hB cfg hr hh0 hhH L hL (c := 1 / 4) (by norm_num) (by norm_num)
    (y' := fun t i j => flZ (A t) (L' t) (h t) i j / 4)
    (fun i j => ((hz i j).div_num hf.fine 4).congr_eq (Eventually.of_forall fun t => by push_cast; ring))
  obtain ⟨Q2, hQ2, nQ2⟩ := contour_near hf hg hB cfg hr hh0 hhH L hL (c := 1 / 2) (by norm_num) (by norm_num)
    (y' := fun t i j => flZ (A t) (L' t) (h t) i j / 2)
    (fun i j => ((hz i j).div_num hf.fine 2).congr_eq (Eventually.of_forall fun t => by push_cast; ring))
  obtain ⟨Q3, hQ3, nQ3⟩ := contour_near hf hg hB cfg hr hh0 hhH L hL (c := 3 / 4) (by norm_num) (by norm_num)
    (y' := fun t i j => 3 * flZ (A t) (L' t) (h t) i j / 4)
    (fun i j => (((FlNear.num hf.fine 3).mul hf.fine (hz i j)).div_num hf.fine 4).congr_eq (Eventually.of_forall fun t => by push_cast; ring))
  rw [eventually_below] at hQ hQ1 hQ2 hQ3
  let step (t : T) (acc : Psis (ι → ι → Fl (A t))) (k : ℕ) : Psis (ι → ι → Fl (A t)) :=
    let c := cfg.withPoints (N t)
    let p : Fl (A t) := Fl.point c k
    { psi1_14 := Fl.accum c p (Fl.psi1 p) (Q1 t k) acc.psi1_14
      psi2_14 := Fl.accum c p (Fl.psi2 p) (Q1 t k) acc.psi2_14
      psi1_12 := Fl.accum c p (Fl.psi1 p) (Q2 t k) acc.psi1_12
      psi2_12 := Fl.accum c p (Fl.psi2 p) (Q2 t k) acc.psi2_12
      psi1_34 := Fl.accum c p (Fl.psi1 p) (Q3 t k) acc.psi1_34
      psi2_34 := Fl.accum c p (Fl.psi2 p) (Q3 t k) acc.psi2_34
      psi1_1 := Fl.accum c p (Fl.psi1 p) (Q t k) acc.psi1_1
      psi2_1 := Fl.accum c p (Fl.psi2 p) (Q t k) acc.psi2_1
      psi3_1 := Fl.accum c p (Fl.psi3 p) (Q t k) acc.psi3_1 }
  refine ⟨fun t => (List.range (N t)).foldl (step t) Fl.zeros, ?_, fun i j => ?_⟩
  · filter_upwards [hQ, hQ1, hQ2, hQ3] with t b0 b1 b2 b3
    rw [withPoints_npts]
    refine foldlM_ok _ (fun k hk a => ?_) _
    have hk' := List.mem_range.1 hk
    have e0 := b0 k hk'
    have e1 := b1 k hk'
    have e2 := b2 k hk'
    have e3 := b3 k hk'

    unfold Fl.round5
    simp only [e0, e1, e2, e3]
    rfl
  · have fld (t : T) (f : Psis (ι → ι → Fl (A t)) → Fl (A t)) (w : ℕ → Fl (A t)) (h0 : f Fl.zeros = 0) (h1 : ∀ a k, f (step t a k) = f a + w k) :
        f ((List.range (N t)).foldl (step t) Fl.zeros) = Fl.accSum w (N t) := by
      rw [Fl.accSum, ← h0]
      exact foldl_field f h1 _ _
    constructor
    · exact (nQ1 i j).1.congr_left (Eventually.of_forall fun t => (fld t (fun a => a.psi1_14 i j) _ rfl fun _ _ => rfl).symm)
    · exact (nQ1 i j).2.1.congr_left (Eventually.of_forall fun t => (fld t (fun a => a.psi2_14 i j) _ rfl fun _ _ => rfl).symm)
    · exact (nQ2 i j).1.congr_left (Eventually.of_forall fun t => (fld t (fun a => a.psi1_12 i j) _ rfl fun _ _ => rfl).symm)
    · exact (nQ2 i j).2.1.congr_left (Eventually.of_forall fun t => (fld t (fun a => a.psi2_12 i j) _ rfl fun _ _ => rfl).symm)
    · exact (nQ3 i j).1.congr_left (Eventually.of_forall fun t => (fld t (fun a => a.psi1_34 i j) _ rfl fun _ _ => rfl).symm)
    · exact (nQ3 i j).2.1.congr_left (Eventually.of_forall fun t => (fld t (fun a => a.psi2_34 i j) _ rfl fun _ _ => rfl).symm)
    · exact (nQ i j).1.congr_left (Eventually.of_forall fun t => (fld t (fun a => a.psi1_1 i j) _ rfl fun _ _ => rfl).symm)
    · exact (nQ i j).2.1.congr_left (Eventually.of_forall fun t => (fld t (fun a => a.psi2_1 i j) _ rfl fun _ _ => rfl).symm)
    · exact (nQ i j).2.2.congr_left (Eventually.of_forall fun t => (fld t (fun a => a.psi3_1 i j) _ rfl fun _ _ => rfl).symm)

end Verif
