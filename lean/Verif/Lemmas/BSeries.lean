import Verif.Spec.ETrees
import Verif.Lemmas.Taylor
import Mathlib.Analysis.Matrix.Normed
import Mathlib.Analysis.Calculus.ContDiff.Basic
import Mathlib.Analysis.Calculus.MeanValue
import Mathlib.Data.Fintype.Pi

/-!
# Expansions over trees
-/

set_option linter.unusedSectionVars false

namespace Verif

open Matrix Finset Filter Topology Asymptotics
open scoped Matrix.Norms.Operator ContDiff

namespace ETree

theorem order_pos (t : ETree) : 0 < t.order := by
  cases t <;> simp only [order] <;> omega

/-- Trees with at most `n - 1` factors `L` in front and fewer than `n` children, taken from `S`. -/
noncomputable def grow (S : Finset ETree) (n : ℕ) : Finset ETree := by
  classical
  exact (range n).image lu ∪ ((range n ×ˢ range n).sigma fun km => Fintype.piFinset fun _ : Fin km.2 => S).image
    fun x : (km : ℕ × ℕ) × (Fin km.2 → ETree) => nd x.1.1 x.1.2 x.2

/-- A finite set with all trees of order at most `n`. -/
noncomputable def trees : ℕ → Finset ETree
  | 0 => ∅
  | n + 1 => grow (trees n) (n + 1)

theorem sum_grow {M : Type} [AddCommMonoid M] (S : Finset ETree) (n : ℕ) (F : ETree → M) :
    ∑ t ∈ grow S n, F t = ∑ k ∈ range n, F (lu k) +
      ∑ k ∈ range n, ∑ m ∈ range n, ∑ ch ∈ Fintype.piFinset fun _ : Fin m => S, F (nd k m ch) := by
  classical
  rw [grow, sum_union, sum_image, sum_image, sum_sigma, sum_product]
  · rintro ⟨⟨k, m⟩, ch⟩ _ ⟨⟨k', m'⟩, ch'⟩ _ h
    simp only [nd.injEq] at h
    obtain ⟨rfl, rfl, h⟩ := h
    cases h
    rfl
  · intro k _ k' _ h
    cases h
    rfl
  · rw [Finset.disjoint_left]
    intro t h1 h2
    simp only [mem_image] at h1 h2
    obtain ⟨_, _, rfl⟩ := h1
    obtain ⟨_, _, h⟩ := h2
    cases h

theorem lu_mem_grow {S : Finset ETree} {n k : ℕ} (h : k < n) : lu k ∈ grow S n := by
  classical
  rw [grow]
  exact mem_union_left _ (mem_image_of_mem _ (mem_range.2 h))

theorem nd_mem_grow {S : Finset ETree} {n k m : ℕ} {ch : Fin m → ETree} (hk : k < n) (hm : m < n) (hc : ∀ l, ch l ∈ S) :
    nd k m ch ∈ grow S n := by
  classical
  rw [grow]
  refine mem_union_right _ (mem_image.2 ⟨⟨(k, m), ch⟩, ?_, rfl⟩)
  simp only [mem_sigma, mem_product, mem_range, Fintype.mem_piFinset]
  exact ⟨⟨hk, hm⟩, hc⟩

theorem card_le_sum_order {m : ℕ} (ch : Fin m → ETree) : m ≤ ∑ l, (ch l).order := by
  calc m = ∑ _l : Fin m, 1 := by simp
    _ ≤ _ := sum_le_sum fun l _ => order_pos _

theorem mem_trees {t : ETree} {n : ℕ} (h : t.order ≤ n) : t ∈ trees n := by
  induction n generalizing t with
  | zero => have := order_pos t; omega
  | succ n ih =>
    cases t with
    | lu k => exact lu_mem_grow (by simp only [order] at h; omega)
    | nd k m ch =>
      simp only [order] at h
      have := card_le_sum_order ch
      refine nd_mem_grow (by omega) (by omega) fun l => ih ?_
      have := single_le_sum (f := fun l => (ch l).order) (fun _ _ => Nat.zero_le _) (mem_univ l)
      omega

end ETree

variable {ι : Type} [Fintype ι] [DecidableEq ι] {P : Type}

/-- Step size towards zero, uniformly in a parameter. -/
def small (K : Set P) : Filter (ℝ × P) := 𝓝 (0 : ℝ) ×ˢ 𝓟 K

theorem small_tendsto (K : Set P) : Tendsto (fun x : ℝ × P => x.1) (small K) (𝓝 0) := tendsto_fst

theorem eventually_small {K : Set P} {p : ℝ × P → Prop} : (∀ᶠ x in small K, p x) ↔ ∃ δ > 0, ∀ h, |h| < δ → ∀ q ∈ K, p (h, q) := by
  rw [small, Filter.eventually_prod_principal_iff, Metric.eventually_nhds_iff]
  simp

theorem eventually_mem (K : Set P) : ∀ᶠ x in small K, x.2 ∈ K :=
  eventually_small.2 ⟨1, one_pos, fun _ _ _ hq => hq⟩

theorem pow_isBigO (K : Set P) {m n : ℕ} (h : n ≤ m) : (fun x : ℝ × P => x.1 ^ m) =O[small K] fun x => x.1 ^ n := by
  obtain ⟨k, rfl⟩ := Nat.exists_eq_add_of_le h
  have h1 : (fun x : ℝ × P => x.1 ^ k) =O[small K] fun _ => (1 : ℝ) := ((small_tendsto K).pow k).isBigO_one ℝ
  simpa [pow_add] using (isBigO_refl (fun x : ℝ × P => x.1 ^ n) (small K)).mul h1

theorem pow_smul_isBigO {K : Set P} {V : Type} [NormedAddCommGroup V] [NormedSpace ℝ V] {m n : ℕ} (h : n ≤ m) {v : ℝ × P → V}
    (hv : v =O[small K] fun _ => (1 : ℝ)) (a : ℝ) : (fun x => (a * x.1 ^ m) • v x) =O[small K] fun x => x.1 ^ n := by
  have := ((pow_isBigO K h).const_mul_left a).smul hv
  simpa using this

/-- Matrix functions of the step size as functions of step size and parameter. -/
theorem IsBigO.fst {V : Type} [NormedAddCommGroup V] {g : ℝ → V} {n : ℕ} (h : g =O[𝓝 0] fun h => h ^ n) (K : Set P) :
    (fun x : ℝ × P => g x.1) =O[small K] fun x => x.1 ^ n :=
  h.comp_tendsto (small_tendsto K)

theorem mulVec_isBigO {α : Type} {l : Filter α} {A : α → Mat ι} {v : α → Vec ι} {a b : α → ℝ} (hA : A =O[l] a) (hv : v =O[l] b) :
    (fun x => A x *ᵥ v x) =O[l] fun x => a x * b x := by
  refine IsBigO.trans (IsBigO.of_bound 1 (Eventually.of_forall fun x => ?_)) (hA.norm_left.mul hv.norm_left)
  rw [one_mul, Real.norm_of_nonneg (by positivity)]
  exact Matrix.linfty_opNorm_mulVec _ _

section
variable {L : Mat ι} {f : Vec ι → Vec ι} {K : Set P} {u : P → Vec ι} {K0 : Set (Vec ι)}

theorem val_continuous (L : Mat ι) (hf : ContDiff ℝ ∞ f) (t : ETree) : Continuous fun u => t.val L f u := by
  induction t with
  | lu k => exact Continuous.matrix_mulVec continuous_const continuous_id
  | nd k m ch ih =>
    refine Continuous.matrix_mulVec continuous_const ?_
    have h := hf.continuous_iteratedFDeriv (m := m) (by exact_mod_cast le_top)
    exact h.eval (continuous_pi fun l => ih l)

theorem isBigO_one_of_compact {V : Type} [NormedAddCommGroup V] {g : Vec ι → V} (hg : Continuous g) (hK : IsCompact K0)
    (hu : ∀ q ∈ K, u q ∈ K0) : (fun x : ℝ × P => g (u x.2)) =O[small K] fun _ => (1 : ℝ) := by
  obtain ⟨C, hC⟩ := (hK.image hg).isBounded.exists_norm_le
  refine IsBigO.of_bound C ((eventually_mem K).mono fun x hx => ?_)
  simpa using hC _ ⟨u x.2, hu _ hx, rfl⟩

theorem val_isBigO (L : Mat ι) (hf : ContDiff ℝ ∞ f) (hK : IsCompact K0) (hu : ∀ q ∈ K, u q ∈ K0) (t : ETree) :
    (fun x : ℝ × P => t.val L f (u x.2)) =O[small K] fun _ => (1 : ℝ) :=
  isBigO_one_of_compact (val_continuous L hf t) hK hu

/-- `g` has the expansion with coefficients `a`, known on the trees of `S`, up to the power `n`. -/
def Knows (L : Mat ι) (f : Vec ι → Vec ι) (K : Set P) (u : P → Vec ι) (S : Finset ETree) (a : ETree → ℝ) (n : ℕ)
    (g : ℝ × P → Vec ι) : Prop :=
  (fun x => g x - (u x.2 + ∑ t ∈ S, (a t * x.1 ^ t.order) • t.val L f (u x.2))) =O[small K] fun x => x.1 ^ n

theorem Knows.mono {S : Finset ETree} {a : ETree → ℝ} {m n : ℕ} {g : ℝ × P → Vec ι} (h : Knows L f K u S a m g) (hn : n ≤ m) :
    Knows L f K u S a n g := IsBigO.trans h (pow_isBigO K hn)

theorem Knows.congr {S : Finset ETree} {a : ETree → ℝ} {n : ℕ} {g g' : ℝ × P → Vec ι} (h : Knows L f K u S a n g)
    (hg : ∀ x, g x = g' x) : Knows L f K u S a n g' := by
  obtain rfl : g = g' := funext hg
  exact h

/-- Terms of high order do not matter. -/
theorem sum_filter_isBigO (hf : ContDiff ℝ ∞ f) (hK : IsCompact K0) (hu : ∀ q ∈ K, u q ∈ K0) (S : Finset ETree) (a : ETree → ℝ) (n : ℕ) :
    (fun x : ℝ × P => ∑ t ∈ S, (a t * x.1 ^ t.order) • t.val L f (u x.2) -
      ∑ t ∈ S with t.order < n, (a t * x.1 ^ t.order) • t.val L f (u x.2)) =O[small K] fun x => x.1 ^ n := by
  have : ∀ x : ℝ × P, ∑ t ∈ S, (a t * x.1 ^ t.order) • t.val L f (u x.2) -
      ∑ t ∈ S with t.order < n, (a t * x.1 ^ t.order) • t.val L f (u x.2) =
      ∑ t ∈ S with ¬ t.order < n, (a t * x.1 ^ t.order) • t.val L f (u x.2) := by
    intro x
    rw [← sum_filter_add_sum_filter_not S (fun t => t.order < n), add_sub_cancel_left]
  simp only [this]
  refine IsBigO.fun_sum fun t ht => ?_
  rw [mem_filter, not_lt] at ht
  exact pow_smul_isBigO ht.2 (val_isBigO L hf hK hu t) _

/-- The set of trees does not matter as long as it contains those of low order, nor do the coefficients of the others. -/
theorem Knows.change (hf : ContDiff ℝ ∞ f) (hK : IsCompact K0) (hu : ∀ q ∈ K, u q ∈ K0) {S S' : Finset ETree} {a a' : ETree → ℝ} {n : ℕ}
    {g : ℝ × P → Vec ι} (h : Knows L f K u S a n g) (hS : ∀ t : ETree, t.order < n → t ∈ S)
    (hS' : ∀ t : ETree, t.order < n → t ∈ S') (ha : ∀ t : ETree, t.order < n → a t = a' t) : Knows L f K u S' a' n g := by
  have h1 := sum_filter_isBigO (L := L) hf hK hu S a n
  have h2 := sum_filter_isBigO (L := L) hf hK hu S' a' n
  have h3 : ∀ x : ℝ × P, ∑ t ∈ S with t.order < n, (a t * x.1 ^ t.order) • t.val L f (u x.2) =
      ∑ t ∈ S' with t.order < n, (a' t * x.1 ^ t.order) • t.val L f (u x.2) := by
    intro x
    refine sum_congr ?_ fun t ht => by rw [ha t (mem_filter.1 ht).2]
    ext t
    simp only [mem_filter]
    exact ⟨fun ht => ⟨hS' t ht.2, ht.2⟩, fun ht => ⟨hS t ht.2, ht.2⟩⟩
  refine IsBigO.congr_left ((IsBigO.add h h1).sub h2) fun x => ?_
  rw [← h3]
  abel

/-- The leading terms of a known function are small. -/
theorem Knows.sub_isBigO (hf : ContDiff ℝ ∞ f) (hK : IsCompact K0) (hu : ∀ q ∈ K, u q ∈ K0) {S : Finset ETree} {a : ETree → ℝ} {n : ℕ}
    {g : ℝ × P → Vec ι} (h : Knows L f K u S a n g) (hn : 1 ≤ n) : (fun x => g x - u x.2) =O[small K] fun x => x.1 ^ 1 := by
  have h1 : (fun x : ℝ × P => ∑ t ∈ S, (a t * x.1 ^ t.order) • t.val L f (u x.2)) =O[small K] fun x => x.1 ^ 1 :=
    IsBigO.fun_sum fun t _ => pow_smul_isBigO (ETree.order_pos t) (val_isBigO L hf hK hu t) _
  refine IsBigO.congr_left (IsBigO.add (IsBigO.trans h (pow_isBigO K hn)) h1) fun x => ?_
  abel

/-- Composition with `f`. -/
theorem Knows.comp (hf : ContDiff ℝ ∞ f) (hK : IsCompact K0) (hu : ∀ q ∈ K, u q ∈ K0) {S : Finset ETree} {a : ETree → ℝ} {n : ℕ}
    {g : ℝ × P → Vec ι} (h : Knows L f K u S a n g) (hn : 1 ≤ n) :
    (fun x => f (g x) - ∑ m ∈ range n, ∑ ch ∈ Fintype.piFinset fun _ : Fin m => S,
      (((m.factorial : ℝ)⁻¹ * ∏ l, a (ch l)) * x.1 ^ (∑ l, (ch l).order)) •
        iteratedFDeriv ℝ m f (u x.2) (fun l => (ch l).val L f (u x.2))) =O[small K] fun x => x.1 ^ n := by
  set W : ℝ × P → Vec ι := fun x => ∑ t ∈ S, (a t * x.1 ^ t.order) • t.val L f (u x.2) with hW
  set w : ℝ × P → Vec ι := fun x => g x - u x.2 with hw
  have hw1 : w =O[small K] fun x => x.1 ^ 1 := h.sub_isBigO hf hK hu hn
  have hwW : (fun x => w x - W x) =O[small K] fun x => x.1 ^ n := by
    refine IsBigO.congr_left h fun x => ?_
    simp only [hw, hW]
    abel
  have hw0 : Tendsto w (small K) (𝓝 0) :=
    hw1.trans_tendsto (by simpa using (small_tendsto K))
  have hW0 : Tendsto W (small K) (𝓝 0) := by
    have := hw0.sub (hwW.trans_tendsto (by
      have := (small_tendsto K).pow n
      rwa [zero_pow (by omega)] at this))
    simpa using this
  have hn1 : ∀ᶠ x in small K, ‖w x‖ ≤ 1 := by
    have := hw0.norm
    rw [norm_zero] at this
    exact (this.eventually_le_const one_pos)
  have hn2 : ∀ᶠ x in small K, ‖W x‖ ≤ 1 := by
    have := hW0.norm
    rw [norm_zero] at this
    exact (this.eventually_le_const one_pos)
  obtain ⟨C, hC⟩ := taylor_bound n (hf.of_le (by exact_mod_cast le_top)) hK
  have h1 : (fun x => f (g x) - ∑ m ∈ range n, ((m.factorial : ℝ)⁻¹) • iteratedFDeriv ℝ m f (u x.2) (fun _ => w x)) =O[small K]
      fun x => x.1 ^ n := by
    refine IsBigO.trans (IsBigO.of_bound C ?_) ((hw1.norm_left.pow n).congr_right fun x => by simp)
    filter_upwards [hn1, eventually_mem K] with x hx hxK
    have := hC (u x.2) (hu _ hxK) (w x) hx
    rw [show u x.2 + w x = g x by simp [hw]] at this
    simpa using this
  have h2 : (fun x => ∑ m ∈ range n, (((m.factorial : ℝ)⁻¹) • iteratedFDeriv ℝ m f (u x.2) (fun _ => w x) -
      ((m.factorial : ℝ)⁻¹) • iteratedFDeriv ℝ m f (u x.2) (fun _ => W x))) =O[small K] fun x => x.1 ^ n := by
    refine IsBigO.fun_sum fun m _ => ?_
    simp only [← smul_sub]
    suffices hh : (fun x => iteratedFDeriv ℝ m f (u x.2) (fun _ => w x) - iteratedFDeriv ℝ m f (u x.2) (fun _ => W x)) =O[small K]
        fun x => x.1 ^ n from hh.const_smul_left ((m.factorial : ℝ)⁻¹)
    have hD := isBigO_one_of_compact (K := K) (u := u) (hf.continuous_iteratedFDeriv (m := m) (by exact_mod_cast le_top)) hK hu
    refine IsBigO.trans (IsBigO.of_bound m ?_) ((hD.norm_left.mul hwW.norm_left).congr_right fun x => one_mul _)
    filter_upwards [hn1, hn2] with x hx hx'
    refine (ContinuousMultilinearMap.norm_image_sub_le _ _ _).trans ?_
    have e1 : ‖(fun _ : Fin m => w x) - fun _ => W x‖ ≤ ‖w x - W x‖ := by
      refine (pi_norm_le_iff_of_nonneg (norm_nonneg _)).2 fun i => ?_
      exact le_rfl
    have e2 : max ‖(fun _ : Fin m => w x)‖ ‖(fun _ : Fin m => W x)‖ ^ (Fintype.card (Fin m) - 1) ≤ 1 := by
      refine pow_le_one₀ (le_max_of_le_left (norm_nonneg _)) (max_le ?_ ?_)
      · exact (pi_norm_le_iff_of_nonneg zero_le_one).2 fun i => hx
      · exact (pi_norm_le_iff_of_nonneg zero_le_one).2 fun i => hx'
    rw [Fintype.card_fin] at e2 ⊢
    rw [norm_mul, norm_norm, norm_norm]
    calc _ ≤ ‖iteratedFDeriv ℝ m f (u x.2)‖ * m * 1 * ‖w x - W x‖ := by gcongr
      _ = _ := by ring
  refine IsBigO.congr_left (h1.add h2) fun x => ?_
  rw [sum_sub_distrib]
  have h3 : ∀ m : ℕ, ((m.factorial : ℝ)⁻¹) • iteratedFDeriv ℝ m f (u x.2) (fun _ => W x) =
      ∑ ch ∈ Fintype.piFinset fun _ : Fin m => S, (((m.factorial : ℝ)⁻¹ * ∏ l, a (ch l)) * x.1 ^ (∑ l, (ch l).order)) •
        iteratedFDeriv ℝ m f (u x.2) (fun l => (ch l).val L f (u x.2)) := by
    intro m
    have e := (iteratedFDeriv ℝ m f (u x.2)).toMultilinearMap.map_sum_finset
      (fun _ t => (a t * x.1 ^ t.order) • t.val L f (u x.2)) (fun _ => S)
    have e' : iteratedFDeriv ℝ m f (u x.2) (fun _ => W x) = ∑ ch ∈ Fintype.piFinset fun _ : Fin m => S,
        iteratedFDeriv ℝ m f (u x.2) (fun l => (a (ch l) * x.1 ^ (ch l).order) • (ch l).val L f (u x.2)) := e
    rw [e', smul_sum]
    refine sum_congr rfl fun ch _ => ?_
    have e'' := (iteratedFDeriv ℝ m f (u x.2)).toMultilinearMap.map_smul_univ (fun l => a (ch l) * x.1 ^ (ch l).order)
      (fun l => (ch l).val L f (u x.2))
    have e3 : iteratedFDeriv ℝ m f (u x.2) (fun l => (a (ch l) * x.1 ^ (ch l).order) • (ch l).val L f (u x.2)) =
      (∏ l, (a (ch l) * x.1 ^ (ch l).order)) • iteratedFDeriv ℝ m f (u x.2) (fun l => (ch l).val L f (u x.2)) := e''
    rw [e3, smul_smul, prod_mul_distrib, prod_pow_eq_pow_sum, mul_assoc]
  simp only [h3]
  abel

/-- Coefficient in the expansion of a combination `∑_j A_j f(g_j)`. -/
noncomputable def combC (r : ℕ) (α : ℕ → ℕ → ℝ) (b : ETree → ℕ → ℝ) (k m : ℕ) (ch : Fin m → ETree) : ℝ :=
  ∑ j ∈ range r, α j k * ((m.factorial : ℝ)⁻¹ * ∏ l, b (ch l) j)

theorem combine_sum (hf : ContDiff ℝ ∞ f) (hK : IsCompact K0) (hu : ∀ q ∈ K, u q ∈ K0) {r : ℕ} {A : ℕ → ℝ → Mat ι} {α : ℕ → ℕ → ℝ}
    {g : ℕ → ℝ × P → Vec ι} {S : Finset ETree} {b : ETree → ℕ → ℝ} {n : ℕ} (hn : 1 ≤ n)
    (hA : ∀ j < r, (fun h => A j h - ∑ k ∈ range n, (α j k * h ^ (k + 1)) • L ^ k) =O[𝓝 0] fun h : ℝ => h ^ (n + 1))
    (hg : ∀ j < r, Knows L f K u S (b · j) n (g j)) :
    (fun x => ∑ j ∈ range r, A j x.1 *ᵥ f (g j x) - ∑ k ∈ range n, ∑ m ∈ range n, ∑ ch ∈ Fintype.piFinset fun _ : Fin m => S,
      (combC r α b k m ch * x.1 ^ (ETree.nd k m ch).order) • (ETree.nd k m ch).val L f (u x.2)) =O[small K] fun x => x.1 ^ (n + 1) := by
  set F : ℕ → ℝ × P → Vec ι := fun j x => ∑ m ∈ range n, ∑ ch ∈ Fintype.piFinset fun _ : Fin m => S,
      (((m.factorial : ℝ)⁻¹ * ∏ l, b (ch l) j) * x.1 ^ (∑ l, (ch l).order)) •
        iteratedFDeriv ℝ m f (u x.2) (fun l => (ch l).val L f (u x.2)) with hF
  have hsum : ∀ j < r, (fun x => A j x.1 *ᵥ f (g j x) - ∑ k ∈ range n, (α j k * x.1 ^ (k + 1)) • (L ^ k *ᵥ F j x)) =O[small K]
      fun x => x.1 ^ (n + 1) := by
    intro j hj
    have h1 : (fun x => f (g j x) - F j x) =O[small K] fun x => x.1 ^ n := (hg j hj).comp hf hK hu hn
    have h2 : F j =O[small K] fun _ => (1 : ℝ) := by
      refine IsBigO.fun_sum fun m _ => IsBigO.fun_sum fun ch _ => ?_
      have := val_isBigO L hf hK hu (ETree.nd 0 m ch)
      simp only [ETree.val, pow_zero, one_mulVec] at this
      simpa using pow_smul_isBigO (m := ∑ l, (ch l).order) (Nat.zero_le _) this _
    have h3 : (fun x => f (g j x)) =O[small K] fun _ => (1 : ℝ) := by
      have := (h1.trans (pow_isBigO K (Nat.zero_le n))).congr_right (g₂ := fun _ => (1 : ℝ)) fun x => pow_zero _
      refine IsBigO.congr_left (this.add h2) fun x => by simp
    have h4 : (fun x : ℝ × P => (A j x.1 - ∑ k ∈ range n, (α j k * x.1 ^ (k + 1)) • L ^ k) *ᵥ f (g j x)) =O[small K]
        fun x => x.1 ^ (n + 1) := by
      refine IsBigO.congr_right (mulVec_isBigO (IsBigO.fst (hA j hj) K) h3) fun x => by simp
    have h5 : (fun x : ℝ × P => (∑ k ∈ range n, (α j k * x.1 ^ (k + 1)) • L ^ k) *ᵥ (f (g j x) - F j x)) =O[small K]
        fun x => x.1 ^ (n + 1) := by
      have : (fun x : ℝ × P => ∑ k ∈ range n, (α j k * x.1 ^ (k + 1)) • L ^ k) =O[small K] fun x => x.1 ^ 1 := by
        refine IsBigO.fun_sum fun k _ => pow_smul_isBigO (by omega) ?_ _
        exact isBigO_const_const _ one_ne_zero _
      refine IsBigO.congr_right (mulVec_isBigO this h1) fun x => by rw [pow_one, pow_succ, mul_comm]
    refine IsBigO.congr_left (h4.add h5) fun x => ?_
    rw [sub_mulVec, mulVec_sub, sum_mulVec, sum_mulVec]
    simp only [smul_mulVec]
    abel
  refine IsBigO.congr_left (IsBigO.fun_sum fun j hj => hsum j (mem_range.1 hj)) fun x => ?_
  rw [sum_sub_distrib, sub_right_inj, sum_comm]
  refine sum_congr rfl fun k _ => ?_
  simp only [hF, mulVec_sum, smul_sum]
  rw [sum_comm]
  refine sum_congr rfl fun m _ => ?_
  rw [sum_comm]
  refine sum_congr rfl fun ch _ => ?_
  simp only [ETree.val, ETree.order, mulVec_smul, smul_smul, combC]
  rw [← sum_smul, sum_mul]
  congr 1
  refine sum_congr rfl fun j _ => ?_
  rw [pow_add]
  ring

/-- Coefficients in the expansion of `E u + ∑_j A_j f(g_j)`. -/
noncomputable def fullC (e : ℕ → ℝ) (r : ℕ) (α : ℕ → ℕ → ℝ) (b : ETree → ℕ → ℝ) : ETree → ℝ
  | .lu k => e (k + 1)
  | .nd k m ch => combC r α b k m ch

theorem combine (hf : ContDiff ℝ ∞ f) (hK : IsCompact K0) (hu : ∀ q ∈ K, u q ∈ K0) {r : ℕ} {E : ℝ → Mat ι} {A : ℕ → ℝ → Mat ι}
    {e : ℕ → ℝ} {α : ℕ → ℕ → ℝ} {g : ℕ → ℝ × P → Vec ι} {S : Finset ETree} {b : ETree → ℕ → ℝ} {n : ℕ} (hn : 1 ≤ n)
    (hE : (fun h => E h - ∑ k ∈ range (n + 1), (e k * h ^ k) • L ^ k) =O[𝓝 0] fun h : ℝ => h ^ (n + 1)) (he : e 0 = 1)
    (hA : ∀ j < r, (fun h => A j h - ∑ k ∈ range n, (α j k * h ^ (k + 1)) • L ^ k) =O[𝓝 0] fun h : ℝ => h ^ (n + 1))
    (hg : ∀ j < r, Knows L f K u S (b · j) n (g j)) :
    Knows L f K u (ETree.grow S n) (fullC e r α b) (n + 1) fun x => E x.1 *ᵥ u x.2 + ∑ j ∈ range r, A j x.1 *ᵥ f (g j x) := by
  have h1 := combine_sum hf hK hu hn hA hg
  have h2 : (fun x : ℝ × P => (E x.1 - ∑ k ∈ range (n + 1), (e k * x.1 ^ k) • L ^ k) *ᵥ u x.2) =O[small K] fun x => x.1 ^ (n + 1) := by
    refine IsBigO.congr_right (mulVec_isBigO (IsBigO.fst hE K) (isBigO_one_of_compact continuous_id hK hu)) fun x => by simp
  refine IsBigO.congr_left (h2.add h1) fun x => ?_
  rw [ETree.sum_grow, sub_mulVec, sum_mulVec, sum_range_succ']
  simp only [smul_mulVec, ETree.val, ETree.order, fullC, he, pow_zero, one_mulVec, mul_one, one_smul]
  abel

end

namespace ERK

variable {L : Mat ι} {f : Vec ι → Vec ι} {K : Set P} {u : P → Vec ι} {K0 : Set (Vec ι)}

/-- Argument of the nonlinear function in stage `i`. -/
def stageArg (M : ERK ι) (f : Vec ι → Vec ι) (u : Vec ι) (i : ℕ) : Vec ι := M.arg u (M.values f u i) i

theorem values_eq (M : ERK ι) (f : Vec ι → Vec ι) (u : Vec ι) {i j : ℕ} (h : j < i) :
    M.values f u i j = f (M.stageArg f u j) := by
  induction i with
  | zero => omega
  | succ i ih =>
    simp only [values]
    by_cases hj : j = i
    · subst hj
      rw [Function.update_self]
      rfl
    · rw [Function.update_of_ne hj, ih (by omega)]

theorem stageArg_eq (M : ERK ι) (f : Vec ι → Vec ι) (u : Vec ι) (i : ℕ) :
    M.stageArg f u i = M.E i *ᵥ u + ∑ j ∈ range i, M.A i j *ᵥ f (M.stageArg f u j) := by
  rw [stageArg, arg]
  congr 1
  refine sum_congr rfl fun j hj => ?_
  rw [values_eq M f u (mem_range.1 hj)]

theorem run_fst (M : ERK ι) (f : Vec ι → Vec ι) (u : Vec ι) :
    (M.run f u).1 = M.Eout *ᵥ u + ∑ j ∈ range M.s, M.B j *ᵥ f (M.stageArg f u j) := by
  show M.out u _ = _
  rw [out]
  congr 1
  refine sum_congr rfl fun j hj => ?_
  rw [values_eq M f u (mem_range.1 hj)]

theorem run_snd (M : ERK ι) (f : Vec ι → Vec ι) (u : Vec ι) :
    (M.run f u).2 = ∑ j ∈ range M.s, M.R j *ᵥ f (M.stageArg f u j) := by
  show M.err _ = _
  rw [err]
  refine sum_congr rfl fun j hj => ?_
  rw [values_eq M f u (mem_range.1 hj)]

theorem fullC_stage (T : ETableau) (i : ℕ) :
    fullC (fun k => T.c i ^ k * (k.factorial : ℝ)⁻¹) i (T.α i) T.stage = fun t => T.stage t i := by
  funext t
  cases t <;> simp only [fullC, combC, ETableau.stage]

theorem fullC_out (T : ETableau) : fullC (fun k => (k.factorial : ℝ)⁻¹) T.s T.β T.stage = T.out := by
  funext t
  cases t <;> simp only [fullC, combC, ETableau.out]

/-- Expansion of the arguments of the stages. -/
theorem stageArg_knows (hf : ContDiff ℝ ∞ f) (hK : IsCompact K0) (hu : ∀ q ∈ K, u q ∈ K0) {M : ℝ → ERK ι} {T : ETableau}
    (hM : Expands M L T) {i : ℕ} (hi : i < T.s) (n : ℕ) :
    Knows L f K u (ETree.trees n) (fun t => T.stage t i) (n + 1) fun x => (M x.1).stageArg f (u x.2) i := by
  induction i using Nat.strong_induction_on generalizing n with
  | _ i ih =>
    have key : ∀ n, Knows L f K u (ETree.trees (n + 1)) (fun t => T.stage t i) (n + 2) fun x => (M x.1).stageArg f (u x.2) i := by
      intro n
      have := combine hf hK hu (r := i) (E := fun h => (M h).E i) (A := fun j h => (M h).A i j)
        (e := fun k => T.c i ^ k * (k.factorial : ℝ)⁻¹) (α := T.α i) (g := fun j x => (M x.1).stageArg f (u x.2) j)
        (S := ETree.trees n) (b := T.stage) (n := n + 1) (by omega) (hM.E _ i hi) (by simp) (fun j hj => hM.A _ i hi j hj)
        (fun j hj => ih j hj (by omega) n)
      rw [fullC_stage] at this
      exact this.congr fun x => by rw [stageArg_eq]
    cases n with
    | succ n => exact key n
    | zero =>
      refine ((key 0).mono (n := 1) (by omega)).change hf hK hu ?_ ?_ fun _ _ => rfl
      · intro t ht; have := t.order_pos; omega
      · intro t ht; have := t.order_pos; omega

/-- Expansion of the new solution. -/
theorem run_knows (hf : ContDiff ℝ ∞ f) (hK : IsCompact K0) (hu : ∀ q ∈ K, u q ∈ K0) {M : ℝ → ERK ι} {T : ETableau}
    (hM : Expands M L T) (n : ℕ) : Knows L f K u (ETree.trees n) T.out (n + 1) fun x => ((M x.1).run f (u x.2)).1 := by
  have key : ∀ n, Knows L f K u (ETree.trees (n + 1)) T.out (n + 2) fun x => ((M x.1).run f (u x.2)).1 := by
    intro n
    have := combine hf hK hu (r := T.s) (E := fun h => (M h).Eout) (A := fun j h => (M h).B j)
      (e := fun k => (k.factorial : ℝ)⁻¹) (α := T.β) (g := fun j x => (M x.1).stageArg f (u x.2) j)
      (S := ETree.trees n) (b := T.stage) (n := n + 1) (by omega) (hM.Eout _) (by simp) (fun j hj => hM.B _ j hj)
      (fun j hj => stageArg_knows hf hK hu hM hj n)
    rw [fullC_out] at this
    exact this.congr fun x => by rw [run_fst, hM.s]
  cases n with
  | succ n => exact key n
  | zero =>
    refine ((key 0).mono (n := 1) (by omega)).change hf hK hu ?_ ?_ fun _ _ => rfl
    · intro t ht; have := t.order_pos; omega
    · intro t ht; have := t.order_pos; omega

/-- Expansion of the error estimate. -/
theorem err_expansion (hf : ContDiff ℝ ∞ f) (hK : IsCompact K0) (hu : ∀ q ∈ K, u q ∈ K0) {M : ℝ → ERK ι} {T : ETableau}
    (hM : Expands M L T) (n : ℕ) : (fun x => ((M x.1).run f (u x.2)).2 -
      ∑ t ∈ ETree.trees (n + 1), (T.err t * x.1 ^ t.order) • t.val L f (u x.2)) =O[small K] fun x => x.1 ^ (n + 2) := by
  have := combine_sum hf hK hu (r := T.s) (A := fun j h => (M h).R j) (α := T.ρ) (g := fun j x => (M x.1).stageArg f (u x.2) j)
    (S := ETree.trees n) (b := T.stage) (n := n + 1) (by omega) (fun j hj => hM.R _ j hj) (fun j hj => stageArg_knows hf hK hu hM hj n)
  refine IsBigO.congr_left this fun x => ?_
  rw [run_snd, hM.s, ETree.trees, ETree.sum_grow]
  simp only [ETableau.err, combC, zero_mul, zero_smul, sum_const_zero, zero_add]

end ERK

end Verif
