import Verif.Lemmas.ERK
import Verif.Lemmas.Expm
import Verif.Spec.RungeKutta

/-!
# Exponential Runge–Kutta steps characterised by their stage equations
-/

set_option linter.unusedSectionVars false

namespace Verif

open Matrix

variable {ι : Type} [Fintype ι] [DecidableEq ι]

namespace ERK

variable (M : ERK ι) (nl : NlFunc ι) (u : Vec ι)

theorem arg_congr {N N' : ℕ → Vec ι} {i : ℕ} (h : ∀ j < i, N j = N' j) : M.arg u N i = M.arg u N' i := by
  unfold arg
  congr 1
  exact Finset.sum_congr rfl fun j hj => by rw [h j (Finset.mem_range.mp hj)]

theorem out_congr {N N' : ℕ → Vec ι} (h : ∀ j < M.s, N j = N' j) : M.out u N = M.out u N' := by
  unfold out
  congr 1
  exact Finset.sum_congr rfl fun j hj => by rw [h j (Finset.mem_range.mp hj)]

theorem err_congr {N N' : ℕ → Vec ι} (h : ∀ j < M.s, N j = N' j) : M.err N = M.err N' := by
  unfold err
  exact Finset.sum_congr rfl fun j hj => by rw [h j (Finset.mem_range.mp hj)]

theorem stages_of {N : ℕ → Vec ι} (k : ℕ) (h : ∀ i < k, nl (M.arg u N i) = .ok (N i)) :
    M.stages nl u k = .ok (fun i => if i < k then N i else 0) := by
  induction k with
  | zero => simp [stages]; rfl
  | succ k ih =>
    have hk := ih fun i hi => h i (by omega)
    have ha : nl (M.arg u (fun i => if i < k then N i else 0) k) = .ok (N k) := by
      rw [M.arg_congr u (N' := N) fun j hj => by simp [hj]]
      exact h k (by omega)
    rw [M.stages_succ_ok nl u hk ha]
    congr 1
    funext i
    by_cases hi : i = k
    · subst hi; simp
    · rw [Function.update_of_ne hi]
      have : i < k ↔ i < k + 1 := by omega
      simp [this]

theorem stages_inv {N : ℕ → Vec ι} (k : ℕ) (h : M.stages nl u k = .ok N) :
    ∀ i < k, nl (M.arg u N i) = .ok (N i) := by
  induction k generalizing N with
  | zero => intro i hi; omega
  | succ k ih =>
    cases hs : M.stages nl u k with
    | error e => simp [stages, hs] at h
    | ok N0 =>
      cases hn : nl (M.arg u N0 k) with
      | error e => simp [stages, hs, hn] at h
      | ok n =>
        rw [M.stages_succ_ok nl u hs hn] at h
        injection h with h; subst h
        intro i hi
        by_cases hik : i = k
        · subst hik
          rw [Function.update_self, ← hn]
          rw [M.arg_congr u (N' := N0)]
          intro j hj; rw [Function.update_of_ne (by omega)]
        · rw [Function.update_of_ne hik, ← ih hs i (by omega)]
          rw [M.arg_congr u (N' := N0)]
          intro j hj; rw [Function.update_of_ne (by omega)]

/-- A step is determined by any solution of its stage equations. -/
theorem step_of {N : ℕ → Vec ι} (h : ∀ i < M.s, nl (M.arg u N i) = .ok (N i)) :
    M.step nl u = .ok (M.out u N, M.err N) := by
  unfold step
  rw [M.stages_of nl u M.s h]
  simp only
  rw [M.out_congr u (N' := N) fun j hj => by simp [hj], M.err_congr (N' := N) fun j hj => by simp [hj]]

theorem step_ok_iff {r : Vec ι × Vec ι} : M.step nl u = .ok r ↔
    ∃ N : ℕ → Vec ι, (∀ i < M.s, nl (M.arg u N i) = .ok (N i)) ∧ r = (M.out u N, M.err N) := by
  constructor
  · intro h
    cases hs : M.stages nl u M.s with
    | error e => simp [step, hs] at h
    | ok N =>
      refine ⟨N, M.stages_inv nl u _ hs, ?_⟩
      simp only [step, hs, Except.ok.injEq] at h
      exact h.symm
  · rintro ⟨N, h, rfl⟩
    exact M.step_of nl u h

theorem step_tot (f : Vec ι → Vec ι) : ∃ N : ℕ → Vec ι, (∀ i < M.s, f (M.arg u N i) = N i) ∧
    M.step (total f) u = .ok (M.out u N, M.err N) := by
  obtain ⟨r, hr⟩ := M.step_total (total f) u fun x => ⟨f x, rfl⟩
  obtain ⟨N, hN, rfl⟩ := (M.step_ok_iff _ _).mp hr
  exact ⟨N, fun i hi => Except.ok.inj (hN i hi), hr⟩

end ERK

theorem expm_mulVec_add (L : Mat ι) (s t : ℝ) (v : Vec ι) : expm L s *ᵥ (expm L t *ᵥ v) = expm L (s + t) *ᵥ v := by
  rw [mulVec_mulVec, ← expm_add]

theorem expm_neg_cancel (L : Mat ι) (t : ℝ) (v : Vec ι) : expm L t *ᵥ (expm L (-t) *ᵥ v) = v := by
  rw [expm_mulVec_add]; simp

theorem smul_expm_mulVec (L : Mat ι) (a b θ : ℝ) (v : Vec ι) :
    (((a * b : ℝ) : ℂ) • expm L θ) *ᵥ v = (a : ℂ) • (b : ℂ) • (expm L θ *ᵥ v) := by
  rw [smul_mulVec, Complex.ofReal_mul, mul_smul]

/-- The Lawson method is the classical method applied in the interaction picture. -/
theorem lawson_step_of (T : Tableau) (L : Mat ι) (h : ℝ) (f : Vec ι → Vec ι) (u : Vec ι) {v' e : Vec ι}
    (hv : IsRKStep T (interaction L f) h u v' e) :
    (lawson T L h).step (total f) u = .ok (expm L h *ᵥ v', expm L h *ᵥ e) := by
  obtain ⟨K, hK, rfl, rfl⟩ := hv
  have hsum : ∀ (w : ℕ → ℝ) (θ : ℝ) (n : ℕ),
      ∑ j ∈ Finset.range n, (((h * w j : ℝ) : ℂ) • expm L ((θ - T.c j) * h)) *ᵥ (expm L (T.c j * h) *ᵥ K j) =
        expm L (θ * h) *ᵥ ((h : ℂ) • ∑ j ∈ Finset.range n, (w j : ℂ) • K j) := by
    intro w θ n
    rw [mulVec_smul, Matrix.mulVec_sum, Finset.smul_sum]
    refine Finset.sum_congr rfl fun j _ => ?_
    rw [smul_expm_mulVec, mulVec_smul, expm_mulVec_add]
    congr 4; ring
  have h1 := hsum T.b 1 T.s
  have h2 := hsum T.r 1 T.s
  rw [one_mul] at h1 h2
  rw [(lawson T L h).step_of (total f) u (N := fun i => expm L (T.c i * h) *ᵥ K i)]
  · simp only [ERK.out, ERK.err, lawson]
    rw [h1, h2, mulVec_add]
  · intro i hi
    rw [hK i hi]
    unfold interaction total
    rw [expm_neg_cancel]
    simp only [ERK.arg, lawson]
    rw [hsum, mulVec_add]

theorem IsRKStep.exists (T : Tableau) (F : ℝ → Vec ι → Vec ι) (h : ℝ) (v : Vec ι) :
    ∃ v' e, IsRKStep T F h v v' e := by
  have key : ∀ n, ∃ K : ℕ → Vec ι, ∀ i < n,
      K i = F (T.c i * h) (v + (h : ℂ) • ∑ j ∈ Finset.range i, (T.a i j : ℂ) • K j) := by
    intro n
    induction n with
    | zero => exact ⟨0, fun i hi => by omega⟩
    | succ n ih =>
      obtain ⟨K, hK⟩ := ih
      refine ⟨Function.update K n (F (T.c n * h) (v + (h : ℂ) • ∑ j ∈ Finset.range n, (T.a n j : ℂ) • K j)), ?_⟩
      intro i hi
      have hs : ∑ j ∈ Finset.range i, (T.a i j : ℂ) •
          Function.update K n (F (T.c n * h) (v + (h : ℂ) • ∑ j ∈ Finset.range n, (T.a n j : ℂ) • K j)) j =
          ∑ j ∈ Finset.range i, (T.a i j : ℂ) • K j :=
        Finset.sum_congr rfl fun j hj => by
          rw [Function.update_of_ne (by have := Finset.mem_range.mp hj; omega)]
      rw [hs]
      by_cases hin : i = n
      · subst hin; rw [Function.update_self]
      · rw [Function.update_of_ne hin]; exact hK i (by omega)
  obtain ⟨K, hK⟩ := key T.s
  exact ⟨_, _, K, hK, rfl, rfl⟩

theorem lawson_step (T : Tableau) (L : Mat ι) (h : ℝ) (f : Vec ι → Vec ι) (u : Vec ι) :
    ∃ v' e, IsRKStep T (interaction L f) h u v' e ∧
      (lawson T L h).step (total f) u = .ok (expm L h *ᵥ v', expm L h *ᵥ e) := by
  obtain ⟨v', e, hv⟩ := IsRKStep.exists T (interaction L f) h u
  exact ⟨v', e, hv, lawson_step_of T L h f u hv⟩

end Verif
