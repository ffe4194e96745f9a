import Verif.Lemmas.FloatNear

/-!
# Rounding errors of means of many numbers
-/

set_option linter.unusedSectionVars false

namespace Verif

open Asymptotics Filter

variable {T : Type} {l : Filter T} {A : T → CArith} {ρ g : T → ℝ} {N : T → ℕ}

/-- For the parameters of `l` together with an index smaller than `N`. -/
def below (l : Filter T) (N : T → ℕ) : Filter (T × ℕ) := comap Prod.fst l ⊓ 𝓟 {p | p.2 < N p.1}

theorem eventually_below {P : T × ℕ → Prop} : (∀ᶠ p in below l N, P p) ↔ ∀ᶠ t in l, ∀ k < N t, P (t, k) := by
  unfold below
  rw [eventually_inf_principal, eventually_comap]
  refine eventually_congr (Eventually.of_forall fun t => ⟨fun h k hk => h (t, k) rfl hk, ?_⟩)
  rintro h ⟨_, k⟩ rfl hk
  exact h k hk

theorem tendsto_below : Tendsto Prod.fst (below l N) l := tendsto_comap.mono_left inf_le_left

theorem Fine.below (hf : Fine l A ρ g) : Fine (below l N) (fun p => A p.1) (fun p => ρ p.1) (fun p => g p.1) where
  within R := tendsto_below.eventually (hf.within R)
  nonneg := tendsto_below.eventually hf.nonneg
  le := hf.le.comp_tendsto tendsto_below
  one := hf.one.comp_tendsto tendsto_below

theorem FlNear.below {x' : ∀ t, Fl (A t)} {x : T → ℂ} (hx : FlNear l A g x' x) :
    FlNear (Verif.below l N) (fun p => A p.1) (fun p => g p.1) (fun p => x' p.1) (fun p => x p.1) :=
  ⟨hx.bdd.comp_tendsto tendsto_below, hx.err.comp_tendsto tendsto_below⟩

/-- Sums of bounded numbers. -/
theorem isBigO_sum {f : T → ℕ → ℂ} {g : T → ℝ} (h : (fun p : T × ℕ => f p.1 p.2) =O[below l N] fun p => g p.1) :
    (fun t => ∑ k ∈ Finset.range (N t), f t k) =O[l] fun t => (N t : ℝ) * g t := by
  obtain ⟨C, hC⟩ := h.bound
  rw [eventually_below] at hC
  refine IsBigO.of_bound C (hC.mono fun t ht => ?_)
  refine (norm_sum_le_of_le (Finset.range (N t)) (f := f t) (n := fun _ => C * ‖g t‖) fun k hk => ht k (Finset.mem_range.mp hk)).trans ?_
  rw [Finset.sum_const, Finset.card_range, nsmul_eq_mul, norm_mul, Real.norm_natCast]
  exact le_of_eq (by ring)

/-- Arithmetics for sums of `N` numbers. -/
structure Long (l : Filter T) (A : T → CArith) (ρ : T → ℝ) (N : T → ℕ) (g : T → ℝ) : Prop where
  fine : Fine l A ρ g
  pos : ∀ᶠ t in l, 0 < N t
  within : ∀ R, ∀ᶠ t in l, (A t).Within (ρ t) (R * N t)
  mul_le : (fun t => (N t : ℝ) * ρ t) =O[l] g
  le_one : ∀ᶠ t in l, (N t : ℝ) * ρ t ≤ 1

/-- `h * S / N` for numbers `S` of size `N`. -/
theorem FlNear.mul_div (hf : Long l A ρ N g) {h' : ∀ t, Fl (A t)} {h : T → ℂ} (hh : FlNear l A g h' h) {S' : ∀ t, Fl (A t)} {F : T → ℂ}
    (hFb : F =O[l] fun t => (N t : ℝ)) (hSS : (fun t => (S' t).val - F t) =O[l] fun t => (N t : ℝ) * g t) :
    FlNear l A g (fun t => h' t * S' t / Fl.lit (N t : ℂ)) (fun t => h t * F t / (N t : ℂ)) := by
  obtain ⟨H, hH, hh'⟩ := FlNear.exists_le (hh.bdd' hf.fine)
  set n : T → ℝ := fun t => N t with hn
  have hn1 : ∀ᶠ t in l, 1 ≤ n t := hf.pos.mono fun t ht => by simp only [hn]; exact_mod_cast ht
  set S : T → ℂ := fun t => (S' t).val with hS
  set M : T → ℂ := fun t => (h' t * S' t).val with hM
  have hng : (fun t => n t * g t) =O[l] n := ((isBigO_refl n l).mul hf.fine.one).congr_right fun t => mul_one _
  have hSO : S =O[l] n := ((hSS.trans hng).add hFb).congr_left fun t => by ring
  obtain ⟨B, hB, hSb⟩ := hSO.exists_nonneg
  replace hSb : ∀ᶠ t in l, ‖S t‖ ≤ B * n t := by
    filter_upwards [hSb.bound, hn1] with t h1 h2
    rwa [Real.norm_of_nonneg (by linarith)] at h1
  have hMS : ∀ᶠ t in l, ‖M t - (h' t).val * S t‖ ≤ ρ t * ((1 + H * B) * n t) ∧ ‖(h' t).val * S t‖ ≤ H * B * n t := by
    filter_upwards [hSb, hh', hn1, hf.fine.nonneg, hf.within (B + H + H * B)] with t h1 h2 h3 h4 h5
    have h6 : ‖(h' t).val * S t‖ ≤ H * B * n t := by
      rw [norm_mul, mul_assoc]
      exact mul_le_mul h2 h1 (norm_nonneg _) hH
    have p1 : 0 ≤ H * B * n t := by positivity
    have p2 : 0 ≤ B * n t := by positivity
    have p3 : H ≤ H * n t := le_mul_of_one_le_right hH h3
    have e : (B + H + H * B) * n t = B * n t + H * n t + H * B * n t := by ring
    change (A t).Within (ρ t) ((B + H + H * B) * n t) at h5
    rw [e] at h5
    refine ⟨?_, h6⟩
    refine (h5.mul (h' t).val (S t) (by linarith) (by linarith) (by linarith)).trans (mul_le_mul_of_nonneg_left ?_ h4)
    nlinarith
  have hMb : ∀ᶠ t in l, ‖M t‖ ≤ (1 + 2 * (H * B)) * n t := by
    filter_upwards [hMS, hf.le_one, hn1, hf.fine.nonneg] with t h1 h2 h3 h4
    have h5 := norm_add_le (M t - (h' t).val * S t) ((h' t).val * S t)
    rw [sub_add_cancel] at h5
    have h6 : ρ t ≤ 1 := by
      have : 1 * ρ t ≤ n t * ρ t := mul_le_mul_of_nonneg_right h3 h4
      simp only [hn] at *
      linarith
    have h7 : ρ t * ((1 + H * B) * n t) ≤ 1 * ((1 + H * B) * n t) := mul_le_mul_of_nonneg_right h6 (by positivity)
    linarith [h1.1, h1.2]
  have hMO : (fun t => M t - h t * F t) =O[l] fun t => n t * g t := by
    have e1 : (fun t => M t - (h' t).val * S t) =O[l] fun t => n t * g t := by
      have : (fun t => M t - (h' t).val * S t) =O[l] fun t => n t * ρ t := by
        refine IsBigO.of_bound (1 + H * B) ?_
        filter_upwards [hMS, hn1, hf.fine.nonneg] with t h1 h2 h3
        rw [Real.norm_of_nonneg (by positivity)]
        exact h1.1.trans (le_of_eq (by ring))
      exact this.trans ((isBigO_refl n l).mul hf.fine.le)
    have e2 : (fun t => ((h' t).val - h t) * S t) =O[l] fun t => n t * g t :=
      (hh.err.mul hSO).congr_right fun t => mul_comm _ _
    have e3 : (fun t => h t * (S t - F t)) =O[l] fun t => n t * g t :=
      (hh.bdd.mul hSS).congr_right fun t => one_mul _
    exact ((e1.add e2).add e3).congr_left fun t => by ring
  have hne : ∀ᶠ t in l, (N t : ℂ) ≠ 0 := hf.pos.mono fun t ht => by exact_mod_cast ht.ne'
  have hinv : ∀ {w : T → ℂ} {g : T → ℝ}, w =O[l] (fun t => n t * g t) → (fun t => w t / (N t : ℂ)) =O[l] g := by
    intro w g hw'
    obtain ⟨C, hC⟩ := hw'.bound
    refine IsBigO.of_bound C ?_
    filter_upwards [hC, hn1] with t h1 h2
    rw [norm_div, Complex.norm_natCast, div_le_iff₀ (by simp only [hn] at h2; linarith)]
    refine h1.trans (le_of_eq ?_)
    rw [norm_mul, Real.norm_of_nonneg (by linarith)]
    simp only [hn]
    ring
  refine ⟨?_, ?_⟩
  · exact hinv (w := fun t => h t * F t) (g := 1) ((hh.bdd.mul hFb).congr_right fun t => by simp [hn])
  · have e1 : (fun t => M t / (N t : ℂ) - h t * F t / (N t : ℂ)) =O[l] g :=
      (hinv hMO).congr_left fun t => by rw [sub_div]
    have e2 : (fun t => (h' t * S' t / Fl.lit (N t : ℂ)).val - M t / (N t : ℂ)) =O[l] ρ := by
      refine FlNear.round hf.fine (1 + (1 + 2 * (H * B))) ?_
      filter_upwards [hMb, hn1, hf.fine.nonneg, hne, hf.within (1 + (1 + 2 * (H * B)))] with t h1 h2 h3 h4 h5
      have p0 : 0 ≤ 1 + 2 * (H * B) := by positivity
      have p : 0 ≤ (1 + 2 * (H * B)) * n t := by positivity
      have e : (1 + (1 + 2 * (H * B))) * n t = n t + (1 + 2 * (H * B)) * n t := by ring
      change (A t).Within (ρ t) ((1 + (1 + 2 * (H * B))) * n t) at h5
      rw [e] at h5
      have h6 : ‖M t / (N t : ℂ)‖ ≤ 1 + 2 * (H * B) := by
        rw [norm_div, Complex.norm_natCast, div_le_iff₀ (by simp only [hn] at h2; linarith)]
        exact h1
      have h7 : ‖(N t : ℂ)‖ = n t := Complex.norm_natCast _
      have h8 : 1 + 2 * (H * B) ≤ (1 + 2 * (H * B)) * n t := le_mul_of_one_le_right p0 h2
      have h9 : ‖(N t : ℂ)⁻¹‖ ≤ 1 := by
        rw [norm_inv, h7]
        exact inv_le_one_of_one_le₀ h2
      refine (h5.div (M t) (N t : ℂ) h4 (by linarith) (by linarith) (by linarith) (by linarith)).trans (mul_le_mul_of_nonneg_left (by linarith) h3)
    exact ((e2.trans hf.fine.le).add e1).congr_left fun t => by ring

/-- `h * np.sum(values) / N` -/
theorem FlNear.mean (hf : Long l A ρ N g) {h' : ∀ t, Fl (A t)} {h : T → ℂ}
    (hh : FlNear l A g h' h) {f' : ∀ t, ℕ → Fl (A t)} {f : T → ℕ → ℂ}
    (hx : FlNear (Verif.below l N) (fun p => A p.1) (fun p => g p.1) (fun p => f' p.1 p.2) (fun p => f p.1 p.2)) :
    FlNear l A g (fun t => h' t * Fl.sum ((List.range (N t)).map (f' t)) / Fl.lit (N t : ℂ))
      (fun t => h t * (∑ k ∈ Finset.range (N t), f t k) / (N t : ℂ)) := by
  obtain ⟨B, hB, hb⟩ := FlNear.exists_le (hx.bdd' hf.fine.below)
  rw [eventually_below] at hb
  set n : T → ℝ := fun t => N t with hn
  have hn1 : ∀ᶠ t in l, 1 ≤ n t := hf.pos.mono fun t ht => by simp only [hn]; exact_mod_cast ht
  set F' : T → ℂ := fun t => ∑ k ∈ Finset.range (N t), (f' t k).val with hF'
  set F : T → ℂ := fun t => ∑ k ∈ Finset.range (N t), f t k with hF
  set S : T → ℂ := fun t => (Fl.sum ((List.range (N t)).map (f' t))).val with hS
  have hFF : (fun t => F' t - F t) =O[l] fun t => n t * g t := by
    refine (isBigO_sum (f := fun t k => (f' t k).val - f t k) (g := g) hx.err).congr_left fun t => ?_
    rw [Finset.sum_sub_distrib]
  have hsum : ∀ t, (((List.range (N t)).map (f' t)).map fun x => x.val).sum = F' t := fun t => by
    rw [List.map_map, ← List.sum_toFinset _ List.nodup_range, List.toFinset_range]; rfl
  have hnorm : ∀ᶠ t in l, ((((List.range (N t)).map (f' t)).map fun x => x.val).map norm).sum ≤ B * n t := by
    filter_upwards [hb] with t ht
    rw [List.map_map, List.map_map, ← List.sum_toFinset _ List.nodup_range, List.toFinset_range]
    refine (Finset.sum_le_sum (g := fun _ => B) fun k hk => ht k (Finset.mem_range.mp hk)).trans ?_
    rw [Finset.sum_const, Finset.card_range, nsmul_eq_mul, mul_comm]
  have hSF : ∀ᶠ t in l, ‖S t - F' t‖ ≤ n t * ρ t * ((1 + B) * n t) := by
    filter_upwards [hnorm, hf.within B, hf.le_one, hn1, hf.fine.nonneg] with t h1 h2 h3 h4 h5
    have h6 := h2.sum (((List.range (N t)).map (f' t)).map fun x => x.val) h1 (by simpa using h3)
    rw [hsum] at h6
    have e : (A t).sum (((List.range (N t)).map (f' t)).map fun x => x.val) = S t := by
      simp only [hS, Fl.sum, Fl.val]
      congr 1
      exact List.map_id _
    simp only [List.length_map, List.length_range] at h6
    rw [← e]
    refine h6.trans (mul_le_mul_of_nonneg_left ?_ (by positivity))
    nlinarith
  have hSF' : (fun t => S t - F' t) =O[l] fun t => n t * g t := by
    have : (fun t => S t - F' t) =O[l] fun t => n t * (n t * ρ t) := by
      refine IsBigO.of_bound (1 + B) ?_
      filter_upwards [hSF, hn1, hf.fine.nonneg] with t h1 h2 h3
      rw [Real.norm_of_nonneg (by positivity)]
      exact h1.trans (le_of_eq (by ring))
    exact this.trans ((isBigO_refl n l).mul hf.mul_le)
  exact hh.mul_div hf ((isBigO_sum (f := f) (g := 1) hx.bdd).congr_right fun t => mul_one _)
    ((hSF'.add hFF).congr_left fun t => by ring)

end Verif
