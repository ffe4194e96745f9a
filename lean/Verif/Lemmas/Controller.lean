import Verif.Spec.Adaptive
import Mathlib.Algebra.Order.Field.Basic
import Mathlib.Tactic.Ring
import Mathlib.Tactic.Linarith
import Mathlib.Tactic.Positivity
import Mathlib.Tactic.NormNum

/-!
# Consequences of the specification of adaptive stepping (exact arithmetic)
-/

set_option linter.unusedSectionVars false

namespace Verif

variable {K V : Type} [Field K] [LinearOrder K] [IsStrictOrderedRing K]

theorem shrink_lt_one {d : K} (hd : d < 1) (x : Ext K) : shrink d x < 1 := by
  cases x with
  | fin x => exact lt_of_le_of_lt (min_le_right _ _) hd
  | _ => simp only [shrink]; norm_num

theorem shrink_mem (d : K) (x : Ext K) : min (1 / 4) d ≤ shrink d x ∧ shrink d x ≤ max (1 / 4) d := by
  cases x with
  | fin x => exact ⟨min_le_min_right _ (le_max_right _ _), (min_le_right _ _).trans (le_max_right _ _)⟩
  | _ => exact ⟨min_le_left _ _, le_max_left _ _⟩

theorem grow_bounds {i x h : K} (h1 : 1 ≤ x) (hh : 0 < h) : h ≤ grow i x h ∧ grow i x h ≤ 4 * h := by
  unfold grow
  have h4 : (1 : K) ≤ min x 4 := le_min h1 (by norm_num)
  have h5 : min x 4 ≤ 4 := min_le_right _ _
  split
  · exact ⟨by nlinarith, by nlinarith⟩
  · exact ⟨le_refl _, by linarith⟩

variable {Φ : K → V → Except PyErr (V × V)} {S : V × V → Ext K} {cfg : SolverConfig K} {u : V}

theorem RejectsTo.size (hd : cfg.decr_f < 1) (hm : 0 < cfg.minh) {j : ℕ} {h a : K} (hh : 0 < h)
    (hr : RejectsTo Φ S cfg id u j h a) : 0 < a ∧ a ≤ h ∧ (j = 0 → a = h) ∧ (0 < j → cfg.minh ≤ a ∧ a < h) := by
  induction hr with
  | zero => exact ⟨hh, le_refl _, fun _ => rfl, fun h => absurd h (by omega)⟩
  | @succ j h h' r hr hok hna hmin ih =>
    obtain ⟨i1, i2, -, -⟩ := ih hh
    have : shrink cfg.decr_f (S r) * h' < h' := by
      have := shrink_lt_one hd (S r); nlinarith
    simp only [id] at hmin ⊢
    exact ⟨by linarith, by linarith, by omega, fun _ => ⟨hmin, by linarith⟩⟩

/-- Sizes strictly decrease. -/
theorem RejectsTo.decreasing (hd : cfg.decr_f < 1) (hm : 0 < cfg.minh) {k : ℕ} {h b : K} (hh : 0 < h)
    (hr : RejectsTo Φ S cfg id u k h b) : ∀ (j : ℕ), j < k → ∃ a, RejectsTo Φ S cfg id u j h a ∧ b < a := by
  induction hr with
  | zero => intro j hj; omega
  | @succ k h h' r hr hok hna hmin ih =>
    intro j hj
    obtain ⟨i1, -⟩ := hr.size hd hm hh
    have hlt : id (shrink cfg.decr_f (S r) * h') < h' := by
      have := shrink_lt_one hd (S r); simp only [id]; nlinarith
    rcases Nat.lt_or_ge j k with hjk | hjk
    · obtain ⟨a, ha, hb⟩ := ih hh j hjk
      exact ⟨a, ha, hlt.trans hb⟩
    · obtain rfl : j = k := by omega
      exact ⟨h', hr, hlt⟩

theorem StepSpec.size (hd : cfg.decr_f < 1) (hm : 0 < cfg.minh) {h : K} (hh : 0 < h) {v : V} {hu hs : K}
    (hr : StepSpec Φ S cfg id u h (.ok (v, hu, hs))) :
    0 < hu ∧ hu ≤ h ∧ (hu = h ∨ cfg.minh ≤ hu) ∧ hu ≤ hs ∧ hs ≤ 4 * hu := by
  generalize hR : (Except.ok (v, hu, hs) : Except PyErr (V × K × K)) = R at hr
  cases hr with
  | @accept j h' x r hj hrej hok hx h1 =>
    simp only [Except.ok.injEq, Prod.mk.injEq] at hR
    obtain ⟨rfl, rfl, rfl⟩ := hR
    obtain ⟨a1, a2, a3, a4⟩ := hrej.size hd hm hh
    obtain ⟨g1, g2⟩ := grow_bounds (i := cfg.incr_f) h1 a1
    refine ⟨a1, a2, ?_, g1, g2⟩
    rcases Nat.eq_zero_or_pos j with h0 | h0
    · exact .inl (a3 h0)
    · exact .inr (a4 h0).1
  | _ => simp at hR

theorem limitTo_le {t tf h : K} (hh : t + h ≤ tf) : limitTo id t tf h = h := by
  simp [limitTo, not_lt.mpr hh]

/-- The times of a run. -/
theorem AdaptiveRun.times {tf : K} {n : ℕ} {tm : ℕ → K} {st : ℕ → V} {hp hu : ℕ → K} (hd : cfg.decr_f < 1)
    (hm : 0 < cfg.minh) (R : AdaptiveRun Φ S cfg id tf n tm st hp hu) (h0 : tm 0 ≤ tf)
    (hp0 : tm 0 < tf → 0 < hp 0 ∧ tm 0 + hp 0 ≤ tf) :
    ∀ k, k ≤ n → tm k ≤ tf ∧ (tm k < tf → 0 < hp k ∧ tm k + hp k ≤ tf) ∧
      (k < n → 0 < hu k ∧ hu k ≤ hp k ∧ tm (k + 1) = tm k + hu k) := by
  intro k
  induction k with
  | zero =>
    intro _
    refine ⟨h0, hp0, fun hn => ?_⟩
    obtain ⟨-, hs, h2, h3, h4⟩ := R.step 0 hn
    obtain ⟨p1, p2⟩ := hp0 (R.before_end 0 hn)
    obtain ⟨q1, q2, -⟩ := h2.size hd hm p1
    exact ⟨q1, q2, h3⟩
  | succ k ih =>
    intro hk
    obtain ⟨i1, i2, i3⟩ := ih (by omega)
    obtain ⟨j1, j2, j3⟩ := i3 (by omega)
    obtain ⟨p1, p2⟩ := i2 (R.before_end k (by omega))
    obtain ⟨-, hs, h2, h3, h4⟩ := R.step k (by omega)
    obtain ⟨q1, q2, q3, q4, q5⟩ := h2.size hd hm p1
    have hle : tm (k + 1) ≤ tf := by rw [j3]; linarith
    have hstep : tm (k + 1) < tf → 0 < hp (k + 1) ∧ tm (k + 1) + hp (k + 1) ≤ tf := by
      intro hlt
      rw [h4]
      unfold limitTo
      simp only [id]
      split
      · exact ⟨by linarith, by linarith⟩
      · rename_i hc; exact ⟨by linarith, not_lt.mp hc⟩
    refine ⟨hle, hstep, fun hn => ?_⟩
    obtain ⟨-, hs', h2', h3', h4'⟩ := R.step (k + 1) hn
    obtain ⟨p1', p2'⟩ := hstep (R.before_end _ hn)
    obtain ⟨q1', q2', -⟩ := h2'.size hd hm p1'
    exact ⟨q1', q2', h3'⟩

/-- Every step of a run except the last is at least `δ` long, if steps that are shorter than proposed are. -/
theorem AdaptiveRun.long_of {tf δ : K} {n : ℕ} {tm : ℕ → K} {st : ℕ → V} {hp hu : ℕ → K} (hd : cfg.decr_f < 1)
    (hm : 0 < cfg.minh) (R : AdaptiveRun Φ S cfg id tf n tm st hp hu) (h0 : tm 0 ≤ tf)
    (hp0 : tm 0 < tf → 0 < hp 0 ∧ tm 0 + hp 0 ≤ tf) (hδ : ∀ k, k < n → hu k = hp k ∨ δ ≤ hu k) (hδ0 : δ ≤ hp 0 ∨ hp 0 = tf - tm 0) :
    ∀ k, k < n → (δ ≤ hp k ∨ hp k = tf - tm k) ∧ (δ ≤ hu k ∨ tm (k + 1) = tf) := by
  have T := R.times hd hm h0 hp0
  have key : ∀ k, k < n → (δ ≤ hp k ∨ hp k = tf - tm k) → (δ ≤ hu k ∨ tm (k + 1) = tf) := by
    intro k hk hc
    obtain ⟨u1, u2, u3⟩ := (T k hk.le).2.2 hk
    rcases hδ k hk with e | e
    · rcases hc with hc | hc
      · exact .inl (by rw [e]; exact hc)
      · right; rw [u3, e, hc]; ring
    · exact .inl e
  intro k
  induction k with
  | zero => intro hk; exact ⟨hδ0, key 0 hk hδ0⟩
  | succ k ih =>
    intro hk
    obtain ⟨i1, i2⟩ := ih (by omega)
    have hb := R.before_end (k + 1) hk
    have hc : δ ≤ hp (k + 1) ∨ hp (k + 1) = tf - tm (k + 1) := by
      obtain ⟨-, hs, h2, h3, h4⟩ := R.step k (by omega)
      obtain ⟨t1, t2, t3⟩ := T k (by omega)
      obtain ⟨p1, p2⟩ := t2 (R.before_end k (by omega))
      obtain ⟨-, -, -, q4, -⟩ := h2.size hd hm p1
      rw [h4]; unfold limitTo; simp only [id]
      split
      · exact .inr rfl
      · rcases i2 with i2 | i2
        · exact .inl (i2.trans q4)
        · exact absurd i2 hb.ne
    exact ⟨hc, key _ hk hc⟩

theorem AdaptiveRun.short {tf δ : K} {n : ℕ} {tm : ℕ → K} {st : ℕ → V} {hp hu : ℕ → K} (hd : cfg.decr_f < 1)
    (hm : 0 < cfg.minh) (R : AdaptiveRun Φ S cfg id tf n tm st hp hu) (h0 : tm 0 ≤ tf)
    (hp0 : tm 0 < tf → 0 < hp 0 ∧ tm 0 + hp 0 ≤ tf) (hδ : δ ≤ cfg.minh) : ∀ k, k < n → hu k = hp k ∨ δ ≤ hu k := by
  intro k hk
  obtain ⟨p1, p2⟩ := (R.times hd hm h0 hp0 k hk.le).2.1 (R.before_end k hk)
  obtain ⟨-, hs, h2, h3, h4⟩ := R.step k hk
  rcases (h2.size hd hm p1).2.2.1 with e | e
  · exact .inl e
  · exact .inr (hδ.trans e)

/-- Every step of a run except the last is at least `δ` long. -/
theorem AdaptiveRun.long {tf δ : K} {n : ℕ} {tm : ℕ → K} {st : ℕ → V} {hp hu : ℕ → K} (hd : cfg.decr_f < 1)
    (hm : 0 < cfg.minh) (R : AdaptiveRun Φ S cfg id tf n tm st hp hu) (h0 : tm 0 ≤ tf)
    (hp0 : tm 0 < tf → 0 < hp 0 ∧ tm 0 + hp 0 ≤ tf) (hδ : δ ≤ cfg.minh) (hδ0 : δ ≤ hp 0 ∨ hp 0 = tf - tm 0) :
    ∀ k, k < n → (δ ≤ hp k ∨ hp k = tf - tm k) ∧ (δ ≤ hu k ∨ tm (k + 1) = tf) :=
  R.long_of hd hm h0 hp0 (R.short hd hm h0 hp0 hδ) hδ0

/-- Number of steps of a run. -/
theorem AdaptiveRun.count_of {tf δ : K} {n : ℕ} {tm : ℕ → K} {st : ℕ → V} {hp hu : ℕ → K} (hd : cfg.decr_f < 1)
    (hm : 0 < cfg.minh) (R : AdaptiveRun Φ S cfg id tf n tm st hp hu) (h0 : tm 0 ≤ tf)
    (hp0 : tm 0 < tf → 0 < hp 0 ∧ tm 0 + hp 0 ≤ tf) (hδ : ∀ k, k < n → hu k = hp k ∨ δ ≤ hu k) (hδ0 : δ ≤ hp 0 ∨ hp 0 = tf - tm 0) :
    ((n : K) - 1) * δ ≤ tf - tm 0 ∨ δ < 0 := by
  rcases lt_or_ge δ 0 with hδp | hδp
  · exact .inr hδp
  left
  have T := R.times hd hm h0 hp0
  have Lg := R.long_of hd hm h0 hp0 hδ hδ0
  have key : ∀ k, k + 1 ≤ n → tm 0 + (k : K) * δ ≤ tm k := by
    intro k
    induction k with
    | zero => intro _; simp
    | succ k ih =>
      intro hk
      have := ih (by omega)
      obtain ⟨-, -, t3⟩ := T k (by omega)
      obtain ⟨-, -, u3⟩ := t3 (by omega)
      rcases (Lg k (by omega)).2 with h | h
      · rw [u3]; push_cast; linarith
      · exact absurd h (R.before_end (k + 1) (by omega)).ne
  cases n with
  | zero =>
    simp only [Nat.cast_zero]
    linarith
  | succ n =>
    have h1 := key n (le_refl _)
    have h2 := (T n (by omega)).1
    push_cast
    linarith

theorem AdaptiveRun.count {tf δ : K} {n : ℕ} {tm : ℕ → K} {st : ℕ → V} {hp hu : ℕ → K} (hd : cfg.decr_f < 1)
    (hm : 0 < cfg.minh) (R : AdaptiveRun Φ S cfg id tf n tm st hp hu) (h0 : tm 0 ≤ tf)
    (hp0 : tm 0 < tf → 0 < hp 0 ∧ tm 0 + hp 0 ≤ tf) (hδp : 0 ≤ δ) (hδ : δ ≤ cfg.minh) (hδ0 : δ ≤ hp 0 ∨ hp 0 = tf - tm 0) :
    ((n : K) - 1) * δ ≤ tf - tm 0 := by
  rcases R.count_of hd hm h0 hp0 (R.short hd hm h0 hp0 hδ) hδ0 with h | h
  · exact h
  · exact absurd h (not_lt.mpr hδp)

/-! ### A step succeeds if small trials are accepted -/

theorem RejectsTo.size_le (hd : 0 < cfg.decr_f) {j : ℕ} {h a : K} (hh : 0 < h) (hr : RejectsTo Φ S cfg id u j h a) :
    0 < a ∧ a ≤ max (1 / 4) cfg.decr_f ^ j * h := by
  induction hr with
  | zero => exact ⟨hh, by simp⟩
  | @succ j h h' r hr hok hna hmin ih =>
    obtain ⟨i1, i2⟩ := ih hh
    obtain ⟨s1, s2⟩ := shrink_mem cfg.decr_f (S r)
    have s0 : 0 < shrink cfg.decr_f (S r) := lt_of_lt_of_le (lt_min (by norm_num) hd) s1
    simp only [id]
    refine ⟨mul_pos s0 i1, ?_⟩
    rw [pow_succ', mul_assoc]
    exact mul_le_mul s2 i2 i1.le (s0.le.trans s2)

/-- If no trial up to the proposed size `h` raises and every trial up to size `b` is accepted, the step succeeds, provided the minimum
size is below `b` by one reduction and 50 reductions of `h` reach `b`. -/
theorem StepSpec.live {h b : K} (hd : 0 < cfg.decr_f) (hd1 : cfg.decr_f < 1) (h0 : 0 < h) (hb : 0 < b)
    (hmin : cfg.minh ≤ min (1 / 4) cfg.decr_f * b) (hpow : max (1 / 4) cfg.decr_f ^ 50 * h ≤ b)
    (hok : ∀ h', 0 < h' → h' ≤ h → ∃ r, Φ h' u = .ok r)
    (hacc : ∀ h' r, 0 < h' → h' ≤ h → h' ≤ b → Φ h' u = .ok r → Acceptable (S r)) {R : Except PyErr (V × K × K)}
    (hR : StepSpec Φ S cfg id u h R) : ∃ v hu hg, R = .ok (v, hu, hg) ∧ (hu = h ∨ min (1 / 4) cfg.decr_f * b ≤ hu) := by
  have hk : 0 < min (1 / 4) cfg.decr_f := lt_min (by norm_num) hd
  have hle : ∀ {j a}, RejectsTo Φ S cfg id u j h a → 0 < a ∧ a ≤ h := fun {j a} hr => by
    obtain ⟨a1, a2⟩ := hr.size_le hd h0
    refine ⟨a1, a2.trans (mul_le_of_le_one_left h0.le (pow_le_one₀ ?_ (max_le (by norm_num) hd1.le)))⟩
    exact (show (0 : K) ≤ 1 / 4 by norm_num).trans (le_max_left _ _)
  have hbig : ∀ {h' r}, 0 < h' → h' ≤ h → Φ h' u = .ok r → ¬ Acceptable (S r) → b < h' := fun {h' r} a1 a2 a3 a4 => by
    by_contra hc
    exact a4 (hacc h' r a1 a2 (not_lt.mp hc) a3)
  have hsh : ∀ {h' : K} (x : Ext K), b < h' → min (1 / 4) cfg.decr_f * b ≤ shrink cfg.decr_f x * h' := fun {h'} x a1 =>
    mul_le_mul (shrink_mem cfg.decr_f x).1 a1.le hb.le (hk.le.trans (shrink_mem cfg.decr_f x).1)
  cases hR with
  | @accept j h' x r hj hrej hr hx h1 =>
    refine ⟨_, _, _, rfl, ?_⟩
    cases hrej with
    | zero => exact .inl rfl
    | @succ j _ h'' r' hrej hr' hna hmin' => exact .inr (hsh _ (hbig (hle hrej).1 (hle hrej).2 hr' hna))
  | minStep hj hrej hr hna hlt =>
    exact absurd (hmin.trans (hsh _ (hbig (hle hrej).1 (hle hrej).2 hr hna))) (not_le.mpr hlt)
  | maxLoops hrej hr hna =>
    exact absurd (hbig (hle hrej).1 (hle hrej).2 hr hna) (not_lt.mpr ((hrej.size_le hd h0).2.trans hpow))
  | raised hj hrej hr =>
    obtain ⟨r, hr'⟩ := hok _ (hle hrej).1 (hle hrej).2
    rw [hr] at hr'; exact absurd hr' (by simp)

end Verif
