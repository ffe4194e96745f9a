import Verif.Props.AdaptiveEvolve
import Verif.Lemmas.Float64

/-!
# The clock of adaptive runs in binary64 (property C62)

Times and step sizes are binary64 numbers and every operation on them is rounded (`rnd64`); arrays are exact.
-/

set_option linter.unusedSectionVars false

namespace Verif

/-! ### Step sizes -/

section generic

variable {V : Type} {Φ : ℝ → V → Except PyErr (V × V)} {S : V × V → Ext ℝ} {cfg : SolverConfig ℝ} {u : V}

theorem RejectsTo.size64 (hd : cfg.decr_f < 1) (hm : 0 < cfg.minh) {j : ℕ} {h a : ℝ} (hh : 0 < h) (hF : IsF64 h)
    (hr : RejectsTo Φ S cfg rnd64 u j h a) : 0 < a ∧ IsF64 a ∧ a ≤ h ∧ (a = h ∨ cfg.minh ≤ a) := by
  induction hr with
  | zero => exact ⟨hh, hF, le_rfl, .inl rfl⟩
  | @succ j h h' r hr hok hna hmin ih =>
    obtain ⟨i1, i2, i3, -⟩ := ih hh hF
    refine ⟨hm.trans_le hmin, isF64_rnd _, (rnd64_le_of_le i2 ?_).trans i3, .inr hmin⟩
    have := shrink_lt_one hd (S r)
    nlinarith

theorem StepSpec.size64 (hd : cfg.decr_f < 1) (hm : 0 < cfg.minh) {h : ℝ} (hh : 0 < h) (hF : IsF64 h) {v : V} {hu hs : ℝ}
    (hr : StepSpec Φ S cfg rnd64 u h (.ok (v, hu, hs))) :
    0 < hu ∧ IsF64 hu ∧ hu ≤ h ∧ (hu = h ∨ cfg.minh ≤ hu) ∧ hu ≤ hs ∧ IsF64 hs := by
  generalize hR : (Except.ok (v, hu, hs) : Except PyErr (V × ℝ × ℝ)) = R at hr
  cases hr with
  | @accept j h' x r hj hrej hok hx h1 =>
    simp only [Except.ok.injEq, Prod.mk.injEq] at hR
    obtain ⟨rfl, rfl, rfl⟩ := hR
    obtain ⟨a1, a2, a3, a4⟩ := hrej.size64 hd hm hh hF
    exact ⟨a1, a2, a3, a4, rnd64_ge_of_ge a2 (grow_bounds (i := cfg.incr_f) h1 a1).1, isF64_rnd _⟩
  | _ => simp at hR

/-- A proposed size: positive, binary64, and not beyond `tf` unless it is the rounded rest of the interval. -/
def Proposal64 (tf t h : ℝ) : Prop := 0 < h ∧ IsF64 h ∧ (rnd64 (t + h) ≤ tf ∨ h = rnd64 (tf - t))

theorem proposal64_limitTo {tf t h : ℝ} (ht : t < tf) (h0 : 0 < h) (hF : IsF64 h) : Proposal64 tf t (limitTo rnd64 t tf h) := by
  unfold limitTo
  split
  · exact ⟨rnd64_pos' (by linarith), isF64_rnd _, .inr rfl⟩
  · exact ⟨h0, hF, .inl (by linarith)⟩

/-- The times of a run. -/
theorem AdaptiveRun.clock64 {tf : ℝ} {n : ℕ} {tm : ℕ → ℝ} {st : ℕ → V} {hp hu : ℕ → ℝ} (hd : cfg.decr_f < 1)
    (hm : 0 < cfg.minh) (R : AdaptiveRun Φ S cfg rnd64 tf n tm st hp hu) (h0 : IsF64 (tm 0))
    (hp0 : tm 0 < tf → Proposal64 tf (tm 0) (hp 0)) :
    ∀ k, k ≤ n → IsF64 (tm k) ∧ tm 0 ≤ tm k ∧ (tm k < tf → Proposal64 tf (tm k) (hp k)) ∧
      (k < n → 0 < hu k ∧ IsF64 (hu k) ∧ hu k ≤ hp k ∧ (hu k = hp k ∨ cfg.minh ≤ hu k) ∧ tm (k + 1) = rnd64 (tm k + hu k) ∧
        tm k ≤ tm (k + 1) ∧ ∃ hs, hu k ≤ hs ∧ hp (k + 1) = limitTo rnd64 (tm (k + 1)) tf hs) := by
  have key : ∀ k, k < n → IsF64 (tm k) → Proposal64 tf (tm k) (hp k) → 0 < hu k ∧ IsF64 (hu k) ∧ hu k ≤ hp k ∧
      (hu k = hp k ∨ cfg.minh ≤ hu k) ∧ tm (k + 1) = rnd64 (tm k + hu k) ∧ tm k ≤ tm (k + 1) ∧
        ∃ hs, hu k ≤ hs ∧ hp (k + 1) = limitTo rnd64 (tm (k + 1)) tf hs := by
    intro k hk hF hP
    obtain ⟨-, hs, a2, a3, a4⟩ := R.step k hk
    obtain ⟨b1, b2, b3, b4, b5, b6⟩ := a2.size64 hd hm hP.1 hP.2.1
    exact ⟨b1, b2, b3, b4, a3, by rw [a3]; exact rnd64_ge_of_ge hF (by linarith), hs, b5, a4⟩
  intro k
  induction k with
  | zero => exact fun _ => ⟨h0, le_rfl, hp0, fun hn => key 0 hn h0 (hp0 (R.before_end 0 hn))⟩
  | succ k ih =>
    intro hk
    obtain ⟨i1, i2, i3, i4⟩ := ih (by omega)
    obtain ⟨b1, b2, b3, b4, b5, b6, -⟩ := i4 (by omega)
    have hF : IsF64 (tm (k + 1)) := by rw [b5]; exact isF64_rnd _
    have hP : tm (k + 1) < tf → Proposal64 tf (tm (k + 1)) (hp (k + 1)) := by
      intro hlt
      obtain ⟨-, hs, a2, a3, a4⟩ := R.step k (by omega)
      have hPk := i3 (R.before_end k (by omega))
      obtain ⟨c1, -, -, -, c5, c6⟩ := a2.size64 hd hm hPk.1 hPk.2.1
      rw [a4]
      exact proposal64_limitTo hlt (by linarith) c6
    exact ⟨hF, i2.trans b6, hP, fun hn => key _ hn hF (hP (R.before_end _ hn))⟩

/-- Where a step of a run ends. -/
theorem Proposal64.end_le {tf t h hu : ℝ} (hP : Proposal64 tf t h) (hle : hu ≤ h) :
    rnd64 (t + hu) ≤ tf ∨ rnd64 (t + hu) ≤ rnd64 (t + rnd64 (tf - t)) := by
  rcases hP.2.2 with h1 | h1
  · exact .inl ((rnd64_mono (by linarith)).trans h1)
  · exact .inr (rnd64_mono (by linarith))

/-- The relative error of the last time, in general. -/
theorem rest64_general {tf t t0 : ℝ} (h0 : t0 ≤ t) (ht : t < tf) :
    rnd64 (t + rnd64 (tf - t)) - tf ≤ 1 / 2 ^ 53 * (1 + 1 / 2 ^ 53) * (tf - t0) + 1 / 2 ^ 53 * |tf| := by
  have a1 := rnd64_error (tf - t)
  rw [abs_of_pos (show 0 < tf - t by linarith), abs_le] at a1
  have a2 := rnd64_error (t + rnd64 (tf - t))
  rw [abs_le] at a2
  have a3 : |t + rnd64 (tf - t)| ≤ |tf| + 1 / 2 ^ 53 * (tf - t) := by
    have : |rnd64 (tf - t) - (tf - t)| ≤ 1 / 2 ^ 53 * (tf - t) := abs_le.mpr a1
    calc |t + rnd64 (tf - t)| = |tf + (rnd64 (tf - t) - (tf - t))| := by ring_nf
      _ ≤ _ := (abs_add_le _ _).trans (by linarith)
  have a4 : (1 : ℝ) / 2 ^ 53 * (1 + 1 / 2 ^ 53) * (tf - t) ≤ 1 / 2 ^ 53 * (1 + 1 / 2 ^ 53) * (tf - t0) := by
    apply mul_le_mul_of_nonneg_left (by linarith) (by positivity)
  have a5 : (1 : ℝ) / 2 ^ 53 * |t + rnd64 (tf - t)| ≤ 1 / 2 ^ 53 * (|tf| + 1 / 2 ^ 53 * (tf - t)) :=
    mul_le_mul_of_nonneg_left a3 (by positivity)
  have a6 : (1 : ℝ) / 2 ^ 53 * (|tf| + 1 / 2 ^ 53 * (tf - t)) + 1 / 2 ^ 53 * (tf - t) =
    1 / 2 ^ 53 * (1 + 1 / 2 ^ 53) * (tf - t) + 1 / 2 ^ 53 * |tf| := by ring
  linarith [a1.2, a2.2]

/-- From a time within a factor of two of `tf` the rest is exact. -/
theorem rest64_exact {tf t : ℝ} (hF : IsF64 tf) (ht : IsF64 t) (hlt : t < tf) (hn : tf / 2 ≤ t ∨ 2 * tf ≤ t ∧ tf ≤ 0) :
    rnd64 (tf - t) = tf - t := by
  rcases hn with h | ⟨h, h'⟩
  · exact (ht.sub hF h hlt.le).rnd
  · have := (hF.neg.sub ht.neg (by linarith) (by linarith)).rnd
    rwa [show -t - -tf = tf - t by ring] at this

end generic

variable {ι : Type} [Fintype ι] [DecidableEq ι]

/-- First proposals in binary64. -/
theorem firstSize64 {t0 tf : ℝ} {hInit : Option ℝ} (ht : t0 < tf) (hpos : ∀ h, hInit = some h → 0 < h ∧ IsF64 h) :
    0 < hInit.getD (rnd64 (rnd64 (tf - t0) / 100)) ∧ Proposal64 tf t0 (ASClass.firstSize rnd64 t0 tf hInit) := by
  have h1 : 0 < hInit.getD (rnd64 (rnd64 (tf - t0) / 100)) ∧ IsF64 (hInit.getD (rnd64 (rnd64 (tf - t0) / 100))) := by
    cases hInit with
    | none => exact ⟨rnd64_pos' (div_pos (rnd64_pos' (by linarith)) (by norm_num)), isF64_rnd _⟩
    | some h => exact hpos h rfl
  exact ⟨h1.1, proposal64_limitTo ht h1.1 h1.2⟩

/-! ### C62 -/

/-- **C62.** The clock of a run that returns.  The times do not decrease and stay below `tf` until the last, which is at least `tf`.
It is `tf` if the time before was within a factor of two of `tf`; it is `tf` or the next binary64 number if `t0` is not negative; and
it exceeds `tf` by at most about `(tf - t0 + |tf|) / 2^53` in any case. -/
theorem C62_clock (m : ASSolver ι) (nl : NlFunc ι) (pyDiv : Bool) (cfg : SolverConfig ℝ) (hd : cfg.decr_f < 1) (hm : 0 < cfg.minh)
    (fuel : ℕ) (u v : Vec ι) (t0 tf : ℝ) (ht : t0 < tf) (F0 : IsF64 t0) (Ff : IsF64 tf) (hInit : Option ℝ)
    (hpos : ∀ h, hInit = some h → 0 < h ∧ IsF64 h) (storeData : Bool) (freq : ℤ) (hf : freq ≠ 0) (s : m.State)
    (hret : (m.evolve nl rnd64 pyDiv cfg fuel u t0 tf hInit storeData freq s).1 = .ok (some v)) :
    ∃ (n : ℕ) (tm : ℕ → ℝ), tm 0 = t0 ∧ (∀ k, k ≤ n → tm k ≤ tm (k + 1) ∧ tm k < tf) ∧ tf ≤ tm (n + 1) ∧
      (m.evolve nl rnd64 pyDiv cfg fuel u t0 tf hInit storeData freq s).2.tc = tm (n + 1) ∧
      (m.evolve nl rnd64 pyDiv cfg fuel u t0 tf hInit storeData freq s).2.t =
        (if storeData then (List.range ((n + 1) / freq.natAbs + 1)).map (fun j => tm (j * freq.natAbs)) else []) ∧
      (tf / 2 ≤ tm n ∨ 2 * tf ≤ tm n ∧ tf ≤ 0 → tm (n + 1) = tf) ∧
      (0 ≤ t0 → ∀ g, IsF64 g → tf < g → tm (n + 1) ≤ g) ∧
      tm (n + 1) - tf ≤ 1 / 2 ^ 53 * (1 + 1 / 2 ^ 53) * (tf - t0) + 1 / 2 ^ 53 * |tf| := by
  obtain ⟨n, tm, st, hp, hu, h1, h2, h3, h4, h5, h6, h7, h8⟩ := ASClass.evolve_run (m.lawful nl) rnd64 pyDiv cfg fuel u t0 tf
    hInit storeData freq s
  have T := h4.clock64 hd hm (by rw [h1]; exact F0) (by
    rw [h1, h3]; exact fun _ => (firstSize64 ht hpos).2)
  have hge : tf ≤ tm n := by
    change ASClass.LoopEnd _ _ _ _ _ _ _ _ _ _ _ _ _ _ (m.evolve nl rnd64 pyDiv cfg fuel u t0 tf hInit storeData freq s).1 at h7
    rw [hret] at h7
    cases h7 with
    | returned _ hge => exact not_lt.mp hge
  obtain ⟨n, rfl⟩ : ∃ k, n = k + 1 := by
    refine ⟨n - 1, ?_⟩
    rcases Nat.eq_zero_or_pos n with h | h
    · subst h; rw [h1] at hge; linarith
    · omega
  obtain ⟨a1, a2, a3, a4⟩ := T n (by omega)
  obtain ⟨b1, b2, b3, b4, b5, b6, -⟩ := a4 (by omega)
  have hlt := h4.before_end n (by omega)
  have hend := (a3 hlt).end_le b3
  rw [← b5] at hend
  refine ⟨n, tm, h1, fun k hk => ⟨((T k (by omega)).2.2.2 (by omega)).2.2.2.2.2.1, h4.before_end k (by omega)⟩, hge, h8 v hret, ?_, ?_, ?_, ?_⟩
  · rw [show (m.evolve nl rnd64 pyDiv cfg fuel u t0 tf hInit storeData freq s).2.t = _ from h5, storedUpTo_closed _ hf, List.map_map]; rfl
  · intro hn
    rw [rest64_exact Ff a1 hlt hn, add_sub_cancel, Ff.rnd, or_self] at hend
    exact le_antisymm hend hge
  · intro h0 g hg hlt'
    rcases hend with h | h
    · linarith
    · rw [h1] at a2
      exact h.trans (rnd64_le_of_le hg (Ff.add_rest_le (h0.trans a2) hlt hg hlt'))
  · rcases hend with h | h
    · have : 0 < tf - t0 := by linarith
      have : 0 ≤ 1 / 2 ^ 53 * (1 + 1 / 2 ^ 53) * (tf - t0) + 1 / 2 ^ 53 * |tf| := by positivity
      linarith
    · rw [h1] at a2
      have := rest64_general a2 hlt
      linarith

/-- **C62.** Termination for `0 ≤ t0`: if `min(h_init, minh)` is at least `2^-51 tf`, a run has at most
`2 (tf - t0) / min(h_init, minh) + 3` steps. -/
theorem C62_terminates (m : ASSolver ι) (nl : NlFunc ι) (pyDiv : Bool) (cfg : SolverConfig ℝ) (hd : cfg.decr_f < 1) (hm : 0 < cfg.minh)
    (fuel : ℕ) (u : Vec ι) (t0 tf : ℝ) (h0 : 0 ≤ t0) (ht : t0 < tf) (F0 : IsF64 t0) (Ff : IsF64 tf) (hInit : Option ℝ)
    (hpos : ∀ h, hInit = some h → 0 < h ∧ IsF64 h) (storeData : Bool) (freq : ℤ) (s : m.State) {δ : ℝ}
    (hδ : δ = min (hInit.getD (rnd64 (rnd64 (tf - t0) / 100))) cfg.minh) (hbig : tf / 2 ^ 51 ≤ δ)
    (hfuel : 2 * (tf - t0) / δ + 3 < fuel) :
    (∃ v, (m.evolve nl rnd64 pyDiv cfg fuel u t0 tf hInit storeData freq s).1 = .ok (some v)) ∨
    (∃ e, (m.evolve nl rnd64 pyDiv cfg fuel u t0 tf hInit storeData freq s).1 = .error e) := by
  obtain ⟨n, tm, st, hp, hu, h1, h2, h3, h4, h5, h6, h7, h8⟩ := ASClass.evolve_run (m.lawful nl) rnd64 pyDiv cfg fuel u t0 tf
    hInit storeData freq s
  obtain ⟨hi0, hP0⟩ := firstSize64 ht hpos
  have T := h4.clock64 hd hm (by rw [h1]; exact F0) (by rw [h1, h3]; exact fun _ => hP0)
  have hδ0 : 0 < δ := by rw [hδ]; exact lt_min hi0 hm
  have hδm : δ ≤ cfg.minh := by rw [hδ]; exact min_le_right _ _
  have htf : 0 < tf := by linarith
  -- lengths
  have hx : ∀ k, k < n → tm k + hu k ≤ 2 * tf := by
    intro k hk
    obtain ⟨a1, a2, a3, a4⟩ := T k hk.le
    obtain ⟨b1, b2, b3, b4, b5, b6, -⟩ := a4 hk
    have hlt := h4.before_end k hk
    rcases (a3 hlt).2.2 with h | h
    · by_contra hc
      have e1 : IsF64 (2 * tf) := by have := Ff.mul_zpow 1; rwa [zpow_one, mul_comm] at this
      have := rnd64_ge_of_ge e1 (show 2 * tf ≤ tm k + hp k by linarith)
      linarith
    · have : rnd64 (tf - tm k) ≤ tf := rnd64_le_of_le Ff (by rw [h1] at a2; linarith)
      linarith
  have hadv : ∀ k, k < n → δ ≤ hu k → tm k + δ / 2 ≤ tm (k + 1) := by
    intro k hk hl
    obtain ⟨a1, a2, a3, a4⟩ := T k hk.le
    obtain ⟨b1, b2, b3, b4, b5, b6, -⟩ := a4 hk
    have e1 := rnd64_error (tm k + hu k)
    rw [h1] at a2
    rw [abs_of_pos (show 0 < tm k + hu k by linarith), abs_le, ← b5] at e1
    have e2 := hx k hk
    have e3 : (1 : ℝ) / 2 ^ 53 * (tm k + hu k) ≤ tf / 2 ^ 51 / 2 := by
      have : tf / 2 ^ 51 / 2 = 1 / 2 ^ 53 * (2 * tf) := by ring
      rw [this]; exact mul_le_mul_of_nonneg_left e2 (by positivity)
    linarith [e1.1]
  -- a proposal is at least `δ` or the rest, until a short step
  have hprop : ∀ k, k < n → (∀ j, j < k → δ ≤ hu j) → δ ≤ hp k ∨ hp k = rnd64 (tf - tm k) := by
    intro k hk hj
    cases k with
    | zero =>
      rw [h3, h1]
      unfold ASClass.firstSize limitTo
      split
      · exact .inr rfl
      · left; rw [hδ]; exact min_le_left _ _
    | succ k =>
      obtain ⟨b1, b2, b3, b4, b5, b6, hs, b7, b8⟩ := (T k (by omega)).2.2.2 (by omega)
      rw [b8]
      unfold limitTo
      split
      · exact .inr rfl
      · exact .inl ((hj k (by omega)).trans b7)
  -- after a short step at most one more
  have hshort : ∀ k, k < n → (∀ j, j < k → δ ≤ hu j) → hu k < δ → n ≤ k + 2 := by
    intro k hk hj hs
    obtain ⟨a1, a2, a3, a4⟩ := T k hk.le
    obtain ⟨b1, b2, b3, b4, b5, b6, hs', b7, b8⟩ := a4 hk
    have hlt := h4.before_end k hk
    have huk : hu k = hp k := by
      rcases b4 with h | h
      · exact h
      · linarith
    have hpk : hp k = rnd64 (tf - tm k) := by
      rcases hprop k hk hj with h | h
      · linarith
      · exact h
    have hland : ∀ j, j < n → hu j = rnd64 (tf - tm j) → tf / 2 ≤ tm j → n ≤ j + 1 := by
      intro j hjn e1 e2
      obtain ⟨c1, -, -, c4⟩ := T j hjn.le
      obtain ⟨-, -, -, -, c5, -⟩ := c4 hjn
      rw [e1, rest64_exact Ff c1 (h4.before_end j hjn) (.inl e2), add_sub_cancel, Ff.rnd] at c5
      by_contra hc
      have := h4.before_end (j + 1) (by omega)
      linarith
    rcases le_or_gt (tf / 2) (tm k) with hc | hc
    · have := hland k hk (huk.trans hpk) hc
      omega
    · by_contra hn
      have hk1 : k + 1 < n := by omega
      -- the short step covers more than half of the interval
      have e1 : tf / 2 ≤ hu k := by
        rw [huk, hpk]
        have : IsF64 (tf / 2) := by have := Ff.mul_zpow (-1); rwa [zpow_neg_one, ← div_eq_mul_inv] at this
        exact rnd64_ge_of_ge this (by linarith)
      rw [h1] at a2
      have e2 : tf * (1 - 1 / 2 ^ 51) ≤ tm (k + 1) := by
        rw [b5, huk, hpk]
        have f1 := rnd64_error (tf - tm k)
        rw [abs_of_pos (show 0 < tf - tm k by linarith), abs_le] at f1
        have f2 := rnd64_error (tm k + rnd64 (tf - tm k))
        have f3 := hx k hk
        rw [huk, hpk] at f3
        have f4 : 0 ≤ rnd64 (tf - tm k) := rnd64_nonneg (by linarith)
        rw [abs_of_nonneg (show 0 ≤ tm k + rnd64 (tf - tm k) by linarith), abs_le] at f2
        have f5 : (1 : ℝ) / 2 ^ 53 * (tf - tm k) ≤ 1 / 2 ^ 53 * tf := mul_le_mul_of_nonneg_left (by linarith) (by positivity)
        have f6 : (1 : ℝ) / 2 ^ 53 * (tm k + rnd64 (tf - tm k)) ≤ 1 / 2 ^ 53 * (2 * tf) := mul_le_mul_of_nonneg_left f3 (by positivity)
        have f7 : tf * (1 - 1 / 2 ^ 51) = tf - 4 * (1 / 2 ^ 53 * tf) := by ring
        rw [f7]
        linarith [f1.1, f2.1, mul_pos (show (0 : ℝ) < 1 / 2 ^ 53 by positivity) htf]
      obtain ⟨c1, -, -, c4⟩ := T (k + 1) hk1.le
      obtain ⟨d1, -, d3, d4, -⟩ := c4 hk1
      have hlt1 := h4.before_end (k + 1) hk1
      have e3 : hp (k + 1) = rnd64 (tf - tm (k + 1)) := by
        rw [b8]
        unfold limitTo
        rw [if_pos]
        have g1 : tf * (5 / 4) ≤ tm (k + 1) + hs' := by
          have : tf * (1 - 1 / 2 ^ 51) + tf / 2 ≤ tm (k + 1) + hs' := by linarith
          have e : tf * (5 / 4) ≤ tf * (1 - 1 / 2 ^ 51) + tf / 2 := by nlinarith
          linarith
        have g2 := rnd64_error (tm (k + 1) + hs')
        rw [abs_of_pos (show 0 < tm (k + 1) + hs' by linarith), abs_le] at g2
        have : tf < (tm (k + 1) + hs') * (1 - 1 / 2 ^ 53) := by nlinarith
        linarith [g2.1]
      have e4 : hu (k + 1) = hp (k + 1) := by
        rcases d4 with h | h
        · exact h
        · have : hp (k + 1) ≤ hu k := by
            rw [e3]
            refine rnd64_le_of_le b2 ?_
            have : tf - tm (k + 1) ≤ tf / 2 := by nlinarith
            linarith
          linarith
      exact hn (hland (k + 1) hk1 (e4.trans e3) (by nlinarith))
  -- counting
  have hcount : (n : ℝ) ≤ 2 * (tf - t0) / δ + 3 := by
    by_cases hall : ∀ j, j + 1 < n → δ ≤ hu j
    · have key : ∀ k, k + 1 ≤ n → t0 + (k : ℝ) * (δ / 2) ≤ tm k := by
        intro k
        induction k with
        | zero => intro _; simp [h1]
        | succ k ih =>
          intro hk
          have := ih (by omega)
          have := hadv k (by omega) (hall k (by omega))
          push_cast; linarith
      cases n with
      | zero =>
        have : 0 ≤ 2 * (tf - t0) / δ := div_nonneg (by linarith) hδ0.le
        push_cast; linarith
      | succ n =>
        have k1 := key n le_rfl
        have k2 := h4.before_end n (by omega)
        have : (n : ℝ) ≤ 2 * (tf - t0) / δ := by rw [le_div_iff₀ hδ0]; linarith
        push_cast; linarith
    · push Not at hall
      classical
      have hex : ∃ j, j + 1 < n ∧ hu j < δ := hall
      set k := Nat.find hex with hk
      obtain ⟨k1, k2⟩ := Nat.find_spec hex
      have kmin : ∀ j, j < k → δ ≤ hu j := by
        intro j hj
        by_contra hc
        exact Nat.find_min hex hj ⟨by omega, not_le.mp hc⟩
      have hle := hshort k (by omega) kmin k2
      have key : ∀ i, i ≤ k → t0 + (i : ℝ) * (δ / 2) ≤ tm i := by
        intro i
        induction i with
        | zero => intro _; simp [h1]
        | succ i ih =>
          intro hi
          have := ih (by omega)
          have := hadv i (by omega) (kmin i (by omega))
          push_cast; linarith
      have k3 := key k le_rfl
      have k4 := h4.before_end k (by omega)
      have k5 : (k : ℝ) ≤ 2 * (tf - t0) / δ := by rw [le_div_iff₀ hδ0]; linarith
      have : (n : ℝ) ≤ k + 2 := by exact_mod_cast hle
      linarith
  cases hr : (m.evolve nl rnd64 pyDiv cfg fuel u t0 tf hInit storeData freq s).1 with
  | error e => exact .inr ⟨e, rfl⟩
  | ok o =>
    cases o with
    | some v => exact .inl ⟨v, rfl⟩
    | none =>
      exfalso
      change ASClass.LoopEnd _ _ _ _ _ _ _ _ _ _ _ _ _ _ (m.evolve nl rnd64 pyDiv cfg fuel u t0 tf hInit storeData freq s).1 at h7
      rw [hr] at h7
      cases h7 with
      | running hn =>
        rw [hn] at hcount
        linarith

/-- **C62.** Without such a lower bound a run need not end: if a step `h` does not change the clock and from a set of states all steps of
size `h` are accepted and suggest `h` again, `evolve` is still running after any number of steps. -/
theorem C62_stagnation (m : ASSolver ι) (nl : NlFunc ι) (pyDiv : Bool) (cfg : SolverConfig ℝ) (u : Vec ι) (t0 tf h : ℝ) (ht : t0 < tf)
    (h0 : 0 < h) (hstay : rnd64 (t0 + h) = t0) (P : Vec ι → Prop) (hPu : P u)
    (hacc : ∀ w, P w → ∃ w', (m.step nl rnd64 cfg w h m.new).1 = .ok (w', h, h) ∧ P w') (storeData : Bool) (freq : ℤ)
    (hf : storeData = true → freq ≠ 0) (hz : pyDiv = true → tf ≠ 0) (s : m.State) (fuel : ℕ) :
    (m.evolve nl rnd64 pyDiv cfg fuel u t0 tf (some h) storeData freq s).1 = .ok none := by
  obtain ⟨n, tm, st, hp, hu, h1, h2, h3, h4, h5, h6, h7, h8⟩ := ASClass.evolve_run (m.lawful nl) rnd64 pyDiv cfg fuel u t0 tf
    (some h) storeData freq s
  have key : ∀ k, k ≤ n → tm k = t0 ∧ hp k = h ∧ P (st k) := by
    intro k
    induction k with
    | zero =>
      intro _
      refine ⟨h1, ?_, by rw [h2]; exact hPu⟩
      rw [h3]; unfold ASClass.firstSize limitTo
      rw [Option.getD_some, hstay, if_neg (by linarith)]
    | succ k ih =>
      intro hk
      obtain ⟨i1, i2, i3⟩ := ih (by omega)
      obtain ⟨a1, hs, a2, a3, a4⟩ := h4.step k (by omega)
      have a2' := (m.stepSpec_iff nl rnd64 cfg _ _ a1 _).mp a2
      obtain ⟨w', b1, b2⟩ := hacc _ i3
      rw [i2, b1] at a2'
      simp only [Except.ok.injEq, Prod.mk.injEq] at a2'
      obtain ⟨e1, e2, e3⟩ := a2'
      have htm : tm (k + 1) = t0 := by rw [a3, i1, ← e2, hstay]
      refine ⟨htm, ?_, by rw [← e1]; exact b2⟩
      rw [a4, htm, ← e3]
      unfold limitTo
      rw [hstay, if_neg (by linarith)]
  obtain ⟨k1, k2, k3⟩ := key n le_rfl
  change ASClass.LoopEnd _ _ _ _ _ _ _ _ _ _ _ _ _ _ (m.evolve nl rnd64 pyDiv cfg fuel u t0 tf (some h) storeData freq s).1 at h7
  rw [k1, k2] at h7
  obtain ⟨w', b1, b2⟩ := hacc _ k3
  generalize (m.evolve nl rnd64 pyDiv cfg fuel u t0 tf (some h) storeData freq s).1 = R at h7
  cases h7 with
  | running => rfl
  | returned _ hge => exact absurd ht hge
  | stepRaised _ _ a3 a4 =>
    have := (m.stepSpec_iff nl rnd64 cfg _ _ a3 _).mp a4
    rw [b1] at this; simp at this
  | negative _ _ a3 => linarith
  | zeroDiv _ _ _ _ a5 =>
    rcases a5 with a5 | a5
    · exact absurd a5.2.2 (hz a5.2.1)
    · exact absurd a5.2 (hf a5.1)

/-- **C62.** The run may end after `tf` also for positive times: from `t0 = 3/2^53` to `tf = 1 + 3/2^52` with `h_init = 2`, if the first
trial is accepted, the only step ends at the binary64 number following `tf`. -/
theorem C62_overshoot (m : ASSolver ι) (nl : NlFunc ι) (pyDiv : Bool) (cfg : SolverConfig ℝ) (u v : Vec ι) (hs : ℝ)
    (hstep : (m.step nl rnd64 cfg u (1 + 2 / 2 ^ 52) m.new).1 = .ok (v, 1 + 2 / 2 ^ 52, hs)) (s : m.State) :
    (m.evolve nl rnd64 pyDiv cfg 2 u (3 / 2 ^ 53) (1 + 3 / 2 ^ 52) (some 2) true 1 s).1 = .ok (some v) ∧
    (m.evolve nl rnd64 pyDiv cfg 2 u (3 / 2 ^ 53) (1 + 3 / 2 ^ 52) (some 2) true 1 s).2.t = [3 / 2 ^ 53, 1 + 4 / 2 ^ 52] := by
  obtain ⟨n, tm, st, hp, hu, h1, h2, h3, h4, h5, h6, h7, h8⟩ := ASClass.evolve_run (m.lawful nl) rnd64 pyDiv cfg 2 u (3 / 2 ^ 53)
    (1 + 3 / 2 ^ 52) (some 2) true 1 s
  have r1 : rnd64 (1 + 3 / 2 ^ 52 - 3 / 2 ^ 53) = 1 + 2 / 2 ^ 52 := by
    rw [rnd64_eq_even (N := 2 ^ 52 + 2) (-52) (by decide) (by norm_num) (by norm_num) (by norm_num) (by norm_num)]; norm_num
  have r2 : rnd64 (3 / 2 ^ 53 + (1 + 2 / 2 ^ 52)) = 1 + 4 / 2 ^ 52 := by
    rw [rnd64_eq_even (N := 2 ^ 52 + 4) (-52) (by decide) (by norm_num) (by norm_num) (by norm_num) (by norm_num)]; norm_num
  have r3 : rnd64 (3 / 2 ^ 53 + 2) = 2 + 1 / 2 ^ 51 := by
    rw [rnd64_eq (N := 2 ^ 52 + 1) (-51) (by norm_num) (by norm_num) (by norm_num) (by norm_num)]; norm_num
  have hp0 : hp 0 = 1 + 2 / 2 ^ 52 := by
    rw [h3]; unfold ASClass.firstSize limitTo
    rw [Option.getD_some, r3, if_pos (by norm_num), r1]
  have hfirst : 0 < n → tm 1 = 1 + 4 / 2 ^ 52 ∧ st 1 = v := by
    intro hn
    obtain ⟨a1, hs', a2, a3, a4⟩ := h4.step 0 hn
    have a2' := (m.stepSpec_iff nl rnd64 cfg _ _ a1 _).mp a2
    rw [h2, hp0, hstep] at a2'
    simp only [Except.ok.injEq, Prod.mk.injEq] at a2'
    rw [h1, ← a2'.2.1] at a3
    exact ⟨by rw [a3, r2], a2'.1.symm⟩
  have hn : n ≤ 1 := by
    by_contra hc
    have := h4.before_end 1 (by omega)
    rw [(hfirst (by omega)).1] at this
    norm_num at this
  have hn1 : n = 1 := by
    by_contra hc
    obtain rfl : n = 0 := by omega
    rw [h1, h2, hp0] at h7
    change ASClass.LoopEnd _ _ _ _ _ _ _ _ _ _ _ _ _ _ (m.evolve nl rnd64 pyDiv cfg 2 u (3 / 2 ^ 53) (1 + 3 / 2 ^ 52) (some 2) true 1 s).1 at h7
    generalize (m.evolve nl rnd64 pyDiv cfg 2 u (3 / 2 ^ 53) (1 + 3 / 2 ^ 52) (some 2) true 1 s).1 = R at h7
    cases h7 with
    | running hf => omega
    | returned _ hge => norm_num at hge
    | stepRaised _ _ a3 a4 =>
      have := (m.stepSpec_iff nl rnd64 cfg _ _ a3 _).mp a4
      rw [hstep] at this; simp at this
    | negative _ _ a3 => norm_num at a3
    | zeroDiv _ _ _ _ a5 =>
      rcases a5 with a5 | a5
      · have := a5.1; omega
      · simp at a5
  subst hn1
  obtain ⟨g1, g2⟩ := hfirst one_pos
  constructor
  · change ASClass.LoopEnd _ _ _ _ _ _ _ _ _ _ _ _ _ _ (m.evolve nl rnd64 pyDiv cfg 2 u (3 / 2 ^ 53) (1 + 3 / 2 ^ 52) (some 2) true 1 s).1 at h7
    rw [g1, g2] at h7
    generalize (m.evolve nl rnd64 pyDiv cfg 2 u (3 / 2 ^ 53) (1 + 3 / 2 ^ 52) (some 2) true 1 s).1 = R at h7
    cases h7 with
    | running hf => omega
    | returned _ hge => rfl
    | stepRaised _ a2 => norm_num at a2
    | negative _ a2 => norm_num at a2
    | zeroDiv _ a2 => norm_num at a2
  · rw [show (m.evolve nl rnd64 pyDiv cfg 2 u (3 / 2 ^ 53) (1 + 3 / 2 ^ 52) (some 2) true 1 s).2.t = _ from h5, if_pos rfl,
      storedUpTo_closed _ one_ne_zero]
    simp [List.range_succ, h1, g1]

/-! ### Examples -/

/-- The factors of `u' = u` with IF34. -/
theorem demo_factor (cfg : SolverConfig ℝ) (he : cfg.epsilon = 1) (hs : cfg.safety_f = 1) (hc : cfg.adapt_cutoff < 1) {h : ℝ}
    (h0 : 0 < h) (h2 : h < 2) {u : Vec (Fin 1)} (hu : u 0 ≠ 0) :
    ∃ x, 1 ≤ x ∧ demo.factor (fun x => .ok x) cfg ((1 + h + h ^ 2 / 2 + h ^ 3 / 6 + h ^ 4 / 24 : ℂ) • u,
      (h / 6 * (h ^ 3 / 12 - h ^ 4 / 24) : ℂ) • u) = .fin x := by
  have e1 : (1 + h + h ^ 2 / 2 + h ^ 3 / 6 + h ^ 4 / 24 : ℂ) = ((1 + h + h ^ 2 / 2 + h ^ 3 / 6 + h ^ 4 / 24 : ℝ) : ℂ) := by push_cast; rfl
  have e2 : (h / 6 * (h ^ 3 / 12 - h ^ 4 / 24) : ℂ) = ((h / 6 * (h ^ 3 / 12 - h ^ 4 / 24) : ℝ) : ℂ) := by push_cast; rfl
  rw [e1, e2]
  set p := 1 + h + h ^ 2 / 2 + h ^ 3 / 6 + h ^ 4 / 24 with hp
  set e := h / 6 * (h ^ 3 / 12 - h ^ 4 / 24) with he'
  have e3 : e = h ^ 4 * (2 - h) / 144 := by rw [he']; ring
  have p0 : 0 < p := by positivity
  have e0 : 0 < e := by
    rw [e3]; have : 0 < 2 - h := by linarith
    positivity
  have hle : e ≤ p := by
    have : 0 ≤ h ^ 4 := by positivity
    have h5 : 0 ≤ h ^ 5 := by positivity
    have : e = h ^ 4 / 72 - h ^ 5 / 144 := by rw [e3]; ring
    have : 0 ≤ 1 + h + h ^ 2 / 2 + h ^ 3 / 6 := by positivity
    linarith
  have hf := factor_one 4 cfg hc (by rw [he]; norm_num) ((p : ℂ) • u) ((e : ℂ) • u) (by simp [p0.ne', hu]) (by simp [e0.ne', hu])
  refine ⟨_, ?_, hf⟩
  rw [he, hs, one_mul, one_mul]
  apply Real.one_le_rpow _ (by norm_num)
  simp only [Pi.smul_apply, smul_eq_mul, norm_mul, Complex.norm_real, Real.norm_of_nonneg p0.le, Real.norm_of_nonneg e0.le]
  have hn : 0 < ‖u 0‖ := norm_pos_iff.mpr hu
  rw [le_div_iff₀ (by positivity), one_mul]
  exact mul_le_mul_of_nonneg_right hle hn.le

/-- Its trials are accepted at once. -/
theorem demo_step64 (cfg : SolverConfig ℝ) (he : cfg.epsilon = 1) (hs : cfg.safety_f = 1) (hc : cfg.adapt_cutoff < 1) {h : ℝ}
    (h0 : 0 < h) (h2 : h < 2) {u : Vec (Fin 1)} (hu : u 0 ≠ 0) :
    ∃ x, 1 ≤ x ∧ (demo.step (fun x => .ok x) rnd64 cfg u h demo.new).1 =
      .ok ((1 + h + h ^ 2 / 2 + h ^ 3 / 6 + h ^ 4 / 24 : ℂ) • u, h, rnd64 (grow cfg.incr_f x h)) := by
  obtain ⟨x, hx, hf⟩ := demo_factor cfg he hs hc h0 h2 hu
  refine ⟨x, hx, ?_⟩
  rw [← demo.stepSpec_iff _ _ _ _ _ h0.le]
  exact StepSpec.accept (Φ := demo.oneTrial fun x => .ok x) (S := demo.factor (fun x => .ok x) cfg) (j := 0) (by norm_num) (.zero h)
    (demo_trial h u) hf hx

/-- A run that ends after `tf`. -/
example (s : demo.State) : ∃ v, (demo.evolve (fun x => .ok x) rnd64 false demoCfg 2 1 (3 / 2 ^ 53) (1 + 3 / 2 ^ 52) (some 2) true 1 s).1 = .ok (some v) ∧
    (demo.evolve (fun x => .ok x) rnd64 false demoCfg 2 1 (3 / 2 ^ 53) (1 + 3 / 2 ^ 52) (some 2) true 1 s).2.t = [3 / 2 ^ 53, 1 + 4 / 2 ^ 52] := by
  obtain ⟨x, -, hx⟩ := demo_step64 demoCfg rfl rfl (by norm_num [demoCfg]) (h := 1 + 2 / 2 ^ 52) (by norm_num) (by norm_num) (u := 1) (by simp)
  exact ⟨_, C62_overshoot demo _ false demoCfg 1 _ _ hx s⟩

/-- A run that never ends: with `incr_f = 5` the step size is never increased, and `1 + 2^-60` rounds to 1. -/
example (s : demo.State) (fuel : ℕ) :
    (demo.evolve (fun x => .ok x) rnd64 true { demoCfg with incr_f := 5 } fuel 1 1 2 (some (1 / 2 ^ 60)) true 1 s).1 = .ok none := by
  refine C62_stagnation demo _ true _ 1 1 2 (1 / 2 ^ 60) (by norm_num) (by positivity) ?_ (fun w => w 0 ≠ 0) (by simp) ?_ true 1 (by simp)
    (by simp) s fuel
  · rw [rnd64_eq (N := 2 ^ 52) (-52) (by norm_num) (by norm_num) (by norm_num) (by norm_num)]
    norm_num
  · intro w hw
    obtain ⟨x, h1, hx⟩ := demo_step64 { demoCfg with incr_f := 5 } rfl rfl (by norm_num [demoCfg]) (h := 1 / 2 ^ 60) (by positivity)
      (by norm_num) hw
    have hg : rnd64 (grow 5 x (1 / 2 ^ 60)) = 1 / 2 ^ 60 := by
      unfold grow
      rw [if_neg (by have := min_le_right x 4; linarith)]
      have := (isF64_zpow (-60)).rnd
      rw [show ((2 : ℝ) ^ (-60 : ℤ)) = 1 / 2 ^ 60 by norm_num] at this
      exact this
    refine ⟨_, hx.trans (by rw [show (grow ({ demoCfg with incr_f := 5 } : SolverConfig ℝ).incr_f x (1 / 2 ^ 60)) = grow 5 x (1 / 2 ^ 60) from rfl, hg]), ?_⟩
    have p0 : (0 : ℝ) < 1 + (1 / 2 ^ 60) + (1 / 2 ^ 60) ^ 2 / 2 + (1 / 2 ^ 60) ^ 3 / 6 + (1 / 2 ^ 60) ^ 4 / 24 := by positivity
    have : (1 + ((1 / 2 ^ 60 : ℝ) : ℂ) + ((1 / 2 ^ 60 : ℝ) : ℂ) ^ 2 / 2 + ((1 / 2 ^ 60 : ℝ) : ℂ) ^ 3 / 6 + ((1 / 2 ^ 60 : ℝ) : ℂ) ^ 4 / 24) ≠ 0 := by
      exact_mod_cast p0.ne'
    exact mul_ne_zero this hw

/-- The hypotheses of `C62_clock` are met by the run that ends after `tf`: its end is the smallest binary64 number after `tf`. -/
example (s : demo.State) (g : ℝ) (hg : IsF64 g) (hlt : 1 + 3 / 2 ^ 52 < g) :
    (demo.evolve (fun x => .ok x) rnd64 false demoCfg 2 1 (3 / 2 ^ 53) (1 + 3 / 2 ^ 52) (some 2) true 1 s).2.tc ≤ g := by
  obtain ⟨x, -, hx⟩ := demo_step64 demoCfg rfl rfl (by norm_num [demoCfg]) (h := 1 + 2 / 2 ^ 52) (by norm_num) (by norm_num) (u := 1) (by simp)
  obtain ⟨n, tm, -, -, -, h4, -, -, h7, -⟩ := C62_clock demo (fun x => .ok x) false demoCfg (by norm_num [demoCfg]) (by norm_num [demoCfg]) 2 1 _ (3 / 2 ^ 53)
    (1 + 3 / 2 ^ 52) (by norm_num) ⟨3, -53, by norm_num, by norm_num⟩ ⟨2 ^ 52 + 3, -52, by norm_num, by norm_num⟩ (some 2)
    (fun h e => by cases e; exact ⟨by norm_num, 1, 1, by norm_num, by norm_num⟩) true 1 one_ne_zero s
    (C62_overshoot demo _ false demoCfg 1 _ _ hx s).1
  rw [h4]
  exact h7 (by positivity) g hg hlt

/-- A run to which `C62_terminates` applies: at most `2^21 + 3` steps. -/
example (m : ASSolver ι) (nl : NlFunc ι) (u : Vec ι) (s : m.State) :
    (∃ v, (m.evolve nl rnd64 true { demoCfg with minh := 1 / 2 ^ 20 } (2 ^ 21 + 4) u 0 1 (some (1 / 2 ^ 10)) true 1 s).1 = .ok (some v)) ∨
    (∃ e, (m.evolve nl rnd64 true { demoCfg with minh := 1 / 2 ^ 20 } (2 ^ 21 + 4) u 0 1 (some (1 / 2 ^ 10)) true 1 s).1 = .error e) := by
  refine C62_terminates m nl true _ (by norm_num [demoCfg]) (by norm_num) _ u 0 1 le_rfl one_pos isF64_zero ⟨1, 0, by norm_num, by norm_num⟩ _
    (fun h e => by cases e; exact ⟨by norm_num, 1, -10, by norm_num, by norm_num⟩) true 1 s (δ := 1 / 2 ^ 20) ?_ (by norm_num) (by norm_num)
  rw [Option.getD_some, min_eq_right (by norm_num)]

end Verif
