import Verif.Lemmas.Spectral
import Mathlib.Tactic.NormNum
import Mathlib.Tactic.Linarith

/-!
# C47: what the derivative functions return and raise
-/

set_option linter.unusedSectionVars false
set_option linter.unusedSimpArgs false

namespace Verif

theorem shape_cases (s : List ℕ) : s = [] ∨ ∃ l N, s = l ++ [N] := by
  rcases s.eq_nil_or_concat with h | ⟨l, N, h⟩
  · exact Or.inl h
  · exact Or.inr ⟨l, N, by simpa using h⟩

/-- The value of `dx_rfft` at a valid order above zero, by the shapes. -/
theorem dxRfft_pos (kx u : NdArr ℝ) {i : ℤ} (hi : 0 < i) (hs : u.size ≠ 0) :
    (u.shape = [] ∧ dxRfft kx (.real u) (.int i) = .error .indexError) ∨
    ∃ l N, u.shape = l ++ [N] ∧ N ≠ 0 ∧ ((kx.shape ≠ l ++ [N / 2 + 1] ∧ dxRfft kx (.real u) (.int i) = .error .valueError) ∨
      (kx.shape = l ++ [N / 2 + 1] ∧ ∃ v, dxRfft kx (.real u) (.int i) = .ok v ∧ v.shape = u.shape)) := by
  rcases shape_cases u.shape with h | ⟨l, N, h⟩
  · left
    refine ⟨h, ?_⟩
    simp [dxRfft, npRfft, not_lt.2 hi.le, hi.ne', hs, h, bind, Except.bind]
  · right
    have hN : N ≠ 0 := by
      rintro rfl
      exact hs (by simp [NdArr.size, h])
    refine ⟨l, N, h, hN, ?_⟩
    by_cases hk : kx.shape = l ++ [N / 2 + 1]
    · right
      have hs0 : l.prod ≠ 0 := by
        intro h0
        exact hs (by simp [NdArr.size, h, h0])
      obtain ⟨v, h1, h2, -⟩ := dxRfft_ok hN hs0 hk h i.toNat
      rw [Int.toNat_of_nonneg hi.le] at h1
      exact ⟨hk, v, h1, by rw [h2, h]⟩
    · left
      refine ⟨hk, ?_⟩
      simp [dxRfft, npRfft, not_lt.2 hi.le, hi.ne', hs, h, bind, Except.bind, hN, NdArr.mapLines, hk, throw, throwThe,
        MonadExceptOf.throw]

/-- **C47.** `dx_rfft` raises `TypeError` exactly for an order that is not an integer, or a complex array with an order that
passed the sign check. -/
theorem C47_rfft_typeError (kx : NdArr ℝ) (u : NumArr) (n : PyVal ℝ) : dxRfft kx u n = .error .typeError ↔
    (∀ i, n ≠ .int i) ∨ ∃ i ≥ 0, n = .int i ∧ ∃ z, u = .cplx z := by
  rcases n with i | x | _
  · by_cases hi : i < 0
    · simp [dxRfft, hi]
    · rcases u with u | z
      · have h0 : ¬ ((∀ j, (PyVal.int i : PyVal ℝ) ≠ .int j) ∨ ∃ j ≥ 0, PyVal.int i = (PyVal.int j : PyVal ℝ) ∧ ∃ z, NumArr.real u = .cplx z) := by
          rintro (h | ⟨_, _, _, _, h⟩)
          · exact h i rfl
          · cases h
        refine iff_of_false ?_ h0
        by_cases hs : u.size = 0
        · simp [dxRfft, hi, hs]
        rcases (not_lt.1 hi).eq_or_lt with rfl | hi'
        · simp [dxRfft, hs]
        rcases dxRfft_pos kx u hi' hs with ⟨_, h⟩ | ⟨_, _, _, _, ⟨_, h⟩ | ⟨_, _, h, _⟩⟩ <;> rw [h] <;> simp
      · simp [dxRfft, hi, not_lt.1 hi]
  · simp [dxRfft]
  · simp [dxRfft]

/-- **C47.** `dx_rfft` raises `ValueError` exactly for a negative order, or — the array being real and not empty and the order
positive — wavenumbers whose shape is not that of the transform. -/
theorem C47_rfft_valueError (kx : NdArr ℝ) (u : NumArr) (n : PyVal ℝ) : dxRfft kx u n = .error .valueError ↔
    (∃ i < 0, n = .int i) ∨ ∃ i > 0, n = .int i ∧ ∃ x, u = .real x ∧ x.size ≠ 0 ∧ ∃ l N, x.shape = l ++ [N] ∧
      kx.shape ≠ l ++ [N / 2 + 1] := by
  rcases n with i | x | _
  · by_cases hi : i < 0
    · simp [dxRfft, hi]
    · have hneg : ∀ P : Prop, ((∃ j < 0, (PyVal.int i : PyVal ℝ) = .int j) ∨ P) ↔ P := by
        intro P
        refine or_iff_right ?_
        rintro ⟨j, hj, h⟩
        cases h
        exact hi hj
      rw [hneg]
      rcases u with u | z
      · by_cases hs : u.size = 0
        · refine iff_of_false (by simp [dxRfft, hi, hs]) ?_
          rintro ⟨_, _, _, x, hx, h, _⟩
          cases hx
          exact h hs
        rcases (not_lt.1 hi).eq_or_lt with rfl | hi'
        · refine iff_of_false (by simp [dxRfft, hs]) ?_
          rintro ⟨_, h, h', _⟩
          cases h'
          exact lt_irrefl _ h
        rcases dxRfft_pos kx u hi' hs with ⟨h0, h⟩ | ⟨l, N, h0, _, ⟨hk, h⟩ | ⟨hk, _, h, _⟩⟩
        · rw [h]
          refine iff_of_false (by simp) ?_
          rintro ⟨_, _, _, x, hx, _, l, N, h, _⟩
          cases hx
          rw [h0] at h
          simp at h
        · rw [h]
          exact iff_of_true rfl ⟨i, hi', rfl, u, rfl, hs, l, N, h0, hk⟩
        · rw [h]
          refine iff_of_false (by simp) ?_
          rintro ⟨_, _, _, x, hx, _, l', N', h, h'⟩
          cases hx
          rw [h0] at h
          obtain ⟨rfl, hNN⟩ := List.append_inj' h rfl
          obtain rfl := List.singleton_injective hNN
          exact h' hk
      · refine iff_of_false (by simp [dxRfft, hi]) ?_
        rintro ⟨_, _, _, x, hx, _⟩
        cases hx
  · simp [dxRfft]
  · simp [dxRfft]

/-- **C47.** Otherwise `dx_rfft` returns, except for a zero-dimensional array (`IndexError`): an empty array for an empty one,
the argument at order 0, an array of the shape of the argument at higher orders. -/
theorem C47_rfft_returns (kx u : NdArr ℝ) {i : ℤ} (hi : 0 ≤ i) :
    (u.size = 0 → ∃ v, dxRfft kx (.real u) (.int i) = .ok v ∧ v.shape = [0]) ∧
    (u.size ≠ 0 → i = 0 → dxRfft kx (.real u) (.int i) = .ok u) ∧
    (u.shape = [] → 0 < i → dxRfft kx (.real u) (.int i) = .error .indexError) ∧
    (∀ l N, u.size ≠ 0 → u.shape = l ++ [N] → kx.shape = l ++ [N / 2 + 1] →
      ∃ v, dxRfft kx (.real u) (.int i) = .ok v ∧ v.shape = u.shape) := by
  refine ⟨fun h => ⟨_, by simp only [dxRfft, not_lt.2 hi, h, if_false, if_true]; rfl, rfl⟩, fun h h' => ?_, fun h h' => ?_,
    fun l N hs h hk => ?_⟩
  · subst h'
    simp [dxRfft, h]
  · have hs : u.size ≠ 0 := by simp [NdArr.size, h]
    rcases dxRfft_pos kx u h' hs with ⟨_, h⟩ | ⟨_, _, h0, _⟩
    · exact h
    · rw [h] at h0; simp at h0
  · rcases hi.eq_or_lt with rfl | hi'
    · exact ⟨u, by simp [dxRfft, hs], rfl⟩
    · rcases dxRfft_pos kx u hi' hs with ⟨h0, _⟩ | ⟨l', N', h0, _, ⟨hk', _⟩ | ⟨_, hv⟩⟩
      · rw [h] at h0; simp at h0
      · rw [h] at h0
        obtain ⟨rfl, hNN⟩ := List.append_inj' h0 rfl
        obtain rfl := List.singleton_injective hNN
        exact absurd hk hk'
      · exact hv

theorem toComplex_shape (u : NumArr) : u.toComplex.shape = match u with | .real x => x.shape | .cplx z => z.shape := by
  cases u <;> rfl

/-- The value of `dx_fft` at a valid order above zero, by the shapes. -/
theorem dxFft_pos (kx : NdArr ℝ) (u : NumArr) {i : ℤ} (hi : 0 < i) :
    (u.toComplex.shape = [] ∧ dxFft kx u (.int i) = .error .indexError) ∨
    ∃ l N, u.toComplex.shape = l ++ [N] ∧ (((N = 0 ∨ kx.shape ≠ l ++ [N]) ∧ dxFft kx u (.int i) = .error .valueError) ∨
      (N ≠ 0 ∧ kx.shape = l ++ [N] ∧ ∃ v, dxFft kx u (.int i) = .ok (.cplx v) ∧ v.shape = l ++ [N])) := by
  rcases shape_cases u.toComplex.shape with h | ⟨l, N, h⟩
  · left
    refine ⟨h, ?_⟩
    simp [dxFft, npFft, not_lt.2 hi.le, hi.ne', h, bind, Except.bind]
  · right
    refine ⟨l, N, h, ?_⟩
    by_cases hN : N = 0
    · left
      refine ⟨Or.inl hN, ?_⟩
      subst hN
      simp [dxFft, npFft, not_lt.2 hi.le, hi.ne', h, bind, Except.bind]
    by_cases hk : kx.shape = l ++ [N]
    · right
      obtain ⟨v, h1, h2, -⟩ := dxFft_ok hN hk h i.toNat
      rw [Int.toNat_of_nonneg hi.le] at h1
      refine ⟨hN, hk, v, ?_, h2⟩
      rw [← h1]
      simp only [dxFft, hi.ne', if_false]
      rfl
    · left
      refine ⟨Or.inr hk, ?_⟩
      simp [dxFft, npFft, not_lt.2 hi.le, hi.ne', h, bind, Except.bind, hN, NdArr.mapLines, hk, throw, throwThe,
        MonadExceptOf.throw]

/-- **C47.** `dx_fft` raises `TypeError` exactly for an order that is not an integer. -/
theorem C47_fft_typeError (kx : NdArr ℝ) (u : NumArr) (n : PyVal ℝ) : dxFft kx u n = .error .typeError ↔ ∀ i, n ≠ .int i := by
  rcases n with i | x | _
  · have h0 : ¬ ∀ j, (PyVal.int i : PyVal ℝ) ≠ .int j := fun h => h i rfl
    refine iff_of_false ?_ h0
    rcases lt_trichotomy i 0 with hi | rfl | hi
    · simp [dxFft, hi]
    · simp [dxFft]
    · rcases dxFft_pos kx u hi with ⟨_, h⟩ | ⟨_, _, _, ⟨_, h⟩ | ⟨_, _, _, h, _⟩⟩ <;> rw [h] <;> simp
  · simp [dxFft]
  · simp [dxFft]

/-- **C47.** `dx_fft` raises `ValueError` exactly for a negative order, or — at a positive order — an empty last axis or
wavenumbers of another shape. -/
theorem C47_fft_valueError (kx : NdArr ℝ) (u : NumArr) (n : PyVal ℝ) : dxFft kx u n = .error .valueError ↔
    (∃ i < 0, n = .int i) ∨ ∃ i > 0, n = .int i ∧ ∃ l N, u.toComplex.shape = l ++ [N] ∧ (N = 0 ∨ kx.shape ≠ l ++ [N]) := by
  rcases n with i | x | _
  · rcases lt_trichotomy i 0 with hi | rfl | hi
    · simp [dxFft, hi]
    · simp [dxFft]
    · rcases dxFft_pos kx u hi with ⟨h0, h⟩ | ⟨l, N, h0, ⟨hk, h⟩ | ⟨hN, hk, _, h, _⟩⟩
      · rw [h]
        refine iff_of_false (by simp) ?_
        rintro (⟨j, hj, h⟩ | ⟨_, _, _, l, N, h, _⟩)
        · cases h; omega
        · rw [h0] at h; simp at h
      · rw [h]
        exact iff_of_true rfl (Or.inr ⟨i, hi, rfl, l, N, h0, hk⟩)
      · rw [h]
        refine iff_of_false (by simp) ?_
        rintro (⟨j, hj, h⟩ | ⟨_, _, _, l', N', h, h'⟩)
        · cases h; omega
        · rw [h0] at h
          obtain ⟨rfl, hNN⟩ := List.append_inj' h rfl
          obtain rfl := List.singleton_injective hNN
          exact h'.elim hN fun h => h hk
  · simp [dxFft]
  · simp [dxFft]

/-- **C47.** Otherwise `dx_fft` returns, except for a zero-dimensional array (`IndexError`): the argument itself at order 0
whatever the wavenumbers, a complex array of the shape of the argument — also of a real one — at higher orders. -/
theorem C47_fft_returns (kx : NdArr ℝ) (u : NumArr) {i : ℤ} (hi : 0 ≤ i) :
    (i = 0 → dxFft kx u (.int i) = .ok u) ∧
    (u.toComplex.shape = [] → 0 < i → dxFft kx u (.int i) = .error .indexError) ∧
    (∀ l N, N ≠ 0 → u.toComplex.shape = l ++ [N] → kx.shape = l ++ [N] → 0 < i →
      ∃ v, dxFft kx u (.int i) = .ok (.cplx v) ∧ v.shape = u.toComplex.shape) := by
  refine ⟨?_, fun h h' => ?_, fun l N hN h hk hi' => ?_⟩
  · rintro rfl
    simp [dxFft]
  · rcases dxFft_pos kx u h' with ⟨_, h⟩ | ⟨_, _, h0, _⟩
    · exact h
    · rw [h] at h0; simp at h0
  · rcases dxFft_pos kx u hi' with ⟨h0, _⟩ | ⟨l', N', h0, ⟨hk', _⟩ | ⟨_, _, v, hv, hv'⟩⟩
    · rw [h] at h0; simp at h0
    · rw [h] at h0
      obtain ⟨rfl, hNN⟩ := List.append_inj' h0 rfl
      obtain rfl := List.singleton_injective hNN
      exact absurd hk (hk'.resolve_left hN)
    · exact ⟨v, hv, by rw [hv', h0]⟩

/-- `dx_rfft(kx, u, 1.5)`, `dx_rfft(kx, u, 1)` for complex `u`; `dx_fft(kx, u, -1)`, `dx_fft(kx, u, 2)` for `kx` of the wrong
length and for `u` of shape `(2, 3)`. -/
example (kx : NdArr ℝ) (u : NdArr ℂ) (v : NdArr ℝ) :
    dxRfft kx (.real v) (.float (.fin 1.5)) = .error .typeError ∧ dxRfft kx (.cplx u) (.int 1) = .error .typeError ∧
    dxFft kx (.cplx u) (.float (.fin 2)) = .error .typeError ∧ dxFft kx (.cplx u) (.int (-1)) = .error .valueError ∧
    dxFft ⟨[3], fun _ => 1⟩ (.cplx ⟨[4], fun _ => 1⟩) (.int 2) = .error .valueError ∧
    dxFft kx (.cplx u) (.int 0) = .ok (.cplx u) ∧ dxFft kx (.cplx ⟨[], fun _ => 1⟩) (.int 1) = .error .indexError ∧
    ∃ w, dxFft ⟨[2, 3], fun _ => 1⟩ (.cplx ⟨[2, 3], fun _ => 1⟩) (.int 2) = .ok (.cplx w) ∧ w.shape = [2, 3] :=
  ⟨(C47_rfft_typeError ..).2 (Or.inl (by simp)), (C47_rfft_typeError ..).2 (Or.inr ⟨1, by norm_num, rfl, u, rfl⟩),
   (C47_fft_typeError ..).2 (by simp), (C47_fft_valueError ..).2 (Or.inl ⟨-1, by norm_num, rfl⟩),
   (C47_fft_valueError ..).2 (Or.inr ⟨2, by norm_num, rfl, [], 4, rfl, Or.inr (by simp)⟩),
   (C47_fft_returns kx (.cplx u) le_rfl).1 rfl, (C47_fft_returns kx _ zero_le_one).2.1 rfl one_pos,
   (C47_fft_returns ⟨[2, 3], fun _ => 1⟩ (.cplx ⟨[2, 3], fun _ => 1⟩) (i := 2) (by norm_num)).2.2 [2] 3 (by norm_num) rfl rfl
     (by norm_num)⟩

section Cheb

variable {α : Type} [CommSemiring α]

theorem powSucc_shape (d : Mat2 α) (k : ℕ) : (d.powSucc k).rows = d.rows ∧ (d.powSucc k).cols = d.cols := by
  induction k with
  | zero => exact ⟨rfl, rfl⟩
  | succ k ih => exact ⟨ih.1, rfl⟩

/-- The value of `dx_cheb` at a valid order above zero, by the shapes. -/
theorem dxCheb_pos (d : Mat2 α) (u : NdArr α) {i : ℤ} (hi : 0 < i) :
    ((∀ k, u.shape ≠ [k]) ∧ (∀ k l, u.shape ≠ [k, l]) ∧ dxCheb d u (.int i) = .error .valueError) ∨
    (∃ k rest, (rest = [] ∨ ∃ l, rest = [l]) ∧ u.shape = k :: rest ∧
      ((d.rows = k ∧ d.cols = k ∧ ∃ v, dxCheb d u (.int i) = .ok v ∧ v.shape = u.shape) ∨
       (d.rows ≠ k ∧ dxCheb d u (.int i) = .error .valueError) ∨
       (d.rows = k ∧ d.cols ≠ k ∧ (rest = [] ∨ i = 1) ∧ dxCheb d u (.int i) = .error .valueError) ∨
       (d.rows = k ∧ d.cols ≠ k ∧ rest ≠ [] ∧ 1 < i ∧ dxCheb d u (.int i) = .error .linAlgError))) := by
  have hn : ¬ i < 0 := not_lt.2 hi.le
  have hok : ∀ k rest, u.shape = k :: rest → d.rows = k → d.cols = k → ∀ m, ∃ v,
      ((d.powSucc m).matmul u) = .ok v ∧ v.shape = u.shape := by
    intro k rest h hr hc m
    obtain ⟨h1, h2⟩ := powSucc_shape d m
    refine ⟨⟨(d.powSucc m).rows :: rest, fun idx => ∑ l ∈ Finset.range k, (d.powSucc m).get (idx.headD 0) l * u.get (l :: idx.tail)⟩, ?_, ?_⟩
    · simp only [Mat2.matmul, h, h2, hc, if_true]
    · simp only [h, h1, hr]
  rcases hu : u.shape with _ | ⟨k, _ | ⟨l, _ | ⟨m, rest⟩⟩⟩
  · left
    refine ⟨by simp, by simp, ?_⟩
    simp [dxCheb, hn, hi.ne', hu, throw, throwThe, MonadExceptOf.throw, bind, Except.bind]
  · right
    refine ⟨k, [], Or.inl rfl, rfl, ?_⟩
    by_cases hr : d.rows = k
    · by_cases hc : d.cols = k
      · left
        refine ⟨hr, hc, ?_⟩
        rw [← hu]
        by_cases h1 : i = 1
        · obtain ⟨v, hv, hv'⟩ := hok k [] hu hr hc 0
          refine ⟨v, ?_, hv'⟩
          rw [← hv]
          subst h1
          simp [dxCheb, hu, hr, hc, bind, Except.bind, pure, Except.pure]
          rfl
        · obtain ⟨v, hv, hv'⟩ := hok k [] hu hr hc (i.toNat - 1)
          refine ⟨v, ?_, hv'⟩
          rw [← hv]
          simp [dxCheb, hn, hi.ne', hu, hr, hc, h1, Mat2.matrixPower, bind, Except.bind, pure, Except.pure]
      · right; right; left
        refine ⟨hr, hc, Or.inl rfl, ?_⟩
        have : d.rows ≠ d.cols := fun h => hc (h ▸ hr)
        simp [dxCheb, hn, hi.ne', hu, this, throw, throwThe, MonadExceptOf.throw, bind, Except.bind]
    · right; left
      refine ⟨hr, ?_⟩
      by_cases hrc : d.rows = d.cols
      · simp [dxCheb, hn, hi.ne', hu, hrc, hrc ▸ hr, throw, throwThe, MonadExceptOf.throw, bind, Except.bind, pure, Except.pure]
      · simp [dxCheb, hn, hi.ne', hu, hrc, throw, throwThe, MonadExceptOf.throw, bind, Except.bind]
  · right
    refine ⟨k, [l], Or.inr ⟨l, rfl⟩, rfl, ?_⟩
    by_cases hr : d.rows = k
    · by_cases hc : d.cols = k
      · left
        refine ⟨hr, hc, ?_⟩
        rw [← hu]
        by_cases h1 : i = 1
        · obtain ⟨v, hv, hv'⟩ := hok k [l] hu hr hc 0
          refine ⟨v, ?_, hv'⟩
          rw [← hv]
          subst h1
          simp [dxCheb, hu, hr, bind, Except.bind, pure, Except.pure]
          rfl
        · obtain ⟨v, hv, hv'⟩ := hok k [l] hu hr hc (i.toNat - 1)
          refine ⟨v, ?_, hv'⟩
          rw [← hv]
          simp [dxCheb, hn, hi.ne', hu, hr, hc, h1, Mat2.matrixPower, bind, Except.bind, pure, Except.pure]
      · right; right
        have : d.rows ≠ d.cols := fun h => hc (h ▸ hr)
        by_cases h1 : i = 1
        · left
          refine ⟨hr, hc, Or.inr h1, ?_⟩
          subst h1
          simp [dxCheb, hu, hr, hc, Mat2.matmul, bind, Except.bind, pure, Except.pure]
        · right
          refine ⟨hr, hc, by simp, by omega, ?_⟩
          have hc' : k ≠ d.cols := fun h => hc h.symm
          simp [dxCheb, hn, hi.ne', hu, hr, hc', h1, Mat2.matrixPower, bind, Except.bind, pure, Except.pure]
    · right; left
      refine ⟨hr, ?_⟩
      simp [dxCheb, hn, hi.ne', hu, hr, throw, throwThe, MonadExceptOf.throw, bind, Except.bind]
  · left
    refine ⟨by simp, by simp, ?_⟩
    simp [dxCheb, hn, hi.ne', hu, throw, throwThe, MonadExceptOf.throw, bind, Except.bind]

/-- **C47.** `dx_cheb` returns exactly at order 0 — the argument, whatever the matrix — and at a positive order when the array has
one or two dimensions and the matrix is square of the size of its first; then the result has the shape of the argument. -/
theorem C47_cheb_returns (d : Mat2 α) (u : NdArr α) (n : PyVal ℝ) : (∃ v, dxCheb d u n = .ok v) ↔
    n = .int 0 ∨ ∃ i > 0, n = .int i ∧ ∃ k, (u.shape = [k] ∨ ∃ l, u.shape = [k, l]) ∧ d.rows = k ∧ d.cols = k := by
  rcases n with i | x | _
  · rcases lt_trichotomy i 0 with hi | rfl | hi
    · refine iff_of_false (by simp [dxCheb, hi]) ?_
      rintro (h | ⟨j, hj, h, _⟩)
      · cases h; omega
      · cases h; omega
    · exact iff_of_true ⟨u, by simp [dxCheb]⟩ (Or.inl rfl)
    · rcases dxCheb_pos d u hi with ⟨h1, h2, h⟩ | ⟨k, rest, hrest, hu, ⟨hr, hc, v, h, _⟩ | ⟨hr, h⟩ | ⟨hr, hc, _, h⟩ | ⟨hr, hc, _, _, h⟩⟩
      · rw [h]
        refine iff_of_false (by simp) ?_
        rintro (h | ⟨j, hj, _, k, h | ⟨l, h⟩, _⟩)
        · cases h; omega
        · exact h1 k h
        · exact h2 k l h
      · refine iff_of_true ⟨v, h⟩ (Or.inr ⟨i, hi, rfl, k, ?_, hr, hc⟩)
        rcases hrest with rfl | ⟨l, rfl⟩
        · exact Or.inl hu
        · exact Or.inr ⟨l, hu⟩
      all_goals
        rw [h]
        refine iff_of_false (by simp) ?_
        rintro (h | ⟨j, hj, _, k', h | ⟨l, h⟩, hr', hc'⟩)
        · cases h; omega
        · rw [hu] at h; cases h; first | exact hc hc' | exact hr hr'
        · rw [hu] at h; cases h; first | exact hc hc' | exact hr hr'
  · simp [dxCheb]
  · simp [dxCheb]

/-- **C47.** The result of `dx_cheb` has the shape of the argument. -/
theorem C47_cheb_shape (d : Mat2 α) (u v : NdArr α) (n : PyVal ℝ) (h : dxCheb d u n = .ok v) : v.shape = u.shape := by
  rcases n with i | x | _
  · rcases lt_trichotomy i 0 with hi | rfl | hi
    · simp [dxCheb, hi] at h
    · simp [dxCheb] at h
      rw [h]
    · rcases dxCheb_pos d u hi with ⟨_, _, h'⟩ | ⟨k, rest, _, _, ⟨_, _, v', h', hv⟩ | ⟨_, h'⟩ | ⟨_, _, _, h'⟩ | ⟨_, _, _, _, h'⟩⟩
      · rw [h'] at h; cases h
      · rw [h'] at h; cases h; exact hv
      all_goals (rw [h'] at h; cases h)
  · simp [dxCheb] at h
  · simp [dxCheb] at h

/-- **C47.** The errors of `dx_cheb`: `TypeError` exactly for an order that is not an integer; `LinAlgError` exactly for an order
above one with a two-dimensional array and a matrix with the right number of rows that is not square; all other failures are
`ValueError`. -/
theorem C47_cheb_errors (d : Mat2 α) (u : NdArr α) (n : PyVal ℝ) (e : PyErr) (h : dxCheb d u n = .error e) :
    (e = .typeError ∧ ∀ i, n ≠ .int i) ∨
    (e = .linAlgError ∧ ∃ i > 1, n = .int i ∧ ∃ k l, u.shape = [k, l] ∧ d.rows = k ∧ d.cols ≠ k) ∨
    (e = .valueError ∧ ∃ i, n = .int i ∧ (i < 0 ∨ 0 < i ∧ ¬ (i > 1 ∧ ∃ k l, u.shape = [k, l] ∧ d.rows = k ∧ d.cols ≠ k))) := by
  rcases n with i | x | _
  · right
    rcases lt_trichotomy i 0 with hi | rfl | hi
    · right
      refine ⟨?_, i, rfl, Or.inl hi⟩
      simp [dxCheb, hi] at h
      exact h.symm
    · simp [dxCheb] at h
    · rcases dxCheb_pos d u hi with ⟨_, h2, h'⟩ | ⟨k, rest, hrest, hu, ⟨_, _, v', h', hv⟩ | ⟨hr, h'⟩ | ⟨_, _, hor, h'⟩ | ⟨hr, hc, hne, h1, h'⟩⟩
      · rw [h'] at h; cases h
        exact Or.inr ⟨rfl, i, rfl, Or.inr ⟨hi, fun ⟨_, k, l, h, _⟩ => h2 k l h⟩⟩
      · rw [h'] at h; cases h
      · rw [h'] at h; cases h
        refine Or.inr ⟨rfl, i, rfl, Or.inr ⟨hi, ?_⟩⟩
        rintro ⟨_, k', l, h, hr', _⟩
        rw [hu] at h; cases h
        exact hr hr'
      · rw [h'] at h; cases h
        refine Or.inr ⟨rfl, i, rfl, Or.inr ⟨hi, ?_⟩⟩
        rintro ⟨h1, k', l, h, hr', _⟩
        rw [hu] at h; cases h
        rcases hor with hor | hor
        · cases hor
        · omega
      · rw [h'] at h; cases h
        obtain ⟨l, rfl⟩ := hrest.resolve_left hne
        exact Or.inl ⟨rfl, i, h1, rfl, k, l, hu, hr, hc⟩
  · left
    simp [dxCheb] at h
    exact ⟨h.symm, by simp⟩
  · left
    simp [dxCheb] at h
    exact ⟨h.symm, by simp⟩

/-- A derivative of two columns of three values, and the errors for a matrix that does not fit. -/
example (e : PyErr) :
    (∃ v, dxCheb (⟨3, 3, fun _ _ => (1 : ℝ)⟩ : Mat2 ℝ) ⟨[3, 2], fun _ => 1⟩ (.int 2) = .ok v ∧ v.shape = [3, 2]) ∧
    (dxCheb (⟨2, 3, fun _ _ => (1 : ℝ)⟩ : Mat2 ℝ) ⟨[4], fun _ => 1⟩ (.int 2) = .error e → e = .valueError) := by
  constructor
  · obtain ⟨v, hv⟩ := (C47_cheb_returns (⟨3, 3, fun _ _ => (1 : ℝ)⟩ : Mat2 ℝ) ⟨[3, 2], fun _ => 1⟩ (.int 2)).2
      (Or.inr ⟨2, by norm_num, rfl, 3, Or.inr ⟨2, rfl⟩, rfl, rfl⟩)
    exact ⟨v, hv, C47_cheb_shape _ _ v _ hv⟩
  · intro h
    rcases C47_cheb_errors _ _ _ e h with ⟨-, h⟩ | ⟨-, i, -, -, k, l, h, -⟩ | ⟨h, -⟩
    · exact absurd rfl (h 2)
    · simp at h
    · exact h

end Cheb

/-- A 2×3 matrix and a 2×2 array: `ValueError` at order one, `LinAlgError` at order two. -/
example : dxCheb (⟨2, 3, fun _ _ => (1 : ℝ)⟩ : Mat2 ℝ) ⟨[2, 2], fun _ => 1⟩ (.int 1) = .error .valueError ∧
    dxCheb (⟨2, 3, fun _ _ => (1 : ℝ)⟩ : Mat2 ℝ) ⟨[2, 2], fun _ => 1⟩ (.int 2) = .error .linAlgError := by
  constructor
  · simp [dxCheb, Mat2.matmul, bind, Except.bind, pure, Except.pure]
  · simp [dxCheb, Mat2.matrixPower, bind, Except.bind, pure, Except.pure]

/-- A real array of four entries with three wavenumbers is accepted, with four it is not. -/
example : (∃ v, dxRfft ⟨[3], fun _ => 1⟩ (.real ⟨[4], fun _ => 1⟩) (.int 1) = .ok v) ∧
    dxRfft ⟨[4], fun _ => 1⟩ (.real ⟨[4], fun _ => 1⟩) (.int 1) = .error .valueError := by
  constructor
  · obtain ⟨v, h, -⟩ := (C47_rfft_returns ⟨[3], fun _ => 1⟩ ⟨[4], fun _ => 1⟩ (i := 1) (by norm_num)).2.2.2 [] 4
      (by simp [NdArr.size]) rfl rfl
    exact ⟨v, h⟩
  · exact (C47_rfft_valueError _ _ _).2 (Or.inr ⟨1, by norm_num, rfl, _, rfl, by simp [NdArr.size], [], 4, rfl, by simp⟩)

end Verif
