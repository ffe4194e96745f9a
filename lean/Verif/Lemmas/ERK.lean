import Verif.Lemmas.Chain

/-!
# Unfolding the specification of exponential Runge–Kutta steps
-/

set_option linter.unusedSectionVars false

namespace Verif

open Matrix

variable {ι : Type} [Fintype ι] [DecidableEq ι]

namespace ERK

variable (M : ERK ι) (nl : NlFunc ι) (u : Vec ι)

theorem stages_succ_ok {i : ℕ} {N : ℕ → Vec ι} {n : Vec ι} (h : M.stages nl u i = .ok N)
    (hn : nl (M.arg u N i) = .ok n) : M.stages nl u (i + 1) = .ok (Function.update N i n) := by
  simp [stages, h, hn]

theorem stages_succ_err {i : ℕ} {N : ℕ → Vec ι} {e : PyErr} (h : M.stages nl u i = .ok N)
    (hn : nl (M.arg u N i) = .error e) : M.stages nl u (i + 1) = .error e := by
  simp [stages, h, hn]

theorem stages_err {i : ℕ} {e : PyErr} (h : M.stages nl u i = .error e) {k : ℕ} (hk : i ≤ k) :
    M.stages nl u k = .error e := by
  induction k, hk using Nat.le_induction with
  | base => exact h
  | succ k _ ih => simp [stages, ih]

theorem stages_one (h0 : M.E 0 = 1) : M.stages nl u 1 =
    match nl u with
    | .error e => .error e
    | .ok n => .ok (Function.update 0 0 n) := by
  simp only [stages, arg, h0, one_mulVec, Finset.range_zero, Finset.sum_empty, add_zero]
  cases nl u <;> rfl

theorem step_of_first_error (h0 : M.E 0 = 1) (hs : 0 < M.s) {e : PyErr} (hn : nl u = .error e) :
    M.step nl u = .error e := by
  have : M.stages nl u 1 = .error e := by rw [stages_one M nl u h0, hn]
  simp [step, stages_err M nl u this (show 1 ≤ M.s from hs)]

variable (n1 : Vec ι)

theorem stagesFrom_succ_ok {i : ℕ} {N : ℕ → Vec ι} {n : Vec ι} (h : M.stagesFrom nl n1 u (i + 1) = .ok N)
    (hn : nl (M.arg u N (i + 1)) = .ok n) : M.stagesFrom nl n1 u (i + 2) = .ok (Function.update N (i + 1) n) := by
  simp [stagesFrom, h, hn]

theorem stagesFrom_succ_err {i : ℕ} {N : ℕ → Vec ι} {e : PyErr} (h : M.stagesFrom nl n1 u (i + 1) = .ok N)
    (hn : nl (M.arg u N (i + 1)) = .error e) : M.stagesFrom nl n1 u (i + 2) = .error e := by
  simp [stagesFrom, h, hn]

theorem stagesFrom_err {i : ℕ} {e : PyErr} (h : M.stagesFrom nl n1 u (i + 1) = .error e) {k : ℕ} (hk : i + 1 ≤ k) :
    M.stagesFrom nl n1 u k = .error e := by
  induction k, hk using Nat.le_induction with
  | base => exact h
  | succ k hk ih =>
    obtain ⟨j, rfl⟩ : ∃ j, k = j + 1 := ⟨k - 1, by omega⟩
    simp [stagesFrom, ih]

/-- With the right first value nothing changes. -/
theorem stages_eq_stagesFrom (h0 : M.E 0 = 1) (hn : nl u = .ok n1) (i : ℕ) :
    M.stages nl u i = M.stagesFrom nl n1 u i := by
  induction i with
  | zero => rfl
  | succ i ih =>
    cases i with
    | zero => rw [stages_one M nl u h0, hn]; rfl
    | succ i => rw [stages, ih]; rfl

theorem step_eq_stepFrom (h0 : M.E 0 = 1) (hn : nl u = .ok n1) : M.step nl u = M.stepFrom nl n1 u := by
  unfold step stepFrom
  rw [stages_eq_stagesFrom M nl u n1 h0 hn]

/-- Stage values after five stages, in terms of four dependent evaluations. -/
theorem stages_five :
    M.stagesFrom nl n1 u 5 =
      match chain4 nl (M.E 1 *ᵥ u + M.A 1 0 *ᵥ n1) (fun a => M.E 2 *ᵥ u + (M.A 2 0 *ᵥ n1 + M.A 2 1 *ᵥ a))
        (fun a b => M.E 3 *ᵥ u + (M.A 3 0 *ᵥ n1 + M.A 3 1 *ᵥ a + M.A 3 2 *ᵥ b))
        (fun a b c => M.E 4 *ᵥ u + (M.A 4 0 *ᵥ n1 + M.A 4 1 *ᵥ a + M.A 4 2 *ᵥ b + M.A 4 3 *ᵥ c)) with
      | .error e => .error e
      | .ok (a, b, c, d) => .ok (Function.update (Function.update (Function.update (Function.update
          (Function.update 0 0 n1) 1 a) 2 b) 3 c) 4 d) := by
  have s1 : M.stagesFrom nl n1 u 1 = .ok (Function.update 0 0 n1) := rfl
  unfold chain4
  rcases h1 : nl (M.E 1 *ᵥ u + M.A 1 0 *ᵥ n1) with e | a
  · exact M.stagesFrom_err nl u n1 (M.stagesFrom_succ_err nl u n1 s1 (by simpa [arg] using h1)) (by norm_num)
  have s2 := M.stagesFrom_succ_ok nl u n1 s1 (n := a) (by simpa [arg] using h1)
  dsimp only
  rcases h2 : nl (M.E 2 *ᵥ u + (M.A 2 0 *ᵥ n1 + M.A 2 1 *ᵥ a)) with e | b
  · exact M.stagesFrom_err nl u n1 (M.stagesFrom_succ_err nl u n1 s2 (by simpa [arg, Finset.sum_range_succ] using h2)) (by norm_num)
  have s3 := M.stagesFrom_succ_ok nl u n1 s2 (n := b) (by simpa [arg, Finset.sum_range_succ] using h2)
  dsimp only
  rcases h3 : nl (M.E 3 *ᵥ u + (M.A 3 0 *ᵥ n1 + M.A 3 1 *ᵥ a + M.A 3 2 *ᵥ b)) with e | c
  · exact M.stagesFrom_err nl u n1 (M.stagesFrom_succ_err nl u n1 s3 (by simpa [arg, Finset.sum_range_succ] using h3)) (by norm_num)
  have s4 := M.stagesFrom_succ_ok nl u n1 s3 (n := c) (by simpa [arg, Finset.sum_range_succ] using h3)
  dsimp only
  rcases h4 : nl (M.E 4 *ᵥ u + (M.A 4 0 *ᵥ n1 + M.A 4 1 *ᵥ a + M.A 4 2 *ᵥ b + M.A 4 3 *ᵥ c)) with e | d
  · exact M.stagesFrom_err nl u n1 (M.stagesFrom_succ_err nl u n1 s4 (by simpa [arg, Finset.sum_range_succ] using h4)) (by norm_num)
  exact M.stagesFrom_succ_ok nl u n1 s4 (n := d) (by simpa [arg, Finset.sum_range_succ] using h4)

theorem stages_six :
    M.stagesFrom nl n1 u 6 =
      match chain5 nl (M.E 1 *ᵥ u + M.A 1 0 *ᵥ n1) (fun a => M.E 2 *ᵥ u + (M.A 2 0 *ᵥ n1 + M.A 2 1 *ᵥ a))
        (fun a b => M.E 3 *ᵥ u + (M.A 3 0 *ᵥ n1 + M.A 3 1 *ᵥ a + M.A 3 2 *ᵥ b))
        (fun a b c => M.E 4 *ᵥ u + (M.A 4 0 *ᵥ n1 + M.A 4 1 *ᵥ a + M.A 4 2 *ᵥ b + M.A 4 3 *ᵥ c))
        (fun a b c d => M.E 5 *ᵥ u +
          (M.A 5 0 *ᵥ n1 + M.A 5 1 *ᵥ a + M.A 5 2 *ᵥ b + M.A 5 3 *ᵥ c + M.A 5 4 *ᵥ d)) with
      | .error e => .error e
      | .ok (a, b, c, d, x) => .ok (Function.update (Function.update (Function.update (Function.update (Function.update
          (Function.update 0 0 n1) 1 a) 2 b) 3 c) 4 d) 5 x) := by
  have s5 := M.stages_five nl u n1
  unfold chain5
  rcases h4 : chain4 nl (M.E 1 *ᵥ u + M.A 1 0 *ᵥ n1) (fun a => M.E 2 *ᵥ u + (M.A 2 0 *ᵥ n1 + M.A 2 1 *ᵥ a))
        (fun a b => M.E 3 *ᵥ u + (M.A 3 0 *ᵥ n1 + M.A 3 1 *ᵥ a + M.A 3 2 *ᵥ b))
        (fun a b c => M.E 4 *ᵥ u + (M.A 4 0 *ᵥ n1 + M.A 4 1 *ᵥ a + M.A 4 2 *ᵥ b + M.A 4 3 *ᵥ c))
    with e | ⟨a, b, c, d⟩
  · rw [h4] at s5
    exact M.stagesFrom_err nl u n1 s5 (by norm_num)
  rw [h4] at s5
  dsimp only at s5 ⊢
  rcases h5 : nl (M.E 5 *ᵥ u + (M.A 5 0 *ᵥ n1 + M.A 5 1 *ᵥ a + M.A 5 2 *ᵥ b + M.A 5 3 *ᵥ c + M.A 5 4 *ᵥ d)) with e | x
  · exact M.stagesFrom_err nl u n1 (M.stagesFrom_succ_err nl u n1 s5 (by simpa [arg, Finset.sum_range_succ] using h5)) (by norm_num)
  exact M.stagesFrom_succ_ok nl u n1 s5 (n := x) (by simpa [arg, Finset.sum_range_succ] using h5)

theorem stages_seven :
    M.stagesFrom nl n1 u 7 =
      match chain6 nl (M.E 1 *ᵥ u + M.A 1 0 *ᵥ n1) (fun a => M.E 2 *ᵥ u + (M.A 2 0 *ᵥ n1 + M.A 2 1 *ᵥ a))
        (fun a b => M.E 3 *ᵥ u + (M.A 3 0 *ᵥ n1 + M.A 3 1 *ᵥ a + M.A 3 2 *ᵥ b))
        (fun a b c => M.E 4 *ᵥ u + (M.A 4 0 *ᵥ n1 + M.A 4 1 *ᵥ a + M.A 4 2 *ᵥ b + M.A 4 3 *ᵥ c))
        (fun a b c d => M.E 5 *ᵥ u +
          (M.A 5 0 *ᵥ n1 + M.A 5 1 *ᵥ a + M.A 5 2 *ᵥ b + M.A 5 3 *ᵥ c + M.A 5 4 *ᵥ d))
        (fun a b c d x => M.E 6 *ᵥ u +
          (M.A 6 0 *ᵥ n1 + M.A 6 1 *ᵥ a + M.A 6 2 *ᵥ b + M.A 6 3 *ᵥ c + M.A 6 4 *ᵥ d + M.A 6 5 *ᵥ x)) with
      | .error e => .error e
      | .ok (a, b, c, d, x, y) => .ok (Function.update (Function.update (Function.update (Function.update
          (Function.update (Function.update (Function.update 0 0 n1) 1 a) 2 b) 3 c) 4 d) 5 x) 6 y) := by
  have s6 := M.stages_six nl u n1
  unfold chain6
  rcases h5 : chain5 nl (M.E 1 *ᵥ u + M.A 1 0 *ᵥ n1) (fun a => M.E 2 *ᵥ u + (M.A 2 0 *ᵥ n1 + M.A 2 1 *ᵥ a))
        (fun a b => M.E 3 *ᵥ u + (M.A 3 0 *ᵥ n1 + M.A 3 1 *ᵥ a + M.A 3 2 *ᵥ b))
        (fun a b c => M.E 4 *ᵥ u + (M.A 4 0 *ᵥ n1 + M.A 4 1 *ᵥ a + M.A 4 2 *ᵥ b + M.A 4 3 *ᵥ c))
        (fun a b c d => M.E 5 *ᵥ u +
          (M.A 5 0 *ᵥ n1 + M.A 5 1 *ᵥ a + M.A 5 2 *ᵥ b + M.A 5 3 *ᵥ c + M.A 5 4 *ᵥ d))
    with e | ⟨a, b, c, d, x⟩
  · rw [h5] at s6
    exact M.stagesFrom_err nl u n1 s6 (by norm_num)
  rw [h5] at s6
  dsimp only at s6 ⊢
  rcases h6 : nl (M.E 6 *ᵥ u +
          (M.A 6 0 *ᵥ n1 + M.A 6 1 *ᵥ a + M.A 6 2 *ᵥ b + M.A 6 3 *ᵥ c + M.A 6 4 *ᵥ d + M.A 6 5 *ᵥ x)) with e | y
  · exact M.stagesFrom_err nl u n1 (M.stagesFrom_succ_err nl u n1 s6 (by simpa [arg, Finset.sum_range_succ] using h6)) (by norm_num)
  exact M.stagesFrom_succ_ok nl u n1 s6 (n := y) (by simpa [arg, Finset.sum_range_succ] using h6)

/-- An exception of a step is an exception of `nl`. -/
theorem stages_error {e : PyErr} (i : ℕ) (h : M.stages nl u i = .error e) : ∃ x, nl x = .error e := by
  induction i with
  | zero => simp [stages] at h
  | succ i ih =>
    rw [stages] at h
    cases hN : M.stages nl u i with
    | error e' => rw [hN] at h; simp only [Except.error.injEq] at h; subst h; exact ih hN
    | ok N =>
      rw [hN] at h
      simp only at h
      cases hn : nl (M.arg u N i) with
      | error e' => rw [hn] at h; simp only [Except.error.injEq] at h; subst h; exact ⟨_, hn⟩
      | ok n => rw [hn] at h; simp at h

theorem step_error {e : PyErr} (h : M.step nl u = .error e) : ∃ x, nl x = .error e := by
  unfold step at h
  cases hN : M.stages nl u M.s with
  | error e' => rw [hN] at h; simp only [Except.error.injEq] at h; subst h; exact stages_error M nl u _ hN
  | ok N => rw [hN] at h; simp at h

/-- If `nl` never raises, neither does the step. -/
theorem step_total (hnl : ∀ x, ∃ n, nl x = .ok n) : ∃ r, M.step nl u = .ok r := by
  cases h : M.step nl u with
  | ok r => exact ⟨r, rfl⟩
  | error e =>
    obtain ⟨x, hx⟩ := step_error M nl u h
    obtain ⟨n, hn⟩ := hnl x
    rw [hn] at hx; simp at hx

end ERK

end Verif
