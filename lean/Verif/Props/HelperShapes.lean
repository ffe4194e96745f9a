import Verif.Model.HankelNd
import Verif.Spec.Shapes
import Verif.Props.Hankel

/-!
# C79: the Hankel transform and the soliton functions on arrays of any shape
-/

set_option linter.unusedSectionVars false

namespace Verif

open Finset

variable (B : Bessel) {n : ℕ} {rmax : ℝ} {o : HankelObj}

theorem ent_ofFn (Y : Matrix (Fin n) (Fin n) ℝ) (i k : Fin n) :
    HankelObj.ent (List.ofFn fun i => List.ofFn (Y i)) i.val k.val = (Y i k : ℂ) := by
  simp [HankelObj.ent]

theorem sum_ent (Y : Matrix (Fin n) (Fin n) ℝ) (i : Fin n) (g : ℕ → ℂ) :
    ∑ l ∈ range n, HankelObj.ent (List.ofFn fun i => List.ofFn (Y i)) i.val l * g l = ∑ k : Fin n, (Y i k : ℂ) * g k.val := by
  rw [Finset.sum_range]
  exact Finset.sum_congr rfl fun k _ => by rw [ent_ofFn]

/-- **C79.** On arrays with one axis `ht` and `iht` are the functions of C49. -/
theorem C79_vec (h : HankelObj.new B n rmax = .ok o) {f : NdArr ℂ} (hf : f.shape = [n]) :
    (∃ g, o.htNd f = .ok g ∧ g.shape = [n] ∧ o.ht (List.ofFn (f.row n [])) = .ok (List.ofFn (g.row n []))) ∧
    (∃ g, o.ihtNd f = .ok g ∧ g.shape = [n] ∧ o.iht (List.ofFn (f.row n [])) = .ok (List.ofFn (g.row n []))) := by
  rw [C49_ht B h, C49_iht B h]
  obtain ⟨-, -, rfl⟩ := eq_ideal B h
  simp only [HankelObj.htNd, HankelObj.ihtNd, HankelObj.dotNd, hf, hankelIdeal, List.reverse_cons, List.reverse_nil, List.nil_append,
    List.length_ofFn, if_true, bind, Except.bind, pure, Except.pure]
  refine ⟨⟨_, rfl, rfl, ?_⟩, ⟨_, rfl, rfl, ?_⟩⟩
  · congr 2
    funext i
    simp only [NdArr.row, List.nil_append, List.headD_cons]
    rw [sum_ent (hankelY B n) i fun l => f.get [l]]
    rfl
  · congr 2
    funext i
    simp only [NdArr.row, List.nil_append, List.headD_cons]
    rw [sum_ent (hankelY B n) i fun l => f.get [l]]
    rfl

/-- **C79.** On arrays of shape `(n, m)` they act column by column. -/
theorem C79_columns (h : HankelObj.new B n rmax = .ok o) {m : ℕ} {f : NdArr ℂ} (hf : f.shape = [n, m]) :
    (∃ g, o.htNd f = .ok g ∧ g.shape = [n, m] ∧ ∀ b, o.ht (List.ofFn (f.col n b)) = .ok (List.ofFn (g.col n b))) ∧
    (∃ g, o.ihtNd f = .ok g ∧ g.shape = [n, m] ∧ ∀ b, o.iht (List.ofFn (f.col n b)) = .ok (List.ofFn (g.col n b))) := by
  simp only [C49_ht B h, C49_iht B h]
  obtain ⟨-, -, rfl⟩ := eq_ideal B h
  simp only [HankelObj.htNd, HankelObj.ihtNd, HankelObj.dotNd, hf, hankelIdeal, List.reverse_cons, List.reverse_nil, List.nil_append,
    List.cons_append, List.length_ofFn, if_true, bind, Except.bind, pure, Except.pure]
  refine ⟨⟨_, rfl, rfl, fun b => ?_⟩, ⟨_, rfl, rfl, fun b => ?_⟩⟩
  · congr 2
    funext i
    simp only [NdArr.col, List.headD_cons, List.tail_cons, List.dropLast_singleton, List.nil_append, List.getLastD_cons, List.getLastD_nil]
    rw [sum_ent (hankelY B n) i fun l => f.get [l, b]]
    rfl
  · congr 2
    funext i
    simp only [NdArr.col, List.headD_cons, List.tail_cons, List.dropLast_singleton, List.nil_append, List.getLastD_cons, List.getLastD_nil]
    rw [sum_ent (hankelY B n) i fun l => f.get [l, b]]
    rfl

/-- **C79.** On arrays with more axes, `(…, n, m)`, they transform the last axis but one and also move it to the front. -/
theorem C79_stack (h : HankelObj.new B n rmax = .ok o) {lead : List ℕ} {m : ℕ} {f : NdArr ℂ} (hf : f.shape = lead ++ [n, m]) :
    (∃ g, o.htNd f = .ok g ∧ g.shape = n :: lead ++ [m] ∧
      ∀ a b, o.ht (List.ofFn fun l : Fin n => f.get (a ++ [l.val, b])) = .ok (List.ofFn fun i : Fin n => g.get (i.val :: a ++ [b]))) ∧
    (∃ g, o.ihtNd f = .ok g ∧ g.shape = n :: lead ++ [m] ∧
      ∀ a b, o.iht (List.ofFn fun l : Fin n => f.get (a ++ [l.val, b])) = .ok (List.ofFn fun i : Fin n => g.get (i.val :: a ++ [b]))) := by
  simp only [C49_ht B h, C49_iht B h]
  obtain ⟨-, -, rfl⟩ := eq_ideal B h
  have hr : f.shape.reverse = m :: n :: lead.reverse := by simp [hf]
  simp only [HankelObj.htNd, HankelObj.ihtNd, HankelObj.dotNd, hr, hankelIdeal, List.length_ofFn, if_true, bind, Except.bind, pure, Except.pure,
    List.reverse_reverse]
  refine ⟨⟨_, rfl, rfl, fun a b => ?_⟩, ⟨_, rfl, rfl, fun a b => ?_⟩⟩
  · congr 2
    funext i
    simp only [List.cons_append, List.headD_cons, List.tail_cons, List.dropLast_concat, List.getLastD_cons, List.getLastD_concat]
    rw [sum_ent (hankelY B n) i fun l => f.get (a ++ [l, b])]
    rfl
  · congr 2
    funext i
    simp only [List.cons_append, List.headD_cons, List.tail_cons, List.dropLast_concat, List.getLastD_cons, List.getLastD_concat]
    rw [sum_ent (hankelY B n) i fun l => f.get (a ++ [l, b])]
    rfl

/-- **C79.** The only exception is `ValueError`; it is raised exactly if the only axis, or the last but one, is not of length `n`. -/
theorem C79_errors (h : HankelObj.new B n rmax = .ok o) (f : NdArr ℂ) :
    ((∃ g, o.htNd f = .ok g) ∨ o.htNd f = .error .valueError) ∧ ((∃ g, o.ihtNd f = .ok g) ∨ o.ihtNd f = .error .valueError) ∧
    (o.htNd f = .error .valueError ↔ ∃ k, k ≠ n ∧ (f.shape = [k] ∨ ∃ lead m, f.shape = lead ++ [k, m])) ∧
    (o.ihtNd f = .error .valueError ↔ ∃ k, k ≠ n ∧ (f.shape = [k] ∨ ∃ lead m, f.shape = lead ++ [k, m])) := by
  obtain ⟨-, -, rfl⟩ := eq_ideal B h
  have hs : f.shape = f.shape.reverse.reverse := (List.reverse_reverse _).symm
  rw [hs]
  simp only [HankelObj.htNd, HankelObj.ihtNd, HankelObj.dotNd, hankelIdeal, List.length_ofFn]
  rcases f.shape.reverse with _ | ⟨b, _ | ⟨k, l⟩⟩
  · simp [bind, Except.bind, pure, Except.pure]
  · by_cases hk : b = n
    · subst hk
      simp only [List.reverse_cons, List.reverse_nil, List.nil_append, if_true, bind, Except.bind, pure, Except.pure, reduceCtorEq, false_iff, not_exists, not_and,
        not_or, or_false, Except.ok.injEq, exists_eq', true_and, and_self]
      exact fun x hx => ⟨by simpa [eq_comm] using hx, fun lead m h => by simpa using congrArg List.length h⟩
    · simp only [List.reverse_cons, List.reverse_nil, List.nil_append, if_neg hk, bind, Except.bind]
      simp only [or_true, true_and, and_self, true_iff]
      exact ⟨b, hk, .inl rfl⟩
  · by_cases hk : k = n
    · subst hk
      simp only [List.reverse_cons, List.append_assoc, if_true, bind, Except.bind, pure, Except.pure, reduceCtorEq, false_iff, not_exists, not_and,
        not_or, or_false, Except.ok.injEq, exists_eq', true_and, and_self]
      refine fun x hx => ⟨fun h => by simpa using congrArg List.length h, fun lead m h => hx ?_⟩
      have := congrArg List.reverse h
      simp at this
      exact this.2.1.symm
    · simp only [List.reverse_cons, List.append_assoc, if_neg hk, bind, Except.bind]
      simp only [or_true, true_and, and_self, true_iff]
      exact ⟨k, hk, .inr ⟨l.reverse, b, rfl⟩⟩

/-- **C79.** On an array with three axes, `(a, n, m)` with `a ≠ n`, the inverse transform of the transform raises `ValueError`, since the axis
has moved. -/
theorem C79_no_round_trip (h : HankelObj.new B n rmax = .ok o) {a m : ℕ} (ha : a ≠ n) {f : NdArr ℂ} (hf : f.shape = [a, n, m]) :
    ∃ g, o.htNd f = .ok g ∧ o.ihtNd g = .error .valueError := by
  obtain ⟨⟨g, h1, h2, -⟩, -⟩ := C79_stack B h (lead := [a]) hf
  exact ⟨g, h1, (C79_errors B h g).2.2.2.mpr ⟨a, ha, .inr ⟨[n], m, h2⟩⟩⟩

/-- **C79.** A number is transformed into a matrix: column `j` is the transform of the number at point `j` and zero elsewhere. -/
theorem C79_number (h : HankelObj.new B n rmax = .ok o) {f : NdArr ℂ} (hf : f.shape = []) :
    (∃ g, o.htNd f = .ok g ∧ g.shape = [n, n] ∧
      ∀ j : Fin n, o.ht (List.ofFn (Pi.single j (f.get []))) = .ok (List.ofFn (g.col n j))) ∧
    (∃ g, o.ihtNd f = .ok g ∧ g.shape = [n, n] ∧
      ∀ j : Fin n, o.iht (List.ofFn (Pi.single j (f.get []))) = .ok (List.ofFn (g.col n j))) := by
  simp only [C49_ht B h, C49_iht B h]
  obtain ⟨-, -, rfl⟩ := eq_ideal B h
  simp only [HankelObj.htNd, HankelObj.ihtNd, HankelObj.dotNd, hf, hankelIdeal, List.reverse_nil, List.length_ofFn, bind, Except.bind, pure, Except.pure]
  refine ⟨⟨_, rfl, rfl, fun j => ?_⟩, ⟨_, rfl, rfl, fun j => ?_⟩⟩
  · congr 2
    funext i
    simp only [NdArr.col, List.getD_cons_zero, List.getD_cons_succ, ent_ofFn]
    simp [Pi.single_apply, HankelObj.scalefactor]
  · congr 2
    funext i
    simp only [NdArr.col, List.getD_cons_zero, List.getD_cons_succ, ent_ofFn]
    simp [Pi.single_apply, HankelObj.scalefactor]

/-! ### Solitons -/

/-- **C79.** `kdv_multi_soliton` raises `ValueError` if the lists differ in length, or else `TypeError` for a number, or else `ValueError` for
arrays that have more (or fewer) entries than `len(x)`; otherwise it returns an array with one axis.  `kdv_soliton` accepts every shape, and
keeps it. -/
theorem C79_multi_soliton (x : NdArr ℝ) (ampl x0 : List ℝ) (t : ℝ) :
    (kdvMultiSolitonNd x ampl x0 t = .error .typeError ↔ x0.length = ampl.length ∧ x.shape = []) ∧
    (kdvMultiSolitonNd x ampl x0 t = .error .valueError ↔ x0.length ≠ ampl.length ∨ ∃ n s, x.shape = n :: s ∧ n * s.prod ≠ n) ∧
    (∀ y, kdvMultiSolitonNd x ampl x0 t = .ok y → ∃ n s, x.shape = n :: s ∧ y.shape = [n]) ∧
    (∀ a c, (kdvSolitonNd x a c t).shape = x.shape) := by
  suffices hq : _ ∧ _ ∧ _ from ⟨hq.1, hq.2.1, hq.2.2, fun _ _ => rfl⟩
  unfold kdvMultiSolitonNd
  by_cases h : x0.length = ampl.length
  · rw [if_neg (not_not.mpr h)]
    cases hs : x.shape with
    | nil => simp [h]
    | cons n s =>
      simp only [NdArr.size, hs, List.prod_cons]
      by_cases hn : n * s.prod = n
      · rw [if_neg (not_not.mpr hn)]
        refine ⟨by simp, ⟨by simp, ?_⟩, ?_⟩
        · rintro (h' | ⟨a, b, h1, h2⟩)
          · exact absurd h h'
          · cases h1
            exact absurd hn h2
        · rintro y ⟨rfl⟩
          exact ⟨n, s, rfl, rfl⟩
      · rw [if_pos hn]
        exact ⟨by simp, ⟨fun _ => .inr ⟨n, s, rfl, hn⟩, fun _ => rfl⟩, by simp⟩
  · rw [if_pos h]
    simp [h]

/-- **C79.** On a grid with one axis, and on a grid that is a column, the result is the sum of the single solitons at the points of the
grid. -/
theorem C79_soliton_sum (x : NdArr ℝ) {n : ℕ} (params : List (ℝ × ℝ)) (t : ℝ) (hx : x.shape = [n] ∨ x.shape = [n, 1]) :
    ∃ y, kdvMultiSolitonNd x (params.map Prod.fst) (params.map Prod.snd) t = .ok y ∧ y.shape = [n] ∧
      ∀ i < n, y.get [i] =
        (params.map fun p => (kdvSolitonNd x p.1 p.2 t).get (if x.shape = [n] then [i] else [i, 0])).sum := by
  have h0 : indices [n] = (List.range n).map fun i => [i] := by rw [List.map_eq_flatMap]; simp [indices]
  have h1 : indices [n, 1] = (List.range n).map fun i => [i, 0] := by rw [List.map_eq_flatMap]; simp [indices]
  unfold kdvMultiSolitonNd
  rw [if_neg (by simp)]
  rcases hx with hx | hx
  · simp only [hx, NdArr.size, List.prod_cons, List.prod_nil, mul_one, ne_eq, not_true_eq_false, if_false, if_true]
    refine ⟨_, rfl, rfl, fun i hi => ?_⟩
    have h2 : (indices [n]).getD i [] = [i] := by simp [h0, hi]
    simp only [List.headD_cons, h2, List.zipWith_map, List.zipWith_self]
    rfl
  · simp only [hx, NdArr.size, List.prod_cons, List.prod_nil, mul_one, ne_eq, not_true_eq_false, if_false]
    refine ⟨_, rfl, rfl, fun i hi => ?_⟩
    have h2 : (indices [n, 1]).getD i [] = [i, 0] := by simp [h1, hi]
    simp only [List.headD_cons, h2, List.zipWith_map, List.zipWith_self]
    rw [if_neg (by simp)]
    rfl

/-! ### Examples -/

/-- Five functions on four points. -/
example : ∃ o, HankelObj.new B 4 1 = .ok o ∧ ∃ g, o.htNd ⟨[4, 5], fun i => i.headD 0⟩ = .ok g ∧ g.shape = [4, 5] := by
  have h := (C48_new B 4 1).2 (by norm_num) (by norm_num)
  obtain ⟨⟨g, h1, h2, -⟩, -⟩ := C79_columns B (n := 4) h (m := 5) (f := ⟨[4, 5], fun i => i.headD 0⟩) rfl
  exact ⟨_, h, g, h1, h2⟩

/-- One function. -/
example : ∃ o, HankelObj.new B 4 1 = .ok o ∧ ∃ g, o.htNd ⟨[4], fun i => i.headD 0⟩ = .ok g ∧ g.shape = [4] := by
  have h := (C48_new B 4 1).2 (by norm_num) (by norm_num)
  obtain ⟨⟨g, h1, h2, -⟩, -⟩ := C79_vec B (n := 4) h (f := ⟨[4], fun i => i.headD 0⟩) rfl
  exact ⟨_, h, g, h1, h2⟩

/-- Two stacks of five functions: the axes come back in another order, and the inverse transform fails; five functions as rows are refused, and
a number becomes a matrix. -/
example : ∃ o, HankelObj.new B 4 1 = .ok o ∧ (∃ g, o.htNd ⟨[2, 4, 5], fun i => i.headD 0⟩ = .ok g ∧ g.shape = [4, 2, 5]) ∧
    (∃ g, o.htNd ⟨[2, 4, 5], fun i => i.headD 0⟩ = .ok g ∧ o.ihtNd g = .error .valueError) ∧
    o.htNd ⟨[5, 4], fun i => i.headD 0⟩ = .error .valueError ∧ ∃ g, o.htNd (NdArr.ofScalar 1) = .ok g ∧ g.shape = [4, 4] := by
  have h := (C48_new B 4 1).2 (by norm_num) (by norm_num)
  obtain ⟨⟨g, h1, h2, -⟩, -⟩ := C79_stack B (n := 4) h (lead := [2]) (m := 5) (f := ⟨[2, 4, 5], fun i => i.headD 0⟩) rfl
  exact ⟨_, h, ⟨g, h1, h2⟩, C79_no_round_trip B (n := 4) h (by norm_num) rfl,
    (C79_errors B (n := 4) h _).2.2.1.mpr ⟨5, by norm_num, .inr ⟨[], 4, rfl⟩⟩, (C79_number B (n := 4) h rfl).1.imp fun g hg => ⟨hg.1, hg.2.1⟩⟩

/-- Two solitons on a column of three points; a square grid and a number are refused. -/
example : (∃ y, kdvMultiSolitonNd ⟨[3, 1], fun i => i.headD 0⟩ [2, 4] [0, 1] 0 = .ok y ∧ y.shape = [3]) ∧
    kdvMultiSolitonNd ⟨[3, 3], fun i => i.headD 0⟩ [2, 4] [0, 1] 0 = .error .valueError ∧
    kdvMultiSolitonNd ⟨[], fun _ => 0⟩ [2, 4] [0, 1] 0 = .error .typeError := by
  obtain ⟨y, h1, h2, -⟩ := C79_soliton_sum ⟨[3, 1], fun i => i.headD 0⟩ (n := 3) [(2, 0), (4, 1)] 0 (.inr rfl)
  exact ⟨⟨y, h1, h2⟩, (C79_multi_soliton _ _ _ _).2.1.mpr (.inr ⟨3, [3], rfl, by norm_num⟩), (C79_multi_soliton _ _ _ _).1.mpr (by simp)⟩

end Verif
