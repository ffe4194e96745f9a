import Verif.Model.Grids

/-!
# C50: `mirror_grid`
-/

set_option linter.unusedSectionVars false

namespace Verif

variable {K : Type} [Field K] [LinearOrder K] [IsStrictOrderedRing K] {α : Type}

/-- What `mirror_grid(r)` returns is called `rnew` below. -/
theorem mirror_none (r : List K) (axis : ℤ) :
    mirrorGrid (α := α) r none axis = .ok (r.reverse.map (-·) ++ r, none) := rfl

/-- **C50.** The mirrored grid has twice the length, is antisymmetric, its second half is the input, and no axis is refused as
long as no `u` is given. -/
theorem C50_grid (r : List K) (axis : ℤ) : ∃ rnew, mirrorGrid (α := α) r none axis = .ok (rnew, none) ∧
    rnew.length = 2 * r.length ∧ rnew.reverse = rnew.map (-·) ∧ rnew.drop r.length = r := by
  refine ⟨_, rfl, ?_, ?_, ?_⟩
  · simp; omega
  · simp
  · rw [List.drop_append_of_le_length (by simp)]
    simp

/-- **C50.** It is strictly increasing exactly for a positive, strictly increasing `r`. -/
theorem C50_increasing (r rnew : List K) (axis : ℤ) (u : Option (Arr12 α)) (unew : Option (Arr12 α))
    (h : mirrorGrid r u axis = .ok (rnew, unew)) :
    rnew.Pairwise (· < ·) ↔ (∀ x ∈ r, 0 < x) ∧ r.Pairwise (· < ·) := by
  have hr : rnew = r.reverse.map (-·) ++ r := by
    rcases u with _ | v | rows <;> simp only [mirrorGrid] at h <;> (try split_ifs at h) <;> cases h <;> rfl
  subst hr
  rw [List.pairwise_append]
  constructor
  · rintro ⟨-, hinc, hlt⟩
    refine ⟨fun x hx => ?_, hinc⟩
    have := hlt (-x) (List.mem_map.2 ⟨x, List.mem_reverse.2 hx, rfl⟩) x hx
    linarith
  · rintro ⟨hpos, hinc⟩
    refine ⟨?_, hinc, ?_⟩
    · rw [List.pairwise_map, List.pairwise_reverse]
      exact hinc.imp fun h => neg_lt_neg h
    · intro x hx y hy
      simp only [List.mem_map, List.mem_reverse] at hx
      obtain ⟨z, hz, rfl⟩ := hx
      have := hpos z hz; have := hpos y hy
      linarith

/-- **C50.** Whatever `u` and the axis are, the returned grid is the one without `u`. -/
theorem C50_same_grid (r rnew : List K) (axis : ℤ) (u : Arr12 α) (unew : Option (Arr12 α))
    (h : mirrorGrid r (some u) axis = .ok (rnew, unew)) : mirrorGrid (α := α) r none axis = .ok (rnew, none) := by
  rcases u with v | rows <;> simp only [mirrorGrid] at h ⊢ <;> split_ifs at h <;> cases h <;> rfl

/-- **C50.** One-dimensional `u`, default axis: samples of an even function on `r` become its samples on the mirrored grid. -/
theorem C50_even (r : List K) (f : K → α) (hf : ∀ x, f (-x) = f x) : ∃ rnew,
    mirrorGrid r (some (.d1 (r.map f))) (-1) = .ok (rnew, some (.d1 (rnew.map f))) := by
  refine ⟨r.reverse.map (-·) ++ r, ?_⟩
  simp only [mirrorGrid, if_true]
  simp [Function.comp_def, hf, List.map_reverse]

/-- **C50.** One-dimensional `u` of any values: the result is symmetric and its second half is `u`. -/
theorem C50_palindrome (r : List K) (v : List α) : ∃ rnew w,
    mirrorGrid r (some (.d1 v)) (-1) = .ok (rnew, some (.d1 w)) ∧ w.length = 2 * v.length ∧ w.reverse = w ∧ w.drop v.length = v := by
  refine ⟨_, _, rfl, ?_, ?_, ?_⟩
  · simp; omega
  · simp
  · rw [List.drop_append_of_le_length (by simp)]; simp

/-- **C50.** Two-dimensional `u` mirrored along the first axis: rows that depend evenly on `r`. -/
theorem C50_rows (r : List K) (f : K → List α) (hf : ∀ x, f (-x) = f x) : ∃ rnew,
    mirrorGrid r (some (.d2 (r.map f))) 0 = .ok (rnew, some (.d2 (rnew.map f))) := by
  refine ⟨r.reverse.map (-·) ++ r, ?_⟩
  simp only [mirrorGrid]
  rw [if_neg (by decide), if_pos trivial]
  simp [Function.comp_def, hf, List.map_reverse]

/-- **C50.** Two-dimensional `u` mirrored along the second axis: each row is an even function of `r`. -/
theorem C50_columns {β : Type} (r : List K) (ys : List β) (f : β → K → α) (hf : ∀ y x, f y (-x) = f y x) : ∃ rnew,
    mirrorGrid r (some (.d2 (ys.map fun y => r.map (f y)))) 1 = .ok (rnew, some (.d2 (ys.map fun y => rnew.map (f y)))) := by
  refine ⟨r.reverse.map (-·) ++ r, ?_⟩
  simp only [mirrorGrid]
  rw [if_neg (by decide), if_neg (by decide), if_pos trivial]
  congr 4
  rw [List.map_map, List.zipWith_map, List.zipWith_self]
  apply List.map_congr_left
  intro y _
  simp [Function.comp_def, hf, List.map_reverse]

/-- **C50.** With a two-dimensional `u` the default axis `-1` does not mirror along the last axis: row `i` is joined to row
`n - 1 - i`, so the result is the mirrored array exactly when each row, reversed, is the opposite row. -/
theorem C50_default_axis_2d (r : List K) (rows : List (List α)) (w : ℕ) (hw : ∀ row ∈ rows, row.length = w) :
    mirrorGrid r (some (.d2 rows)) (-1) = mirrorGrid r (some (.d2 rows)) 1 ↔ rows.reverse = rows.map List.reverse := by
  simp only [mirrorGrid]
  norm_num
  constructor
  · intro h
    apply List.ext_getElem (by simp)
    intro i h1 h2
    have h3 : i < rows.length := by simpa using h1
    have := congrArg (fun l => l[i]?) h
    simp only [List.getElem?_zipWith, List.getElem?_eq_getElem h3, List.getElem?_eq_getElem h1,
      List.getElem?_eq_getElem h2] at this
    simp only [Option.some.injEq] at this
    refine (List.append_inj this ?_).1
    rw [hw _ (List.mem_reverse.1 (List.getElem_mem h1)), List.getElem_map, List.length_reverse, hw _ (List.getElem_mem h3)]
  · intro h; rw [h]

/-- A two-dimensional array for which they differ. -/
example : mirrorGrid [1, (2 : ℚ)] (some (.d2 [["a", "b"], ["c", "d"]])) (-1) =
    .ok ([-2, -1, 1, 2], some (.d2 [["c", "d", "a", "b"], ["a", "b", "c", "d"]])) := by
  simp [mirrorGrid]

/-- **C50.** The remaining combinations: axis 0 turns a one-dimensional `u` into two rows, axis 1 refuses it, and any other axis
is refused when `u` is given. -/
theorem C50_other (r : List K) (v : List α) (rows : List (List α)) (axis : ℤ) :
    (∃ rnew, mirrorGrid r (some (.d1 v)) 0 = .ok (rnew, some (.d2 [v.reverse, v]))) ∧
    mirrorGrid r (some (.d1 v)) 1 = .error .valueError ∧
    (axis ≠ -1 → axis ≠ 0 → axis ≠ 1 → mirrorGrid r (some (.d1 v)) axis = .error .valueError ∧
      mirrorGrid r (some (.d2 rows)) axis = .error .valueError) := by
  refine ⟨⟨_, rfl⟩, rfl, fun h1 h2 h3 => ?_⟩
  simp [mirrorGrid, h1, h2, h3]

/-- The grid `1, 2, 3`: increasing after reflection; even functions are extended; a row vector cannot be reflected along axis 0. -/
example : (∃ rnew, mirrorGrid (α := ℚ) [1, 2, (3 : ℚ)] none (-1) = .ok (rnew, none) ∧ rnew.length = 6 ∧ rnew.Pairwise (· < ·)) ∧
    (∃ rnew, mirrorGrid [1, 2, (3 : ℚ)] (some (.d1 ([1, 2, 3].map fun x : ℚ => x ^ 2))) (-1) =
      .ok (rnew, some (.d1 (rnew.map fun x => x ^ 2)))) ∧
    (∃ rnew, mirrorGrid [1, 2, (3 : ℚ)] (some (.d2 ([1, 2, 3].map fun x : ℚ => [x ^ 2, |x|]))) 0 =
      .ok (rnew, some (.d2 (rnew.map fun x => [x ^ 2, |x|])))) ∧
    (∃ rnew, mirrorGrid [1, 2, (3 : ℚ)] (some (.d2 ([5, (7 : ℚ)].map fun y => [1, 2, 3].map fun x : ℚ => y * x ^ 2))) 1 =
      .ok (rnew, some (.d2 ([5, 7].map fun y => rnew.map fun x => y * x ^ 2)))) ∧
    mirrorGrid [1, (2 : ℚ)] (some (.d1 [1, (2 : ℚ)])) 1 = .error .valueError ∧
    mirrorGrid [1, (2 : ℚ)] (some (.d2 [[1, (2 : ℚ)]])) 2 = .error .valueError ∧
    (∃ rnew w, mirrorGrid [1, (2 : ℚ)] (some (.d1 ["a", "b"])) (-1) = .ok (rnew, some (.d1 w)) ∧ w.reverse = w ∧
      mirrorGrid (α := String) [1, (2 : ℚ)] none (-1) = .ok (rnew, none)) ∧
    mirrorGrid [1, (2 : ℚ)] (some (.d2 [["a", "b"], ["c", "d"]])) (-1) ≠ mirrorGrid [1, (2 : ℚ)] (some (.d2 [["a", "b"], ["c", "d"]])) 1 ∧
    mirrorGrid [1, (2 : ℚ)] (some (.d2 [["a", "b"], ["b", "a"]])) (-1) = mirrorGrid [1, (2 : ℚ)] (some (.d2 [["a", "b"], ["b", "a"]])) 1 := by
  refine ⟨?_, C50_even _ (fun x => x ^ 2) (by simp), C50_rows _ (fun x => [x ^ 2, |x|]) (by simp),
    C50_columns _ _ (fun y x => y * x ^ 2) (by simp), (C50_other _ _ [] 0).2.1,
    ((C50_other (α := ℚ) [1, (2 : ℚ)] [] [[1, 2]] 2).2.2 (by norm_num) (by norm_num) (by norm_num)).2, ?_, ?_, ?_⟩
  · obtain ⟨rnew, h1, h2, -⟩ := C50_grid (α := ℚ) [1, 2, (3 : ℚ)] (-1)
    exact ⟨rnew, h1, h2, (C50_increasing _ rnew _ _ _ h1).2 ⟨by simp, by norm_num⟩⟩
  · obtain ⟨rnew, w, h1, -, h2, -⟩ := C50_palindrome [1, (2 : ℚ)] ["a", "b"]
    exact ⟨rnew, w, h1, h2, C50_same_grid _ rnew _ _ _ h1⟩
  · rw [Ne, C50_default_axis_2d _ _ 2 (by simp)]
    simp
  · rw [C50_default_axis_2d _ _ 2 (by simp)]
    simp

example : mirrorGrid [1, 2, (3 : ℚ)] (some (.d1 [1, 4, (9 : ℚ)])) (-1) =
    .ok ([-3, -2, -1, 1, 2, 3], some (.d1 [9, 4, 1, 1, 4, 9])) := by
  simp [mirrorGrid]

example : mirrorGrid [1, (2 : ℚ)] (some (.d2 [["a", "b"], ["c", "d"]])) 1 =
    .ok ([-2, -1, 1, 2], some (.d2 [["b", "a", "a", "b"], ["d", "c", "c", "d"]])) := by
  simp [mirrorGrid]

end Verif
