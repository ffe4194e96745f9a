import Verif.Model.MirrorNd
import Verif.Model.Grids

/-!
# C88: `mirror_grid` on arrays of any shape
-/

set_option linter.unusedSectionVars false

namespace Verif

variable {K α : Type} [Neg K]

/-- The values that `hstack` and `vstack` give when an array is joined to one of the same shape. -/
theorem NdArr.concat_same (k : ℕ) (a b : NdArr α) (h : a.shape = b.shape) (hk : k < b.shape.length) :
    NdArr.concat k a b = .ok ⟨b.shape.set k (b.shape.getD k 0 + b.shape.getD k 0), fun idx =>
      if idx.getD k 0 < b.shape.getD k 0 then a.get idx else b.get (idx.set k (idx.getD k 0 - b.shape.getD k 0))⟩ := by
  rw [NdArr.concat, h, if_neg (by simp; omega)]

/-- The grid is mirrored first. -/
theorem mirror_split {r rnew : NdArr K} (hr : ¬ r.shape.length < 1)
    (e : NdArr.hstack ⟨(r.flip 0).shape, fun idx => -(r.flip 0).get idx⟩ r = .ok rnew) (u : Option (NdArr α)) (axis : ℤ) :
    mirrorGridNd r u axis = (match u with
      | none => .ok (rnew, none)
      | some u => (if axis = -1 then u.flipud.bind fun v => NdArr.hstack v u else if axis = 0 then u.flipud.bind fun v => NdArr.vstack v u
          else if axis = 1 then u.fliplr.bind fun v => NdArr.hstack v u else .error .valueError).map fun w => (rnew, some w)) := by
  rw [mirrorGridNd, NdArr.flipud, if_neg hr]
  simp only [bind, Except.bind, e, pure, Except.pure]
  rcases u with _ | u
  · rfl
  · simp only
    split_ifs
    · rcases u.flipud with _ | v
      · rfl
      · simp only
        rcases NdArr.hstack v u with _ | _ <;> rfl
    · rcases u.flipud with _ | v
      · rfl
      · simp only
        rcases NdArr.vstack v u with _ | _ <;> rfl
    · rcases u.fliplr with _ | v
      · rfl
      · simp only
        rcases NdArr.hstack v u with _ | _ <;> rfl
    · rfl

theorem rnew_one {r : NdArr K} {n : ℕ} (hr : r.shape = [n]) : ∃ rnew : NdArr K, rnew.shape = [2 * n] ∧
    (∀ i, rnew.get [i] = if i < n then -r.get [n - 1 - i] else r.get [i - n]) ∧
    ∀ (u : Option (NdArr α)) (axis : ℤ), mirrorGridNd r u axis =
      (match u with
      | none => .ok (rnew, none)
      | some u => (if axis = -1 then u.flipud.bind fun v => NdArr.hstack v u else if axis = 0 then u.flipud.bind fun v => NdArr.vstack v u
          else if axis = 1 then u.fliplr.bind fun v => NdArr.hstack v u else .error .valueError).map fun w => (rnew, some w)) := by
  refine ⟨⟨[n + n], fun idx => if idx.getD 0 0 < n then -(r.flip 0).get idx else r.get (idx.set 0 (idx.getD 0 0 - n))⟩, by simp; omega,
    fun i => by simp [NdArr.flip, hr], fun u axis => ?_⟩
  have e : NdArr.hstack ⟨(r.flip 0).shape, fun idx => -(r.flip 0).get idx⟩ r =
      .ok ⟨[n + n], fun idx => if idx.getD 0 0 < n then -(r.flip 0).get idx else r.get (idx.set 0 (idx.getD 0 0 - n))⟩ := by
    simp [NdArr.hstack, NdArr.atleast1, NdArr.flip, hr, NdArr.concat]
  exact mirror_split (by simp [hr]) e u axis

/-- **C88.** The grid: for a one-dimensional `r` it has twice as many points, the negatives of those of `r` in reversed order before those of `r`,
so that it is antisymmetric. -/
theorem C88_grid {r : NdArr K} {n : ℕ} (hr : r.shape = [n]) (axis : ℤ) : ∃ rnew, mirrorGridNd (α := α) r none axis = .ok (rnew, none) ∧
    rnew.shape = [2 * n] ∧ (∀ i < n, rnew.get [n + i] = r.get [i]) ∧ ∀ i < n, rnew.get [n - 1 - i] = -rnew.get [n + i] := by
  obtain ⟨rnew, h1, h2, h3⟩ := rnew_one (α := α) hr
  refine ⟨rnew, h3 none axis, h1, fun i hi => ?_, fun i hi => ?_⟩
  · rw [h2, if_neg (by omega), Nat.add_sub_cancel_left]
  · rw [h2, if_pos (by omega), h2, if_neg (by omega), Nat.add_sub_cancel_left, show n - 1 - (n - 1 - i) = i by omega]

/-- **C88.** The default axis for one-dimensional `u`: the values in reversed order before the values. -/
theorem C88_one {r : NdArr K} {n m : ℕ} (hr : r.shape = [n]) {u : NdArr α} (hu : u.shape = [m]) : ∃ rnew unew,
    mirrorGridNd r (some u) (-1) = .ok (rnew, some unew) ∧ unew.shape = [2 * m] ∧ (∀ i < m, unew.get [m + i] = u.get [i]) ∧
    ∀ i < m, unew.get [m - 1 - i] = unew.get [m + i] := by
  obtain ⟨rnew, -, -, h3⟩ := rnew_one (α := α) hr
  refine ⟨rnew, ⟨[m + m], fun idx => if idx.getD 0 0 < m then (u.flip 0).get idx else u.get (idx.set 0 (idx.getD 0 0 - m))⟩, ?_, by simp; omega, fun i hi => ?_, fun i hi => ?_⟩
  · rw [h3]
    simp [NdArr.flipud, Except.bind, NdArr.hstack, NdArr.atleast1, NdArr.flip, hu, NdArr.concat, Except.map]
  · simp
  · simp [NdArr.flip, hu, show m - 1 - i < m by omega, show m - 1 - (m - 1 - i) = i by omega]

/-- **C88.** Axis 0 for arrays with two or more axes: twice as many rows, symmetric, the second half is `u`. -/
theorem C88_rows {r : NdArr K} {n a b : ℕ} (hr : r.shape = [n]) {s : List ℕ} {u : NdArr α} (hu : u.shape = a :: b :: s) : ∃ rnew unew,
    mirrorGridNd r (some u) 0 = .ok (rnew, some unew) ∧ unew.shape = (2 * a) :: b :: s ∧
    (∀ i < a, ∀ t, unew.get ((a + i) :: t) = u.get (i :: t)) ∧ ∀ i < a, ∀ t, unew.get ((a - 1 - i) :: t) = unew.get ((a + i) :: t) := by
  obtain ⟨rnew, -, -, h3⟩ := rnew_one (α := α) hr
  have h2 : u.atleast2 = u := by simp [NdArr.atleast2, hu]
  have h2' : (u.flip 0).atleast2 = u.flip 0 := by simp [NdArr.atleast2, NdArr.flip, hu]
  have e := NdArr.concat_same 0 (u.flip 0) u rfl (by simp [hu])
  refine ⟨rnew, ⟨(a + a) :: b :: s, fun idx => if idx.getD 0 0 < a then (u.flip 0).get idx else u.get (idx.set 0 (idx.getD 0 0 - a))⟩, ?_, by simp; omega,
    fun i hi t => ?_, fun i hi t => ?_⟩
  · rw [h3]
    simp only [if_neg (show ¬ (0 : ℤ) = -1 by decide), if_true, NdArr.flipud, hu, List.length_cons,
      if_neg (show ¬ (s.length + 1 + 1 < 1) by omega), Except.bind, NdArr.vstack, h2, h2', e]
    simp [Except.map]
  · simp
  · simp [NdArr.flip, hu, show a - 1 - i < a by omega, show a - 1 - (a - 1 - i) = i by omega]

/-- **C88.** Axis 0 for a one-dimensional `u` makes a matrix with the two rows `u` reversed and `u`. -/
theorem C88_rows_one {r : NdArr K} {n m : ℕ} (hr : r.shape = [n]) {u : NdArr α} (hu : u.shape = [m]) : ∃ rnew unew,
    mirrorGridNd r (some u) 0 = .ok (rnew, some unew) ∧ unew.shape = [2, m] ∧
    ∀ j < m, unew.get [0, j] = u.get [m - 1 - j] ∧ unew.get [1, j] = u.get [j] := by
  obtain ⟨rnew, -, -, h3⟩ := rnew_one (α := α) hr
  have h2 : u.atleast2 = ⟨[1, m], fun idx => u.get idx.tail⟩ := by simp [NdArr.atleast2, hu]
  have h2' : (u.flip 0).atleast2 = ⟨[1, m], fun idx => (u.flip 0).get idx.tail⟩ := by simp [NdArr.atleast2, NdArr.flip, hu]
  have e := NdArr.concat_same 0 (u.flip 0).atleast2 u.atleast2 (by rw [h2, h2']) (by simp [h2])
  rw [h2, h2'] at e
  refine ⟨rnew, ⟨[2, m], fun idx => if idx.getD 0 0 < 1 then (u.flip 0).get idx.tail else u.get (idx.set 0 (idx.getD 0 0 - 1)).tail⟩, ?_, rfl, fun j hj => ?_⟩
  · rw [h3]
    simp only [if_neg (show ¬ (0 : ℤ) = -1 by decide), if_true, NdArr.flipud, hu, List.length_cons, List.length_nil,
      if_neg (show ¬ (0 + 1 < 1) by omega), Except.bind, NdArr.vstack, h2, h2', e]
    simp [Except.map]
  · simp [NdArr.flip, hu]

/-- **C88.** Axis 1: twice as many columns, symmetric, the second half is `u`. -/
theorem C88_columns {r : NdArr K} {n a b : ℕ} (hr : r.shape = [n]) {s : List ℕ} {u : NdArr α} (hu : u.shape = a :: b :: s) : ∃ rnew unew,
    mirrorGridNd r (some u) 1 = .ok (rnew, some unew) ∧ unew.shape = a :: (2 * b) :: s ∧
    (∀ i, ∀ j < b, ∀ t, unew.get (i :: (b + j) :: t) = u.get (i :: j :: t)) ∧
    ∀ i, ∀ j < b, ∀ t, unew.get (i :: (b - 1 - j) :: t) = unew.get (i :: (b + j) :: t) := by
  obtain ⟨rnew, -, -, h3⟩ := rnew_one (α := α) hr
  have h2 : u.atleast1 = u := by simp [NdArr.atleast1, hu]
  have h2' : (u.flip 1).atleast1 = u.flip 1 := by simp [NdArr.atleast1, NdArr.flip, hu]
  have e := NdArr.concat_same 1 (u.flip 1) u rfl (by simp [hu])
  refine ⟨rnew, ⟨a :: (b + b) :: s, fun idx => if idx.getD 1 0 < b then (u.flip 1).get idx else u.get (idx.set 1 (idx.getD 1 0 - b))⟩, ?_, by simp; omega,
    fun i j hj t => ?_, fun i j hj t => ?_⟩
  · rw [h3]
    simp only [if_neg (show ¬ (1 : ℤ) = -1 by decide), if_neg (show ¬ (1 : ℤ) = 0 by decide), if_true, NdArr.fliplr, hu, List.length_cons,
      if_neg (show ¬ (s.length + 1 + 1 < 2) by omega), Except.bind, NdArr.hstack, h2, h2']
    rw [if_neg (by simp [NdArr.flip, hu]), e]
    simp [Except.map, hu]
  · simp
  · simp [NdArr.flip, hu, show b - 1 - j < b by omega, show b - 1 - (b - 1 - j) = j by omega]

/-- **C88.** The default axis for arrays with two or more axes is not the last one: `u` with its rows in reversed order is put in front of `u` along
the second axis. The result is symmetric in the second axis only for arrays with `u[a-1-i, j] = u[i, b-1-j]`. -/
theorem C88_default {r : NdArr K} {n a b : ℕ} (hr : r.shape = [n]) {s : List ℕ} {u : NdArr α} (hu : u.shape = a :: b :: s) : ∃ rnew unew,
    mirrorGridNd r (some u) (-1) = .ok (rnew, some unew) ∧ unew.shape = a :: (2 * b) :: s ∧
    (∀ i < a, ∀ j < b, ∀ t, unew.get (i :: j :: t) = u.get ((a - 1 - i) :: j :: t) ∧ unew.get (i :: (b + j) :: t) = u.get (i :: j :: t)) ∧
    ((∀ i < a, ∀ j < b, ∀ t, unew.get (i :: (b - 1 - j) :: t) = unew.get (i :: (b + j) :: t)) ↔
      ∀ i < a, ∀ j < b, ∀ t, u.get ((a - 1 - i) :: (b - 1 - j) :: t) = u.get (i :: j :: t)) := by
  obtain ⟨rnew, -, -, h3⟩ := rnew_one (α := α) hr
  have h2 : u.atleast1 = u := by simp [NdArr.atleast1, hu]
  have h2' : (u.flip 0).atleast1 = u.flip 0 := by simp [NdArr.atleast1, NdArr.flip, hu]
  have e := NdArr.concat_same 1 (u.flip 0) u rfl (by simp [hu])
  have key : ∀ i < a, ∀ j < b, ∀ t, (if (i :: j :: t).getD 1 0 < b then (u.flip 0).get (i :: j :: t) else
        u.get ((i :: j :: t).set 1 ((i :: j :: t).getD 1 0 - b))) = u.get ((a - 1 - i) :: j :: t) := fun i hi j hj t => by
    simp [NdArr.flip, hu, hj]
  have key' : ∀ i < a, ∀ j < b, ∀ t, (if (i :: (b + j) :: t).getD 1 0 < b then (u.flip 0).get (i :: (b + j) :: t) else
        u.get ((i :: (b + j) :: t).set 1 ((i :: (b + j) :: t).getD 1 0 - b))) = u.get (i :: j :: t) := fun i hi j hj t => by
    simp
  refine ⟨rnew, ⟨a :: (b + b) :: s, fun idx => if idx.getD 1 0 < b then (u.flip 0).get idx else u.get (idx.set 1 (idx.getD 1 0 - b))⟩, ?_, by simp; omega,
    fun i hi j hj t => ⟨key i hi j hj t, key' i hi j hj t⟩, ?_⟩
  · rw [h3]
    simp only [if_true, NdArr.flipud, hu, List.length_cons, if_neg (show ¬ (s.length + 1 + 1 < 1) by omega), Except.bind, NdArr.hstack, h2, h2']
    rw [if_neg (by simp [NdArr.flip, hu]), e]
    simp [Except.map, hu]
  · constructor
    · intro h i hi j hj t
      have := h i hi j hj t
      simp only at this
      rw [key i hi _ (by omega), key' i hi j hj] at this
      exact this
    · intro h i hi j hj t
      simp only
      rw [key i hi _ (by omega), key' i hi j hj]
      exact h i hi j hj t

theorem NdArr.hstack_ok (a b : NdArr α) (h : a.shape = b.shape) (hb : b.shape ≠ []) : ∃ w, NdArr.hstack a b = .ok w := by
  have h1 : ∀ c : NdArr α, c.shape = b.shape → c.atleast1 = c := fun c hc => by
    unfold NdArr.atleast1
    split
    · rename_i e; exact absurd (hc ▸ e) hb
    · rfl
  have hl : 0 < b.shape.length := List.length_pos_iff.2 hb
  rw [NdArr.hstack, h1 a h, h1 b rfl]
  refine ⟨_, NdArr.concat_same _ a b h ?_⟩
  rw [h]
  split_ifs <;> omega

theorem NdArr.vstack_ok (a b : NdArr α) (h : a.shape = b.shape) : ∃ w, NdArr.vstack a b = .ok w := by
  rw [NdArr.vstack]
  have e : a.atleast2.shape = b.atleast2.shape := by
    obtain ⟨sa, ga⟩ := a
    obtain ⟨sb, gb⟩ := b
    simp only at h
    subst h
    rcases sa with _ | ⟨x, _ | ⟨y, l⟩⟩ <;> rfl
  refine ⟨_, NdArr.concat_same _ _ _ e ?_⟩
  obtain ⟨sb, gb⟩ := b
  rcases sb with _ | ⟨x, _ | ⟨y, l⟩⟩ <;> simp [NdArr.atleast2]

/-- **C88.** `mirror_grid` raises only `ValueError`, and just for `r` without axes, for an `axis` other than -1, 0 and 1, for `u` without axes, and
for axis 1 if `u` has only one; `axis` is ignored without `u`. -/
theorem C88_raises (r : NdArr K) (u : Option (NdArr α)) (axis : ℤ) :
    if r.shape = [] ∨ ∃ v, u = some v ∧ (axis ∉ [-1, 0, 1] ∨ v.shape = [] ∨ axis = 1 ∧ v.shape.length = 1) then
      mirrorGridNd r u axis = .error .valueError
    else ∃ p, mirrorGridNd r u axis = .ok p := by
  by_cases hr : r.shape = []
  · rw [if_pos (.inl hr), mirrorGridNd, NdArr.flipud, if_pos (by simp [hr])]; rfl
  have hr0 : ¬ r.shape.length < 1 := by have := List.length_pos_iff.2 hr; omega
  obtain ⟨rnew, e⟩ := NdArr.hstack_ok ⟨(r.flip 0).shape, fun idx => -(r.flip 0).get idx⟩ r rfl hr
  have e0 : mirrorGridNd r u axis = (match u with
      | none => .ok (rnew, none)
      | some u => (if axis = -1 then u.flipud.bind fun v => NdArr.hstack v u else if axis = 0 then u.flipud.bind fun v => NdArr.vstack v u
          else if axis = 1 then u.fliplr.bind fun v => NdArr.hstack v u else .error .valueError).map fun w => (rnew, some w)) := mirror_split hr0 e u axis
  rw [e0]
  rcases u with _ | u
  · rw [if_neg (by simp [hr])]; exact ⟨_, rfl⟩
  have hx : (r.shape = [] ∨ ∃ v, some u = some v ∧ (axis ∉ [-1, 0, 1] ∨ v.shape = [] ∨ axis = 1 ∧ v.shape.length = 1)) ↔
      (axis ∉ [-1, 0, 1] ∨ u.shape = [] ∨ axis = 1 ∧ u.shape.length = 1) := by simp [hr]
  simp only [hx]
  by_cases hu : u.shape = []
  · rw [if_pos (.inr (.inl hu))]
    simp only [NdArr.flipud, NdArr.fliplr, hu, List.length_nil, if_pos (show 0 < 1 by omega), if_pos (show 0 < 2 by omega)]
    split_ifs <;> rfl
  have hu0 : ¬ u.shape.length < 1 := by have := List.length_pos_iff.2 hu; omega
  obtain ⟨w0, k0⟩ := NdArr.hstack_ok (u.flip 0) u rfl hu
  obtain ⟨w1, k1⟩ := NdArr.hstack_ok (u.flip 1) u rfl hu
  obtain ⟨w2, k2⟩ := NdArr.vstack_ok (u.flip 0) u rfl
  by_cases a1 : axis = -1
  · subst a1
    rw [if_neg (by simp [hu])]
    exact ⟨(rnew, some w0), by simp [NdArr.flipud, hu, Except.bind, k0, Except.map]⟩
  by_cases a2 : axis = 0
  · subst a2
    rw [if_neg (by simp [hu])]
    exact ⟨(rnew, some w2), by simp [NdArr.flipud, hu, Except.bind, k2, Except.map]⟩
  by_cases a3 : axis = 1
  · subst a3
    by_cases hl : u.shape.length = 1
    · rw [if_pos (by simp [hl])]
      simp [NdArr.fliplr, hl, Except.bind, Except.map]
    · rw [if_neg (by simp [hu, hl])]
      exact ⟨(rnew, some w1), by simp [NdArr.fliplr, show ¬ u.shape.length < 2 by omega, Except.bind, k1, Except.map]⟩
  · rw [if_pos (by simp [a1, a2, a3])]
    simp [a1, a2, a3, Except.map]

/-- **C88.** Whatever `u` and the axis are, the returned grid is the one without `u`. -/
theorem C88_same_grid (r rnew : NdArr K) (axis axis' : ℤ) (u : NdArr α) (unew : Option (NdArr α))
    (h : mirrorGridNd r (some u) axis = .ok (rnew, unew)) : mirrorGridNd (α := α) r none axis' = .ok (rnew, none) := by
  have hr : r.shape ≠ [] := fun hr => by
    have := C88_raises r (some u) axis
    rw [if_pos (.inl hr), h] at this
    cases this
  obtain ⟨q, e⟩ := NdArr.hstack_ok ⟨(r.flip 0).shape, fun idx => -(r.flip 0).get idx⟩ r rfl hr
  have hr0 : ¬ r.shape.length < 1 := by have := List.length_pos_iff.2 hr; omega
  rw [mirror_split hr0 e] at h ⊢
  simp only at h ⊢
  generalize (if axis = -1 then u.flipud.bind fun v => NdArr.hstack v u else if axis = 0 then u.flipud.bind fun v => NdArr.vstack v u
          else if axis = 1 then u.fliplr.bind fun v => NdArr.hstack v u else .error .valueError) = x at h
  rcases x with _ | x
  · cases h
  · cases h; rfl

/-- **C88.** A grid `r` with two or more axes, such as one made by `meshgrid`, is reversed along its first axis and joined along its second. -/
theorem C88_grid_nd {r : NdArr K} {a b : ℕ} {s : List ℕ} (hr : r.shape = a :: b :: s) (axis : ℤ) : ∃ rnew,
    mirrorGridNd (α := α) r none axis = .ok (rnew, none) ∧ rnew.shape = a :: (2 * b) :: s ∧
    ∀ i < a, ∀ j < b, ∀ t, rnew.get (i :: j :: t) = -r.get ((a - 1 - i) :: j :: t) ∧ rnew.get (i :: (b + j) :: t) = r.get (i :: j :: t) := by
  have h2 : r.atleast1 = r := by simp [NdArr.atleast1, hr]
  have h2' : (⟨(r.flip 0).shape, fun idx => -(r.flip 0).get idx⟩ : NdArr K).atleast1 = ⟨(r.flip 0).shape, fun idx => -(r.flip 0).get idx⟩ := by
    simp [NdArr.atleast1, NdArr.flip, hr]
  have e := NdArr.concat_same 1 ⟨(r.flip 0).shape, fun idx => -(r.flip 0).get idx⟩ r rfl (by simp [hr])
  have e' : NdArr.hstack ⟨(r.flip 0).shape, fun idx => -(r.flip 0).get idx⟩ r = .ok ⟨a :: (b + b) :: s, fun idx =>
      if idx.getD 1 0 < b then -(r.flip 0).get idx else r.get (idx.set 1 (idx.getD 1 0 - b))⟩ := by
    rw [NdArr.hstack, h2, h2', if_neg (by simp [NdArr.flip, hr]), e]
    simp [hr]
  refine ⟨_, mirror_split (by simp [hr]) e' none axis, by simp; omega, fun i hi j hj t => ⟨?_, ?_⟩⟩
  · simp [NdArr.flip, hr, hj]
  · simp

/-- The array has the values of the list. -/
def NdArr.IsList (a : NdArr α) (l : List α) : Prop := a.shape = [l.length] ∧ ∀ i (h : i < l.length), a.get [i] = l[i]

/-- The array has the values of the list, or of the rows, all of one length. -/
def NdArr.Is12 (a : NdArr α) : Arr12 α → Prop
  | .d1 l => a.IsList l
  | .d2 rows => ∃ w, a.shape = [rows.length, w] ∧ (∀ row ∈ rows, row.length = w) ∧
      ∀ i j (h : i < rows.length) (h' : j < rows[i].length), a.get [i, j] = rows[i][j]

/-- **C88.** On one- and two-dimensional arrays it is the function of C50. -/
theorem C88_lists {r : NdArr K} {l : List K} (hr : r.IsList l) {u : NdArr α} {x : Arr12 α} (hu : u.Is12 x) (axis : ℤ) :
    match mirrorGrid l (some x) axis, mirrorGridNd r (some u) axis with
    | .ok (p, some q), .ok (p', some q') => p'.IsList p ∧ q'.Is12 q
    | .error e, .error e' => e = e'
    | _, _ => False := by
  obtain ⟨p', g1, g2, g3, g4⟩ := C88_grid (α := α) hr.1 axis
  have hp : p'.IsList (l.reverse.map (-·) ++ l) := by
    refine ⟨by simp [g2]; omega, fun i hi => ?_⟩
    simp only [List.length_append, List.length_map, List.length_reverse] at hi
    by_cases h : i < l.length
    · rw [List.getElem_append_left (by simpa using h), List.getElem_map, List.getElem_reverse]
      have := g4 (l.length - 1 - i) (by omega)
      rw [g3 _ (by omega), hr.2 _ (by omega), show l.length - 1 - (l.length - 1 - i) = i by omega] at this
      exact this
    · rw [List.getElem_append_right (by simpa using h)]
      have := g3 (i - l.length) (by omega)
      rw [show l.length + (i - l.length) = i by omega, hr.2 _ (by omega)] at this
      simpa using this
  have tie : ∀ {p'' : NdArr K} {q' : NdArr α}, mirrorGridNd r (some u) axis = .ok (p'', some q') → p''.IsList (l.reverse.map (-·) ++ l) :=
    fun h => by
      have := C88_same_grid _ _ _ axis _ _ h
      rw [g1] at this
      cases this
      exact hp
  have bad : (axis ∉ [-1, 0, 1] ∨ u.shape = [] ∨ axis = 1 ∧ u.shape.length = 1) → mirrorGridNd r (some u) axis = .error .valueError := fun h => by
    have := C88_raises r (some u) axis
    rwa [if_pos (.inr ⟨u, rfl, h⟩)] at this
  rcases x with v | rows
  · by_cases a1 : axis = -1
    · obtain ⟨p'', q', e, e2, e3, e4⟩ := C88_one hr.1 hu.1
      subst a1
      have t := tie e
      rw [e]
      simp only [mirrorGrid, if_true]
      refine ⟨t, by simp [e2]; omega, fun i hi => ?_⟩
      simp only [List.length_append, List.length_reverse] at hi
      by_cases h : i < v.length
      · rw [List.getElem_append_left (by simpa using h), List.getElem_reverse]
        have := e4 (v.length - 1 - i) (by omega)
        rw [e3 _ (by omega), hu.2 _ (by omega), show v.length - 1 - (v.length - 1 - i) = i by omega] at this
        exact this
      · rw [List.getElem_append_right (by simpa using h)]
        have := e3 (i - v.length) (by omega)
        rw [show v.length + (i - v.length) = i by omega, hu.2 _ (by omega)] at this
        simpa using this
    by_cases a2 : axis = 0
    · obtain ⟨p'', q', e, e2, e3⟩ := C88_rows_one hr.1 hu.1
      subst a2
      have t := tie e
      rw [e]
      simp only [mirrorGrid, if_neg a1, if_true]
      refine ⟨t, v.length, by simp [e2], by simp, fun i j hi hj => ?_⟩
      simp only [List.length_cons, List.length_nil] at hi
      have hi' : i = 0 ∨ i = 1 := by omega
      rcases hi' with rfl | rfl
      · have hj' : j < v.length := by simpa using hj
        rw [(e3 j hj').1, hu.2 _ (by omega)]
        simp
      · have hj' : j < v.length := by simpa using hj
        rw [(e3 j hj').2, hu.2 _ (by omega)]
        simp
    · rw [bad (by
        by_cases a3 : axis = 1
        · exact .inr (.inr ⟨a3, by simp [hu.1]⟩)
        · exact .inl (by simp [a1, a2, a3]))]
      simp [mirrorGrid, a1, a2]
  · obtain ⟨w, hs, hw, hv⟩ := hu
    by_cases a1 : axis = -1
    · obtain ⟨p'', q', e, e2, e3, -⟩ := C88_default hr.1 hs
      subst a1
      have t := tie e
      rw [e]
      simp only [mirrorGrid, if_true]
      refine ⟨t, 2 * w, by simp [e2], fun row hrow => ?_, fun i j hi hj => ?_⟩
      · obtain ⟨k, hk, rfl⟩ := List.getElem_of_mem hrow
        simp only [List.getElem_zipWith, List.length_append]
        rw [hw _ (List.getElem_mem _), hw _ (List.mem_reverse.1 (List.getElem_mem _))]; omega
      · have hi' : i < rows.length := by simpa using hi
        have hi2 : i < rows.reverse.length := by simpa using hi'
        have l1 : rows.reverse[i].length = w := hw _ (List.mem_reverse.1 (List.getElem_mem _))
        have l2 : rows[i].length = w := hw _ (List.getElem_mem _)
        simp only [List.getElem_zipWith, List.length_append] at hj ⊢
        by_cases h : j < w
        · rw [List.getElem_append_left (by omega), (e3 i hi' j h []).1, hv _ _ (by omega) (by rw [hw _ (List.getElem_mem _)]; exact h)]
          simp
        · have := (e3 i hi' (j - w) (by omega) []).2
          rw [show w + (j - w) = j by omega] at this
          rw [List.getElem_append_right (by omega), this, hv _ _ hi' (by omega)]
          simp only [l1]
    by_cases a2 : axis = 0
    · obtain ⟨p'', q', e, e2, e3, e4⟩ := C88_rows hr.1 hs
      subst a2
      have t := tie e
      rw [e]
      simp only [mirrorGrid, if_neg a1, if_true]
      refine ⟨t, w, by simp [e2]; omega, fun row hrow => ?_, fun i j hi hj => ?_⟩
      · simp only [List.mem_append, List.mem_reverse, or_self] at hrow
        exact hw _ hrow
      · simp only [List.length_append, List.length_reverse] at hi
        by_cases h : i < rows.length
        · have := e4 (rows.length - 1 - i) (by omega) [j]
          rw [e3 _ (by omega), show rows.length - 1 - (rows.length - 1 - i) = i by omega] at this
          have hj2 : j < rows[rows.length - 1 - i].length := by
            rw [List.getElem_append_left (by simpa using h), List.getElem_reverse] at hj; exact hj
          rw [this, hv _ _ (by omega) hj2]
          simp only [List.getElem_append_left (show i < rows.reverse.length by simpa using h), List.getElem_reverse]
        · have := e3 (i - rows.length) (by omega) [j]
          rw [show rows.length + (i - rows.length) = i by omega] at this
          have hj2 : j < rows[i - rows.length].length := by
            rw [List.getElem_append_right (by simpa using h)] at hj; simpa using hj
          rw [this, hv _ _ (by omega) hj2]
          simp only [List.getElem_append_right (show rows.reverse.length ≤ i by simpa using h), List.length_reverse]
    by_cases a3 : axis = 1
    · obtain ⟨p'', q', e, e2, e3, e4⟩ := C88_columns hr.1 hs
      subst a3
      have t := tie e
      rw [e]
      simp only [mirrorGrid, if_neg a1, if_neg a2, if_true]
      refine ⟨t, 2 * w, by simp [e2], fun row hrow => ?_, fun i j hi hj => ?_⟩
      · obtain ⟨k, hk, rfl⟩ := List.getElem_of_mem hrow
        simp only [List.getElem_zipWith, List.length_append, List.getElem_map, List.length_reverse]
        rw [hw _ (List.getElem_mem _)]; omega
      · have hi' : i < rows.length := by simpa using hi
        have l2 : rows[i].length = w := hw _ (List.getElem_mem _)
        simp only [List.getElem_zipWith, List.length_append, List.getElem_map, List.length_reverse] at hj ⊢
        by_cases h : j < w
        · have := e4 i (w - 1 - j) (by omega) []
          rw [e3 _ _ (by omega), show w - 1 - (w - 1 - j) = j by omega] at this
          rw [List.getElem_append_left (by simp; omega), this, hv _ _ hi' (by omega), List.getElem_reverse]
          simp only [l2]
        · have := e3 i (j - w) (by omega) []
          rw [show w + (j - w) = j by omega] at this
          rw [List.getElem_append_right (by simp; omega), this, hv _ _ hi' (by omega)]
          simp only [List.length_reverse, l2]
    · rw [bad (.inl (by simp [a1, a2, a3]))]
      simp [mirrorGrid, a1, a2, a3]

/-- The grid `1, 2, 3` and arrays with values `100 i + 10 j + k`. -/
example :
    let r : NdArr ℚ := ⟨[3], fun idx => (idx.sum : ℚ) + 1⟩
    let u : NdArr ℕ := ⟨[3, 2, 4], fun idx => idx.foldl (fun x i => 10 * x + i) 0⟩
    let v : NdArr ℕ := ⟨[3], fun idx => idx.sum⟩
    let w : NdArr ℕ := ⟨[], fun _ => 5⟩
    let m : NdArr ℚ := ⟨[3, 2], fun idx => (idx.headD 0 : ℚ) + 1⟩
    (∃ g, mirrorGridNd (α := ℕ) r none 7 = .ok (g, none) ∧ g.shape = [6] ∧ g.get [0] = -3 ∧ g.get [5] = 3) ∧
    (∃ g x, mirrorGridNd r (some v) (-1) = .ok (g, some x) ∧ x.shape = [6] ∧ x.get [0] = 2 ∧ x.get [5] = 2) ∧
    (∃ g x, mirrorGridNd r (some u) 0 = .ok (g, some x) ∧ x.shape = [6, 2, 4] ∧ x.get [0, 1, 3] = 213 ∧ x.get [5, 1, 3] = 213) ∧
    (∃ g x, mirrorGridNd r (some v) 0 = .ok (g, some x) ∧ x.shape = [2, 3] ∧ x.get [0, 0] = 2 ∧ x.get [1, 0] = 0) ∧
    (∃ g x, mirrorGridNd r (some u) 1 = .ok (g, some x) ∧ x.shape = [3, 4, 4] ∧ x.get [2, 0, 3] = 213 ∧ x.get [2, 3, 3] = 213) ∧
    (∃ g x, mirrorGridNd r (some u) (-1) = .ok (g, some x) ∧ x.shape = [3, 4, 4] ∧ x.get [0, 1, 3] = 213 ∧ x.get [0, 3, 3] = 13 ∧
      mirrorGridNd (α := ℕ) r none 0 = .ok (g, none)) ∧
    mirrorGridNd r (some v) 1 = .error .valueError ∧ mirrorGridNd r (some w) 0 = .error .valueError ∧
    mirrorGridNd r (some u) 2 = .error .valueError ∧ mirrorGridNd (α := ℕ) (⟨[], fun _ => 1⟩ : NdArr ℚ) none 0 = .error .valueError ∧
    (∃ g, mirrorGridNd (α := ℕ) m none 0 = .ok (g, none) ∧ g.shape = [3, 4] ∧ g.get [0, 0] = -3 ∧ g.get [0, 2] = 1) := by
  intro r u v w m
  refine ⟨?_, ?_, ?_, ?_, ?_, ?_, ?_, ?_, ?_, ?_, ?_⟩
  · obtain ⟨g, h, h1, h2, h3⟩ := C88_grid (α := ℕ) (r := r) (n := 3) rfl 7
    have e := h2 2 (by norm_num)
    have e' := h3 2 (by norm_num)
    norm_num at e e'
    rw [e] at e'
    exact ⟨g, h, h1, by rw [e']; norm_num [r], by rw [e]; norm_num [r]⟩
  · obtain ⟨g, x, h, h1, h2, h3⟩ := C88_one (r := r) (n := 3) rfl (u := v) (m := 3) rfl
    exact ⟨g, x, h, h1, (h3 2 (by norm_num)).trans (h2 2 (by norm_num)), h2 2 (by norm_num)⟩
  · obtain ⟨g, x, h, h1, h2, h3⟩ := C88_rows (r := r) (n := 3) rfl (u := u) (a := 3) (b := 2) (s := [4]) rfl
    exact ⟨g, x, h, h1, (h3 2 (by norm_num) [1, 3]).trans (h2 2 (by norm_num) [1, 3]), h2 2 (by norm_num) [1, 3]⟩
  · obtain ⟨g, x, h, h1, h2⟩ := C88_rows_one (r := r) (n := 3) rfl (u := v) (m := 3) rfl
    exact ⟨g, x, h, h1, (h2 0 (by norm_num)).1, (h2 0 (by norm_num)).2⟩
  · obtain ⟨g, x, h, h1, h2, h3⟩ := C88_columns (r := r) (n := 3) rfl (u := u) (a := 3) (b := 2) (s := [4]) rfl
    exact ⟨g, x, h, h1, (h3 2 1 (by norm_num) [3]).trans (h2 2 1 (by norm_num) [3]), h2 2 1 (by norm_num) [3]⟩
  · obtain ⟨g, x, h, h1, h2, -⟩ := C88_default (r := r) (n := 3) rfl (u := u) (a := 3) (b := 2) (s := [4]) rfl
    exact ⟨g, x, h, h1, (h2 0 (by norm_num) 1 (by norm_num) [3]).1, (h2 0 (by norm_num) 1 (by norm_num) [3]).2, C88_same_grid _ _ _ 0 _ _ h⟩
  · have := C88_raises r (some v) 1
    rwa [if_pos (.inr ⟨v, rfl, .inr (.inr ⟨rfl, rfl⟩)⟩)] at this
  · have := C88_raises r (some w) 0
    rwa [if_pos (.inr ⟨w, rfl, .inr (.inl rfl)⟩)] at this
  · have := C88_raises r (some u) 2
    rwa [if_pos (.inr ⟨u, rfl, .inl (by decide)⟩)] at this
  · have := C88_raises (α := ℕ) (⟨[], fun _ => 1⟩ : NdArr ℚ) none 0
    rwa [if_pos (.inl rfl)] at this
  · obtain ⟨g, h, h1, h2⟩ := C88_grid_nd (α := ℕ) (r := m) (a := 3) (b := 2) (s := []) rfl 0
    refine ⟨g, h, h1, ?_, ?_⟩
    · rw [(h2 0 (by norm_num) 0 (by norm_num) []).1]; norm_num [m]
    · have := (h2 0 (by norm_num) 0 (by norm_num) []).2
      norm_num at this
      rw [this]; norm_num [m]

/-- Arrays with the values of `[1, 2]` and of the rows `[a, b]`, `[c, d]`. -/
example : ∃ (r : NdArr ℚ) (u : NdArr String), r.IsList [1, 2] ∧ u.Is12 (.d2 [["a", "b"], ["c", "d"]]) ∧
    ∃ p q, mirrorGridNd r (some u) (-1) = .ok (p, some q) ∧ p.IsList [-2, -1, 1, 2] ∧ q.Is12 (.d2 [["c", "d", "a", "b"], ["a", "b", "c", "d"]]) := by
  have hr : (⟨[2], fun idx => [1, (2 : ℚ)].getD (idx.headD 0) 0⟩ : NdArr ℚ).IsList [1, 2] :=
    ⟨rfl, fun i h => by simp [List.getElem?_eq_getElem h]⟩
  have hu : (⟨[2, 2], fun idx => ([["a", "b"], ["c", "d"]].getD (idx.headD 0) []).getD (idx.getD 1 0) ""⟩ : NdArr String).Is12
      (.d2 [["a", "b"], ["c", "d"]]) := ⟨2, rfl, by simp, fun i j h h' => by
    simp at h
    have hi : i = 0 ∨ i = 1 := by omega
    rcases hi with rfl | rfl
    · have h2 : j < ["a", "b"].length := h'
      simp [List.getElem?_eq_getElem h2]
    · have h2 : j < ["c", "d"].length := h'
      simp [List.getElem?_eq_getElem h2]⟩
  refine ⟨_, _, hr, hu, ?_⟩
  have := C88_lists hr hu (-1)
  simp only [mirrorGrid, if_true] at this
  split at this
  · rename_i p q p' q' e1 e2
    cases e1
    exact ⟨p', q', e2, by simpa using this.1, by simpa using this.2⟩
  · rename_i e1 _; cases e1
  · exact this.elim

end Verif
