import Verif.Lemmas.Broadcast

/-!
# One line of an array
-/

set_option linter.unusedSectionVars false

namespace Verif

variable {N : ℕ} {κ : Type}

/-- Exact operations on arrays with the indices `κ`, for a program with coefficients that have the indices `Fin N`. -/
noncomputable def ArrOps.over (vec : Vec (Fin N) → Vec κ) (dot : Mat (Fin N) → Vec κ → Vec κ) : ArrOps (Fin N) (Vec κ) where
  add v w := .ok (v + w)
  sub v w := .ok (v - w)
  mul v w := .ok (v * w)
  neg v := .ok (-v)
  quot v n := .ok (v / bc n)
  scalar z := bc z
  vec := vec
  dot M v := .ok (dot M v)

/-- The entries of `x`, broadcast to `s`, at the indices `f j` are `v j`. -/
structure LineRel (s : List ℕ) (f : κ → List ℕ) (strict : Bool) (k : Kind) (x : NdArr ℂ) (v : Vec κ) : Prop where
  fits : Fits x.shape s
  get : ∀ j, x.get (bcIdx x.shape (f j)) = v j
  eq : strict = true → k = .arr → x.shape = s

theorem LineRel.arr_iff {s : List ℕ} {f : κ → List ℕ} (hf : ∀ j, List.Forall₂ (· < ·) (f j) s) {x : NdArr ℂ} {v : Vec κ} :
    LineRel s f true .arr x v ↔ x.shape = s ∧ (fun j => x.get (f j)) = v := by
  constructor
  · intro h
    have he := h.eq rfl rfl
    refine ⟨he, funext fun j => ?_⟩
    have := h.get j
    rwa [he, bcIdx_self (hf j)] at this
  · rintro ⟨h1, h2⟩
    refine ⟨h1 ▸ .refl _, fun j => ?_, fun _ _ => h1⟩
    rw [h1, bcIdx_self (hf j), ← h2]

theorem elementwise_rel {s : List ℕ} {f : κ → List ℕ} (hl : ∀ j, (f j).length = s.length) {strict : Bool} (g : ℂ → ℂ → ℂ)
    {k l : Kind} {x y : NdArr ℂ} {v w : Vec κ} (hx : LineRel s f strict k x v) (hy : LineRel s f strict l y w) :
    RelE (LineRel s f strict (k.join l)) (NdArr.elementwise g x y) (.ok fun j => g (v j) (w j)) := by
  obtain ⟨c, h1, h2, h3, h4, h5⟩ := bcShape_fits hx.fits hy.fits
  simp only [NdArr.elementwise, h1, RelE]
  refine ⟨h2, fun j => ?_, fun hs hk => ?_⟩
  · obtain ⟨e1, e2⟩ := h5 (f j) (hl j)
    simp only
    rw [e1, e2, hx.get, hy.get]
  · simp only
    have : k = .arr ∨ l = .arr := by cases k <;> cases l <;> simp_all [Kind.join]
    rcases this with h | h
    · exact h2.antisymm (hx.eq hs h ▸ h3)
    · exact h2.antisymm (hy.eq hs h ▸ h4)

/-- The operations on arrays respect `LineRel`. -/
theorem lineOps {s : List ℕ} {f : κ → List ℕ} (hl : ∀ j, (f j).length = s.length) (dots strict : Bool) (vec : Vec (Fin N) → Vec κ)
    (dot : Mat (Fin N) → Vec κ → Vec κ)
    (hd : dots = true → ∀ (M : Mat (Fin N)) x v, LineRel s f strict .arr x v →
      RelE (LineRel s f strict .arr) (NdArr.matDot M x) (.ok (dot M v))) :
    RelOps dots (LineRel s f strict) (ArrOps.numpy N) (ArrOps.over vec dot) where
  add _ _ _ _ _ _ hx hy := elementwise_rel hl _ hx hy
  sub _ _ _ _ _ _ hx hy := elementwise_rel hl _ hx hy
  mul _ _ _ _ _ _ hx hy := elementwise_rel hl _ hx hy
  neg _ _ _ hx := ⟨hx.fits, fun j => by simp [hx.get j], hx.eq⟩
  quot _ _ _ n hx := ⟨hx.fits, fun j => by simp [hx.get j, bc], hx.eq⟩
  scalar z := ⟨.nil _, fun j => rfl, fun _ h => by cases h⟩
  dot := hd

/-- A coefficient. -/
theorem lineVec {s : List ℕ} {f : κ → List ℕ} (strict : Bool) (hs : Fits [N] s) {g : κ → Fin N}
    (hf : ∀ j, bcIdx [N] (f j) = [(g j).val]) (v : Vec (Fin N)) :
    LineRel s f strict .coef ((ArrOps.numpy N).vec v) (v ∘ g) where
  fits := hs
  get j := by
    show (NdArr.ofVec v).get (bcIdx [N] (f j)) = _
    rw [hf j]
    simp [NdArr.ofVec]
  eq _ h := by cases h

/-- `dot` on arrays with one axis. -/
theorem dot_vec (M : Mat (Fin N)) {x : NdArr ℂ} {v : Vec (Fin N)} (hx : LineRel [N] (fun j : Fin N => [j.val]) true .arr x v) :
    RelE (LineRel [N] (fun j : Fin N => [j.val]) true .arr) (NdArr.matDot M x) (.ok (M.mulVec v)) := by
  have hf : ∀ j : Fin N, List.Forall₂ (· < ·) [j.val] [N] := fun j => by simp
  obtain ⟨h1, rfl⟩ := (LineRel.arr_iff hf).mp hx
  have : NdArr.matDot M x = .ok ⟨[N], fun idx => ∑ l : Fin N, NdArr.entry M (idx.headD 0) l * x.get [l.val]⟩ := by
    simp [NdArr.matDot, h1]
  rw [this]
  refine (LineRel.arr_iff hf).mpr ⟨rfl, funext fun j => ?_⟩
  simp [NdArr.entry, Matrix.mulVec, dotProduct]

/-- `dot` on a column of an array with two axes. -/
theorem dot_col {B b : ℕ} (hb : b < B) (M : Mat (Fin N)) {x : NdArr ℂ} {v : Vec (Fin N)}
    (hx : LineRel [N, B] (fun j : Fin N => [j.val, b]) true .arr x v) :
    RelE (LineRel [N, B] (fun j : Fin N => [j.val, b]) true .arr) (NdArr.matDot M x) (.ok (M.mulVec v)) := by
  have hf : ∀ j : Fin N, List.Forall₂ (· < ·) [j.val, b] [N, B] := fun j => by simp [hb]
  obtain ⟨h1, rfl⟩ := (LineRel.arr_iff hf).mp hx
  have : NdArr.matDot M x = .ok ⟨N :: [].reverse ++ [B], fun idx => ∑ l : Fin N, NdArr.entry M (idx.headD 0) l *
      x.get (idx.tail.dropLast ++ [l.val, idx.getLastD 0])⟩ := by
    simp [NdArr.matDot, h1]
  rw [this]
  refine (LineRel.arr_iff hf).mpr ⟨rfl, funext fun j => ?_⟩
  simp [NdArr.entry, Matrix.mulVec, dotProduct]

end Verif
