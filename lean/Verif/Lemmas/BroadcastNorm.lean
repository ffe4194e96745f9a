import Verif.Lemmas.BroadcastEig

/-!
# `_compute_s` for arrays of any shape
-/

set_option linter.unusedSectionVars false

namespace Verif

variable {N : ℕ} {κ : Type} [Fintype κ] [DecidableEq κ]

theorem indices_nodup (s : List ℕ) : (indices s).Nodup := by
  induction s with
  | nil => simp [indices]
  | cons d s ih =>
    unfold indices
    refine List.nodup_flatMap.mpr ⟨fun i _ => ih.map fun a b h => by simpa using h, ?_⟩
    refine List.nodup_range.imp fun {a b} hab => ?_
    intro x hx hy
    simp only [List.mem_map] at hx hy
    obtain ⟨y, -, rfl⟩ := hx
    obtain ⟨z, -, hz⟩ := hy
    simp only [List.cons.injEq] at hz
    exact hab hz.1.symm

/-- `f` lists the indices of `s`. -/
structure Lists (s : List ℕ) (f : κ → List ℕ) : Prop where
  inj : Function.Injective f
  mem : ∀ i, i ∈ indices s ↔ ∃ j, f j = i

theorem Lists.sum {s : List ℕ} {f : κ → List ℕ} (hf : Lists s f) (F : List ℕ → ℝ) :
    ((indices s).map F).sum = ∑ j, F (f j) := by
  rw [← List.sum_toFinset F (indices_nodup s)]
  have : (indices s).toFinset = Finset.univ.image f := by
    ext i
    simp [hf.mem]
  rw [this, Finset.sum_image fun a _ b _ h => hf.inj h]

theorem foldr_max_le {l : List ℝ} {M : ℝ} : l.foldr max 0 ≤ M ↔ 0 ≤ M ∧ ∀ x ∈ l, x ≤ M := by
  induction l with
  | nil => simp
  | cons a l ih => simp only [List.foldr_cons, max_le_iff, ih, List.mem_cons, forall_eq_or_imp]; tauto

theorem le_foldr_max {l : List ℝ} : 0 ≤ l.foldr max 0 ∧ ∀ x ∈ l, x ≤ l.foldr max 0 := foldr_max_le.mp le_rfl

theorem Lists.sup [Nonempty κ] {s : List ℕ} {f : κ → List ℕ} (hf : Lists s f) {F : List ℕ → ℝ} (hF : ∀ i, 0 ≤ F i) :
    ((indices s).map F).foldr max 0 = ⨆ j, F (f j) := by
  apply le_antisymm
  · rw [foldr_max_le]
    constructor
    · obtain ⟨j⟩ := ‹Nonempty κ›
      exact (hF _).trans (le_ciSup (f := fun j => F (f j)) (Set.finite_range _).bddAbove j)
    · intro x hx
      obtain ⟨i, hi, rfl⟩ := List.mem_map.mp hx
      obtain ⟨j, rfl⟩ := (hf.mem i).mp hi
      exact le_ciSup (f := fun j => F (f j)) (Set.finite_range _).bddAbove j
  · exact ciSup_le fun j => le_foldr_max.2 _ (List.mem_map.mpr ⟨f j, (hf.mem _).mpr ⟨j, rfl⟩, rfl⟩)

theorem indices_length {s i : List ℕ} (h : i ∈ indices s) : i.length = s.length := (mem_indices.mp h).length_eq

theorem ndComputeS_lists [Nonempty κ] {s : List ℕ} {f : κ → List ℕ} (hf : Lists s f) (q : ℕ) (cfg : SolverConfig ℝ) {u e : NdArr ℂ}
    (hu : u.shape = s) (he : e.shape = s) :
    ndComputeS q cfg u e = computeS q cfg (fun j => u.get (f j)) (fun j => e.get (f j)) := by
  unfold ndComputeS computeS maskedNorm
  simp only [hu, he]
  rw [hf.sup fun i => norm_nonneg _, hf.sum, hf.sum]
  congr 3
  · congr 1
    · refine Finset.sum_congr rfl fun j _ => ?_
      rw [List.take_of_length_le (indices_length ((hf.mem _).mpr ⟨j, rfl⟩)).le]

theorem lists_vec : Lists [N] (fun j : Fin N => [j.val]) where
  inj a b h := by simpa [Fin.ext_iff] using h
  mem i := by
    rw [mem_indices]
    constructor
    · intro h
      cases h with
      | cons h1 h2 =>
        cases h2
        exact ⟨⟨_, h1⟩, rfl⟩
    · rintro ⟨j, rfl⟩
      simp

theorem lists_cells (s : List ℕ) : Lists s (fun i : Cells s => i.1) where
  inj := Subtype.val_injective
  mem i := ⟨fun h => ⟨⟨i, h⟩, rfl⟩, by rintro ⟨j, rfl⟩; exact j.2⟩

end Verif
