import Verif.Model.Broadcast
import Verif.Lemmas.ArraysTie

/-!
# Broadcasting
-/

set_option linter.unusedSectionVars false

namespace Verif

/-- An array of shape `a` can be broadcast to shape `s` (both listed from the last axis): axes are equal, have length 1, or are missing. -/
def FitsRev : List ℕ → List ℕ → Prop
  | [], _ => True
  | _ :: _, [] => False
  | x :: a, y :: s => (x = y ∨ x = 1) ∧ FitsRev a s

theorem FitsRev.refl : ∀ a, FitsRev a a
  | [] => trivial
  | _ :: a => ⟨.inl rfl, FitsRev.refl a⟩

theorem FitsRev.length : ∀ {a s : List ℕ}, FitsRev a s → a.length ≤ s.length
  | [], _, _ => by simp
  | _ :: _, [], h => h.elim
  | _ :: a, _ :: s, h => by simpa using FitsRev.length h.2

theorem FitsRev.antisymm : ∀ {a s : List ℕ}, FitsRev a s → FitsRev s a → a = s
  | [], [], _, _ => rfl
  | [], _ :: _, _, h => h.elim
  | _ :: _, [], h, _ => h.elim
  | x :: a, y :: s, h, h' => by
    rw [FitsRev.antisymm h.2 h'.2]
    congr 1
    rcases h.1 with h1 | h1 <;> rcases h'.1 with h2 | h2 <;> omega

theorem FitsRev.trans : ∀ {a b c : List ℕ}, FitsRev a b → FitsRev b c → FitsRev a c
  | [], _, _, _, _ => trivial
  | _ :: _, [], _, h, _ => h.elim
  | _ :: _, _ :: _, [], _, h => h.elim
  | x :: a, y :: b, z :: c, h, h' => by
    refine ⟨?_, FitsRev.trans h.2 h'.2⟩
    rcases h.1 with h1 | h1 <;> rcases h'.1 with h2 | h2 <;> omega

/-- Two shapes that fit a third one have a smallest common shape, and indices can be reduced in two steps. -/
theorem bcRev_fits : ∀ {s a b : List ℕ}, FitsRev a s → FitsRev b s →
    ∃ c, bcRev a b = some c ∧ FitsRev c s ∧ FitsRev a c ∧ FitsRev b c ∧ ∀ idx : List ℕ, idx.length = s.length →
      bcIdxRev a (bcIdxRev c idx) = bcIdxRev a idx ∧ bcIdxRev b (bcIdxRev c idx) = bcIdxRev b idx := by
  have self : ∀ (b idx : List ℕ), bcIdxRev b (bcIdxRev b idx) = bcIdxRev b idx := by
    intro b
    induction b with
    | nil => intro idx; rfl
    | cons d b ih =>
      rintro (_ | ⟨i, idx⟩)
      · rfl
      · simp only [bcIdxRev, ih]
        congr 1
        split <;> rfl
  intro s
  induction s with
  | nil =>
    intro a b ha hb
    cases a with
    | cons _ _ => exact ha.elim
    | nil =>
      cases b with
      | cons _ _ => exact hb.elim
      | nil => exact ⟨[], rfl, trivial, trivial, trivial, fun _ _ => ⟨rfl, rfl⟩⟩
  | cons d s ih =>
    intro a b ha hb
    cases a with
    | nil => exact ⟨b, by simp [bcRev], hb, trivial, .refl b, fun idx _ => ⟨rfl, self b idx⟩⟩
    | cons x a =>
      cases b with
      | nil => exact ⟨x :: a, rfl, ha, .refl _, trivial, fun idx _ => ⟨self _ idx, rfl⟩⟩
      | cons y b =>
        obtain ⟨c, h1, h2, h3, h4, h5⟩ := ih ha.2 hb.2
        have key : ∃ z, bcDim x y = some z ∧ (z = d ∨ z = 1) ∧ (x = z ∨ x = 1) ∧ (y = z ∨ y = 1) := by
          unfold bcDim
          rcases ha.1 with e1 | e1 <;> rcases hb.1 with e2 | e2 <;> subst e1 <;> subst e2
          · exact ⟨y, by simp, by simp⟩
          · by_cases hx : x = 1
            · subst hx; exact ⟨1, by simp, by simp⟩
            · exact ⟨x, by simp [hx], by simp⟩
          · by_cases hx : y = 1
            · subst hx; exact ⟨1, by simp, by simp⟩
            · exact ⟨y, by simp [Ne.symm hx], by simp⟩
          · exact ⟨1, by simp, by simp⟩
        obtain ⟨z, k1, k2, k3, k4⟩ := key
        refine ⟨z :: c, by simp [bcRev, k1, h1], ⟨k2, h2⟩, ⟨k3, h3⟩, ⟨k4, h4⟩, ?_⟩
        rintro (_ | ⟨i, idx⟩) hl
        · simp at hl
        · obtain ⟨e1, e2⟩ := h5 idx (by simpa using hl)
          simp only [bcIdxRev, e1, e2]
          constructor <;> congr 1
          · rcases k3 with rfl | rfl
            · split <;> rfl
            · simp
          · rcases k4 with rfl | rfl
            · split <;> rfl
            · simp

/-- An array of shape `a` can be broadcast to shape `s`. -/
def Fits (a s : List ℕ) : Prop := FitsRev a.reverse s.reverse

theorem Fits.refl (a : List ℕ) : Fits a a := FitsRev.refl _
theorem Fits.nil (s : List ℕ) : Fits [] s := trivial
theorem Fits.trans {a b c : List ℕ} (h : Fits a b) (h' : Fits b c) : Fits a c := FitsRev.trans h h'
theorem Fits.antisymm {a b : List ℕ} (h : Fits a b) (h' : Fits b a) : a = b := List.reverse_injective (FitsRev.antisymm h h')

theorem bcShape_fits {s a b : List ℕ} (ha : Fits a s) (hb : Fits b s) :
    ∃ c, bcShape a b = some c ∧ Fits c s ∧ Fits a c ∧ Fits b c ∧ ∀ idx : List ℕ, idx.length = s.length →
      bcIdx a (bcIdx c idx) = bcIdx a idx ∧ bcIdx b (bcIdx c idx) = bcIdx b idx := by
  obtain ⟨c, h1, h2, h3, h4, h5⟩ := bcRev_fits ha hb
  refine ⟨c.reverse, by simp [bcShape, h1], by simpa [Fits] using h2, by simpa [Fits] using h3, by simpa [Fits] using h4, ?_⟩
  intro idx hl
  have := h5 idx.reverse (by simpa using hl)
  simp [bcIdx, this.1, this.2]

/-- An index within the shape is not changed. -/
theorem bcIdx_self {s idx : List ℕ} (h : List.Forall₂ (· < ·) idx s) : bcIdx s idx = idx := by
  have : ∀ {s idx : List ℕ}, List.Forall₂ (· < ·) idx s → bcIdxRev s idx = idx := by
    intro s idx h
    induction h with
    | nil => rfl
    | cons h _ ih =>
      simp only [bcIdxRev, ih]
      congr 1
      split <;> omega
  have := this (List.rel_reverse h)
  simp [bcIdx, this]

end Verif
