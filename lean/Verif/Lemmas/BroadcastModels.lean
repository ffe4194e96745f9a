import Verif.Lemmas.BroadcastSeen
import Verif.Lemmas.Spectral
import Verif.Model.BroadcastModels

/-!
# The model problems on arrays of any shape
-/

set_option linter.unusedSectionVars false

namespace Verif

variable {M : ℕ}

theorem forall₂_snoc {b B : List ℕ} {j n : ℕ} (hb : b ∈ indices B) (hj : j < n) : List.Forall₂ (· < ·) (b ++ [j]) (B ++ [n]) :=
  List.rel_append (mem_indices.mp hb) (.cons hj .nil)

theorem npIrfft_ok {y : NdArr ℂ} {B : List ℕ} (hy : y.shape = B ++ [M + 1]) (hM : M ≠ 0) :
    npIrfft y = .ok ⟨B ++ [2 * M], fun idx => irfft1 (2 * M) (fun j => y.get (idx.dropLast ++ [j])) (idx.getLastD 0)⟩ := by
  simp [npIrfft, hy, hM, NdArr.mapLines, NdArr.line]
  rfl

theorem npRfft_ok {u : NdArr ℝ} {B : List ℕ} (hu : u.shape = B ++ [2 * M]) (hM : M ≠ 0) :
    npRfft u = .ok ⟨B ++ [M + 1], fun idx => rfft1 (2 * M) (fun j => u.get (idx.dropLast ++ [j])) (idx.getLastD 0)⟩ := by
  simp [npRfft, hu, hM, NdArr.mapLines, NdArr.line]
  rfl

/-- The product `u u_x` of every row. -/
theorem advectionNd_ok {B : List ℕ} (kx : Fin (M + 1) → ℝ) {x : NdArr ℂ} (hx : x.shape = B ++ [M + 1]) (hM : M ≠ 0) :
    ∃ y, advectionNd kx x = .ok y ∧ y.shape = B ++ [M + 1] ∧ ∀ b ∈ indices B, advection kx (x.row (M + 1) b) = .ok (y.row (M + 1) b) := by
  have h1 : bcShape [M + 1] (B ++ [M + 1]) = some (B ++ [M + 1]) := (bcShape_of_fits (fits_last B)).1
  simp only [advectionNd, npIrfft_ok hx hM, NdArr.elementwise, hx, NdArr.ofVec, h1, npIrfft_ok (y := NdArr.mk (B ++ [M + 1]) _) rfl hM,
    bcShape_self, npRfft_ok (u := NdArr.mk (B ++ [2 * M]) _) rfl hM, bind, Except.bind]
  refine ⟨_, rfl, rfl, fun b hb => ?_⟩
  simp only [advection, hM, if_false]
  congr 1
  funext m
  simp only [NdArr.row, rfft1, List.dropLast_concat, List.getLastD_concat]
  refine fft1_congr (fun j hj => ?_) _
  have hbj := bcIdx_self (forall₂_snoc hb hj)
  simp only [hbj, List.dropLast_concat, List.getLastD_concat]
  congr 1
  congr 1
  · refine irfft1_congr (fun l hl => ?_) j
    have : l < M + 1 := by omega
    simp [specExt, this, NdArr.row]
  · refine irfft1_congr (fun l hl => ?_) j
    have hl' : l < M + 1 := by omega
    have h2 := bcIdx_last b (⟨l, hl'⟩ : Fin (M + 1))
    simp only [specExt, hl', dif_pos, NdArr.row, h2, bcIdx_self (forall₂_snoc hb hl'), List.headD_cons]

theorem advectionNd_short {B : List ℕ} (kx : Fin (0 + 1) → ℝ) {x : NdArr ℂ} (hx : x.shape = B ++ [0 + 1]) :
    advectionNd kx x = .error .valueError := by
  simp [advectionNd, npIrfft, hx, bind, Except.bind]

/-- KdV on rows. -/
theorem kdv_rows {B b : List ℕ} (hb : b ∈ indices B) (kx : Fin (M + 1) → ℝ) :
    ActsOn (B ++ [M + 1]) (NdArr.row (M + 1) b) (kdvNlNd kx) (kdvNl kx) := by
  intro x hx
  rcases M with _ | M
  · simp [kdvNlNd, advectionNd_short kx hx, kdvNl, advection, Except.map]
  · obtain ⟨y, h1, h2, h3⟩ := advectionNd_ok kx hx (Nat.succ_ne_zero M)
    rw [kdvNlNd, h1, kdvNl, h3 b hb]
    refine ⟨rfl, ?_⟩
    rintro _ ⟨rfl⟩
    exact h2

/-- Burgers on rows. -/
theorem burgers_rows {B b : List ℕ} (hb : b ∈ indices B) (kx : Fin (M + 1) → ℝ) :
    ActsOn (B ++ [M + 1]) (NdArr.row (M + 1) b) (burgersNlNd kx) (burgersNl kx) := by
  intro x hx
  rcases M with _ | M
  · simp [burgersNlNd, advectionNd_short kx hx, burgersNl, advection, Except.map]
  · obtain ⟨y, h1, h2, h3⟩ := advectionNd_ok kx hx (Nat.succ_ne_zero M)
    rw [burgersNlNd, h1, burgersNl, h3 b hb]
    refine ⟨rfl, ?_⟩
    rintro _ ⟨rfl⟩
    exact h2

end Verif
