import Verif.Lemmas.FloatCheb
import Verif.Props.Hankel
import Verif.Spec.FloatHankel

/-!
# First-order errors of the Hankel grid, its matrix and the transforms
-/

set_option linter.unusedSectionVars false

namespace Verif

namespace Rounding

variable {T : Type} {r : T → Rounding} {B' : T → Bessel} {B : Bessel}

theorem lim_zero (hN : ∀ t, (B' t).Near B (r t).ρ) (i : ℕ) : Lim r (fun t => (B' t).zero i) fun _ => B.zero i :=
  (Lim.const (B.zero i)).near (c := 1) fun t => ((hN t).zero i).trans (by nlinarith [(r t).ok.nonneg])

theorem lim_j0 (hN : ∀ t, (B' t).Near B (r t).ρ) (hB : B.Regular) {f : T → ℝ} {x : ℝ} (h : Lim r f fun _ => x) :
    Lim r (fun t => (B' t).j0 (f t)) fun _ => B.j0 x :=
  (h.lipschitz hB.lip0).near (c := 1) fun t => ((hN t).j0 _).trans (by nlinarith [(r t).ok.nonneg, mul_nonneg (r t).ok.nonneg (abs_nonneg (B.j0 (f t)))])

theorem lim_j1 (hN : ∀ t, (B' t).Near B (r t).ρ) (hB : B.Regular) {f : T → ℝ} {x : ℝ} (h : Lim r f fun _ => x) :
    Lim r (fun t => (B' t).j1 (f t)) fun _ => B.j1 x :=
  (h.lipschitz hB.lip1).near (c := 1) fun t => ((hN t).j1 _).trans (by nlinarith [(r t).ok.nonneg, mul_nonneg (r t).ok.nonneg (abs_nonneg (B.j1 (f t)))])

theorem lim_hankelR (hN : ∀ t, (B' t).Near B (r t).ρ) (hB : B.Regular) (n : ℕ) (rmax : ℝ) (i : Fin n) :
    Lim r (fun t => (r t).rnd ((r t).rnd ((B' t).zero i * rmax) / (B' t).zero n)) fun _ => hankelR B n rmax i :=
  ((((lim_zero hN i).mul (Lim.const rmax)).round).div (lim_zero hN n) (hB.pos n).ne').round

theorem lim_hankelKr (hN : ∀ t, (B' t).Near B (r t).ρ) {rmax : ℝ} (hr : rmax ≠ 0) (i : ℕ) :
    Lim r (fun t => (r t).rnd ((B' t).zero i / rmax)) fun _ => B.zero i / rmax :=
  ((lim_zero hN i).div (Lim.const rmax) hr).round

theorem lim_hankelY (hN : ∀ t, (B' t).Near B (r t).ρ) (hB : B.Regular) (n : ℕ) (i k : Fin n) :
    Lim r (fun t => HankelObj.flEntry (r t).rnd (B' t) ((B' t).zero n) ((B' t).zero i) ((B' t).zero k)) fun _ => hankelY B n i k := by
  have h1 := lim_j0 hN hB ((((lim_zero hN i).mul (lim_zero hN k)).round).div (lim_zero hN n) (hB.pos n).ne').round
  have h2 := lim_j1 hN hB (lim_zero hN k)
  have h3 := ((lim_zero hN n).mul (h2.mul h2).round).round
  refine Lim.congr ((((Lim.const 2).mul h1).round.div h3 ?_).round) fun _ => ?_
  · exact mul_ne_zero (hB.pos n).ne' (mul_self_ne_zero.2 (hB.simple k))
  · rw [hankelY, sq]

theorem lim_hankelScale (hN : ∀ t, (B' t).Near B (r t).ρ) (hB : B.Regular) (n : ℕ) (rmax : ℝ) :
    Lim r (fun t => (r t).rnd ((r t).rnd (rmax * rmax) / (B' t).zero n)) fun _ => rmax ^ 2 / B.zero n :=
  Lim.congr ((((Lim.const rmax).mul (Lim.const rmax)).round.div (lim_zero hN n) (hB.pos n).ne').round) fun _ => by rw [sq]

end Rounding

/-- The object that `HankelTransform(n, rmax)` is in floating point. -/
noncomputable def flHankelIdeal (rnd : ℝ → ℝ) (B : Bessel) (n : ℕ) (rmax : ℝ) : HankelObj where
  nr := n
  rmax := rmax
  r := List.ofFn fun i : Fin n => rnd (rnd (B.zero i * rmax) / B.zero n)
  kr := List.ofFn fun i : Fin n => rnd (B.zero i / rmax)
  besselZeros := List.ofFn fun i : Fin n => B.zero i
  jN := B.zero n
  Y := List.ofFn fun i : Fin n => List.ofFn fun k : Fin n => HankelObj.flEntry rnd B (B.zero n) (B.zero i) (B.zero k)

theorem flNew_eq (rnd : ℝ → ℝ) (B : Bessel) (n : ℕ) (rmax : ℝ) (hn : 4 ≤ n) (hr : 0 < rmax) :
    HankelObj.flNew rnd B n rmax = .ok (flHankelIdeal rnd B n rmax) := by
  unfold HankelObj.flNew flConstructRKrHankel
  have a1 : ¬ ((n : ℤ) < 4) := by omega
  have a2 : ¬ (rmax ≤ 0) := not_le.2 hr
  have a3 : ((n : ℤ) + 1).toNat = n + 1 := by omega
  simp only [a1, a2, if_false, bind, Except.bind, pure, Except.pure, a3, dropLast_zeros, getLast_zeros]
  simp only [List.map_ofFn]
  rfl

theorem zip_ofFn {α β : Type} {n : ℕ} (f : Fin n → α) (g : Fin n → β) : (List.ofFn f).zip (List.ofFn g) = List.ofFn fun k => (f k, g k) := by
  apply List.ext_getElem <;> simp

theorem flDot_ofFn (dot : List (ℝ × ℝ) → ℝ) {n : ℕ} (Y : Fin n → Fin n → ℝ) (v : Fin n → ℝ) :
    HankelObj.flDot dot (List.ofFn fun i => List.ofFn (Y i)) (List.ofFn v) = .ok (List.ofFn fun i => dot (List.ofFn fun k => (Y i k, v k))) := by
  unfold HankelObj.flDot
  rw [if_pos (by simp [List.mem_ofFn])]
  simp only [List.map_ofFn, Function.comp_def, zip_ofFn]

theorem flDotC_ofFn (dot : List (ℝ × ℝ) → ℝ) {n : ℕ} (Y : Fin n → Fin n → ℝ) (v : Fin n → ℂ) :
    HankelObj.flDotC dot (List.ofFn fun i => List.ofFn (Y i)) (List.ofFn v) =
      .ok (List.ofFn fun i => ⟨dot (List.ofFn fun k => (Y i k, (v k).re)), dot (List.ofFn fun k => (Y i k, (v k).im))⟩) := by
  unfold HankelObj.flDotC
  rw [if_pos (by simp [List.mem_ofFn])]
  simp only [List.map_ofFn, Function.comp_def, zip_ofFn]

end Verif
