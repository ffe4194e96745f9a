import Verif.Props.FloatGrids
import Verif.Lemmas.FloatHankel

/-!
# C85: the Hankel transform in floating point
-/

set_option linter.unusedSectionVars false

namespace Verif

open Rounding

/-- Roundings and computed Bessel functions. -/
abbrev BesselRounding (B : Bessel) : Type := {p : Rounding × Bessel // p.2.Near B p.1.ρ}

/-- Roundings, computed Bessel functions, values of size at most `b` and computed ones. -/
abbrev SampledBessel (B : Bessel) (n : ℕ) (b c : ℝ) : Type :=
  {p : Rounding × Bessel × (Fin n → ℝ) × (Fin n → ℝ) // p.2.1.Near B p.1.ρ ∧ (∀ k, |p.2.2.1 k| ≤ b) ∧ ∀ k, |p.2.2.2 k - p.2.2.1 k| ≤ c * p.1.ρ}

variable {B : Bessel} {n : ℕ} {rmax : ℝ} {o : HankelObj}

/-- **C85.** `HankelTransform(nr, rmax)` in floating point, with Bessel functions and zeros that are themselves computed: for every unit roundoff that is
small enough, the constructor succeeds, and points, frequencies, zeros, matrix and scale factor differ from the exact ones by a constant times the unit
roundoff. -/
theorem C85_hankel (hB : B.Regular) (h : HankelObj.new B n rmax = .ok o) :
    ∃ K δ : ℝ, 0 ≤ K ∧ 0 < δ ∧ ∀ (rnd : ℝ → ℝ) (sum : List ℝ → ℝ) (dot : List (ℝ × ℝ) → ℝ) (ρ : ℝ), RoundsTo rnd sum dot ρ → ρ ≤ δ →
      ∀ B' : Bessel, B'.Near B ρ → ∃ o', HankelObj.flNew rnd B' n rmax = .ok o' ∧ o'.nr = n ∧ o'.rmax = rmax ∧
        List.Forall₂ (fun x' x => |x' - x| ≤ K * ρ) o'.r o.r ∧ List.Forall₂ (fun x' x => |x' - x| ≤ K * ρ) o'.kr o.kr ∧
        List.Forall₂ (fun x' x => |x' - x| ≤ K * ρ) o'.besselZeros o.besselZeros ∧ |o'.jN - o.jN| ≤ K * ρ ∧
        List.Forall₂ (List.Forall₂ fun x' x => |x' - x| ≤ K * ρ) o'.Y o.Y ∧ |o'.flScalefactor rnd - o.scalefactor| ≤ K * ρ := by
  obtain ⟨h4, hR, rfl⟩ := eq_ideal B h
  set r : BesselRounding B → Rounding := fun t => t.1.1
  have hN : ∀ t : BesselRounding B, t.1.2.Near B (r t).ρ := fun t => t.2
  obtain ⟨K1, δ1, p1, q1, h1⟩ := Lim.bound fun i : Fin n => lim_hankelR hN hB n rmax i
  obtain ⟨K2, δ2, p2, q2, h2⟩ := Lim.bound fun i : Fin n => lim_hankelKr hN hR.ne' (i : ℕ)
  obtain ⟨K3, δ3, p3, q3, h3⟩ := Lim.bound fun i : Fin (n + 1) => lim_zero hN (i : ℕ)
  obtain ⟨K4, δ4, p4, q4, h4'⟩ := Lim.bound fun i : Fin n × Fin n => lim_hankelY hN hB n i.1 i.2
  obtain ⟨K5, δ5, p5, q5, h5⟩ := Lim.bound fun _ : Unit => lim_hankelScale hN hB n rmax
  refine ⟨K1 + K2 + K3 + K4 + K5, min δ1 (min δ2 (min δ3 (min δ4 δ5))), by positivity, by positivity, fun rnd sum dot ρ hRd hρ B' hB' => ?_⟩
  simp only [le_min_iff] at hρ
  obtain ⟨e1, e2, e3, e4, e5⟩ := hρ
  have hρ0 := hRd.nonneg
  have up : ∀ {x K' : ℝ}, x ≤ K' * ρ → K' ≤ K1 + K2 + K3 + K4 + K5 → x ≤ (K1 + K2 + K3 + K4 + K5) * ρ := fun hx hK =>
    hx.trans (mul_le_mul_of_nonneg_right hK hρ0)
  let t : BesselRounding B := ⟨(⟨rnd, sum, dot, ρ, hRd⟩, B'), hB'⟩
  refine ⟨_, flNew_eq rnd B' n rmax h4 hR, rfl, rfl, ?_, ?_, ?_, ?_, ?_, ?_⟩
  · refine List.forall₂_iff_get.2 ⟨by simp [flHankelIdeal, hankelIdeal], fun i hi hi' => ?_⟩
    simp only [flHankelIdeal, hankelIdeal, List.get_eq_getElem, List.getElem_ofFn]
    exact up (h1 t e1 ⟨i, by simpa [hankelIdeal] using hi'⟩) (by linarith)
  · refine List.forall₂_iff_get.2 ⟨by simp [flHankelIdeal, hankelIdeal], fun i hi hi' => ?_⟩
    simp only [flHankelIdeal, hankelIdeal, List.get_eq_getElem, List.getElem_ofFn]
    exact up (h2 t e2 ⟨i, by simpa [hankelIdeal] using hi'⟩) (by linarith)
  · refine List.forall₂_iff_get.2 ⟨by simp [flHankelIdeal, hankelIdeal], fun i hi hi' => ?_⟩
    simp only [flHankelIdeal, hankelIdeal, List.get_eq_getElem, List.getElem_ofFn]
    have hi'' : i < n := by simpa [hankelIdeal] using hi'
    exact up (h3 t e3 ⟨i, by omega⟩) (by linarith)
  · exact up (h3 t e3 (Fin.last n)) (by linarith)
  · refine List.forall₂_iff_get.2 ⟨by simp [flHankelIdeal, hankelIdeal], fun i hi hi' => ?_⟩
    simp only [flHankelIdeal, hankelIdeal, List.get_eq_getElem, List.getElem_ofFn]
    refine List.forall₂_iff_get.2 ⟨by simp, fun k hk hk' => ?_⟩
    simp only [List.get_eq_getElem, List.getElem_ofFn]
    exact up (h4' t e4 (⟨i, by simpa [hankelIdeal] using hi'⟩, ⟨k, by simpa using hk'⟩)) (by linarith)
  · exact up (h5 t e5 ()) (by linarith)

/-- **C85.** In floating point the constructor raises for the same arguments. -/
theorem C85_hankel_raises (rnd : ℝ → ℝ) (B' B : Bessel) (nr : ℤ) (rmax : ℝ) (e : PyErr) :
    HankelObj.flNew rnd B' nr rmax = .error e ↔ HankelObj.new B nr rmax = .error e := by
  by_cases hc : 4 ≤ nr ∧ 0 < rmax
  · obtain ⟨n, rfl⟩ : ∃ n : ℕ, nr = n := ⟨nr.toNat, by omega⟩
    rw [flNew_eq rnd B' n rmax (by omega) hc.2, (C48_new B n rmax).2 hc.1 hc.2]
    simp
  · have h1 : nr < 4 ∨ rmax ≤ 0 := by
      rcases not_and_or.1 hc with h | h
      · exact Or.inl (not_le.1 h)
      · exact Or.inr (not_lt.1 h)
    rw [(C48_new B nr rmax).1.2 h1]
    have : HankelObj.flNew rnd B' nr rmax = .error .valueError := by
      unfold HankelObj.flNew flConstructRKrHankel
      rcases h1 with h | h
      · simp [h, bind, Except.bind, throw, throwThe, MonadExceptOf.throw]
      · by_cases h' : nr < 4 <;> simp [h, h', bind, Except.bind, throw, throwThe, MonadExceptOf.throw]
    rw [this]

/-- The three forms of the transforms on real numbers. -/
theorem flTransform_near (hB : B.Regular) (n : ℕ) {rmax : ℝ} (hR : 0 < rmax) (b c : ℝ) :
    ∃ K δ : ℝ, 0 ≤ K ∧ 0 < δ ∧ ∀ (rnd : ℝ → ℝ) (sum : List ℝ → ℝ) (dot : List (ℝ × ℝ) → ℝ) (ρ : ℝ), RoundsTo rnd sum dot ρ → ρ ≤ δ →
      ∀ B' : Bessel, B'.Near B ρ → ∀ v v' : Fin n → ℝ, (∀ k, |v k| ≤ b) → (∀ k, |v' k - v k| ≤ c * ρ) → ∀ (S' : ℝ) (X : Fin n → ℝ), S' = rnd (rnd (rmax * rmax) / B'.zero n) →
        (∀ i, X i = dot (List.ofFn fun k : Fin n => (HankelObj.flEntry rnd B' (B'.zero n) (B'.zero i) (B'.zero k), v' k))) → ∀ i : Fin n,
        |rnd (S' * X i) - rmax ^ 2 / B.zero n * ∑ k, hankelY B n i k * v k| ≤ K * ρ ∧
        |rnd (X i / S') - (∑ k, hankelY B n i k * v k) / (rmax ^ 2 / B.zero n)| ≤ K * ρ ∧
        |rnd (X i * rnd (1 / S')) - (∑ k, hankelY B n i k * v k) / (rmax ^ 2 / B.zero n)| ≤ K * ρ := by
  set r : SampledBessel B n b c → Rounding := fun t => t.1.1 with hr
  have hN : ∀ t : SampledBessel B n b c, t.1.2.1.Near B (r t).ρ := fun t => t.2.1
  have hv : ∀ k, Lim r (fun t => t.1.2.2.2 k) fun t => t.1.2.2.1 k := fun k =>
    ⟨Asymptotics.IsBigO.of_bound c (Filter.Eventually.of_forall fun t => by
      rw [Real.norm_eq_abs, Real.norm_of_nonneg t.1.1.ok.nonneg]
      exact t.2.2.2 k),
    Asymptotics.IsBigO.of_bound b (Filter.Eventually.of_forall fun t => by
      rw [Real.norm_eq_abs, norm_one, mul_one]
      exact t.2.2.1 k)⟩
  have hS := lim_hankelScale hN hB n rmax
  have hS0 : rmax ^ 2 / B.zero n ≠ 0 := by have := hB.pos n; positivity
  have hX := fun i => Lim.dot (fun k => lim_hankelY hN hB n i k) hv
  obtain ⟨K1, δ1, p1, q1, h1⟩ := Lim.bound fun i => (hS.mul (hX i)).round
  obtain ⟨K2, δ2, p2, q2, h2⟩ := Lim.bound fun i => ((hX i).div hS hS0).round
  obtain ⟨K3, δ3, p3, q3, h3⟩ := Lim.bound fun i => ((hX i).mul ((Lim.const 1).div hS hS0).round).round
  refine ⟨K1 + K2 + K3, min δ1 (min δ2 δ3), by positivity, by positivity, fun rnd sum dot ρ hRd hρ B' hB' v v' hv1 hv2 S' X hS' hX' i => ?_⟩
  simp only [le_min_iff] at hρ
  obtain ⟨e1, e2, e3⟩ := hρ
  have hρ0 := hRd.nonneg
  have up : ∀ {x K' : ℝ}, x ≤ K' * ρ → K' ≤ K1 + K2 + K3 → x ≤ (K1 + K2 + K3) * ρ := fun hx hK => hx.trans (mul_le_mul_of_nonneg_right hK hρ0)
  let t : SampledBessel B n b c := ⟨(⟨rnd, sum, dot, ρ, hRd⟩, B', v, v'), hB', hv1, hv2⟩
  rw [hS', hX' i]
  refine ⟨up (h1 t e1 i) (by linarith), up (h2 t e2 i) (by linarith), ?_⟩
  have := up (h3 t e3 i) (show K3 ≤ K1 + K2 + K3 by linarith)
  rw [div_eq_mul_inv (∑ k, hankelY B n i k * v k), ← one_div (rmax ^ 2 / B.zero n)]
  exact this

/-- **C85.** `ht` and `iht` of real arrays in floating point, with the matrix and the scale factor computed in floating point from computed Bessel
functions: for arrays of size at most `b`, given with errors proportional to the unit roundoff, the results differ from the exact transforms by a constant
times the unit roundoff. -/
theorem C85_transform (hB : B.Regular) (h : HankelObj.new B n rmax = .ok o) (b c : ℝ) :
    ∃ K δ : ℝ, 0 ≤ K ∧ 0 < δ ∧ ∀ (rnd : ℝ → ℝ) (sum : List ℝ → ℝ) (dot : List (ℝ × ℝ) → ℝ) (ρ : ℝ), RoundsTo rnd sum dot ρ → ρ ≤ δ →
      ∀ B' : Bessel, B'.Near B ρ → ∀ v v' : Fin n → ℝ, (∀ k, |v k| ≤ b) → (∀ k, |v' k - v k| ≤ c * ρ) →
        ∃ (o' : HankelObj) (w w' z z' : Fin n → ℝ), HankelObj.flNew rnd B' n rmax = .ok o' ∧
          o.ht (List.ofFn fun k => (v k : ℂ)) = .ok (List.ofFn fun i => (w i : ℂ)) ∧ o'.flHt rnd dot (List.ofFn v') = .ok (List.ofFn w') ∧
          o.iht (List.ofFn fun k => (v k : ℂ)) = .ok (List.ofFn fun i => (z i : ℂ)) ∧ o'.flIht rnd dot (List.ofFn v') = .ok (List.ofFn z') ∧
          ∀ i, |w' i - w i| ≤ K * ρ ∧ |z' i - z i| ≤ K * ρ := by
  obtain ⟨h4, hR, -⟩ := eq_ideal B h
  obtain ⟨K, δ, hK, hδ, H⟩ := flTransform_near hB n hR b c
  refine ⟨K, δ, hK, hδ, fun rnd sum dot ρ hRd hρ B' hB' v v' hv hv' => ?_⟩
  have e1 : ∃ w' : Fin n → ℝ, (flHankelIdeal rnd B' n rmax).flHt rnd dot (List.ofFn v') = .ok (List.ofFn w') ∧
      ∀ i, |w' i - rmax ^ 2 / B.zero n * ∑ k, hankelY B n i k * v k| ≤ K * ρ := by
    simp only [HankelObj.flHt, flHankelIdeal, flDot_ofFn, bind, Except.bind, pure, Except.pure, List.map_ofFn]
    exact ⟨_, rfl, fun i => (H rnd sum dot ρ hRd hρ B' hB' v v' hv hv' _ _ rfl (fun _ => rfl) i).1⟩
  have e2 : ∃ w' : Fin n → ℝ, (flHankelIdeal rnd B' n rmax).flIht rnd dot (List.ofFn v') = .ok (List.ofFn w') ∧
      ∀ i, |w' i - (∑ k, hankelY B n i k * v k) / (rmax ^ 2 / B.zero n)| ≤ K * ρ := by
    simp only [HankelObj.flIht, flHankelIdeal, flDot_ofFn, bind, Except.bind, pure, Except.pure, List.map_ofFn]
    exact ⟨_, rfl, fun i => (H rnd sum dot ρ hRd hρ B' hB' v v' hv hv' _ _ rfl (fun _ => rfl) i).2.1⟩
  obtain ⟨w', e1, e1'⟩ := e1
  obtain ⟨z', e2, e2'⟩ := e2
  refine ⟨_, _, w', _, z', flNew_eq rnd B' n rmax h4 hR, ?_, e1, ?_, e2, fun i => ⟨e1' i, e2' i⟩⟩
  · rw [C49_ht B h]
    push_cast
    rfl
  · rw [C49_iht B h]
    push_cast
    rfl

/-- **C85.** The same for complex arrays. -/
theorem C85_transform_complex (hB : B.Regular) (h : HankelObj.new B n rmax = .ok o) (b c : ℝ) :
    ∃ K δ : ℝ, 0 ≤ K ∧ 0 < δ ∧ ∀ (rnd : ℝ → ℝ) (sum : List ℝ → ℝ) (dot : List (ℝ × ℝ) → ℝ) (ρ : ℝ), RoundsTo rnd sum dot ρ → ρ ≤ δ →
      ∀ B' : Bessel, B'.Near B ρ → ∀ v v' : Fin n → ℂ, (∀ k, ‖v k‖ ≤ b) → (∀ k, ‖v' k - v k‖ ≤ c * ρ) →
        ∃ (o' : HankelObj) (w w' z z' : Fin n → ℂ), HankelObj.flNew rnd B' n rmax = .ok o' ∧
          o.ht (List.ofFn v) = .ok (List.ofFn w) ∧ o'.flHtC rnd dot (List.ofFn v') = .ok (List.ofFn w') ∧
          o.iht (List.ofFn v) = .ok (List.ofFn z) ∧ o'.flIhtC rnd dot (List.ofFn v') = .ok (List.ofFn z') ∧
          ∀ i, ‖w' i - w i‖ ≤ K * ρ ∧ ‖z' i - z i‖ ≤ K * ρ := by
  obtain ⟨h4, hR, -⟩ := eq_ideal B h
  obtain ⟨K, δ, hK, hδ, H⟩ := flTransform_near hB n hR b c
  refine ⟨K + K, δ, by positivity, hδ, fun rnd sum dot ρ hRd hρ B' hB' v v' hv hv' => ?_⟩
  have Hre := H rnd sum dot ρ hRd hρ B' hB' (fun k => (v k).re) (fun k => (v' k).re) (fun k => (Complex.abs_re_le_norm _).trans (hv k))
    (fun k => by rw [← Complex.sub_re]; exact (Complex.abs_re_le_norm _).trans (hv' k)) _ _ rfl fun _ => rfl
  have Him := H rnd sum dot ρ hRd hρ B' hB' (fun k => (v k).im) (fun k => (v' k).im) (fun k => (Complex.abs_im_le_norm _).trans (hv k))
    (fun k => by rw [← Complex.sub_im]; exact (Complex.abs_im_le_norm _).trans (hv' k)) _ _ rfl fun _ => rfl
  have split : ∀ {x y : ℂ}, |x.re - y.re| ≤ K * ρ → |x.im - y.im| ≤ K * ρ → ‖x - y‖ ≤ (K + K) * ρ := fun {x y} h1 h2 => by
    refine (Complex.norm_le_abs_re_add_abs_im _).trans ?_
    rw [Complex.sub_re, Complex.sub_im]
    linarith
  have e1 : ∃ w' : Fin n → ℂ, (flHankelIdeal rnd B' n rmax).flHtC rnd dot (List.ofFn v') = .ok (List.ofFn w') ∧
      ∀ i, ‖w' i - (rmax ^ 2 / B.zero n : ℝ) * ∑ k, (hankelY B n i k : ℂ) * v k‖ ≤ (K + K) * ρ := by
    simp only [HankelObj.flHtC, flHankelIdeal, flDotC_ofFn, bind, Except.bind, pure, Except.pure, List.map_ofFn]
    refine ⟨_, rfl, fun i => split ?_ ?_⟩
    · rw [Complex.re_ofReal_mul, Complex.re_sum]
      simp only [Complex.re_ofReal_mul]
      exact (Hre i).1
    · rw [Complex.im_ofReal_mul, Complex.im_sum]
      simp only [Complex.im_ofReal_mul]
      exact (Him i).1
  have e2 : ∃ w' : Fin n → ℂ, (flHankelIdeal rnd B' n rmax).flIhtC rnd dot (List.ofFn v') = .ok (List.ofFn w') ∧
      ∀ i, ‖w' i - (∑ k, (hankelY B n i k : ℂ) * v k) / (rmax ^ 2 / B.zero n : ℝ)‖ ≤ (K + K) * ρ := by
    simp only [HankelObj.flIhtC, flHankelIdeal, flDotC_ofFn, bind, Except.bind, pure, Except.pure, List.map_ofFn]
    refine ⟨_, rfl, fun i => split ?_ ?_⟩
    · rw [Complex.div_ofReal_re, Complex.re_sum]
      simp only [Complex.re_ofReal_mul]
      exact (Hre i).2.2
    · rw [Complex.div_ofReal_im, Complex.im_sum]
      simp only [Complex.im_ofReal_mul]
      exact (Him i).2.2
  obtain ⟨w', e1, e1'⟩ := e1
  obtain ⟨z', e2, e2'⟩ := e2
  exact ⟨_, _, w', _, z', flNew_eq rnd B' n rmax h4 hR, C49_ht B h v, e1, C49_iht B h v, e2, fun i => ⟨e1' i, e2' i⟩⟩

/-- **C85.** An array of another length is refused by all of them. -/
theorem C85_transform_length (rnd : ℝ → ℝ) (dot : List (ℝ × ℝ) → ℝ) (h : HankelObj.flNew rnd B n rmax = .ok o) :
    (∀ f : List ℝ, f.length ≠ n → o.flHt rnd dot f = .error .valueError ∧ o.flIht rnd dot f = .error .valueError) ∧
    ∀ f : List ℂ, f.length ≠ n → o.flHtC rnd dot f = .error .valueError ∧ o.flIhtC rnd dot f = .error .valueError := by
  have hc : 4 ≤ n ∧ 0 < rmax := by
    by_contra hc
    have h1 : (n : ℤ) < 4 ∨ rmax ≤ 0 := by
      rcases not_and_or.1 hc with h | h
      · exact Or.inl (by omega)
      · exact Or.inr (not_lt.1 h)
    rw [(C85_hankel_raises rnd B B n rmax .valueError).2 ((C48_new B n rmax).1.2 h1)] at h
    cases h
  rw [flNew_eq rnd B n rmax hc.1 hc.2] at h
  obtain rfl := Except.ok.inj h
  have key : ∀ m : ℕ, m ≠ n → ¬ ∀ row ∈ (flHankelIdeal rnd B n rmax).Y, row.length = m := fun m hm hall => by
    have := hall (List.ofFn fun k : Fin n => HankelObj.flEntry rnd B (B.zero n) (B.zero (⟨0, by omega⟩ : Fin n)) (B.zero k))
      (by simp only [flHankelIdeal, List.mem_ofFn]; exact ⟨⟨0, by omega⟩, rfl⟩)
    simp only [List.length_ofFn] at this
    exact hm this.symm
  constructor
  · intro f hf
    simp [HankelObj.flHt, HankelObj.flIht, HankelObj.flDot, key _ hf, bind, Except.bind]
  · intro f hf
    simp [HankelObj.flHtC, HankelObj.flIhtC, HankelObj.flDotC, key _ hf, bind, Except.bind]

/-- **C85.** `iht` of `ht` in floating point is near `iht` of `ht`. -/
theorem C85_round_trip (hB : B.Regular) (h : HankelObj.new B n rmax = .ok o) (b c : ℝ) :
    ∃ K δ : ℝ, 0 ≤ K ∧ 0 < δ ∧ ∀ (rnd : ℝ → ℝ) (sum : List ℝ → ℝ) (dot : List (ℝ × ℝ) → ℝ) (ρ : ℝ), RoundsTo rnd sum dot ρ → ρ ≤ δ →
      ∀ B' : Bessel, B'.Near B ρ → ∀ v v' : Fin n → ℂ, (∀ k, ‖v k‖ ≤ b) → (∀ k, ‖v' k - v k‖ ≤ c * ρ) →
        ∃ (o' : HankelObj) (w w' : Fin n → ℂ), HankelObj.flNew rnd B' n rmax = .ok o' ∧
          (o.ht (List.ofFn v) >>= o.iht) = .ok (List.ofFn w) ∧ (o'.flHtC rnd dot (List.ofFn v') >>= o'.flIhtC rnd dot) = .ok (List.ofFn w') ∧
          ∀ i, ‖w' i - w i‖ ≤ K * ρ := by
  obtain ⟨K1, δ1, hK1, hδ1, H1⟩ := C85_transform_complex hB h b c
  obtain ⟨K2, δ2, hK2, hδ2, H2⟩ := C85_transform_complex hB h (|rmax ^ 2 / B.zero n| * ∑ i : Fin n, ∑ k : Fin n, |hankelY B n i k| * b) K1
  refine ⟨K2, min δ1 δ2, hK2, by positivity, fun rnd sum dot ρ hRd hρ B' hB' v v' hv hv' => ?_⟩
  obtain ⟨o', w, w', _, _, e1, e2, e3, -, -, e4⟩ := H1 rnd sum dot ρ hRd (hρ.trans (min_le_left _ _)) B' hB' v v' hv hv'
  have hw : ∀ i, ‖w i‖ ≤ |rmax ^ 2 / B.zero n| * ∑ i : Fin n, ∑ k : Fin n, |hankelY B n i k| * b := fun i => by
    rw [C49_ht B h] at e2
    rw [← List.ofFn_injective (Except.ok.inj e2), norm_mul, Complex.norm_real, Real.norm_eq_abs]
    refine mul_le_mul_of_nonneg_left ?_ (abs_nonneg _)
    have hb : ∀ k : Fin n, 0 ≤ b := fun k => (norm_nonneg _).trans (hv k)
    refine le_trans ?_ (Finset.single_le_sum (f := fun i => ∑ k : Fin n, |hankelY B n i k| * b)
      (fun i _ => Finset.sum_nonneg fun k _ => mul_nonneg (abs_nonneg _) (hb k)) (Finset.mem_univ i))
    refine (norm_sum_le _ _).trans (Finset.sum_le_sum fun k _ => ?_)
    rw [norm_mul, Complex.norm_real, Real.norm_eq_abs]
    exact mul_le_mul_of_nonneg_left (hv k) (abs_nonneg _)
  obtain ⟨o'', _, _, z, z', e1', -, -, e2', e3', e4'⟩ := H2 rnd sum dot ρ hRd (hρ.trans (min_le_right _ _)) B' hB' w w' hw fun i => (e4 i).1
  obtain rfl : o' = o'' := Except.ok.inj (e1.symm.trans e1')
  exact ⟨o', z, z', e1, by rw [e2]; exact e2', by rw [e3]; exact e3', fun i => (e4' i).2⟩

/-! ### Cases -/

/-- A pair of functions like `J₀` and `J₁`. -/
noncomputable def trigBessel : Bessel := ⟨fun i => (i + 1 / 2) * Real.pi, Real.cos, Real.sin⟩

theorem trigBessel_regular : trigBessel.Regular where
  pos i := by have := Real.pi_pos; simp only [trigBessel]; positivity
  simple i := by
    intro h
    have h1 : Real.cos ((i + 1 / 2 : ℝ) * Real.pi) = 0 := Real.cos_eq_zero_iff.2 ⟨i, by push_cast; ring⟩
    have h2 := Real.sin_sq_add_cos_sq ((i + 1 / 2 : ℝ) * Real.pi)
    simp only [trigBessel] at h
    rw [h, h1] at h2
    norm_num at h2
  lip0 x y := Real.abs_cos_sub_cos_le x y
  lip1 x y := Real.abs_sin_sub_sin_le x y

/-- Computed with errors. -/
noncomputable def trigBessel' (ρ : ℝ) : Bessel := ⟨fun i => (i + 1 / 2) * Real.pi * (1 + ρ), fun x => Real.cos x + ρ, fun x => Real.sin x - ρ⟩

theorem trigBessel_near {ρ : ℝ} (hρ : 0 ≤ ρ) : (trigBessel' ρ).Near trigBessel ρ where
  zero i := by
    simp only [trigBessel, trigBessel']
    rw [mul_add, mul_one, add_sub_cancel_left, abs_mul, abs_of_nonneg hρ, mul_comm]
  j0 x := by simp [trigBessel, trigBessel', abs_of_nonneg hρ]
  j1 x := by simp [trigBessel, trigBessel', abs_of_nonneg hρ]

/-- Four points with errors in every operation, in the zeros and in the functions: the first point is near `2 (1/2) / (9/2)`. -/
example : ∃ K δ : ℝ, 0 < δ ∧ ∀ ρ, 0 < ρ → ρ ≤ δ → ∃ o', HankelObj.flNew (tooLarge ρ) (trigBessel' ρ) 4 2 = .ok o' ∧ ∃ x ∈ o'.r, |x - 2 / 9| ≤ K * ρ := by
  have h0 : HankelObj.new trigBessel (4 : ℕ) 2 = .ok (hankelIdeal trigBessel 4 2) := (C48_new trigBessel 4 2).2 (by norm_num) (by norm_num)
  obtain ⟨K, δ, -, hδ, H⟩ := C85_hankel trigBessel_regular h0
  refine ⟨K, δ, hδ, fun ρ hρ hle => ?_⟩
  obtain ⟨o', e, -, -, h1, -⟩ := H _ _ _ ρ (tooLarge_rounds hρ) hle _ (trigBessel_near hρ.le)
  refine ⟨o', e, ?_⟩
  obtain ⟨hl, h2⟩ := List.forall₂_iff_get.1 h1
  have hl' : (hankelIdeal trigBessel 4 2).r.length = 4 := by simp [hankelIdeal]
  refine ⟨o'.r[0]'(by omega), List.getElem_mem _, ?_⟩
  have h3 := h2 0 (by omega) (by omega)
  simp only [List.get_eq_getElem, hankelIdeal, List.getElem_ofFn, hankelR, trigBessel] at h3
  have h4 : (((0 : ℕ) : ℝ) + 1 / 2) * Real.pi * 2 / ((((4 : ℕ) : ℝ) + 1 / 2) * Real.pi) = 2 / 9 := by
    have := Real.pi_ne_zero
    field_simp
    norm_num
  rwa [h4] at h3

/-- Three points, or a negative radius. -/
example (rnd : ℝ → ℝ) (B' : Bessel) : HankelObj.flNew rnd B' 3 1 = .error .valueError ∧ HankelObj.flNew rnd B' 4 (-1) = .error .valueError :=
  ⟨(C85_hankel_raises rnd B' B' 3 1 _).2 ((C48_new B' 3 1).1.2 (Or.inl (by norm_num))),
    (C85_hankel_raises rnd B' B' 4 (-1) _).2 ((C48_new B' 4 (-1)).1.2 (Or.inr (by norm_num)))⟩

/-- The transform of an array with the errors `ρ`, real, complex, and back. -/
example : ∃ K δ : ℝ, 0 < δ ∧ ∀ ρ, 0 < ρ → ρ ≤ δ → ∃ (o' : HankelObj) (w w' x x' y y' : Fin 4 → ℂ),
    HankelObj.flNew (tooLarge ρ) (trigBessel' ρ) 4 2 = .ok o' ∧
    (hankelIdeal trigBessel 4 2).ht (List.ofFn fun _ : Fin 4 => 1) = .ok (List.ofFn w) ∧
    (hankelIdeal trigBessel 4 2).ht (List.ofFn fun _ : Fin 4 => Complex.I) = .ok (List.ofFn x) ∧
    ((hankelIdeal trigBessel 4 2).ht (List.ofFn fun _ : Fin 4 => Complex.I) >>= (hankelIdeal trigBessel 4 2).iht) = .ok (List.ofFn y) ∧
    (o'.flHt (tooLarge ρ) (roundedDot (tooLarge ρ) (realSum (seqSum (tooLarge ρ)))) (List.ofFn fun _ : Fin 4 => 1 + ρ)).map (List.map Complex.ofReal) =
      .ok (List.ofFn w') ∧
    o'.flHtC (tooLarge ρ) (roundedDot (tooLarge ρ) (realSum (seqSum (tooLarge ρ)))) (List.ofFn fun _ : Fin 4 => Complex.I + ρ) = .ok (List.ofFn x') ∧
    (o'.flHtC (tooLarge ρ) (roundedDot (tooLarge ρ) (realSum (seqSum (tooLarge ρ)))) (List.ofFn fun _ : Fin 4 => Complex.I + ρ) >>=
      o'.flIhtC (tooLarge ρ) (roundedDot (tooLarge ρ) (realSum (seqSum (tooLarge ρ))))) = .ok (List.ofFn y') ∧
    ∀ i, ‖w' i - w i‖ ≤ K * ρ ∧ ‖x' i - x i‖ ≤ K * ρ ∧ ‖y' i - y i‖ ≤ K * ρ := by
  have h0 : HankelObj.new trigBessel (4 : ℕ) 2 = .ok (hankelIdeal trigBessel 4 2) := (C48_new trigBessel 4 2).2 (by norm_num) (by norm_num)
  obtain ⟨K1, δ1, p1, hδ1, H1⟩ := C85_transform trigBessel_regular h0 1 1
  obtain ⟨K2, δ2, p2, hδ2, H2⟩ := C85_transform_complex trigBessel_regular h0 1 1
  obtain ⟨K3, δ3, p3, hδ3, H3⟩ := C85_round_trip trigBessel_regular h0 1 1
  refine ⟨K1 + K2 + K3, min δ1 (min δ2 δ3), by positivity, fun ρ hρ hle => ?_⟩
  simp only [le_min_iff] at hle
  have hn : ∀ z : ℂ, ‖z + ρ - z‖ ≤ 1 * ρ := fun z => by
    rw [add_sub_cancel_left, Complex.norm_real, Real.norm_of_nonneg hρ.le, one_mul]
  obtain ⟨o1, w, w', _, _, a1, a2, a3, -, -, a4⟩ := H1 _ _ _ ρ (tooLarge_rounds hρ) hle.1 _ (trigBessel_near hρ.le) (fun _ => 1) (fun _ => 1 + ρ)
    (fun _ => by simp) fun _ => by rw [add_sub_cancel_left, abs_of_pos hρ, one_mul]
  obtain ⟨o2, x, x', _, _, b1, b2, b3, -, -, b4⟩ := H2 _ _ _ ρ (tooLarge_rounds hρ) hle.2.1 _ (trigBessel_near hρ.le) (fun _ => Complex.I)
    (fun _ => Complex.I + ρ) (fun _ => by simp) fun _ => hn _
  obtain ⟨o3, y, y', c1, c2, c3, c4⟩ := H3 _ _ _ ρ (tooLarge_rounds hρ) hle.2.2 _ (trigBessel_near hρ.le) (fun _ => Complex.I)
    (fun _ => Complex.I + ρ) (fun _ => by simp) fun _ => hn _
  obtain rfl : o1 = o2 := Except.ok.inj (a1.symm.trans b1)
  obtain rfl : o1 = o3 := Except.ok.inj (a1.symm.trans c1)
  refine ⟨o1, fun i => w i, fun i => w' i, x, x', y, y', a1, by simpa using a2, b2, c2, ?_, b3, c3, fun i => ⟨?_, ?_, ?_⟩⟩
  · rw [a3]
    simp only [Except.map, List.map_ofFn]
    rfl
  · rw [← Complex.ofReal_sub, Complex.norm_real, Real.norm_eq_abs]
    exact (a4 i).1.trans (mul_le_mul_of_nonneg_right (by linarith) hρ.le)
  · exact (b4 i).1.trans (mul_le_mul_of_nonneg_right (by linarith) hρ.le)
  · exact (c4 i).trans (mul_le_mul_of_nonneg_right (by linarith) hρ.le)

/-- Three numbers for four points. -/
example (rnd : ℝ → ℝ) (dot : List (ℝ × ℝ) → ℝ) : ∃ o', HankelObj.flNew rnd trigBessel 4 1 = .ok o' ∧ o'.flHt rnd dot [1, 2, 3] = .error .valueError :=
  ⟨_, flNew_eq rnd trigBessel 4 1 le_rfl one_pos, ((C85_transform_length rnd dot (n := 4) (flNew_eq rnd trigBessel 4 1 le_rfl one_pos)).1 _ (by simp)).1⟩

end Verif
