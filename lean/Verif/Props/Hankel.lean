import Verif.Model.Hankel
import Mathlib.LinearAlgebra.Matrix.Notation
import Mathlib.Data.Matrix.Mul
import Mathlib.Algebra.BigOperators.Field
import Mathlib.Data.Complex.BigOperators
import Mathlib.Tactic.IntervalCases
import Mathlib.LinearAlgebra.Matrix.ToLin
import Mathlib.Tactic.FieldSimp
import Mathlib.Tactic.Linarith

/-!
# C48, C49: the Hankel transform
-/

set_option linter.unusedSectionVars false

namespace Verif

open Matrix

/-! ### What a transform of size `n` and radius `rmax` is -/

/-- The radial points `j_i rmax / j_N`. -/
noncomputable def hankelR (B : Bessel) (n : ℕ) (rmax : ℝ) (i : Fin n) : ℝ := B.zero i * rmax / B.zero n

/-- The matrix `2 J₀(j_i j_k / j_N) / (j_N J₁(j_k)²)`. -/
noncomputable def hankelY (B : Bessel) (n : ℕ) : Matrix (Fin n) (Fin n) ℝ :=
  fun i k => 2 * B.j0 (B.zero i * B.zero k / B.zero n) / (B.zero n * B.j1 (B.zero k) ^ 2)

/-- The object that `HankelTransform(n, rmax)` should be. -/
noncomputable def hankelIdeal (B : Bessel) (n : ℕ) (rmax : ℝ) : HankelObj where
  nr := n
  rmax := rmax
  r := List.ofFn (hankelR B n rmax)
  kr := List.ofFn fun i : Fin n => B.zero i / rmax
  besselZeros := List.ofFn fun i : Fin n => B.zero i
  jN := B.zero n
  Y := List.ofFn fun i => List.ofFn (hankelY B n i)

theorem dropLast_zeros (B : Bessel) (n : ℕ) : ((List.range (n + 1)).map B.zero).dropLast = List.ofFn fun i : Fin n => B.zero i := by
  rw [List.range_succ, List.map_append, List.map_singleton, List.dropLast_concat]
  apply List.ext_getElem <;> simp

theorem getLast_zeros (B : Bessel) (n : ℕ) : ((List.range (n + 1)).map B.zero).getLastD 0 = B.zero n := by
  rw [List.range_succ, List.map_append, List.map_singleton]
  simp

theorem setnrSetrmax_eq (B : Bessel) (n : ℕ) (rmax : ℝ) (hn : 4 ≤ n) (hr : 0 < rmax) (o : HankelObj) :
    HankelObj.setnrSetrmax B n rmax o = (.ok (), hankelIdeal B n rmax) := by
  have h1 : constructRKrHankel B n rmax = .ok (List.ofFn (hankelR B n rmax), List.ofFn fun i : Fin n => B.zero i / rmax,
      List.ofFn fun i : Fin n => B.zero i, B.zero n) := by
    unfold constructRKrHankel
    have a1 : ¬ ((n : ℤ) < 4) := by omega
    have a2 : ¬ (rmax ≤ 0) := not_le.2 hr
    have a3 : ((n : ℤ) + 1).toNat = n + 1 := by omega
    simp only [a1, a2, if_false, bind, Except.bind, pure, Except.pure, a3, dropLast_zeros, getLast_zeros]
    simp only [List.map_ofFn]
    rfl
  unfold HankelObj.setnrSetrmax
  simp only [PyM.bind_modify_apply, h1, HankelObj.sethankelmatrix, PyM.modify_apply, List.map_ofFn]
  rfl

/-- **C48.** The constructor: `ValueError` iff `nr < 4` or `rmax ≤ 0`, otherwise the transform of that size and radius. -/
theorem C48_new (B : Bessel) (nr : ℤ) (rmax : ℝ) :
    (HankelObj.new B nr rmax = .error .valueError ↔ nr < 4 ∨ rmax ≤ 0) ∧
    (4 ≤ nr → 0 < rmax → HankelObj.new B nr rmax = .ok (hankelIdeal B nr.toNat rmax)) := by
  have hok : 4 ≤ nr → 0 < rmax → HankelObj.new B nr rmax = .ok (hankelIdeal B nr.toNat rmax) := by
    intro h1 h2
    obtain ⟨n, rfl⟩ : ∃ n : ℕ, nr = n := ⟨nr.toNat, by omega⟩
    unfold HankelObj.new
    rw [setnrSetrmax_eq B n rmax (by omega) h2]
    rfl
  refine ⟨⟨fun h => ?_, fun h => ?_⟩, hok⟩
  · by_contra hc
    push Not at hc
    rw [hok hc.1 hc.2] at h
    cases h
  · have : constructRKrHankel B nr rmax = .error .valueError := by
      unfold constructRKrHankel
      rcases h with h | h
      · simp [h, bind, Except.bind, throw, throwThe, MonadExceptOf.throw]
      · by_cases h' : nr < 4 <;> simp [h, h', bind, Except.bind, throw, throwThe, MonadExceptOf.throw]
    simp only [HankelObj.new, HankelObj.setnrSetrmax, PyM.bind_modify_apply, this, PyM.throw_apply]

/-! ### Histories of assignments -/

/-- An assignment to one of the two properties. -/
inductive HankelOp where
  | nr (v : PyVal ℝ)
  | rmax (v : ℝ)

/-- Perform it. -/
noncomputable def HankelOp.run (B : Bessel) : HankelOp → PyM HankelObj Unit
  | .nr v => HankelObj.setNr B v
  | .rmax v => HankelObj.setRmax B v

/-- The state after a list of assignments, each of which may raise (the exception is caught by the caller). -/
noncomputable def runHankel (B : Bessel) (o : HankelObj) (ops : List HankelOp) : HankelObj :=
  ops.foldl (fun o op => (op.run B o).2) o

/-- The size and radius that should be in force after an assignment: an invalid one changes nothing. -/
noncomputable def HankelOp.effect : ℤ × ℝ → HankelOp → ℤ × ℝ
  | (n, R), .nr (.int m) => if 4 ≤ m then (m, R) else (n, R)
  | (n, R), .nr _ => (n, R)
  | (n, R), .rmax S => if 0 < S then (n, S) else (n, R)

/-- Is the assignment valid? -/
def HankelOp.Valid : HankelOp → Prop
  | .nr (.int m) => 4 ≤ m
  | .nr _ => False
  | .rmax S => 0 < S

/-- **C48.** An assignment raises iff it is invalid, then `ValueError`, and the object is unchanged. -/
theorem C48_invalid (B : Bessel) (o : HankelObj) (op : HankelOp) (h4 : 4 ≤ o.nr) (hR : 0 < o.rmax) :
    ((op.run B o).1 = .ok () ↔ op.Valid) ∧ (¬ op.Valid → op.run B o = (.error .valueError, o)) := by
  rcases op with (m | x | x) | S
  · by_cases hm : m < 4
    · have : ¬ (HankelOp.nr (.int m)).Valid := by simp only [HankelOp.Valid]; omega
      simp [HankelOp.run, HankelObj.setNr, hm, this]
    · have hv : (HankelOp.nr (.int m)).Valid := by simp only [HankelOp.Valid]; omega
      obtain ⟨n, rfl⟩ : ∃ n : ℕ, m = n := ⟨m.toNat, by omega⟩
      simp only [hv, iff_true, not_true, false_implies, and_true]
      simp only [HankelOp.run, HankelObj.setNr, hm, if_false]
      simp only [PyM.bind_get_apply]
      rw [setnrSetrmax_eq B n _ (by omega) hR]
  · simp [HankelOp.run, HankelObj.setNr, HankelOp.Valid]
  · simp [HankelOp.run, HankelObj.setNr, HankelOp.Valid]
  · by_cases hS : S ≤ 0
    · have : ¬ (HankelOp.rmax S).Valid := by simp only [HankelOp.Valid]; linarith
      simp [HankelOp.run, HankelObj.setRmax, hS, this]
    · have hv : (HankelOp.rmax S).Valid := by simp only [HankelOp.Valid]; linarith
      obtain ⟨n, hn⟩ : ∃ n : ℕ, o.nr = n := ⟨o.nr.toNat, by omega⟩
      simp only [hv, iff_true, not_true, false_implies, and_true]
      simp only [HankelOp.run, HankelObj.setRmax, hS, if_false]
      simp only [PyM.bind_get_apply]
      rw [hn, setnrSetrmax_eq B n _ (by omega) (not_le.1 hS)]

/-- `nr = 3` and `rmax = -1` are refused, and the object is unchanged; `rmax = 2` is accepted. -/
example (B : Bessel) (o : HankelObj) (h4 : 4 ≤ o.nr) (hR : 0 < o.rmax) :
    (HankelOp.nr (.int 3)).run B o = (.error .valueError, o) ∧ (HankelOp.rmax (-1)).run B o = (.error .valueError, o) ∧
    ((HankelOp.rmax 2).run B o).1 = .ok () :=
  ⟨(C48_invalid B o _ h4 hR).2 (by simp [HankelOp.Valid]), (C48_invalid B o _ h4 hR).2 (by simp [HankelOp.Valid]),
    (C48_invalid B o _ h4 hR).1.2 (by simp [HankelOp.Valid])⟩

/-- **C48.** After any history of assignments the object is the one freshly constructed with the values last validly assigned. -/
theorem C48_history (B : Bessel) (nr : ℤ) (rmax : ℝ) (o : HankelObj) (h : HankelObj.new B nr rmax = .ok o)
    (ops : List HankelOp) :
    HankelObj.new B (ops.foldl HankelOp.effect (nr, rmax)).1 (ops.foldl HankelOp.effect (nr, rmax)).2 =
      .ok (runHankel B o ops) := by
  induction ops generalizing nr rmax o with
  | nil => exact h
  | cons op ops ih =>
    have hvalid : 4 ≤ nr ∧ 0 < rmax := by
      by_contra hc
      have : nr < 4 ∨ rmax ≤ 0 := by
        by_contra hc'; push Not at hc'; exact hc hc'
      rw [(C48_new B nr rmax).1.2 this] at h
      cases h
    obtain ⟨h4, hR⟩ := hvalid
    have ho := h
    rw [(C48_new B nr rmax).2 h4 hR] at ho
    obtain ⟨n, rfl⟩ : ∃ n : ℕ, nr = n := ⟨nr.toNat, by omega⟩
    simp only [Except.ok.injEq, Int.toNat_natCast] at ho
    have hinv := C48_invalid B o op (by rw [← ho]; simpa [hankelIdeal] using h4) (by rw [← ho]; simpa [hankelIdeal] using hR)
    simp only [List.foldl_cons, runHankel]
    rw [← runHankel]
    apply ih
    rcases op with (m | x | x) | S
    · by_cases hm : 4 ≤ m
      · obtain ⟨k, rfl⟩ : ∃ k : ℕ, m = k := ⟨m.toNat, by omega⟩
        have hm' : ¬ (k : ℤ) < 4 := by omega
        simp only [hm, if_true]
        rw [(C48_new B _ _).2 hm hR]
        simp only [HankelOp.run, HankelObj.setNr, hm', if_false]
        simp only [PyM.bind_get_apply]
        subst ho
        rw [setnrSetrmax_eq B k _ (by omega) (by simpa [hankelIdeal] using hR)]
        rfl
      · simp only [hm, if_false]
        rw [hinv.2 (by simpa [HankelOp.Valid] using hm)]
        exact h
    · rw [hinv.2 (by simp [HankelOp.Valid])]; exact h
    · rw [hinv.2 (by simp [HankelOp.Valid])]; exact h
    · by_cases hS : 0 < S
      · have hS' : ¬ S ≤ 0 := not_le.2 hS
        simp only [hS, if_true]
        rw [(C48_new B _ _).2 h4 hS]
        simp only [HankelOp.run, HankelObj.setRmax, hS', if_false]
        simp only [PyM.bind_get_apply]
        subst ho
        rw [show (hankelIdeal B n rmax).nr = (n : ℤ) from rfl, setnrSetrmax_eq B n _ (by omega) hS]
        rfl
      · simp only [hS, if_false]
        rw [hinv.2 (by simpa [HankelOp.Valid] using hS)]
        exact h

/-- Two valid and two invalid assignments. -/
example (B : Bessel) (o : HankelObj) (h : HankelObj.new B 5 1 = .ok o) :
    HankelObj.new B 8 3 = .ok (runHankel B o [.nr (.int 2), .rmax 3, .nr (.int 8), .rmax (-1)]) := by
  have := C48_history B 5 1 o h [.nr (.int 2), .rmax 3, .nr (.int 8), .rmax (-1)]
  norm_num [HankelOp.effect] at this
  exact this

/-! ### The transform -/

theorem zipWith_ofFn_sum {n : ℕ} (y : Fin n → ℝ) (v : Fin n → ℂ) :
    (List.zipWith (fun (y : ℝ) (x : ℂ) => (y : ℂ) * x) (List.ofFn y) (List.ofFn v)).sum = ∑ k, (y k : ℂ) * v k := by
  have : List.zipWith (fun (y : ℝ) (x : ℂ) => (y : ℂ) * x) (List.ofFn y) (List.ofFn v) = List.ofFn fun k => (y k : ℂ) * v k := by
    apply List.ext_getElem <;> simp
  rw [this, List.sum_ofFn]

theorem dot_ofFn {n : ℕ} (Y : Matrix (Fin n) (Fin n) ℝ) (v : Fin n → ℂ) :
    HankelObj.dot (List.ofFn fun i => List.ofFn (Y i)) (List.ofFn v) = .ok (List.ofFn fun i => ∑ k, (Y i k : ℂ) * v k) := by
  unfold HankelObj.dot
  rw [if_pos]
  · rw [List.map_ofFn]
    congr 2
    funext i
    exact zipWith_ofFn_sum (Y i) v
  · intro row hrow
    simp only [List.mem_ofFn] at hrow
    obtain ⟨i, rfl⟩ := hrow
    simp

variable (B : Bessel) {n : ℕ} {rmax : ℝ} {o : HankelObj}

theorem eq_ideal (h : HankelObj.new B n rmax = .ok o) : 4 ≤ n ∧ 0 < rmax ∧ o = hankelIdeal B n rmax := by
  have hvalid : (4 : ℤ) ≤ n ∧ 0 < rmax := by
    by_contra hc
    have : (n : ℤ) < 4 ∨ rmax ≤ 0 := by
      by_contra hc'; push Not at hc'; exact hc hc'
    rw [(C48_new B n rmax).1.2 this] at h
    cases h
  rw [(C48_new B n rmax).2 hvalid.1 hvalid.2] at h
  refine ⟨by omega, hvalid.2, ?_⟩
  simpa using h.symm

/-- **C49.** `ht` is multiplication by `(rmax² / j_N) Y`. -/
theorem C49_ht (h : HankelObj.new B n rmax = .ok o) (v : Fin n → ℂ) :
    o.ht (List.ofFn v) = .ok (List.ofFn fun i => (rmax ^ 2 / B.zero n : ℝ) * ∑ k, (hankelY B n i k : ℂ) * v k) := by
  obtain ⟨-, -, rfl⟩ := eq_ideal B h
  simp only [HankelObj.ht, hankelIdeal, dot_ofFn, bind, Except.bind, pure, Except.pure, List.map_ofFn]
  rfl

/-- **C49.** `iht` is multiplication by `Y` divided by `rmax² / j_N`. -/
theorem C49_iht (h : HankelObj.new B n rmax = .ok o) (v : Fin n → ℂ) :
    o.iht (List.ofFn v) = .ok (List.ofFn fun i => (∑ k, (hankelY B n i k : ℂ) * v k) / (rmax ^ 2 / B.zero n : ℝ)) := by
  obtain ⟨-, -, rfl⟩ := eq_ideal B h
  simp only [HankelObj.iht, hankelIdeal, dot_ofFn, bind, Except.bind, pure, Except.pure, List.map_ofFn]
  rfl

/-- **C49.** An argument of another length is refused by both. -/
theorem C49_length (h : HankelObj.new B n rmax = .ok o) (f : List ℂ) (hf : f.length ≠ n) :
    o.ht f = .error .valueError ∧ o.iht f = .error .valueError := by
  obtain ⟨h4, -, rfl⟩ := eq_ideal B h
  have : HankelObj.dot (hankelIdeal B n rmax).Y f = .error .valueError := by
    unfold HankelObj.dot
    rw [if_neg]
    intro hall
    have := hall (List.ofFn (hankelY B n ⟨0, by omega⟩)) (by simp only [hankelIdeal, List.mem_ofFn]; exact ⟨_, rfl⟩)
    simp only [List.length_ofFn] at this
    exact hf this.symm
  simp [HankelObj.ht, HankelObj.iht, this, bind, Except.bind]

/-- **C49.** Both are linear. -/
theorem C49_linear (h : HankelObj.new B n rmax = .ok o) (v w : Fin n → ℂ) (a b : ℂ) (x y x' y' : Fin n → ℂ)
    (hx : o.ht (List.ofFn v) = .ok (List.ofFn x)) (hy : o.ht (List.ofFn w) = .ok (List.ofFn y))
    (hx' : o.iht (List.ofFn v) = .ok (List.ofFn x')) (hy' : o.iht (List.ofFn w) = .ok (List.ofFn y')) :
    o.ht (List.ofFn fun i => a * v i + b * w i) = .ok (List.ofFn fun i => a * x i + b * y i) ∧
    o.iht (List.ofFn fun i => a * v i + b * w i) = .ok (List.ofFn fun i => a * x' i + b * y' i) := by
  rw [C49_ht B h] at hx hy ⊢
  rw [C49_iht B h] at hx' hy' ⊢
  simp only [Except.ok.injEq, List.ofFn_inj] at hx hy hx' hy'
  subst hx hy hx' hy'
  constructor
  · congr 2; funext i
    simp only [mul_add, Finset.sum_add_distrib, Finset.mul_sum]
    congr 1 <;> refine Finset.sum_congr rfl fun k _ => ?_ <;> ring
  · congr 2; funext i
    simp only [mul_add, Finset.sum_add_distrib, add_div, Finset.sum_div, Finset.mul_sum]
    congr 1 <;> refine Finset.sum_congr rfl fun k _ => ?_ <;> ring

/-- **C49.** One after the other, in either order, they multiply by `Y²`, whatever the radius. -/
theorem C49_round_trip (h : HankelObj.new B n rmax = .ok o) (hz : B.zero n ≠ 0) (v : Fin n → ℂ) : ∃ x y,
    o.ht (List.ofFn v) = .ok x ∧ o.iht x = .ok (List.ofFn fun i => ∑ k, ((hankelY B n * hankelY B n) i k : ℂ) * v k) ∧
    o.iht (List.ofFn v) = .ok y ∧ o.ht y = .ok (List.ofFn fun i => ∑ k, ((hankelY B n * hankelY B n) i k : ℂ) * v k) := by
  have hr : (rmax ^ 2 / B.zero n : ℝ) ≠ 0 := by
    have := (eq_ideal B h).2.1
    positivity
  have hr' : ((rmax ^ 2 / B.zero n : ℝ) : ℂ) ≠ 0 := Complex.ofReal_ne_zero.2 hr
  set S : ℂ := ((rmax ^ 2 / B.zero n : ℝ) : ℂ) with hS
  have key : ∀ i, ∑ l, (hankelY B n i l : ℂ) * ∑ k, (hankelY B n l k : ℂ) * v k =
      ∑ k, ((hankelY B n * hankelY B n) i k : ℂ) * v k := by
    intro i
    simp only [Matrix.mul_apply, Finset.mul_sum, Complex.ofReal_sum, Finset.sum_mul, Complex.ofReal_mul]
    rw [Finset.sum_comm]
    refine Finset.sum_congr rfl fun k _ => Finset.sum_congr rfl fun l _ => by ring
  refine ⟨_, _, C49_ht B h v, ?_, C49_iht B h v, ?_⟩
  · rw [C49_iht B h]
    congr 2; funext i
    rw [← key i, Finset.sum_div]
    refine Finset.sum_congr rfl fun l _ => ?_
    rw [← hS]; field_simp
  · rw [C49_ht B h]
    congr 2; funext i
    rw [← key i, Finset.mul_sum]
    refine Finset.sum_congr rfl fun l _ => ?_
    rw [← hS]; field_simp

/-- **C49.** They invert each other iff `Y² = 1`: the transform is not an exact inverse pair unless the matrix squares to the
identity. -/
theorem C49_inverse_iff (h : HankelObj.new B n rmax = .ok o) (hz : B.zero n ≠ 0) :
    (∀ v : Fin n → ℂ, (o.ht (List.ofFn v) >>= o.iht) = .ok (List.ofFn v)) ↔ hankelY B n * hankelY B n = 1 := by
  have hrt : ∀ v : Fin n → ℂ, (o.ht (List.ofFn v) >>= o.iht) =
      .ok (List.ofFn fun i => ∑ k, ((hankelY B n * hankelY B n) i k : ℂ) * v k) := by
    intro v
    obtain ⟨x, y, h1, h2, -⟩ := C49_round_trip B h hz v
    rw [h1]; exact h2
  simp only [hrt, Except.ok.injEq, List.ofFn_inj]
  constructor
  · intro hv
    ext i k
    have := congrFun (hv (Pi.single k 1)) i
    simp only [Pi.single_apply, mul_ite, mul_one, mul_zero, Finset.sum_ite_eq', Finset.mem_univ, if_true] at this
    have h2 : (((hankelY B n * hankelY B n) i k : ℝ) : ℂ) = ((1 : Matrix (Fin n) (Fin n) ℝ) i k : ℂ) := by
      rw [this, Matrix.one_apply]; split <;> simp
    exact_mod_cast h2
  · intro hY v
    funext i
    rw [hY, Finset.sum_eq_single i]
    · simp
    · intro k _ hk; rw [Matrix.one_apply_ne hk.symm]; simp
    · intro hi; exact absurd (Finset.mem_univ i) hi

/-- **C49.** The grid of an object: `nr` points strictly inside `(0, rmax)`, increasing; `kr` is the same grid scaled. -/
theorem C49_grid (h : HankelObj.new B n rmax = .ok o) (hz : StrictMono B.zero) (h0 : 0 < B.zero 0) :
    o.r.length = n ∧ o.kr.length = n ∧ o.r.Pairwise (· < ·) ∧ (∀ x ∈ o.r, 0 < x ∧ x < rmax) ∧
    o.kr = o.r.map fun x => x * B.zero n / rmax ^ 2 := by
  obtain ⟨-, hR, rfl⟩ := eq_ideal B h
  have hpos : ∀ k, 0 < B.zero k := fun k => lt_of_lt_of_le h0 (hz.monotone (Nat.zero_le k))
  refine ⟨by simp [hankelIdeal], by simp [hankelIdeal], ?_, ?_, ?_⟩
  · simp only [hankelIdeal, List.pairwise_ofFn]
    intro i j hij
    simp only [hankelR]
    have := hz hij
    apply div_lt_div_of_pos_right _ (hpos n)
    exact mul_lt_mul_of_pos_right this hR
  · intro x hx
    simp only [hankelIdeal, List.mem_ofFn] at hx
    obtain ⟨i, rfl⟩ := hx
    simp only [hankelR]
    have := hz i.2
    have h1 := hpos n
    have h2 := hpos i
    refine ⟨by positivity, ?_⟩
    rw [div_lt_iff₀ h1]
    nlinarith
  · simp only [hankelIdeal, List.map_ofFn]
    congr 1
    funext i
    have := (hpos n).ne'
    simp only [Function.comp, hankelR]
    field_simp

/-- **C49.** Scaling: the transform for radius `rmax` is `rmax²` times the one for radius one. -/
theorem C49_radius (h : HankelObj.new B n rmax = .ok o) : ∃ o₁, HankelObj.new B n 1 = .ok o₁ ∧ ∀ v : Fin n → ℂ,
    o.ht (List.ofFn v) = (o₁.ht (List.ofFn v)).map fun l => l.map fun x => ((rmax ^ 2 : ℝ) : ℂ) * x := by
  have h1 : HankelObj.new B n 1 = .ok (hankelIdeal B n 1) := by
    have := (C48_new B n 1).2 (by have := (eq_ideal B h).1; omega) one_pos
    simpa using this
  refine ⟨_, h1, fun v => ?_⟩
  rw [C49_ht B h, C49_ht B h1]
  simp only [Except.map, List.map_ofFn]
  congr 2; funext i
  simp only [Function.comp]
  push_cast
  ring

/-- Four points, radius 2: the transforms of `(1, 0, 0, 0)`, of arrays of another length, and of multiples. -/
example (B : Bessel) (o : HankelObj) (h : HankelObj.new B (4 : ℕ) 2 = .ok o) (hz : StrictMono B.zero) (h0 : 0 < B.zero 0) :
    o.ht (List.ofFn ![1, 0, 0, 0]) = .ok (List.ofFn fun i => (2 ^ 2 / B.zero 4 : ℝ) * (hankelY B 4 i 0 : ℂ)) ∧
    o.iht (List.ofFn ![1, 0, 0, 0]) = .ok (List.ofFn fun i => (hankelY B 4 i 0 : ℂ) / (2 ^ 2 / B.zero 4 : ℝ)) ∧
    o.ht [1, 2] = .error .valueError ∧ o.r.length = 4 ∧ (∀ x ∈ o.r, 0 < x ∧ x < 2) ∧
    (∃ o₁, HankelObj.new B (4 : ℕ) 1 = .ok o₁ ∧
      o.ht (List.ofFn ![1, 0, 0, 0]) = (o₁.ht (List.ofFn ![1, 0, 0, 0])).map fun l => l.map fun x => ((2 ^ 2 : ℝ) : ℂ) * x) ∧
    ((∀ v : Fin 4 → ℂ, (o.ht (List.ofFn v) >>= o.iht) = .ok (List.ofFn v)) ↔ hankelY B 4 * hankelY B 4 = 1) := by
  have hn : B.zero 4 ≠ 0 := (h0.trans (hz (by norm_num))).ne'
  refine ⟨?_, ?_, (C49_length B h _ (by simp)).1, (C49_grid B h hz h0).1, (C49_grid B h hz h0).2.2.2.1, ?_, C49_inverse_iff B h hn⟩
  · rw [C49_ht B h]
    simp [Fin.sum_univ_four]
  · rw [C49_iht B h]
    simp [Fin.sum_univ_four]
  · obtain ⟨o₁, h1, h2⟩ := C49_radius B h
    exact ⟨o₁, h1, h2 _⟩

/-- Linearity and the round trip, on concrete arrays. -/
example (B : Bessel) (o : HankelObj) (h : HankelObj.new B (4 : ℕ) 2 = .ok o) (h0 : B.zero 4 ≠ 0) :
    (∃ x y : Fin 4 → ℂ, o.ht (List.ofFn ![1, 0, 0, 0]) = .ok (List.ofFn x) ∧ o.ht (List.ofFn ![0, 1, 0, 0]) = .ok (List.ofFn y) ∧
      o.ht (List.ofFn fun i => 2 * ![1, 0, 0, 0] i + 3 * ![0, 1, 0, 0] i) = .ok (List.ofFn fun i => 2 * x i + 3 * y i)) ∧
    ∃ x, o.ht (List.ofFn ![1, 0, 0, 0]) = .ok x ∧
      o.iht x = .ok (List.ofFn fun i => ∑ k, ((hankelY B 4 * hankelY B 4) i k : ℂ) * ![1, 0, 0, 0] k) := by
  constructor
  · refine ⟨_, _, C49_ht B h _, C49_ht B h _, ?_⟩
    exact (C49_linear B h _ _ 2 3 _ _ _ _ (C49_ht B h _) (C49_ht B h _) (C49_iht B h _) (C49_iht B h _)).1
  · obtain ⟨x, -, h1, h2, -⟩ := C49_round_trip B h h0 ![1, 0, 0, 0]
    exact ⟨x, h1, h2⟩

/-- A sequence and functions with which the hypotheses hold: zeros at `1, 2, 3, …`. -/
example : ∃ (B : Bessel) (o : HankelObj), StrictMono B.zero ∧ 0 < B.zero 0 ∧ HankelObj.new B (4 : ℕ) 2 = .ok o ∧
    o.r = [2 / 5, 4 / 5, 6 / 5, 8 / 5] := by
  refine ⟨⟨fun k => k + 1, fun _ => 1, fun _ => 1⟩, _, ?_, by norm_num, (C48_new _ _ _).2 (by norm_num) (by norm_num), ?_⟩
  · intro a b hab
    have : (a : ℝ) < b := by exact_mod_cast hab
    simpa using this
  · simp only [hankelIdeal, Nat.cast_ofNat]
    apply List.ext_getElem
    · simp
    · intro i h1 h2
      have : i < 4 := by simpa using h2
      simp only [List.getElem_ofFn, hankelR]
      interval_cases i <;> norm_num [show (4 : ℤ).toNat = 4 from rfl]

end Verif
