import Verif.Spec.NonFinite
import Verif.Lemmas.BroadcastSeen
import Verif.Lemmas.CSEvolve
import Verif.Lemmas.ASEvolve

/-!
# Non-finite numbers spread
-/

set_option linter.unusedSectionVars false

namespace Verif

variable {rnd : ℝ → Ext ℝ} {load : ℂ → CFl}

namespace Ext

@[simp] theorem isFinite_fin (x : ℝ) : (fin x).IsFinite := ⟨x, rfl⟩
@[simp] theorem not_isFinite_nan : ¬ (nan : Ext ℝ).IsFinite := by rintro ⟨a, ⟨⟩⟩
@[simp] theorem not_isFinite_pinf : ¬ (pinf : Ext ℝ).IsFinite := by rintro ⟨a, ⟨⟩⟩
@[simp] theorem not_isFinite_ninf : ¬ (ninf : Ext ℝ).IsFinite := by rintro ⟨a, ⟨⟩⟩

@[simp] theorem not_isFinite_infTimes (x : ℝ) : ¬ (infTimes x).IsFinite := by
  unfold infTimes
  split_ifs <;> simp

theorem isFinite_neg {x : Ext ℝ} (h : x.neg.IsFinite) : x.IsFinite := by
  cases x <;> simp [neg] at h ⊢

theorem isFinite_add {x y : Ext ℝ} (h : (add rnd x y).IsFinite) : x.IsFinite ∧ y.IsFinite := by
  cases x <;> cases y <;> simp [add] at h ⊢

theorem isFinite_sub {x y : Ext ℝ} (h : (sub rnd x y).IsFinite) : x.IsFinite ∧ y.IsFinite :=
  ⟨(isFinite_add h).1, isFinite_neg (isFinite_add h).2⟩

theorem isFinite_mul {x y : Ext ℝ} (h : (mul rnd x y).IsFinite) : x.IsFinite ∧ y.IsFinite := by
  cases x <;> cases y <;> simp [mul] at h ⊢

end Ext

namespace CFl

theorem isFinite_neg {z : CFl} (h : z.neg.IsFinite) : z.IsFinite := ⟨Ext.isFinite_neg h.1, Ext.isFinite_neg h.2⟩

theorem isFinite_add {z w : CFl} (h : (z.add rnd w).IsFinite) : z.IsFinite ∧ w.IsFinite :=
  ⟨⟨(Ext.isFinite_add h.1).1, (Ext.isFinite_add h.2).1⟩, ⟨(Ext.isFinite_add h.1).2, (Ext.isFinite_add h.2).2⟩⟩

theorem isFinite_sub {z w : CFl} (h : (z.sub rnd w).IsFinite) : z.IsFinite ∧ w.IsFinite :=
  ⟨⟨(Ext.isFinite_sub h.1).1, (Ext.isFinite_sub h.2).1⟩, ⟨(Ext.isFinite_sub h.1).2, (Ext.isFinite_sub h.2).2⟩⟩

theorem isFinite_mul {z w : CFl} (h : (z.mul rnd w).IsFinite) : z.IsFinite ∧ w.IsFinite := by
  obtain ⟨h1, h2⟩ := Ext.isFinite_sub h.1
  exact ⟨⟨(Ext.isFinite_mul h1).1, (Ext.isFinite_mul h2).1⟩, ⟨(Ext.isFinite_mul h1).2, (Ext.isFinite_mul h2).2⟩⟩

theorem isFinite_quot {z : CFl} {n : ℕ} (h : (z.quot rnd n).IsFinite) : z.IsFinite := by
  have h1 := (Ext.isFinite_mul h.1).1
  have h2 := Ext.isFinite_add h1
  exact ⟨h2.1, (Ext.isFinite_mul h2.2).1⟩

theorem isFinite_dot {ι : Type} {a x : ι → CFl} {l : List ι} (h : (dot rnd a x l).IsFinite) : ∀ j ∈ l, (x j).IsFinite := by
  induction l with
  | nil => simp
  | cons j l ih =>
    have h1 := isFinite_add (rnd := rnd) (z := mul rnd (a j) (x j)) (w := dot rnd a x l) h
    intro k hk
    rcases List.mem_cons.mp hk with rfl | hk
    · exact (isFinite_mul h1.1).2
    · exact ih h1.2 k hk

theorem abs_bad {z : CFl} (h : ¬ z.IsFinite) : z.abs rnd = .pinf ∨ z.abs rnd = .nan := by
  rcases z with ⟨a, b⟩
  cases a <;> cases b <;> simp [IsFinite, abs] at h ⊢

end CFl

/-! ### Programs -/

variable {ι Coef : Type} [Fintype ι]

/-- How far entry `i` being non-finite has spread in an array: 0 says nothing, 1 that entry `i` is not finite, 2 that no entry is. -/
def Spread (i : ι) : ℕ → (ι → CFl) → Prop
  | 0, _ => True
  | 1, x => ¬ (x i).IsFinite
  | _, x => ∀ j, ¬ (x j).IsFinite

/-- How far an expression spreads it. -/
def Exp.spread (lev : Attr → ℕ) : Exp Coef ι → ℕ
  | var a => lev a
  | cof _ | size | num _ => 0
  | add e f | sub e f | mul e f => max (e.spread lev) (f.spread lev)
  | neg e | over e _ => e.spread lev
  | dot _ e | fix _ e => if e.spread lev = 0 then 0 else 2

/-- How far assignments spread it. -/
def spreads (lev : Attr → ℕ) : List (RInstr Coef ι) → Attr → ℕ
  | [] => lev
  | .set a e :: is => spreads (Function.update lev a (e.spread lev)) is
  | .call a _ :: is => spreads (Function.update lev a 0) is

theorem Spread.one {i : ι} {n : ℕ} {x : ι → CFl} (h : Spread i n x) (hn : n ≠ 0) : ¬ (x i).IsFinite := by
  match n, hn with
  | 1, _ => exact h
  | n + 2, _ => exact h i

theorem Spread.mono {i : ι} {n : ℕ} {x y : ι → CFl} (h : Spread i n x) (hxy : ∀ j, (y j).IsFinite → (x j).IsFinite) : Spread i n y := by
  match n with
  | 0 => trivial
  | 1 => exact fun hy => h (hxy i hy)
  | n + 2 => exact fun j hy => h j (hxy j hy)

theorem Spread.sup {i : ι} {m n : ℕ} {x y z : ι → CFl} (hx : Spread i m x) (hy : Spread i n y)
    (hz : ∀ j, (z j).IsFinite → (x j).IsFinite ∧ (y j).IsFinite) : Spread i (max m n) z := by
  rcases le_total m n with h | h
  · rw [max_eq_right h]
    exact hy.mono fun j hj => (hz j hj).2
  · rw [max_eq_left h]
    exact hx.mono fun j hj => (hz j hj).1

theorem Exp.spread_ok {c : Coef} {h : ℝ} {x : Attr → ι → CFl} {lev : Attr → ℕ} {i : ι} (hx : ∀ a, Spread i (lev a) (x a)) (e : Exp Coef ι) :
    ∀ y, e.evalA (ArrOps.floats rnd load) c h x = .ok y → Spread i (e.spread lev) y := by
  induction e with
  | var a => rintro y ⟨⟩; exact hx a
  | cof p => intro y _; trivial
  | size => intro y _; trivial
  | num n => intro y _; trivial
  | add e f ie iff =>
    intro y hy
    simp only [evalA] at hy
    cases he : e.evalA (ArrOps.floats rnd load) c h x with
    | error _ => simp [he, Except.bind] at hy
    | ok a =>
      cases hf : f.evalA (ArrOps.floats rnd load) c h x with
      | error _ => simp [he, hf, Except.bind] at hy
      | ok b =>
        simp only [he, hf] at hy
        obtain rfl := Except.ok.inj hy
        exact (ie a he).sup (iff b hf) fun j hj => CFl.isFinite_add hj
  | sub e f ie iff =>
    intro y hy
    simp only [evalA] at hy
    cases he : e.evalA (ArrOps.floats rnd load) c h x with
    | error _ => simp [he, Except.bind] at hy
    | ok a =>
      cases hf : f.evalA (ArrOps.floats rnd load) c h x with
      | error _ => simp [he, hf, Except.bind] at hy
      | ok b =>
        simp only [he, hf] at hy
        obtain rfl := Except.ok.inj hy
        exact (ie a he).sup (iff b hf) fun j hj => CFl.isFinite_sub hj
  | mul e f ie iff =>
    intro y hy
    simp only [evalA] at hy
    cases he : e.evalA (ArrOps.floats rnd load) c h x with
    | error _ => simp [he, Except.bind] at hy
    | ok a =>
      cases hf : f.evalA (ArrOps.floats rnd load) c h x with
      | error _ => simp [he, hf, Except.bind] at hy
      | ok b =>
        simp only [he, hf] at hy
        obtain rfl := Except.ok.inj hy
        exact (ie a he).sup (iff b hf) fun j hj => CFl.isFinite_mul hj
  | neg e ie =>
    intro y hy
    simp only [evalA] at hy
    cases he : e.evalA (ArrOps.floats rnd load) c h x with
    | error _ => simp [he, Except.bind] at hy
    | ok a =>
      simp only [he] at hy
      obtain rfl := Except.ok.inj hy
      exact (ie a he).mono fun j hj => CFl.isFinite_neg hj
  | over e n ie =>
    intro y hy
    simp only [evalA] at hy
    cases he : e.evalA (ArrOps.floats rnd load) c h x with
    | error _ => simp [he, Except.bind] at hy
    | ok a =>
      simp only [he] at hy
      obtain rfl := Except.ok.inj hy
      exact (ie a he).mono fun j hj => CFl.isFinite_quot hj
  | dot p e ie =>
    intro y hy
    simp only [evalA] at hy
    cases he : e.evalA (ArrOps.floats rnd load) c h x with
    | error _ => simp [he, Except.bind] at hy
    | ok a =>
      simp only [he] at hy
      obtain rfl := Except.ok.inj hy
      simp only [spread]
      split_ifs with h0
      · trivial
      · exact fun j hj => (ie a he).one h0 (CFl.isFinite_dot hj i (by simp))
  | fix M e ie =>
    intro y hy
    simp only [evalA] at hy
    cases he : e.evalA (ArrOps.floats rnd load) c h x with
    | error _ => simp [he, Except.bind] at hy
    | ok a =>
      simp only [he] at hy
      obtain rfl := Except.ok.inj hy
      simp only [spread]
      split_ifs with h0
      · trivial
      · exact fun j hj => (ie a he).one h0 (CFl.isFinite_dot hj i (by simp))

theorem spreads_ok {nl : (ι → CFl) → Except PyErr (ι → CFl)} {c : Coef} {h : ℝ} {i : ι} (is : List (RInstr Coef ι)) :
    ∀ {lev : Attr → ℕ} {x y : Attr → ι → CFl}, (∀ a, Spread i (lev a) (x a)) →
      avals (ArrOps.floats rnd load) c h nl is x = .ok y → ∀ a, Spread i (spreads lev is a) (y a) := by
  induction is with
  | nil => rintro lev x y hx ⟨⟩; exact hx
  | cons s is ih =>
    intro lev x y hx hy
    have key : ∀ a n k, Spread i k n → ∀ b, Spread i (Function.update lev a k b) (Function.update x a n b) := by
      intro a n k hn b
      by_cases hb : b = a
      · subst hb; simpa using hn
      · simpa [Function.update_of_ne hb] using hx b
    cases s with
    | set a e =>
      simp only [avals] at hy
      cases he : e.evalA (ArrOps.floats rnd load) c h x with
      | error _ => simp [he] at hy
      | ok n =>
        simp only [he] at hy
        exact ih (key a n _ (e.spread_ok hx n he)) hy
    | call a b =>
      simp only [avals] at hy
      cases he : nl (x b) with
      | error _ => simp [he] at hy
      | ok n =>
        simp only [he] at hy
        exact ih (key a n 0 trivial) hy

/-! ### The error factor -/

theorem max_bad {x y : Ext ℝ} (h : (x = .pinf ∨ x = .nan) ∨ (y = .pinf ∨ y = .nan)) : Ext.max x y = .pinf ∨ Ext.max x y = .nan := by
  rcases h with (rfl | rfl) | (rfl | rfl)
  · cases y <;> simp [Ext.max, Ext.lt]
  · simp [Ext.max]
  · cases x <;> simp [Ext.max, Ext.lt]
  · cases x <;> simp [Ext.max]

theorem foldl_max_bad (l : List (Ext ℝ)) : ∀ x, ((x = .pinf ∨ x = .nan) ∨ ∃ y ∈ l, y = .pinf ∨ y = .nan) →
    l.foldl Ext.max x = .pinf ∨ l.foldl Ext.max x = .nan := by
  induction l with
  | nil => rintro x (h | ⟨y, hy, -⟩); exacts [h, absurd hy (by simp)]
  | cons y l ih =>
    rintro x (h | ⟨z, hz, h⟩)
    · exact ih _ (.inl (max_bad (.inl h)))
    · rcases List.mem_cons.mp hz with rfl | hz
      · exact ih _ (.inl (max_bad (.inr h)))
      · exact ih _ (.inr ⟨z, hz, h⟩)

theorem flMax_bad {l : List (Ext ℝ)} {y : Ext ℝ} (hy : y ∈ l) (h : y = .pinf ∨ y = .nan) : flMax l = .pinf ∨ flMax l = .nan := by
  cases l with
  | nil => simp at hy
  | cons x l =>
    rcases List.mem_cons.mp hy with rfl | hy
    · exact foldl_max_bad l _ (.inl h)
    · exact foldl_max_bad l _ (.inr ⟨y, hy, h⟩)

/-- The factor of a solution with a non-finite entry is `nan`. -/
theorem flComputeS_bad (h0 : rnd 0 = .fin 0) (q : ℕ) {cfg : SolverConfig ℝ} (hc : 0 ≤ cfg.adapt_cutoff) {u : ι → CFl} {i : ι}
    (hi : ¬ (u i).IsFinite) (err : ι → CFl) : flComputeS rnd q cfg u err = .nan := by
  unfold flComputeS
  have hmx := flMax_bad (l := Finset.univ.toList.map fun i => (u i).abs rnd) (y := (u i).abs rnd)
    (List.mem_map.mpr ⟨i, by simp, rfl⟩) (CFl.abs_bad hi)
  have hsel : ∀ x : Ext ℝ, Ext.lt (.fin cfg.adapt_cutoff)
      (.div rnd x (flMax (Finset.univ.toList.map fun i => (u i).abs rnd))) = false := by
    intro x
    rcases hmx with h | h
    · rw [h]
      cases x <;> simp [Ext.div, Ext.lt, hc]
    · rw [h]
      cases x <;> simp [Ext.div, Ext.lt]
  simp only [hsel, List.filter_false, List.map_nil]
  have hn : flNorm rnd [] = .fin 0 := by simp [flNorm, Ext.add, h0, Ext.sqrt]
  rw [hn]
  simp [Ext.mul, h0, Ext.div, Ext.infTimes, Ext.power]

theorem foldr_bad {l : List (Ext ℝ)} {y : Ext ℝ} (hy : y ∈ l) (hb : ¬ y.IsFinite) : ¬ (l.foldr (Ext.add rnd) (.fin 0)).IsFinite := by
  induction l with
  | nil => simp at hy
  | cons x l ih =>
    intro h
    have := Ext.isFinite_add h
    rcases List.mem_cons.mp hy with rfl | hy
    · exact hb this.1
    · exact ih hy this.2

theorem flNorm_bad {w : List CFl} {z : CFl} (hz : z ∈ w) (hb : ¬ z.IsFinite) : flNorm rnd w = .pinf ∨ flNorm rnd w = .nan := by
  have key : ∀ x : Ext ℝ, ¬ x.IsFinite → Ext.sqrt rnd x = .pinf ∨ Ext.sqrt rnd x = .nan := by
    intro x hx
    cases x <;> simp [Ext.sqrt] at hx ⊢
  refine key _ fun hf => hb ?_
  obtain ⟨h1, h2⟩ := Ext.isFinite_add hf
  constructor
  · by_contra hc
    exact foldr_bad (List.mem_map.mpr ⟨z, hz, rfl⟩) (fun h => hc (Ext.isFinite_mul h).1) h1
  · by_contra hc
    exact foldr_bad (List.mem_map.mpr ⟨z, hz, rfl⟩) (fun h => hc (Ext.isFinite_mul h).1) h2

/-- The factor of an error estimate that is not finite in an entry that counts is `nan` or 0. -/
theorem flComputeS_err_bad (h0 : rnd 0 = .fin 0) {q : ℕ} (hq : q ≠ 0) {cfg : SolverConfig ℝ} {u err : ι → CFl} {i : ι}
    (hc : Counts rnd cfg u i) (hi : ¬ (err i).IsFinite) : flComputeS rnd q cfg u err = .nan ∨ flComputeS rnd q cfg u err = .fin 0 := by
  unfold flComputeS
  simp only
  have hn := flNorm_bad (rnd := rnd) (w := ((Finset.univ.toList.filter fun i => Ext.lt (.fin cfg.adapt_cutoff)
    (.div rnd ((u i).abs rnd) (flMax (Finset.univ.toList.map fun i => (u i).abs rnd)))).map err)) (z := err i)
    (List.mem_map.mpr ⟨i, List.mem_filter.mpr ⟨by simp, hc⟩, rfl⟩) hi
  generalize flNorm rnd ((Finset.univ.toList.filter fun i => Ext.lt (.fin cfg.adapt_cutoff)
    (.div rnd ((u i).abs rnd) (flMax (Finset.univ.toList.map fun i => (u i).abs rnd)))).map err) = n at hn ⊢
  generalize Ext.mul rnd (.fin cfg.epsilon) _ = t
  have hq' : (q : ℝ)⁻¹ ≠ 0 := inv_ne_zero (by exact_mod_cast hq)
  rcases hn with rfl | rfl <;> cases t <;> simp [Ext.div, Ext.power, Ext.mul, Real.zero_rpow hq', h0]

/-- Only `nl_func` raises. -/
theorem Exp.evalA_floats (c : Coef) (h : ℝ) (x : Attr → ι → CFl) (e : Exp Coef ι) :
    ∃ y, e.evalA (ArrOps.floats rnd load) c h x = .ok y := by
  induction e with
  | var a => exact ⟨_, rfl⟩
  | cof p => exact ⟨_, rfl⟩
  | size => exact ⟨_, rfl⟩
  | num n => exact ⟨_, rfl⟩
  | add e f ie iff | sub e f ie iff | mul e f ie iff =>
    obtain ⟨y, hy⟩ := ie
    obtain ⟨z, hz⟩ := iff
    simp only [evalA, hy, hz]
    exact ⟨_, rfl⟩
  | neg e ie | over e n ie | dot p e ie | fix M e ie =>
    obtain ⟨y, hy⟩ := ie
    simp only [evalA, hy]
    exact ⟨_, rfl⟩

theorem avals_floats_error {nl : (ι → CFl) → Except PyErr (ι → CFl)} {c : Coef} {h : ℝ} {er : PyErr} (is : List (RInstr Coef ι)) :
    ∀ {x : Attr → ι → CFl}, avals (ArrOps.floats rnd load) c h nl is x = .error er → ∃ w, nl w = .error er := by
  induction is with
  | nil => rintro x ⟨⟩
  | cons s is ih =>
    intro x hx
    cases s with
    | set a e =>
      obtain ⟨y, hy⟩ := e.evalA_floats (rnd := rnd) (load := load) c h x
      simp only [avals, hy] at hx
      exact ih hx
    | call a b =>
      simp only [avals] at hx
      cases hn : nl (x b) with
      | error e' => simp only [hn, Except.error.injEq] at hx; exact ⟨x b, by rw [hn, hx]⟩
      | ok n => simp only [hn] at hx; exact ih hx

end Verif
