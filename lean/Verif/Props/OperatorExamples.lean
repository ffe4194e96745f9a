import Verif.Props.Operator
import Verif.Props.SettingsExamples
import Verif.Props.Schemes

/-!
# Concrete cases of C72

One mode, no nonlinear term: a step of size `h` multiplies by `exp (h L)`.  The operator is 0 and becomes 1.
-/

set_option linter.unusedSectionVars false

namespace Verif

open Matrix

theorem linear_one (m : CSSolver (Fin 1)) (x : ℝ) (hm : m.op.mat = Matrix.diagonal fun _ => (x : ℂ)) {h : ℝ} (hh : 0 ≤ h)
    (hc : m.CoefOk h) (u : Vec (Fin 1)) :
    (m.step (total fun _ => 0) u h m.new).1 = .ok (Complex.exp (h * x) • u) := by
  rw [C24_step m u h hh hc, hm, expm_diagonal]
  congr 1
  funext i
  simp [mulVec_diagonal]

/-- IF4, whatever the dtype, ETD4 and ETD5 with a `complex128` array: after a step of size 1 and the change of the array from
0 to 1, a step of size 1 still multiplies by 1 and a step of size 2 by `e²`. -/
example (m : CSSolver (Fin 1)) (c128 : Bool)
    (hm : m = .if4 (.diag 0) ∨ ∃ cfg, m = .etd4 cfg (.diag 0) ∨ m = .etd5 cfg (.diag 0)) (hs : m.sharesOp c128)
    (u : Vec (Fin 1)) :
    ∃ s' : m.State, m.step (total fun _ => 0) u 1 m.new = (.ok u, s') ∧
    ((m.withHeld (m.heldWrite c128 1 1)).step (total fun _ => 0) u 1 (m.hold _ s')).1 = .ok u ∧
    ((m.withHeld (m.heldWrite c128 1 1)).step (total fun _ => 0) u 2 (m.hold _ s')).1 = .ok (Complex.exp 2 • u) := by
  have h0 : ∀ h : ℝ, 0 ≤ h → (m.step (total fun _ => 0) u h m.new).1 = .ok u := by
    intro h hh
    have := linear_one m 0 (by rcases hm with rfl | ⟨cfg, rfl | rfl⟩ <;> simp [CSSolver.op, LinOp.mat]) hh
      (by rcases hm with rfl | ⟨cfg, rfl | rfl⟩ <;> trivial) u
    simpa using this
  have h2 : ((m.withHeld ⟨m.held.etd, 1, 1⟩).step (total fun _ => 0) u 2 (m.withHeld ⟨m.held.etd, 1, 1⟩).new).1 =
      .ok (Complex.exp 2 • u) := by
    have := linear_one (m.withHeld ⟨m.held.etd, 1, 1⟩) 1
      (by rcases hm with rfl | ⟨cfg, rfl | rfl⟩ <;> simp [CSSolver.op, LinOp.mat, CSSolver.withHeld])
      (h := 2) (by norm_num) (by rcases hm with rfl | ⟨cfg, rfl | rfl⟩ <;> trivial) u
    simpa using this
  refine ⟨_, Prod.ext (h0 1 zero_le_one) rfl, ?_, ?_⟩
  · rw [C72_write_step m _ u u 1 1 _ (Prod.ext (h0 1 zero_le_one) rfl), if_pos rfl, h0 1 zero_le_one]
  · rw [C72_write_step m _ u u 1 2 _ (Prod.ext (h0 1 zero_le_one) rfl), if_neg (by norm_num), if_pos hs, h2]

/-- ETD4 with a real array: a step of size 2 multiplies by 1. -/
example (cfg : ETDConfig ℝ) (u : Vec (Fin 1)) :
    ∃ s' : (CSSolver.etd4 cfg (.diag (0 : Vec (Fin 1)))).State,
    (CSSolver.etd4 cfg (.diag (0 : Vec (Fin 1)))).step (total fun _ => 0) u 1 (CSSolver.new _) = (.ok u, s') ∧
    (((CSSolver.etd4 cfg (.diag (0 : Vec (Fin 1)))).withHeld ((CSSolver.etd4 cfg (.diag 0)).heldWrite false 1 1)).step
      (total fun _ => 0) u 2 (CSSolver.hold _ _ s')).1 = .ok u := by
  have h0 : ∀ h : ℝ, 0 ≤ h →
      ((CSSolver.etd4 cfg (.diag (0 : Vec (Fin 1)))).step (total fun _ => 0) u h (CSSolver.new _)).1 = .ok u := by
    intro h hh
    have := linear_one (CSSolver.etd4 cfg (.diag (0 : Vec (Fin 1)))) 0 (by simp [CSSolver.op, LinOp.mat]) hh trivial u
    simpa using this
  refine ⟨_, Prod.ext (h0 1 zero_le_one) rfl, ?_⟩
  rw [C72_write_step _ _ u u 1 2 _ (Prod.ext (h0 1 zero_le_one) rfl), if_neg (by norm_num), if_neg (by simp [CSSolver.sharesOp]),
    h0 2 (by norm_num)]

/-- ETD34: after a step of size 1 with operator 0 the array changes; the next step of size 1 is that of a new solver with
operator 0. -/
example (x : Held (Fin 1)) (u : Vec (Fin 1)) (hu : u 0 ≠ 0) : ∃ v hs, ∃ s' : (coarse Real.pi).State,
    (coarse Real.pi).step (fun x => .ok x) id demoCfg u 1 (coarse Real.pi).new = (.ok (v, 1, hs), s') ∧
    (((coarse Real.pi).withHeld x).step (fun x => .ok x) id demoCfg v 1 ((coarse Real.pi).hold x s')).1 =
      ((coarse Real.pi).step (fun x => .ok x) id demoCfg v 1 (coarse Real.pi).new).1 := by
  obtain ⟨r, hr, hv, y, hy, hy1⟩ := coarse_accept hu
  have hsh : ShrinksFrom id demoCfg 1 := shrinksFrom_id _ (by norm_num [demoCfg]) (by norm_num [demoCfg]) one_pos
  have h1 := StepSpec.det (((coarse Real.pi).stepSpec_iff (fun x => .ok x) id demoCfg u 1 zero_le_one _).mpr rfl)
    (.accept (Nat.zero_le _) (.zero 1) hr hy hy1)
  refine ⟨_, _, _, Prod.ext h1 rfl, ?_⟩
  have h2 := ((ASSolver.Goes.new (nl := fun x => .ok x) (coarse Real.pi) u).step (.inl hsh) (Prod.ext h1 rfl)).assign x
  have h3 : lastEffect (coarse Real.pi).held none 1 1 = (coarse Real.pi).held := by unfold lastEffect; rw [if_pos rfl]; rfl
  rw [h3] at h2
  obtain ⟨r', hr', -, hx'⟩ := coarse_accept hv
  exact C72_ignored_as _ _ _ _ _ 1 h2 id demoCfg zero_le_one hsh (.inr ⟨r', hr', hx'⟩)

end Verif
