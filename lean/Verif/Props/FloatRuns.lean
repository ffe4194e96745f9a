import Verif.Props.FloatCoefs

/-!
# C84: runs with an operator that is itself only computed
-/

set_option linter.unusedSectionVars false

namespace Verif

open Matrix
open scoped ContDiff Matrix.Norms.Operator

variable {ι : Type} [Fintype ι] [DecidableEq ι] {f : Vec ι → Vec ι} {Y : ℝ → Vec ι} {t0 tf : ℝ}

theorem LinOp.Near.cases {ρ : ℝ} {L L' : LinOp ι} (h : L.Near ρ L') :
    (∃ a d, L = .diag a ∧ L' = .diag (a + d) ∧ ‖d‖ ≤ ρ) ∨ ∃ a d, L = .full a ∧ L' = .full (a + d) ∧ ‖d‖ ≤ ρ := by
  rcases h with ⟨h⟩ | ⟨h⟩
  · exact .inl ⟨_, _, rfl, by rw [add_sub_cancel], h⟩
  · exact .inr ⟨_, _, rfl, by rw [add_sub_cancel], h⟩

/-- **C84.** `evolve` of a constant-step solver whose linear operator is within `ρ` of the exact one, when everything else is computed with
relative accuracy `ρ` as well: the run finishes, ends in `[tf, tf + 2 h)`, and the returned and recorded states are within a constant times
`‖u - Y t0‖ + h^4 + (N ρ + 2^-N) / h` of the solution `Y` for the exact operator.  The constants depend on the exact problem only. -/
theorem C84_evolve (m : CSSolver ι) (hm : m.ClearContour 0) (hf : ContDiff ℝ ∞ f) (ht : t0 < tf) (hY : Solves m.op.mat f t0 tf Y) :
    ∃ (C η R : ℝ) (N0 : ℕ), 0 < η ∧ ∀ (m' : CSSolver ι) (N : ℕ) (ar : Arith ι) (A : CArith) (B : LinAlg ι) (nl : NlFunc ι) (rnd : ℝ → ℝ) (ρ h : ℝ) (u : Vec ι),
      N0 ≤ N → 0 ≤ ρ → m.Near ρ m' → ar.Within ρ R → A.Within ρ (R * N) → B.Within ρ R → NlNear nl f ρ R → (∀ x, |rnd x - x| ≤ ρ * |x|) → 0 < h → h < η →
      N * ρ + (1 / 2) ^ N ≤ η * h → ‖u - Y t0‖ ≤ η →
      ∀ (pyDiv storeData : Bool) (freq : ℤ) (s : (m'.withPoints N).RSt) (fuel : ℕ), (pyDiv = true → tf ≠ 0) →
        freq ≠ 0 → 2 * (tf - t0) / h + 1 < fuel →
        (∃ v, ((m'.withPoints N).fpEvolve ((m'.withPoints N).flEnv ar A B) nl rnd pyDiv fuel u t0 tf h storeData freq s).1 = .ok (some v) ∧
          ‖v - Y ((m'.withPoints N).fpEvolve ((m'.withPoints N).flEnv ar A B) nl rnd pyDiv fuel u t0 tf h storeData freq s).2.tc‖ ≤
            C * (‖u - Y t0‖ + h ^ 4 + (N * ρ + (1 / 2) ^ N) / h)) ∧
        (tf ≤ ((m'.withPoints N).fpEvolve ((m'.withPoints N).flEnv ar A B) nl rnd pyDiv fuel u t0 tf h storeData freq s).2.tc ∧
          ((m'.withPoints N).fpEvolve ((m'.withPoints N).flEnv ar A B) nl rnd pyDiv fuel u t0 tf h storeData freq s).2.tc < tf + 2 * h) ∧
        ((m'.withPoints N).fpEvolve ((m'.withPoints N).flEnv ar A B) nl rnd pyDiv fuel u t0 tf h storeData freq s).2.u.length =
          ((m'.withPoints N).fpEvolve ((m'.withPoints N).flEnv ar A B) nl rnd pyDiv fuel u t0 tf h storeData freq s).2.t.length ∧
        ∀ p ∈ ((m'.withPoints N).fpEvolve ((m'.withPoints N).flEnv ar A B) nl rnd pyDiv fuel u t0 tf h storeData freq s).2.t.zip
          ((m'.withPoints N).fpEvolve ((m'.withPoints N).flEnv ar A B) nl rnd pyDiv fuel u t0 tf h storeData freq s).2.u,
          ‖p.2 - Y p.1‖ ≤ C * (‖u - Y t0‖ + h ^ 4 + (N * ρ + (1 / 2) ^ N) / h) := by
  obtain ⟨C, η, R, N0, hη, h1⟩ := m.evolve_of hm hf ht hY
  refine ⟨C, η, R, N0, hη, fun m' N ar A B nl rnd ρ h u hN hρ hn => ?_⟩
  have z1 : ‖(0 : Vec ι)‖ ≤ ρ := by simpa using hρ
  have z2 : ‖(0 : Mat ι)‖ ≤ ρ := by simpa using hρ
  rcases hn with ⟨hL⟩ | ⟨hL⟩ | ⟨hL⟩ <;> rcases hL.cases with ⟨a, d, rfl, rfl, hd⟩ | ⟨a, d, rfl, rfl, hd⟩
  all_goals first
    | exact h1 N ar A B nl rnd ρ h u d 0 hN hρ hd z2
    | exact h1 N ar A B nl rnd ρ h u 0 d hN hρ z1 hd

theorem ASOp.Near.cases {ρ : ℝ} {L L' : ASOp ι} (h : L.Near ρ L') :
    (∃ a d, L = .diag a ∧ L' = .diag (a + d) ∧ ‖d‖ ≤ ρ) ∨ (∃ a d, L = .full a ∧ L' = .full (a + d) ∧ ‖d‖ ≤ ρ) ∨
      ∃ a d S T, ∃ hS : S * T = 1, L = .eig a S T hS ∧ L' = .eig (a + d) S T hS ∧ ‖d‖ ≤ ρ := by
  rcases h with ⟨h⟩ | ⟨h⟩ | ⟨h⟩
  · exact .inl ⟨_, _, rfl, by rw [add_sub_cancel], h⟩
  · exact .inr (.inl ⟨_, _, rfl, by rw [add_sub_cancel], h⟩)
  · exact .inr (.inr ⟨_, _, _, _, _, rfl, by rw [add_sub_cancel], h⟩)

/-- **C84.** The same for adaptive solvers. -/
theorem C84_stored (m : ASSolver ι) (hm : m.ClearContour 0) (hf : ContDiff ℝ ∞ f) (ht : t0 ≤ tf) (hY : Solves m.op.mat f t0 tf Y) :
    ∃ (C η R : ℝ) (N0 : ℕ), 0 < η ∧ ∀ (m' : ASSolver ι) (N : ℕ) (ar : Arith ι) (A : CArith) (B : LinAlg ι) (fac : SolverConfig ℝ → Vec ι → Vec ι → Ext ℝ) (nl : NlFunc ι)
      (rnd : ℝ → ℝ) (ρ : ℝ) (u : Vec ι), N0 ≤ N → 0 ≤ ρ → m.Near ρ m' → ar.Within ρ R → A.Within ρ (R * N) → B.Within ρ R → NlNear nl f ρ R →
      (∀ x, |rnd x - x| ≤ ρ * |x|) → ‖u - Y t0‖ ≤ η →
      ∀ (cfg : SolverConfig ℝ) (hInit : Option ℝ) (pyDiv : Bool) (s : (m'.withPoints N).RSt) (fuel : ℕ),
        0 < cfg.minh → (∀ h, hInit = some h → 0 < h) → ∀ H, N * ρ + (1 / 2) ^ N ≤ η * H → 0 < H → H < η →
        ((m'.withPoints N).fpEvolve ((m'.withPoints N).flEnv ar A B) fac nl rnd pyDiv cfg fuel u t0 tf hInit true 1 s).2.t.IsChain
          (fun a b => b - a ≤ H) →
        ((m'.withPoints N).fpEvolve ((m'.withPoints N).flEnv ar A B) fac nl rnd pyDiv cfg fuel u t0 tf hInit true 1 s).2.t.length *
          (N * ρ + (1 / 2) ^ N) ≤ η →
        (∀ p ∈ ((m'.withPoints N).fpEvolve ((m'.withPoints N).flEnv ar A B) fac nl rnd pyDiv cfg fuel u t0 tf hInit true 1 s).2.t.zip
            ((m'.withPoints N).fpEvolve ((m'.withPoints N).flEnv ar A B) fac nl rnd pyDiv cfg fuel u t0 tf hInit true 1 s).2.u,
          ‖p.2 - Y p.1‖ ≤ C * (‖u - Y t0‖ + H ^ m.orderOf +
            ((m'.withPoints N).fpEvolve ((m'.withPoints N).flEnv ar A B) fac nl rnd pyDiv cfg fuel u t0 tf hInit true 1 s).2.t.length *
              (N * ρ + (1 / 2) ^ N))) ∧
        ∀ v, ((m'.withPoints N).fpEvolve ((m'.withPoints N).flEnv ar A B) fac nl rnd pyDiv cfg fuel u t0 tf hInit true 1 s).1 = .ok (some v) →
          tf ≤ ((m'.withPoints N).fpEvolve ((m'.withPoints N).flEnv ar A B) fac nl rnd pyDiv cfg fuel u t0 tf hInit true 1 s).2.tc ∧
          ‖v - Y ((m'.withPoints N).fpEvolve ((m'.withPoints N).flEnv ar A B) fac nl rnd pyDiv cfg fuel u t0 tf hInit true 1 s).2.tc‖ ≤
            C * (‖u - Y t0‖ + H ^ m.orderOf +
              ((m'.withPoints N).fpEvolve ((m'.withPoints N).flEnv ar A B) fac nl rnd pyDiv cfg fuel u t0 tf hInit true 1 s).2.t.length *
                (N * ρ + (1 / 2) ^ N)) := by
  obtain ⟨C, η, R, N0, hη, h1⟩ := m.stored_of hm hf ht hY
  refine ⟨C, η, R, N0, hη, fun m' N ar A B fac nl rnd ρ u hN hρ hn => ?_⟩
  have z1 : ‖(0 : Vec ι)‖ ≤ ρ := by simpa using hρ
  have z2 : ‖(0 : Mat ι)‖ ≤ ρ := by simpa using hρ
  rcases hn with ⟨hL⟩ | ⟨hL⟩ | ⟨hL⟩ | @⟨L, L', hL⟩
  rotate_right
  · obtain ⟨d, rfl⟩ : ∃ d, L' = L + d := ⟨L' - L, by rw [add_sub_cancel]⟩
    exact h1 N ar A B fac nl rnd ρ u d 0 hN hρ (by simpa using hL) z2
  all_goals rcases hL.cases with ⟨a, d, rfl, rfl, hd⟩ | ⟨a, d, rfl, rfl, hd⟩ | ⟨a, d, S, T, hS, rfl, rfl, hd⟩
  all_goals first
    | exact h1 N ar A B fac nl rnd ρ u d 0 hN hρ hd z2
    | exact h1 N ar A B fac nl rnd ρ u 0 d hN hρ z1 hd

end Verif
