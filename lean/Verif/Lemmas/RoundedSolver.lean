import Verif.Lemmas.RoundedCoefs

/-!
# One step of a solver with inexact arithmetic
-/

set_option linter.unusedSectionVars false

namespace Verif

open Matrix
open scoped Matrix.Norms.Operator

variable {ι Coef : Type} [Fintype ι] [DecidableEq ι]

/-- For arguments and coefficients bounded by `B`, a computed step differs from the exact one by at most `B' ε`. -/
def RCSProg.NearFor (P : RCSProg Coef ι) (f : Vec ι → Vec ι) (B B' : ℝ) : Prop :=
  ∀ (F : FPEnv Coef ι) (ε : ℝ) (nl : NlFunc ι) (c c' : Coef) (h : ℝ) (w : Vec ι), 0 ≤ ε → ε ≤ 1 →
    F.ar.Within ε B' → NlNear nl f ε B' → 0 ≤ h → h ≤ 1 → F.coefs h = .ok c' → CoefBdd P.stages B c →
    CoefNear P.stages ε c c' → ‖w‖ ≤ B →
    ∃ v v', P.oneStep ⟨Arith.exact, fun _ => .ok c⟩ (fun v => .ok (f v)) h w = .ok v ∧ P.oneStep F nl h w = .ok v' ∧
      ‖v' - v‖ ≤ B' * ε

/-- The same for trials. -/
def RASProg.NearFor (P : RASProg Coef ι) (f : Vec ι → Vec ι) (B B' : ℝ) : Prop :=
  ∀ (F : FPEnv Coef ι) (ε : ℝ) (nl : NlFunc ι) (c c' : Coef) (h : ℝ) (w : Vec ι), 0 ≤ ε → ε ≤ 1 →
    F.ar.Within ε B' → NlNear nl f ε B' → 0 ≤ h → h ≤ 1 → F.coefs h = .ok c' → CoefBdd P.stages B c →
    CoefNear P.stages ε c c' → ‖w‖ ≤ B →
    ∃ v v', P.oneTrial ⟨Arith.exact, fun _ => .ok c⟩ (fun v => .ok (f v)) h w = .ok v ∧ P.oneTrial F nl h w = .ok v' ∧
      ‖v'.1 - v.1‖ ≤ B' * ε ∧ ‖v'.2 - v.2‖ ≤ B' * ε

namespace CSSolver

theorem nearFor (m : CSSolver ι) {f : Vec ι → Vec ι} (hf : LipOnBalls f) {B : ℝ} (hB : 1 ≤ B) :
    ∃ B', B ≤ B' ∧ ∀ N, (m.withPoints N).rprog.NearFor f B B' := by
  obtain ⟨B', h1, h2⟩ := m.rprog.oneStep_near hf m.rprog_divOk hB
  refine ⟨B', h1, fun N => ?_⟩
  rcases m with (L | L) | ⟨cfg, L | L⟩ | ⟨cfg, L | L⟩ <;> exact h2

/-- The coefficients are bounded for small steps, whatever the number of contour points. -/
theorem coef_bdd (m : CSSolver ι) (hm : m.GoodContour) : ∃ η : ℝ, 0 < η ∧ η ≤ 1 ∧ ∃ B : ℝ, 1 ≤ B ∧ ∀ t ∈ smallSteps η,
    (m.withPoints t.1).CoefOk t.2 ∧ CoefBdd (m.withPoints t.1).rprog.stages B ((m.withPoints t.1).coefsAt t.2) := by
  have hlaw : ∃ η : ℝ, 0 < η ∧ η ≤ 1 ∧ ∃ B : ℝ, 1 ≤ B ∧ ∀ t ∈ smallSteps η,
      CoefBdd (m.withPoints t.1).rprog.stages B (((m.withPoints t.1).law fun _ => .ok 0).coefs t.2) := by
    rcases m with (L | L) | ⟨cfg, L | L⟩ | ⟨cfg, L | L⟩
    exacts [⟨1, one_pos, le_rfl, IF4.bddDiagonal L⟩, ⟨1, one_pos, le_rfl, IF4.bddNonDiagonal L⟩, ETD4.bddDiagonal cfg L hm,
      ETD4.bddNonDiagonal cfg L hm, ETD5.bddDiagonal cfg L hm, ETD5.bddNonDiagonal cfg L hm]
  obtain ⟨η, h0, h1, B, hB, h2⟩ := hlaw
  obtain ⟨_, η', _, h0', _, h3⟩ := m.method_close hm
  refine ⟨min η η', lt_min h0 h0', (min_le_left _ _).trans h1, B, hB, fun t ht => ?_⟩
  have hc := (h3 t.1 t.2 ht.1 ht.2.1 (ht.2.2.trans (min_le_right _ _))).1
  refine ⟨hc, ?_⟩
  rw [coefsAt_eq _ (fun _ => .ok 0) hc]
  exact h2 t ⟨ht.1, ht.2.1, ht.2.2.trans (min_le_left _ _)⟩

/-- One step: the computed step differs from the exact one by `O(ε)`. -/
theorem step_near (m : CSSolver ι) (hm : m.GoodContour) {f : Vec ι → Vec ι} (hf : LipOnBalls f) (r : ℝ) {H : ℝ} (hH : 0 < H) :
    ∃ C η R : ℝ, 0 ≤ C ∧ 0 < η ∧ η ≤ 1 ∧ ∀ (N : ℕ) (F : FPEnv (m.withPoints N).Coef ι) (nl : NlFunc ι) (ε h : ℝ) (w : Vec ι), 0 < N →
      0 ≤ ε → ε ≤ 1 → (m.withPoints N).Accurate F nl f ε R H → 0 < h → h ≤ η → ‖w‖ ≤ r →
      (m.withPoints N).CoefOk h ∧ ∃ v v', (m.withPoints N).oneStep (fun v => .ok (f v)) h w = .ok v ∧
        (m.withPoints N).rprog.oneStep F nl h w = .ok v' ∧ ‖v' - v‖ ≤ C * ε := by
  obtain ⟨η, h0, h1, B, hB, hb⟩ := m.coef_bdd hm
  obtain ⟨B', hB', hn⟩ := m.nearFor hf (B := max B r) (hB.trans (le_max_left _ _))
  have hB1 : 1 ≤ B' := hB.trans ((le_max_left _ _).trans hB')
  refine ⟨B', min η H, B', by linarith, lt_min h0 hH, (min_le_left _ _).trans h1, fun N F nl ε h w hN hε hε1 hA hh hhη hw => ?_⟩
  have hh1 : h ≤ η := hhη.trans (min_le_left _ _)
  obtain ⟨hc, hcb⟩ := hb (N, h) ⟨hN, hh.le, hh1⟩
  refine ⟨hc, ?_⟩
  obtain ⟨c', hc', hcn⟩ := hA.coefs h hh (hhη.trans (min_le_right _ _)) hc
  obtain ⟨v, v', h2, h3, h4⟩ := hn N F ε nl ((m.withPoints N).coefsAt h) c' h w hε hε1 hA.ar hA.nl hh.le (by linarith) hc'
    (fun i hi => ⟨fun p hp => ((hcb i hi).1 p hp).trans (le_max_left _ _), fun p hp => ((hcb i hi).2 p hp).trans (le_max_left _ _)⟩)
    hcn (hw.trans (le_max_right _ _))
  rw [exact_step _ _ rfl hc rfl] at h2
  refine ⟨v, v', ?_, h3, h4⟩
  unfold oneStep
  rw [if_pos hc, h2]

end CSSolver

namespace ASSolver

theorem nearFor (m : ASSolver ι) {f : Vec ι → Vec ι} (hf : LipOnBalls f) {B : ℝ} (hB : 1 ≤ B) :
    ∃ B', B ≤ B' ∧ ∀ N, (m.withPoints N).rprog.NearFor f B B' := by
  obtain ⟨B', h1, h2⟩ := m.rprog.oneTrial_near hf m.rprog_init_divOk m.rprog_init_coefs m.rprog_divOk hB
  refine ⟨B', h1, fun N => ?_⟩
  rcases m with (L | L | ⟨l, S, T, hS⟩) | ⟨cfg, L | L | ⟨l, S, T, hS⟩⟩ | ⟨cfg, L | L | ⟨l, S, T, hS⟩⟩ | L <;> exact h2

/-- The coefficients are bounded for small steps, whatever the number of contour points. -/
theorem coef_bdd (m : ASSolver ι) (hm : m.GoodContour) : ∃ η : ℝ, 0 < η ∧ η ≤ 1 ∧ ∃ B : ℝ, 1 ≤ B ∧ ∀ t ∈ smallSteps η,
    (m.withPoints t.1).CoefOk t.2 ∧ CoefBdd (m.withPoints t.1).rprog.stages B ((m.withPoints t.1).coefsAt t.2) := by
  have hlaw : ∃ η : ℝ, 0 < η ∧ η ≤ 1 ∧ ∃ B : ℝ, 1 ≤ B ∧ ∀ t ∈ smallSteps η,
      CoefBdd (m.withPoints t.1).rprog.stages B (((m.withPoints t.1).aslaw fun _ => .ok 0).coefs t.2) := by
    rcases m with (L | L | ⟨l, S, T, hS⟩) | ⟨cfg, L | L | ⟨l, S, T, hS⟩⟩ | ⟨cfg, L | L | ⟨l, S, T, hS⟩⟩ | L
    exacts [⟨1, one_pos, le_rfl, IF34.bddDiagonal L⟩, ⟨1, one_pos, le_rfl, IF34.bddNonDiagonal L⟩,
      ⟨1, one_pos, le_rfl, IF34.bddDiagonalized l S T⟩, ETD34.bddDiagonal cfg L hm, ETD34.bddNonDiagonal cfg L hm,
      ETD34.bddDiagonalized cfg l S T hm, ETD35.bddDiagonal cfg L hm, ETD35.bddNonDiagonal cfg L hm,
      ETD35.bddDiagonalized cfg l S T hm, ⟨1, one_pos, le_rfl, IF45DP.bdd L⟩]
  obtain ⟨η, h0, h1, B, hB, h2⟩ := hlaw
  obtain ⟨_, η', _, h0', _, h3⟩ := m.method_close hm
  refine ⟨min η η', lt_min h0 h0', (min_le_left _ _).trans h1, B, hB, fun t ht => ?_⟩
  have hc := (h3 t.1 t.2 ht.1 ht.2.1 (ht.2.2.trans (min_le_right _ _))).1
  refine ⟨hc, ?_⟩
  rw [coefsAt_eq _ (fun _ => .ok 0) hc]
  exact h2 t ⟨ht.1, ht.2.1, ht.2.2.trans (min_le_left _ _)⟩

/-- One trial: the computed solution and error estimate differ from the exact ones by `O(ε)`. -/
theorem trial_near (m : ASSolver ι) (hm : m.GoodContour) {f : Vec ι → Vec ι} (hf : LipOnBalls f) (r : ℝ) {H : ℝ} (hH : 0 < H) :
    ∃ C η R : ℝ, 0 ≤ C ∧ 0 < η ∧ η ≤ 1 ∧ ∀ (N : ℕ) (F : FPEnv (m.withPoints N).Coef ι) (nl : NlFunc ι) (ε h : ℝ) (w : Vec ι), 0 < N →
      0 ≤ ε → ε ≤ 1 → (m.withPoints N).Accurate F nl f ε R H → 0 < h → h ≤ η → ‖w‖ ≤ r →
      (m.withPoints N).CoefOk h ∧ ∃ v v', (m.withPoints N).oneTrial (fun v => .ok (f v)) h w = .ok v ∧
        (m.withPoints N).rprog.oneTrial F nl h w = .ok v' ∧ ‖v'.1 - v.1‖ ≤ C * ε ∧ ‖v'.2 - v.2‖ ≤ C * ε := by
  obtain ⟨η, h0, h1, B, hB, hb⟩ := m.coef_bdd hm
  obtain ⟨B', hB', hn⟩ := m.nearFor hf (B := max B r) (hB.trans (le_max_left _ _))
  have hB1 : 1 ≤ B' := hB.trans ((le_max_left _ _).trans hB')
  refine ⟨B', min η H, B', by linarith, lt_min h0 hH, (min_le_left _ _).trans h1, fun N F nl ε h w hN hε hε1 hA hh hhη hw => ?_⟩
  have hh1 : h ≤ η := hhη.trans (min_le_left _ _)
  obtain ⟨hc, hcb⟩ := hb (N, h) ⟨hN, hh.le, hh1⟩
  refine ⟨hc, ?_⟩
  obtain ⟨c', hc', hcn⟩ := hA.coefs h hh (hhη.trans (min_le_right _ _)) hc
  obtain ⟨v, v', h2, h3, h4⟩ := hn N F ε nl ((m.withPoints N).coefsAt h) c' h w hε hε1 hA.ar hA.nl hh.le (by linarith) hc'
    (fun i hi => ⟨fun p hp => ((hcb i hi).1 p hp).trans (le_max_left _ _), fun p hp => ((hcb i hi).2 p hp).trans (le_max_left _ _)⟩)
    hcn (hw.trans (le_max_right _ _))
  rw [exact_trial _ _ rfl hc rfl] at h2
  exact ⟨v, v', h2, h3, h4⟩

end ASSolver

end Verif
