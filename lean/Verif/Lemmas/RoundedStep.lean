import Verif.Lemmas.RoundedError

/-!
# The error of one step caused by inexact arithmetic
-/

set_option linter.unusedSectionVars false

namespace Verif

open Matrix Attr
open scoped Matrix.Norms.Operator

variable {ι Coef : Type} [Fintype ι] [DecidableEq ι]

theorem near_argOnly {B ε : ℝ} (hB : 0 ≤ B) (hε : 0 ≤ ε) {w : Vec ι} (hw : ‖w‖ ≤ B) : ∀ a, Near B ε (argOnly w a) (argOnly w a) := by
  intro a
  refine ⟨?_, by rw [sub_self, norm_zero]; positivity⟩
  unfold argOnly
  by_cases ha : a = u
  · subst ha
    simpa using hw
  · rw [Function.update_of_ne ha]
    simpa using hB

theorem RCSProg.oneStep_near {f : Vec ι → Vec ι} (hf : LipOnBalls f) (P : RCSProg Coef ι) (hd : ∀ i ∈ P.stages, i.DivOk) {B : ℝ}
    (hB : 1 ≤ B) : ∃ B', B ≤ B' ∧ ∀ (F : FPEnv Coef ι) (ε : ℝ) (nl : NlFunc ι) (c c' : Coef) (h : ℝ) (w : Vec ι), 0 ≤ ε → ε ≤ 1 →
      F.ar.Within ε B' → NlNear nl f ε B' → 0 ≤ h → h ≤ 1 → F.coefs h = .ok c' → CoefBdd P.stages B c →
      CoefNear P.stages ε c c' → ‖w‖ ≤ B →
      ∃ v v', P.oneStep ⟨Arith.exact, fun _ => .ok c⟩ (fun v => .ok (f v)) h w = .ok v ∧ P.oneStep F nl h w = .ok v' ∧
        ‖v' - v‖ ≤ B' * ε := by
  obtain ⟨B', hB', hv⟩ := vals_near hf (RInstr.call NL1 u :: P.stages) (by
    intro i hi
    rcases List.mem_cons.1 hi with rfl | hi
    · trivial
    · exact hd i hi) hB
  refine ⟨B', hB', ?_⟩
  intro F ε nl c c' h w hε hε1 har hnl hh hh1 hc hcb hcn hw
  obtain ⟨y, y', hy, hy', hn⟩ := hv F.ar ε nl c c' h (argOnly w) (argOnly w) hε hε1 har hnl hh hh1 (by
    intro i hi
    rcases List.mem_cons.1 hi with rfl | hi
    · exact ⟨by simp [RInstr.vecs], by simp [RInstr.mats]⟩
    · exact hcb i hi) (by
    intro i hi
    rcases List.mem_cons.1 hi with rfl | hi
    · exact ⟨by simp [RInstr.vecs], by simp [RInstr.mats]⟩
    · exact hcn i hi) (near_argOnly (by linarith) hε hw)
  have hu : argOnly w u = w := by simp [argOnly]
  refine ⟨y k, y' k, ?_, ?_, (hn k).2⟩
  · unfold RCSProg.oneStep
    simp only [exactly, List.map_cons, RInstr.inst, vals, hu] at hy
    simp only [Except.bind, hy, Except.map]
  · unfold RCSProg.oneStep
    simp only [List.map_cons, RInstr.inst, vals, hu] at hy'
    rw [hc]
    simp only [Except.bind]
    cases hn : nl w with
    | error e => simp [hn] at hy'
    | ok n =>
      simp only [hn] at hy'
      simp only [hy', Except.map]

theorem RASProg.oneTrial_near {f : Vec ι → Vec ι} (hf : LipOnBalls f) (P : RASProg Coef ι) (hi : ∀ i ∈ P.init, i.DivOk)
    (hi0 : ∀ i ∈ P.init, i.vecs = [] ∧ i.mats = []) (hd : ∀ i ∈ P.stages, i.DivOk) {B : ℝ}
    (hB : 1 ≤ B) : ∃ B', B ≤ B' ∧ ∀ (F : FPEnv Coef ι) (ε : ℝ) (nl : NlFunc ι) (c c' : Coef) (h : ℝ) (w : Vec ι), 0 ≤ ε → ε ≤ 1 →
      F.ar.Within ε B' → NlNear nl f ε B' → 0 ≤ h → h ≤ 1 → F.coefs h = .ok c' → CoefBdd P.stages B c →
      CoefNear P.stages ε c c' → ‖w‖ ≤ B →
      ∃ v v', P.oneTrial ⟨Arith.exact, fun _ => .ok c⟩ (fun v => .ok (f v)) h w = .ok v ∧ P.oneTrial F nl h w = .ok v' ∧
        ‖v'.1 - v.1‖ ≤ B' * ε ∧ ‖v'.2 - v.2‖ ≤ B' * ε := by
  obtain ⟨B1, hB1, hv1⟩ := vals_near hf P.init hi hB
  obtain ⟨B2, hB2, hv2⟩ := vals_near hf P.stages hd (hB.trans hB1)
  refine ⟨B2, hB1.trans hB2, ?_⟩
  intro F ε nl c c' h w hε hε1 har hnl hh hh1 hc hcb hcn hw
  obtain ⟨x, x', hx, hx', hn⟩ := hv1 F.ar ε nl () () 0 (argOnly w) (argOnly w) hε hε1 (har.mono hB2) (hnl.mono hB2) le_rfl zero_le_one
    (fun i h => by rw [(hi0 i h).1, (hi0 i h).2]; simp) (fun i h => by rw [(hi0 i h).1, (hi0 i h).2]; simp)
    (near_argOnly (by linarith) hε hw)
  obtain ⟨y, y', hy, hy', hn'⟩ := hv2 F.ar ε nl c c' h x x' hε hε1 har hnl hh hh1
    (fun i h => ⟨fun p hp => ((hcb i h).1 p hp).trans hB1, fun p hp => ((hcb i h).2 p hp).trans hB1⟩) hcn hn
  refine ⟨(y P.out, y err), (y' P.out, y' err), ?_, ?_, (hn' P.out).2, (hn' err).2⟩
  · unfold RASProg.oneTrial RASProg.load
    unfold exactly at hx hy
    simp only [Except.bind, hx, hy, Except.map]
  · unfold RASProg.oneTrial RASProg.load
    rw [hc]
    simp only [Except.bind, hx', hy', Except.map]

/-- `Exp.DivOk` is decidable. -/
def Exp.decDivOk : (e : Exp Coef ι) → Decidable e.DivOk
  | .var _ | .cof _ | .size | .num _ => isTrue trivial
  | .add e f | .sub e f | .mul e f => @instDecidableAnd _ _ e.decDivOk f.decDivOk
  | .over e n => @instDecidableAnd (n ≠ 0) _ _ e.decDivOk
  | .neg e | .dot _ e | .fix _ e => e.decDivOk

instance : DecidablePred (RInstr.DivOk : RInstr Coef ι → Prop)
  | .set _ e => e.decDivOk
  | .call _ _ => isTrue trivial

theorem CSSolver.rprog_divOk (m : CSSolver ι) : ∀ i ∈ m.rprog.stages, i.DivOk := by
  rcases m with (L | L) | ⟨cfg, L | L⟩ | ⟨cfg, L | L⟩ <;> exact of_decide_eq_true rfl

theorem ASSolver.rprog_divOk (m : ASSolver ι) : ∀ i ∈ m.rprog.stages, i.DivOk := by
  rcases m with (L | L | ⟨l, S, T, hS⟩) | ⟨cfg, L | L | ⟨l, S, T, hS⟩⟩ | ⟨cfg, L | L | ⟨l, S, T, hS⟩⟩ | L <;> exact of_decide_eq_true rfl

theorem ASSolver.rprog_init_divOk (m : ASSolver ι) : ∀ i ∈ m.rprog.init, i.DivOk := by
  rcases m with (L | L | ⟨l, S, T, hS⟩) | ⟨cfg, L | L | ⟨l, S, T, hS⟩⟩ | ⟨cfg, L | L | ⟨l, S, T, hS⟩⟩ | L <;> exact of_decide_eq_true rfl

theorem ASSolver.rprog_init_coefs (m : ASSolver ι) : ∀ i ∈ m.rprog.init, i.vecs = [] ∧ i.mats = [] := by
  rcases m with (L | L | ⟨l, S, T, hS⟩) | ⟨cfg, L | L | ⟨l, S, T, hS⟩⟩ | ⟨cfg, L | L | ⟨l, S, T, hS⟩⟩ | L <;>
    simp [rprog, IF34.rProgDiagonal, IF34.rProgNonDiagonal, IF34.rProgDiagonalized, ETD34.rProgDiagonal, ETD34.rProgNonDiagonal,
      ETD34.rProgDiagonalized, ETD35.rProgDiagonal, ETD35.rProgNonDiagonal, ETD35.rProgDiagonalized, IF45DP.rProg,
      RInstr.vecs, RInstr.mats, Exp.vecs, Exp.mats]

end Verif
