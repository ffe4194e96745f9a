import Verif.Model.Rounded
import Verif.Spec.Solvers

/-!
# What it means that arithmetic is nearly exact (specification for rounding errors)
-/

set_option linter.unusedSectionVars false

namespace Verif

open Matrix
open scoped Matrix.Norms.Operator

variable {ι Coef : Type} [Fintype ι] [DecidableEq ι]

/-- Operations on arrays whose entries are at most `R` are exact up to `ε`, relative to the size of the operands. -/
structure Arith.Within (ar : Arith ι) (ε R : ℝ) : Prop where
  add : ∀ v w, ‖v‖ ≤ R → ‖w‖ ≤ R → ‖ar.add v w - (v + w)‖ ≤ ε * (1 + ‖v‖ + ‖w‖)
  sub : ∀ v w, ‖v‖ ≤ R → ‖w‖ ≤ R → ‖ar.sub v w - (v - w)‖ ≤ ε * (1 + ‖v‖ + ‖w‖)
  mul : ∀ v w, ‖v‖ ≤ R → ‖w‖ ≤ R → ‖ar.mul v w - v * w‖ ≤ ε * (1 + ‖v‖ * ‖w‖)
  quot : ∀ v (n : ℕ), ‖v‖ ≤ R → n ≠ 0 → ‖ar.quot v n - v / bc n‖ ≤ ε * (1 + ‖v‖)
  dot : ∀ A v, ‖A‖ ≤ R → ‖v‖ ≤ R → ‖ar.dot A v - A *ᵥ v‖ ≤ ε * (1 + ‖A‖ * ‖v‖)

namespace Exp

/-- The coefficient arrays in an expression. -/
def vecs : Exp Coef ι → List (Coef → Vec ι)
  | cof p => [p]
  | var _ | size | num _ => []
  | add e f | sub e f | mul e f => e.vecs ++ f.vecs
  | neg e | over e _ | dot _ e | fix _ e => e.vecs

/-- The coefficient matrices in an expression. -/
def mats : Exp Coef ι → List (Coef → Mat ι)
  | var _ | cof _ | size | num _ => []
  | add e f | sub e f | mul e f => e.mats ++ f.mats
  | dot p e => p :: e.mats
  | neg e | over e _ | fix _ e => e.mats

end Exp

/-- The coefficient arrays in an assignment. -/
def RInstr.vecs : RInstr Coef ι → List (Coef → Vec ι)
  | set _ e => e.vecs
  | call _ _ => []

/-- The coefficient matrices in an assignment. -/
def RInstr.mats : RInstr Coef ι → List (Coef → Mat ι)
  | set _ e => e.mats
  | call _ _ => []

/-- All coefficients that are used by the assignments differ by at most `ε`. -/
def CoefNear (is : List (RInstr Coef ι)) (ε : ℝ) (c c' : Coef) : Prop :=
  ∀ i ∈ is, (∀ p ∈ i.vecs, ‖p c' - p c‖ ≤ ε) ∧ ∀ p ∈ i.mats, ‖p c' - p c‖ ≤ ε

/-- The computed nonlinear part returns on arrays with entries at most `R`, up to `ε`, the values of `f`. -/
def NlNear (nl : NlFunc ι) (f : Vec ι → Vec ι) (ε R : ℝ) : Prop := ∀ v, ‖v‖ ≤ R → ∃ w, nl v = .ok w ∧ ‖w - f v‖ ≤ ε

/-- The coefficients that an object of the exact model holds after a step of size `h`. -/
noncomputable def CSSolver.coefsAt (m : CSSolver ι) (h : ℝ) : m.Coef :=
  ((m.cls fun _ => .ok 0).updateStages 0 h m.init).2.method.coef

/-- The coefficients that an object of the exact model holds after a trial with size `h`. -/
noncomputable def ASSolver.coefsAt (m : ASSolver ι) (h : ℝ) : m.Coef :=
  ((m.cls fun _ => .ok 0).updateStages 0 h false m.init).2.method.coef

/-- An array arithmetic with the exact coefficients. -/
noncomputable def CSSolver.env (m : CSSolver ι) (ar : Arith ι) : FPEnv m.Coef ι :=
  open Classical in ⟨ar, fun h => if m.CoefOk h then .ok (m.coefsAt h) else .error .linAlgError⟩

/-- An array arithmetic with the exact coefficients. -/
noncomputable def ASSolver.env (m : ASSolver ι) (ar : Arith ι) : FPEnv m.Coef ι :=
  open Classical in ⟨ar, fun h => if m.CoefOk h then .ok (m.coefsAt h) else .error .linAlgError⟩

/-- Everything in a constant-step solver is computed up to `ε`, for arrays with entries at most `R` and step sizes in
`(0, H]`: array operations, coefficients, and the nonlinear part `f`. -/
structure CSSolver.Accurate (m : CSSolver ι) (F : FPEnv m.Coef ι) (nl : NlFunc ι) (f : Vec ι → Vec ι) (ε R H : ℝ) : Prop where
  ar : F.ar.Within ε R
  coefs : ∀ h, 0 < h → h ≤ H → m.CoefOk h → ∃ c, F.coefs h = .ok c ∧ CoefNear m.rprog.stages ε (m.coefsAt h) c
  nl : NlNear nl f ε R

/-- The same for an adaptive solver. -/
structure ASSolver.Accurate (m : ASSolver ι) (F : FPEnv m.Coef ι) (nl : NlFunc ι) (f : Vec ι → Vec ι) (ε R H : ℝ) : Prop where
  ar : F.ar.Within ε R
  coefs : ∀ h, 0 < h → h ≤ H → m.CoefOk h → ∃ c, F.coefs h = .ok c ∧ CoefNear m.rprog.stages ε (m.coefsAt h) c
  nl : NlNear nl f ε R

end Verif
