import Verif.Model.Solvers

/-!
# Pairs of outcomes, and the symmetries of a problem (specification)
-/

set_option linter.unusedSectionVars false

namespace Verif

open Matrix

/-- Two calls have the same kind of outcome: both return, with related values, or both raise the same exception. -/
def RelE {α β : Type} (R : α → β → Prop) : Except PyErr α → Except PyErr β → Prop
  | .ok a, .ok b => R a b
  | .error e, .error e' => e = e'
  | _, _ => False

/-- Two optional values (`none`: the computation was cut off) that correspond. -/
def RelO {α β : Type} (R : α → β → Prop) : Option α → Option β → Prop
  | some a, some b => R a b
  | none, none => True
  | _, _ => False

/-- Two outcomes of adaptive steps: solutions that correspond, the same step sizes. -/
def RelStep {K V V' : Type} (R : V → V' → Prop) (r : V × K × K) (r' : V' × K × K) : Prop := R r.1 r'.1 ∧ r.2 = r'.2

variable {ι κ : Type} [Fintype ι] [DecidableEq ι] [Fintype κ] [DecidableEq κ]

/-- The complex conjugate operator. -/
def LinOp.conj : LinOp ι → LinOp ι
  | diag L => diag (star L)
  | full L => full (L.map star)

/-- The complex conjugate operator; the eigen-decomposition is conjugated, too. -/
def ASOp.conj : ASOp ι → ASOp ι
  | diag L => diag (star L)
  | full L => full (L.map star)
  | eig lam S Sinv hS => eig (star lam) (S.map star) (Sinv.map star) (by
      have := congrArg (fun X : Mat ι => X.map (starRingEnd ℂ)) hS
      rw [Matrix.map_mul] at this
      rw [Matrix.map_one _ (map_zero _) (map_one _)] at this
      exact this)

/-- The solver for the conjugate operator. -/
def CSSolver.conj : CSSolver ι → CSSolver ι
  | if4 L => if4 L.conj
  | etd4 cfg L => etd4 cfg L.conj
  | etd5 cfg L => etd5 cfg L.conj

/-- The solver for the conjugate operator. -/
def ASSolver.conj : ASSolver ι → ASSolver ι
  | if34 L => if34 L.conj
  | etd34 cfg L => etd34 cfg L.conj
  | etd35 cfg L => etd35 cfg L.conj
  | if45dp L => if45dp (star L)

/-- The nonlinear function seen through conjugation: `w ↦ conj (nl (conj w))`, with the exceptions of `nl`. -/
def conjNl (nl : NlFunc ι) : NlFunc ι := fun w => (nl (star w)).map star

/-- All entries are real numbers. -/
def IsReal (v : Vec ι) : Prop := ∀ i, (v i).im = 0

/-- The operator with relabelled modes. -/
def LinOp.relabel (σ : κ ≃ ι) : LinOp ι → LinOp κ
  | diag L => diag (L ∘ σ)
  | full L => full (L.submatrix σ σ)

/-- The operator with relabelled modes. -/
def ASOp.relabel (σ : κ ≃ ι) : ASOp ι → ASOp κ
  | diag L => diag (L ∘ σ)
  | full L => full (L.submatrix σ σ)
  | eig lam S Sinv hS => eig (lam ∘ σ) (S.submatrix σ σ) (Sinv.submatrix σ σ) (by
      rw [Matrix.submatrix_mul_equiv, hS, Matrix.submatrix_one_equiv])

/-- The solver for the operator with relabelled modes. -/
def CSSolver.relabel (σ : κ ≃ ι) : CSSolver ι → CSSolver κ
  | if4 L => if4 (L.relabel σ)
  | etd4 cfg L => etd4 cfg (L.relabel σ)
  | etd5 cfg L => etd5 cfg (L.relabel σ)

/-- The solver for the operator with relabelled modes. -/
def ASSolver.relabel (σ : κ ≃ ι) : ASSolver ι → ASSolver κ
  | if34 L => if34 (L.relabel σ)
  | etd34 cfg L => etd34 cfg (L.relabel σ)
  | etd35 cfg L => etd35 cfg (L.relabel σ)
  | if45dp L => if45dp (L ∘ σ)

/-- The nonlinear function on relabelled arrays. -/
def relabelNl (σ : κ ≃ ι) (nl : NlFunc ι) : NlFunc κ := fun w => (nl (w ∘ σ.symm)).map fun n => n ∘ σ

/-- Solvers of the same class and configuration with diagonal operators, in which mode `i` of the first has the same
eigenvalue as mode `k` of the second. -/
inductive CSSolver.SameMode (i : ι) (k : κ) : CSSolver ι → CSSolver κ → Prop
  | if4 (L : Vec ι) (L' : Vec κ) : L i = L' k → SameMode i k (.if4 (.diag L)) (.if4 (.diag L'))
  | etd4 (cfg) (L : Vec ι) (L' : Vec κ) : L i = L' k → SameMode i k (.etd4 cfg (.diag L)) (.etd4 cfg (.diag L'))
  | etd5 (cfg) (L : Vec ι) (L' : Vec κ) : L i = L' k → SameMode i k (.etd5 cfg (.diag L)) (.etd5 cfg (.diag L'))

/-- The same for adaptive solvers. -/
inductive ASSolver.SameMode (i : ι) (k : κ) : ASSolver ι → ASSolver κ → Prop
  | if34 (L : Vec ι) (L' : Vec κ) : L i = L' k → SameMode i k (.if34 (.diag L)) (.if34 (.diag L'))
  | etd34 (cfg) (L : Vec ι) (L' : Vec κ) : L i = L' k → SameMode i k (.etd34 cfg (.diag L)) (.etd34 cfg (.diag L'))
  | etd35 (cfg) (L : Vec ι) (L' : Vec κ) : L i = L' k → SameMode i k (.etd35 cfg (.diag L)) (.etd35 cfg (.diag L'))
  | if45dp (L : Vec ι) (L' : Vec κ) : L i = L' k → SameMode i k (.if45dp L) (.if45dp L')

end Verif
