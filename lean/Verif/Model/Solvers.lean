import Verif.Model.IF4
import Verif.Model.ETD4
import Verif.Model.ETD5
import Verif.Model.IF34
import Verif.Model.ETD34
import Verif.Model.ETD35
import Verif.Model.IF45DP

/-!
# The seven public solvers with all their strategies

A solver object is determined by its class, its linear operator (already validated: 1D, or square 2D) and its ETD
configuration.  The construction itself (shape checks, choice of strategy) is modelled in `Verif.Model.Construct`.
-/

set_option linter.unusedSectionVars false

namespace Verif

open Matrix

/-- A validated linear operator, rkstiff/solver.py:128-135: a 1D array is a diagonal, a square 2D array a matrix. -/
inductive LinOp (ι : Type) where
  | diag (L : Vec ι)
  | full (L : Mat ι)

/-- The linear operator of an adaptive solver together with the strategy made from it.  `eig lam S Sinv` is a matrix
with `diagonalize=True`: the output `lam, S` of `np.linalg.eig` and `Sinv = np.linalg.inv(S)`, e.g.
rkstiff/if34.py:164-165.  The contract of `inv` is part of the data. -/
inductive ASOp (ι : Type) [Fintype ι] [DecidableEq ι] where
  | diag (L : Vec ι)
  | full (L : Mat ι)
  | eig (lam : Vec ι) (S Sinv : Mat ι) (hS : S * Sinv = 1)

/-- A constant-step solver: rkstiff/if4.py:240-254, rkstiff/etd4.py:345-372, rkstiff/etd5.py:535-577. -/
inductive CSSolver (ι : Type) where
  | if4 (L : LinOp ι)
  | etd4 (cfg : ETDConfig ℝ) (L : LinOp ι)
  | etd5 (cfg : ETDConfig ℝ) (L : LinOp ι)

/-- An adaptive solver: rkstiff/if34.py:289-306, rkstiff/etd34.py:508-555, rkstiff/etd35.py:784-830,
rkstiff/if45dp.py:47-103.
IF45DP accepts only 1D operators. -/
inductive ASSolver (ι : Type) [Fintype ι] [DecidableEq ι] where
  | if34 (L : ASOp ι)
  | etd34 (cfg : ETDConfig ℝ) (L : ASOp ι)
  | etd35 (cfg : ETDConfig ℝ) (L : ASOp ι)
  | if45dp (L : Vec ι)

variable {ι : Type} [Fintype ι] [DecidableEq ι]

namespace CSSolver

/-- Coefficient arrays of the strategy object. -/
def Coef : CSSolver ι → Type
  | if4 (.diag _) => IFCoef (Vec ι)
  | if4 (.full _) => IFCoef (Mat ι)
  | etd4 _ (.diag _) => Etd4Coef (Vec ι)
  | etd4 _ (.full _) => Etd4Coef (Mat ι)
  | etd5 _ (.diag _) => Etd5Coef (Vec ι)
  | etd5 _ (.full _) => Etd5Coef (Mat ι)

/-- Attributes of the solver object. -/
abbrev Sub (m : CSSolver ι) : Type := Wrap (CSMethod m.Coef ι)

/-- The strategy object, chosen at rkstiff/if4.py:248-252, rkstiff/etd4.py:368-371, rkstiff/etd5.py:572-575. -/
noncomputable def strategy : (m : CSSolver ι) → NlFunc ι → CSStrategy m.Coef ι
  | if4 (.diag L), nl => IF4.diagonal L nl
  | if4 (.full L), nl => IF4.nonDiagonal L nl
  | etd4 cfg (.diag L), nl => ETD4.diagonal cfg L nl
  | etd4 cfg (.full L), nl => ETD4.nonDiagonal cfg L nl
  | etd5 cfg (.diag L), nl => ETD5.diagonal cfg L nl
  | etd5 cfg (.full L), nl => ETD5.nonDiagonal cfg L nl

/-- The methods of the solver's class. -/
noncomputable def cls : (m : CSSolver ι) → NlFunc ι → CSClass ℝ (Vec ι) m.Sub
  | if4 (.diag L), nl => IF4.cls (IF4.diagonal L nl)
  | if4 (.full L), nl => IF4.cls (IF4.nonDiagonal L nl)
  | etd4 cfg (.diag L), nl => ETD4.cls (ETD4.diagonal cfg L nl)
  | etd4 cfg (.full L), nl => ETD4.cls (ETD4.nonDiagonal cfg L nl)
  | etd5 cfg (.diag L), nl => ETD5.cls (ETD5.diagonal cfg L nl)
  | etd5 cfg (.full L), nl => ETD5.cls (ETD5.nonDiagonal cfg L nl)

/-- Attributes after construction. -/
noncomputable def init : (m : CSSolver ι) → m.Sub
  | if4 (.diag _) => IF4.init
  | if4 (.full _) => IF4.init
  | etd4 _ (.diag _) => ETD4.init
  | etd4 _ (.full _) => ETD4.init
  | etd5 _ (.diag _) => ETD5.init
  | etd5 _ (.full _) => ETD5.init

/-- State of a solver object. -/
abbrev State (m : CSSolver ι) : Type := CSState ℝ (Vec ι) m.Sub

/-- A newly constructed solver object. -/
noncomputable def new (m : CSSolver ι) : m.State := CSClass.fresh m.init

/-- `solver.step(u, h)` -/
noncomputable def step (m : CSSolver ι) (nl : NlFunc ι) (u : Vec ι) (h : ℝ) : PyM m.State (Vec ι) := (m.cls nl).step u h

/-- `solver.reset()` -/
noncomputable def reset (m : CSSolver ι) (nl : NlFunc ι) : PyM m.State Unit := (m.cls nl).resetM

/-- `solver.evolve(u, t0, tf, h, store_data, store_freq)`; exact time when `rnd = id`. -/
noncomputable def evolve (m : CSSolver ι) (nl : NlFunc ι) (rnd : ℝ → ℝ) (pyDiv : Bool) (fuel : ℕ) (u : Vec ι)
    (t0 tf h : ℝ) (storeData : Bool) (freq : ℤ) : PyM m.State (Option (Vec ι)) :=
  (m.cls nl).evolve rnd pyDiv fuel u t0 tf h storeData freq

/-- Ghost: number of calls of `nl_func` made so far by this object. -/
def evals {m : CSSolver ι} (s : m.State) : ℕ := s.sub.method.evals

end CSSolver

namespace ASSolver

/-- Coefficient arrays of the strategy object. -/
def Coef : ASSolver ι → Type
  | if34 (.diag _) => IFCoef (Vec ι)
  | if34 (.full _) => IFCoef (Mat ι)
  | if34 (.eig _ _ _ _) => IFCoef (Vec ι)
  | etd34 _ (.diag _) => Etd34Coef (Vec ι)
  | etd34 _ (.full _) => Etd34Coef (Mat ι)
  | etd34 _ (.eig _ _ _ _) => Etd34Coef (Vec ι)
  | etd35 _ (.diag _) => Etd35Coef (Vec ι)
  | etd35 _ (.full _) => Etd35Coef (Mat ι)
  | etd35 _ (.eig _ _ _ _) => Etd35Coef (Vec ι)
  | if45dp _ => If45dpCoef ι

/-- Attributes of the solver object. -/
abbrev Sub (m : ASSolver ι) : Type := Wrap (ASMethod m.Coef ι)

/-- The methods of the solver's class, with the strategy chosen at rkstiff/if34.py:299-303 (rkstiff/etd34.py:547-553,
rkstiff/etd35.py:822-828). -/
noncomputable def cls : (m : ASSolver ι) → NlFunc ι → ASClass ℝ (Vec ι) m.Sub
  | if34 (.diag L), nl => IF34.cls (IF34.diagonal L nl)
  | if34 (.full L), nl => IF34.cls (IF34.nonDiagonal L nl)
  | if34 (.eig lam S Sinv _), nl => IF34.cls (IF34.diagonalized lam S Sinv nl)
  | etd34 cfg (.diag L), nl => ETD34.cls (ETD34.diagonal cfg L nl)
  | etd34 cfg (.full L), nl => ETD34.cls (ETD34.nonDiagonal cfg L nl)
  | etd34 cfg (.eig lam S Sinv _), nl => ETD34.cls (ETD34.diagonalized cfg lam S Sinv nl)
  | etd35 cfg (.diag L), nl => ETD35.cls (ETD35.diagonal cfg L nl)
  | etd35 cfg (.full L), nl => ETD35.cls (ETD35.nonDiagonal cfg L nl)
  | etd35 cfg (.eig lam S Sinv _), nl => ETD35.cls (ETD35.diagonalized cfg lam S Sinv nl)
  | if45dp L, nl => IF45DP.cls L nl

/-- Attributes after construction. -/
noncomputable def init : (m : ASSolver ι) → m.Sub
  | if34 (.diag _) => IF34.init
  | if34 (.full _) => IF34.init
  | if34 (.eig _ _ _ _) => IF34.init
  | etd34 _ (.diag _) => ETD34.init
  | etd34 _ (.full _) => ETD34.init
  | etd34 _ (.eig _ _ _ _) => ETD34.init
  | etd35 _ (.diag _) => ETD35.init
  | etd35 _ (.full _) => ETD35.init
  | etd35 _ (.eig _ _ _ _) => ETD35.init
  | if45dp _ => IF45DP.init

/-- State of a solver object. -/
abbrev State (m : ASSolver ι) : Type := ASState ℝ (Vec ι) m.Sub

/-- A newly constructed solver object. -/
noncomputable def new (m : ASSolver ι) : m.State := ASClass.fresh m.init

/-- `solver.step(u, h)` -/
noncomputable def step (m : ASSolver ι) (nl : NlFunc ι) (rnd : ℝ → ℝ) (cfg : SolverConfig ℝ) (u : Vec ι) (h : ℝ) :
    PyM m.State (Vec ι × ℝ × ℝ) := (m.cls nl).step rnd cfg u h

/-- `solver.reset()` -/
noncomputable def reset (m : ASSolver ι) (nl : NlFunc ι) : PyM m.State Unit := (m.cls nl).resetM

/-- `solver.evolve(u, t0, tf, h_init, store_data, store_freq)`; exact arithmetic when `rnd = id`. -/
noncomputable def evolve (m : ASSolver ι) (nl : NlFunc ι) (rnd : ℝ → ℝ) (pyDiv : Bool) (cfg : SolverConfig ℝ)
    (fuel : ℕ) (u : Vec ι) (t0 tf : ℝ) (hInit : Option ℝ) (storeData : Bool) (freq : ℤ) :
    PyM m.State (Option (Vec ι)) := (m.cls nl).evolve rnd pyDiv cfg fuel u t0 tf hInit storeData freq

/-- One trial `solver._update_stages(u, h)` of a solver object: trial solution and error estimate. -/
noncomputable def trial (m : ASSolver ι) (nl : NlFunc ι) (u : Vec ι) (h : ℝ) : PyM m.State (Vec ι × Vec ι) :=
  (m.cls nl).trial u h

/-- `solver._compute_s(u, err)` with the `q` of the class. -/
noncomputable def factor (m : ASSolver ι) (nl : NlFunc ι) (cfg : SolverConfig ℝ) (r : Vec ι × Vec ι) : Ext ℝ :=
  (m.cls nl).computeS cfg r.1 r.2

/-- Ghost: number of calls of `nl_func` made so far by this object. -/
def evals {m : ASSolver ι} (s : m.State) : ℕ := s.sub.method.evals

end ASSolver

end Verif
