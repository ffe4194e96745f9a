import Verif.Model.Solvers
import Verif.Spec.Methods
import Verif.Spec.Phi

/-!
# Which method each solver should implement (specification)

`method m h` is the exponential Runge–Kutta method of solver `m` for step size `h`.  Only the names and the arguments
of the solvers are used here, nothing of their model.
-/

set_option linter.unusedSectionVars false

namespace Verif

open Matrix

variable {ι : Type} [Fintype ι] [DecidableEq ι]

/-- The matrix of a linear operator. -/
def LinOp.mat : LinOp ι → Mat ι
  | diag L => Matrix.diagonal L
  | full L => L

/-- The documented approximation of `φ_k(c h L)`. -/
noncomputable def LinOp.phi (cfg : ETDConfig ℝ) (h : ℝ) : LinOp ι → ℕ → ℝ → Mat ι
  | diag L => phiDiag cfg.modecutoff cfg.contour_radius cfg.contour_points.toNat L h
  | full L => phiFull cfg.contour_radius cfg.contour_points.toNat L h

/-- The inversions needed for `φ_k(c h L)`, `c ∈ cs`, are possible. -/
def LinOp.CoefOk (cfg : ETDConfig ℝ) (cs : List ℝ) (h : ℝ) : LinOp ι → Prop
  | diag _ => True
  | full L => ContourOk cfg.contour_radius cfg.contour_points.toNat L cs h

namespace CSSolver

/-- The linear operator of the solver. -/
def op : CSSolver ι → LinOp ι
  | if4 L => L
  | etd4 _ L => L
  | etd5 _ L => L

/-- The method of the solver. -/
noncomputable def method : CSSolver ι → ℝ → ERK ι
  | if4 L => lawson rk4 L.mat
  | etd4 cfg L => fun h => krogstad (L.phi cfg h) L.mat h
  | etd5 cfg L => fun h => etd5Method true (L.phi cfg h) L.mat h

/-- The coefficients of the method can be computed for step size `h`. -/
def CoefOk : CSSolver ι → ℝ → Prop
  | if4 _ => fun _ => True
  | etd4 cfg L => fun h => L.CoefOk cfg [1 / 2, 1] h
  | etd5 cfg L => fun h => L.CoefOk cfg [1 / 4, 1 / 2, 3 / 4, 1] h

/-- The one-step map: `LinAlgError` if the coefficients cannot be computed, otherwise the method's step (whose outcome
is the first exception of `nl`). -/
noncomputable def oneStep (m : CSSolver ι) (nl : NlFunc ι) (h : ℝ) (u : Vec ι) : Except PyErr (Vec ι) :=
  open Classical in if m.CoefOk h then ((m.method h).step nl u).map Prod.fst else .error .linAlgError

/-- Calls of `nl_func` per step (and one more for the first step after construction or reset). -/
def cost : CSSolver ι → ℕ
  | if4 _ => 4
  | etd4 _ _ => 4
  | etd5 _ _ => 6

end CSSolver

namespace ASOp

/-- The operator in the coordinates in which the solver works. -/
def inner : ASOp ι → LinOp ι
  | diag L => .diag L
  | full L => .full L
  | eig lam _ _ _ => .diag lam

/-- From the working coordinates to the user's. -/
def emb : ASOp ι → Vec ι → Vec ι
  | diag _ => id
  | full _ => id
  | eig _ S _ _ => fun w => S *ᵥ w

/-- From the user's coordinates to the working ones. -/
def prj : ASOp ι → Vec ι → Vec ι
  | diag _ => id
  | full _ => id
  | eig _ _ Sinv _ => fun w => Sinv *ᵥ w

/-- The matrix of the linear operator in the user's coordinates. -/
def mat : ASOp ι → Mat ι
  | diag L => Matrix.diagonal L
  | full L => L
  | eig lam S Sinv _ => S * Matrix.diagonal lam * Sinv

/-- The approximation of `φ_k(c h L)`, in the user's coordinates. -/
noncomputable def phi (cfg : ETDConfig ℝ) (h : ℝ) (L : ASOp ι) (k : ℕ) (c : ℝ) : Mat ι :=
  match L with
  | eig lam S Sinv _ => S * phiDiag cfg.modecutoff cfg.contour_radius cfg.contour_points.toNat lam h k c * Sinv
  | L => L.inner.phi cfg h k c

end ASOp

/-- The operator of a constant-step solver given to an adaptive one (without diagonalization). -/
def LinOp.adaptive : LinOp ι → ASOp ι
  | diag L => .diag L
  | full L => .full L

namespace ASSolver

/-- The linear operator of the solver. -/
def op : ASSolver ι → ASOp ι
  | if34 L => L
  | etd34 _ L => L
  | etd35 _ L => L
  | if45dp L => .diag L

/-- The method of the solver, in its working coordinates.  (For IF45DP the error weight that the code uses.) -/
noncomputable def method : ASSolver ι → ℝ → ERK ι
  | if34 L => lawson rk4 L.inner.mat
  | etd34 cfg L => fun h => krogstad (L.inner.phi cfg h) L.inner.mat h
  | etd35 cfg L => fun h => etd5Method false (L.inner.phi cfg h) L.inner.mat h
  | if45dp L => lawson (dpWith (17 / 1920)) (Matrix.diagonal L)

/-- The coefficients of the method can be computed for step size `h`. -/
def CoefOk : ASSolver ι → ℝ → Prop
  | if34 _ => fun _ => True
  | etd34 cfg L => fun h => L.inner.CoefOk cfg [1 / 2, 1] h
  | etd35 cfg L => fun h => L.inner.CoefOk cfg [1 / 4, 1 / 2, 3 / 4, 1] h
  | if45dp _ => fun _ => True

/-- One trial: the method applied to the problem in working coordinates; the solution is transformed back, the error
estimate is not. -/
noncomputable def oneTrial (m : ASSolver ι) (nl : NlFunc ι) (h : ℝ) (u : Vec ι) : Except PyErr (Vec ι × Vec ι) :=
  open Classical in
  if m.CoefOk h then
    ((m.method h).step (fun w => (nl (m.op.emb w)).map m.op.prj) (m.op.prj u)).map fun r => (m.op.emb r.1, r.2)
  else .error .linAlgError

/-- Calls of `nl_func` per trial (and one more for the first trial after construction or reset). -/
def cost : ASSolver ι → ℕ
  | if34 _ => 4
  | etd34 _ _ => 4
  | etd35 _ _ => 5
  | if45dp _ => 6

/-- Further calls of `nl_func` in the first trial after an accepted step. -/
def refresh : ASSolver ι → ℕ
  | etd35 _ _ => 1
  | _ => 0

end ASSolver

end Verif
