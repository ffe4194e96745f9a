import Verif.Model.Settings

/-!
# Changing what an existing solver reads: `lin_op`, `nl_func`, `etd_config`

A strategy object reads its attribute `lin_op` only while it computes coefficients (e.g. rkstiff/if4.py:81, rkstiff/etd4.py:96),
as it does the attributes of `etd_config`.  So when the contents of that array change, the object goes on, in the same state, as a
solver with another operator.  Whether it is the caller's array depends on the class and on the dtype.
-/

set_option linter.unusedSectionVars false

namespace Verif

open Matrix

variable {ι : Type} [Fintype ι] [DecidableEq ι]

/-- What a strategy object reads while it computes coefficients: the attributes of `etd_config` and the array `self.lin_op`, with one
or two dimensions. -/
structure Held (ι : Type) where
  etd : ETDConfig ℝ
  vec : Vec ι
  mat : Mat ι

namespace CSSolver

/-- What the strategy object reads; where it reads nothing, something stands in. -/
noncomputable def held : CSSolver ι → Held ι
  | if4 (.diag L) => ⟨⟨1 / 100, 32, 1⟩, L, 0⟩
  | if4 (.full L) => ⟨⟨1 / 100, 32, 1⟩, 0, L⟩
  | etd4 cfg (.diag L) => ⟨cfg, L, 0⟩
  | etd4 cfg (.full L) => ⟨cfg, 0, L⟩
  | etd5 cfg (.diag L) => ⟨cfg, L, 0⟩
  | etd5 cfg (.full L) => ⟨cfg, 0, L⟩

/-- The solver that reads other values. -/
def withHeld (x : Held ι) : CSSolver ι → CSSolver ι
  | if4 (.diag _) => if4 (.diag x.vec)
  | if4 (.full _) => if4 (.full x.mat)
  | etd4 _ (.diag _) => etd4 x.etd (.diag x.vec)
  | etd4 _ (.full _) => etd4 x.etd (.full x.mat)
  | etd5 _ (.diag _) => etd5 x.etd (.diag x.vec)
  | etd5 _ (.full _) => etd5 x.etd (.full x.mat)

/-- Attributes of the subclass: unchanged. -/
def holdSub (x : Held ι) : (m : CSSolver ι) → m.Sub → (m.withHeld x).Sub
  | if4 (.diag _) => id
  | if4 (.full _) => id
  | etd4 _ (.diag _) => id
  | etd4 _ (.full _) => id
  | etd5 _ (.diag _) => id
  | etd5 _ (.full _) => id

/-- The object: unchanged. -/
def hold (x : Held ι) (m : CSSolver ι) (s : m.State) : (m.withHeld x).State :=
  ⟨s.t, s.u, s.tf, s.tc, m.holdSub x s.sub⟩

/-- Is the array `self.lin_op` of the strategy object the one that was passed to the constructor?  IF4 takes it as it is
(rkstiff/if4.py:64, 144), ETD4 and ETD5 take `lin_op.astype(np.complex128, copy=False)` (rkstiff/etd4.py:76, 222,
rkstiff/etd5.py:89, 329), which is the same array iff its dtype is `complex128` (`c128`). -/
def sharesOp (c128 : Bool) : CSSolver ι → Bool
  | if4 _ => true
  | etd4 _ _ => c128
  | etd5 _ _ => c128

/-- What the strategy object reads after the caller has written into the array that was passed to the constructor: `vec` is its new
contents if it has one dimension, `mat` if it has two. -/
noncomputable def heldWrite (c128 : Bool) (vec : Vec ι) (mat : Mat ι) (m : CSSolver ι) : Held ι :=
  if m.sharesOp c128 then ⟨m.held.etd, vec, mat⟩ else m.held

end CSSolver

namespace ASSolver

/-- What the strategy object reads; where it reads nothing, something stands in.  The diagonalized strategies read the eigenvalues,
which are computed in the constructor (rkstiff/if34.py:164-165, rkstiff/etd34.py:244-245, rkstiff/etd35.py:419-420). -/
noncomputable def held : ASSolver ι → Held ι
  | if34 (.diag L) => ⟨⟨1 / 100, 32, 1⟩, L, 0⟩
  | if34 (.full L) => ⟨⟨1 / 100, 32, 1⟩, 0, L⟩
  | if34 (.eig _ _ _ _) => ⟨⟨1 / 100, 32, 1⟩, 0, 0⟩
  | etd34 cfg (.diag L) => ⟨cfg, L, 0⟩
  | etd34 cfg (.full L) => ⟨cfg, 0, L⟩
  | etd34 cfg (.eig _ _ _ _) => ⟨cfg, 0, 0⟩
  | etd35 cfg (.diag L) => ⟨cfg, L, 0⟩
  | etd35 cfg (.full L) => ⟨cfg, 0, L⟩
  | etd35 cfg (.eig _ _ _ _) => ⟨cfg, 0, 0⟩
  | if45dp L => ⟨⟨1 / 100, 32, 1⟩, L, 0⟩

/-- The solver that reads other values. -/
def withHeld (x : Held ι) : ASSolver ι → ASSolver ι
  | if34 (.diag _) => if34 (.diag x.vec)
  | if34 (.full _) => if34 (.full x.mat)
  | if34 (.eig l S T h) => if34 (.eig l S T h)
  | etd34 _ (.diag _) => etd34 x.etd (.diag x.vec)
  | etd34 _ (.full _) => etd34 x.etd (.full x.mat)
  | etd34 _ (.eig l S T h) => etd34 x.etd (.eig l S T h)
  | etd35 _ (.diag _) => etd35 x.etd (.diag x.vec)
  | etd35 _ (.full _) => etd35 x.etd (.full x.mat)
  | etd35 _ (.eig l S T h) => etd35 x.etd (.eig l S T h)
  | if45dp _ => if45dp x.vec

/-- Attributes of the subclass: unchanged. -/
def holdSub (x : Held ι) : (m : ASSolver ι) → m.Sub → (m.withHeld x).Sub
  | if34 (.diag _) => id
  | if34 (.full _) => id
  | if34 (.eig _ _ _ _) => id
  | etd34 _ (.diag _) => id
  | etd34 _ (.full _) => id
  | etd34 _ (.eig _ _ _ _) => id
  | etd35 _ (.diag _) => id
  | etd35 _ (.full _) => id
  | etd35 _ (.eig _ _ _ _) => id
  | if45dp _ => id

/-- The object: unchanged. -/
def hold (x : Held ι) (m : ASSolver ι) (s : m.State) : (m.withHeld x).State :=
  ⟨s.t, s.u, s.tf, s.tc, s.accept, m.holdSub x s.sub, s.trials⟩

/-- Is the array that the strategy object reads the one that was passed to the constructor?  IF34 and IF45DP take it as it is
(rkstiff/if34.py:71, 216, rkstiff/solver.py:118), ETD34 and ETD35 take `lin_op.astype(np.complex128, copy=False)` (rkstiff/etd34.py:63,
336, rkstiff/etd35.py:124, 568); the diagonalized strategies do not read it again. -/
def sharesOp (c128 : Bool) : ASSolver ι → Bool
  | if34 _ => true
  | etd34 _ _ => c128
  | etd35 _ _ => c128
  | if45dp _ => true

/-- What the strategy object reads after the caller has written into the array that was passed to the constructor: `vec` is its new
contents if it has one dimension, `mat` if it has two. -/
noncomputable def heldWrite (c128 : Bool) (vec : Vec ι) (mat : Mat ι) (m : ASSolver ι) : Held ι :=
  if m.sharesOp c128 then ⟨m.held.etd, vec, mat⟩ else m.held

/-- What is read after `solver.lin_op = a` with a one-dimensional array `a`: IF45DP has no strategy object and reads the attribute of the
solver (rkstiff/if45dp.py:204), the others read that of the strategy object, which stays as it is. -/
noncomputable def heldRebind (vec : Vec ι) : ASSolver ι → Held ι
  | if45dp L => ⟨(if45dp L).held.etd, vec, 0⟩
  | m => m.held

/-- The function that is called after `solver.nl_func = f`: IF45DP calls the attribute of the solver (rkstiff/if45dp.py:135-181), the others
that of the strategy object. -/
def nlRebind (f nl : NlFunc ι) : ASSolver ι → NlFunc ι
  | if45dp _ => f
  | _ => nl

end ASSolver

end Verif
