import Verif.Model.Arrays

/-!
# The dtypes of arrays

Arrays with their `dtype`, for the three dtypes that the solvers are used with: `int64`, `float64`, `complex128`.  Sums, differences and
products have the larger of the dtypes of the operands, quotients by a literal at least `float64`.  What is computed with the entries is
left open: `O` is any implementation of the operations on arrays (exact, rounded, with overflow, with shapes).

Simplifications.  Step sizes and literals are `float64`: Python integers give the same dtypes here, since all array expressions of the
code contain a coefficient array.  The single-precision dtypes, for which the result depends on the NumPy version, `bool`, the other integer
dtypes and `object` are not modelled.
-/

set_option linter.unusedSectionVars false

namespace Verif

/-- A `dtype`. -/
inductive DType where
  | int64 | float64 | complex128
  deriving DecidableEq

namespace DType

/-- The dtype of a sum of two arrays (`np.result_type`). -/
def promote : DType → DType → DType
  | complex128, _ => complex128
  | _, complex128 => complex128
  | float64, _ => float64
  | _, float64 => float64
  | int64, int64 => int64

end DType

/-- An array with its `dtype`. -/
structure TArr (A : Type) where
  ty : DType
  val : A

variable {ι A : Type}

/-- The operations on arrays with dtypes; `cv` is the dtype of one-dimensional coefficient arrays, `cm` that of matrices. -/
def ArrOps.typed (O : ArrOps ι A) (cv cm : DType) : ArrOps ι (TArr A) where
  add x y := (O.add x.val y.val).map (TArr.mk (x.ty.promote y.ty))
  sub x y := (O.sub x.val y.val).map (TArr.mk (x.ty.promote y.ty))
  mul x y := (O.mul x.val y.val).map (TArr.mk (x.ty.promote y.ty))
  neg x := (O.neg x.val).map (TArr.mk x.ty)
  quot x n := (O.quot x.val n).map (TArr.mk (x.ty.promote .float64))
  scalar z := ⟨.float64, O.scalar z⟩
  vec v := ⟨cv, O.vec v⟩
  dot M x := (O.dot M x.val).map (TArr.mk (cm.promote x.ty))

namespace CSSolver

/-- The dtype of the coefficients, for a `lin_op` of dtype `d`.  IF4 computes `np.exp(h * lin_op)` or `expm(h * lin_op)`
(rkstiff/if4.py:81-83,162-164), which is real for a real `lin_op`; the ETD solvers convert `lin_op` to `complex128`
(rkstiff/etd4.py:76,222, rkstiff/etd5.py:89,329). -/
def coefTy (d : DType) : CSSolver ι → DType
  | if4 _ => d.promote .float64
  | _ => .complex128

/-- A solver object. -/
abbrev TySt (A : Type) (m : CSSolver ι) : Type := CSState ℝ (TArr A) (Wrap (AMethod m.Coef (TArr A)))

variable [Fintype ι] [DecidableEq ι]

/-- The methods of the solver's class. -/
noncomputable def tyCls (m : CSSolver ι) (d : DType) (F : AEnv m.Coef ι A) (nl : TArr A → Except PyErr (TArr A)) :
    CSClass ℝ (TArr A) (Wrap (AMethod m.Coef (TArr A))) :=
  m.rprog.acls ⟨F.ops.typed (m.coefTy d) (m.coefTy d), F.coefs⟩ nl

/-- A newly constructed solver object: all arrays are `complex128` zeros. -/
noncomputable def tyNew (m : CSSolver ι) (O : ArrOps ι A) : m.TySt A :=
  CSClass.fresh ⟨false, none, ⟨m.init.method.coef, fun _ => ⟨.complex128, O.vec 0⟩⟩⟩

/-- `solver.step(u, h)`, rkstiff/solvercs.py:163-186. -/
noncomputable def tyStep (m : CSSolver ι) (d : DType) (F : AEnv m.Coef ι A) (nl : TArr A → Except PyErr (TArr A)) (u : TArr A) (h : ℝ) :
    PyM (m.TySt A) (TArr A) := (m.tyCls d F nl).step u h

/-- `solver.evolve(u, t0, tf, h, store_data, store_freq)`, rkstiff/solvercs.py:191-279; `clk` is the rounding of the clock.  The recorded
arrays are those that `step` returns, and the argument itself (lines 249, 274): nothing is converted. -/
noncomputable def tyEvolve (m : CSSolver ι) (d : DType) (F : AEnv m.Coef ι A) (nl : TArr A → Except PyErr (TArr A)) (clk : ℝ → ℝ)
    (pyDiv : Bool) (fuel : ℕ) (u : TArr A) (t0 tf h : ℝ) (storeData : Bool) (freq : ℤ) : PyM (m.TySt A) (Option (TArr A)) :=
  (m.tyCls d F nl).evolve clk pyDiv fuel u t0 tf h storeData freq

end CSSolver

variable [Fintype ι] [DecidableEq ι]

namespace ASSolver

/-- The dtype of the one-dimensional coefficients, or of the matrices made of `lin_op`, for a `lin_op` of dtype `d`.  With `diagonalize`
the integrating factors are made of the eigenvalues, whose dtype `e` is `float64` or `complex128`: `np.linalg.eig` returns
`complex128` arrays if `lin_op` is complex or one of the eigenvalues is.  rkstiff/if34.py:91-93,170-172,227-229, rkstiff/if45dp.py:204-237;
the ETD solvers have complex coefficients, rkstiff/etd34.py:63,79,336,351, rkstiff/etd35.py:124,150,568,595; the arrays
`_EL` of the diagonalized ETD solvers (rkstiff/etd34.py:257-259) may be `float64`, but they only occur in sums with other coefficients. -/
def coefTy (d e : DType) : ASSolver ι → DType
  | if34 (.eig _ _ _ _) => e.promote .float64
  | if34 _ => d.promote .float64
  | if45dp _ => d.promote .float64
  | _ => .complex128

/-- The dtype of the matrices: with `diagonalize` those of the eigenvectors and the inverse, rkstiff/if34.py:164-165,
rkstiff/etd34.py:244-245, rkstiff/etd35.py:419-420. -/
def matTy (d e : DType) : ASSolver ι → DType
  | if34 (.eig _ _ _ _) => e.promote .float64
  | etd34 _ (.eig _ _ _ _) => e.promote .float64
  | etd35 _ (.eig _ _ _ _) => e.promote .float64
  | m => m.coefTy d e

/-- A solver object. -/
abbrev TySt (A : Type) (m : ASSolver ι) : Type := ASState ℝ (TArr A) (Wrap (AMethod m.Coef (TArr A)))

/-- The methods of the solver's class; `check` and `fac` are the exceptions and the values of `_compute_s`, which looks at the entries. -/
noncomputable def tyCls (m : ASSolver ι) (d e : DType) (F : AEnv m.Coef ι A) (check : A → A → Except PyErr Unit)
    (fac : SolverConfig ℝ → A → A → Ext ℝ) (nl : TArr A → Except PyErr (TArr A)) :
    ASClass ℝ (TArr A) (Wrap (AMethod m.Coef (TArr A))) :=
  m.rprog.acls m.isDP ⟨F.ops.typed (m.coefTy d e) (m.matTy d e), F.coefs⟩ (fun u err => check u.val err.val)
    (fun cfg u err => fac cfg u.val err.val) nl

/-- A newly constructed solver object. -/
noncomputable def tyNew (m : ASSolver ι) (O : ArrOps ι A) : m.TySt A :=
  ASClass.fresh ⟨false, none, ⟨m.init.method.coef, fun _ => ⟨.complex128, O.vec 0⟩⟩⟩

/-- `solver.step(u, h)`, rkstiff/solveras.py:336-410; `clk` is the rounding of step sizes. -/
noncomputable def tyStep (m : ASSolver ι) (d e : DType) (F : AEnv m.Coef ι A) (check : A → A → Except PyErr Unit)
    (fac : SolverConfig ℝ → A → A → Ext ℝ) (nl : TArr A → Except PyErr (TArr A)) (clk : ℝ → ℝ) (cfg : SolverConfig ℝ) (u : TArr A)
    (h : ℝ) : PyM (m.TySt A) (TArr A × ℝ × ℝ) := (m.tyCls d e F check fac nl).step clk cfg u h

/-- `solver.evolve(u, t0, tf, h_init, store_data, store_freq)`, rkstiff/solveras.py:556-650; nothing is converted (lines 611, 645). -/
noncomputable def tyEvolve (m : ASSolver ι) (d e : DType) (F : AEnv m.Coef ι A) (check : A → A → Except PyErr Unit)
    (fac : SolverConfig ℝ → A → A → Ext ℝ) (nl : TArr A → Except PyErr (TArr A)) (clk : ℝ → ℝ) (pyDiv : Bool) (cfg : SolverConfig ℝ)
    (fuel : ℕ) (u : TArr A) (t0 tf : ℝ) (hInit : Option ℝ) (storeData : Bool) (freq : ℤ) : PyM (m.TySt A) (Option (TArr A)) :=
  (m.tyCls d e F check fac nl).evolve clk pyDiv cfg fuel u t0 tf hInit storeData freq

end ASSolver

end Verif
