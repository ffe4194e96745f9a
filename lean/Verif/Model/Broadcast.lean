import Verif.Model.Arrays
import Verif.Model.Derivatives
import Verif.Spec.Rounded

/-!
# The solvers on NumPy arrays with shapes

`u` and the arrays that `nl_func` returns may have any shape; element-wise operations broadcast their operands, `dot` contracts the last
axis of the matrix with the last axis but one of the array.  (In the other model files all arrays have the shape `(N,)`.)  Arithmetic
is exact.  The scalar coefficients of IF45DP are `(N,)` arrays with equal entries, which makes no difference to sums that contain other
coefficients.  `lin_op` has the indices `Fin N`.
-/

set_option linter.unusedSectionVars false

namespace Verif

/-- Broadcasting of one axis: equal lengths, or one of them is 1. -/
def bcDim (a b : ℕ) : Option ℕ := if a = b then some a else if a = 1 then some b else if b = 1 then some a else none

/-- Broadcasting of shapes that are listed from the last axis to the first. -/
def bcRev : List ℕ → List ℕ → Option (List ℕ)
  | [], b => some b
  | a, [] => some a
  | x :: a, y :: b =>
    match bcDim x y, bcRev a b with
    | some z, some c => some (z :: c)
    | _, _ => none

/-- `np.broadcast_shapes(a, b)`; `none` when the shapes do not fit. -/
def bcShape (a b : List ℕ) : Option (List ℕ) := (bcRev a.reverse b.reverse).map List.reverse

/-- The index, from the last axis to the first, of the entry of an array of shape `s` that is used for the entry `idx` of a larger
array. -/
def bcIdxRev : List ℕ → List ℕ → List ℕ
  | [], _ => []
  | _, [] => []
  | d :: s, i :: idx => (if d = 1 then 0 else i) :: bcIdxRev s idx

/-- The index of the entry of an array of shape `s` that is used for the entry `idx` of a larger array. -/
def bcIdx (s idx : List ℕ) : List ℕ := (bcIdxRev s.reverse idx.reverse).reverse

namespace NdArr

/-- An element-wise operation of NumPy.  Operands whose shapes do not fit raise `ValueError`. -/
def elementwise {α : Type} (f : α → α → α) (x y : NdArr α) : Except PyErr (NdArr α) :=
  match bcShape x.shape y.shape with
  | some s => .ok ⟨s, fun idx => f (x.get (bcIdx x.shape idx)) (y.get (bcIdx y.shape idx))⟩
  | none => .error .valueError

/-- An array without axes. -/
def ofScalar (z : ℂ) : NdArr ℂ := ⟨[], fun _ => z⟩

variable {N : ℕ}

/-- An array with one axis. -/
def ofVec (v : Vec (Fin N)) : NdArr ℂ := ⟨[N], fun idx => if h : idx.headD 0 < N then v ⟨idx.headD 0, h⟩ else 0⟩

/-- An entry of a square matrix. -/
def entry (M : Mat (Fin N)) (i : ℕ) (j : Fin N) : ℂ := if h : i < N then M ⟨i, h⟩ j else 0

/-- `M.dot(x)` for a square matrix `M`: if `x` has no axes the product with a number, otherwise the sum over the only axis, or the last
but one, which must have length `N`. -/
def matDot (M : Mat (Fin N)) (x : NdArr ℂ) : Except PyErr (NdArr ℂ) :=
  match x.shape.reverse with
  | [] => .ok ⟨[N, N], fun idx => if h : idx.getD 1 0 < N then entry M (idx.getD 0 0) ⟨idx.getD 1 0, h⟩ * x.get [] else 0⟩
  | [k] => if k = N then .ok ⟨[N], fun idx => ∑ l : Fin N, entry M (idx.headD 0) l * x.get [l.val]⟩ else .error .valueError
  | b :: k :: lead =>
    if k = N then
      .ok ⟨N :: lead.reverse ++ [b], fun idx =>
        ∑ l : Fin N, entry M (idx.headD 0) l * x.get (idx.tail.dropLast ++ [l.val, idx.getLastD 0])⟩
    else .error .valueError

end NdArr

/-- NumPy's operations on arrays. -/
noncomputable def ArrOps.numpy (N : ℕ) : ArrOps (Fin N) (NdArr ℂ) where
  add := NdArr.elementwise (· + ·)
  sub := NdArr.elementwise (· - ·)
  mul := NdArr.elementwise (· * ·)
  neg x := .ok ⟨x.shape, fun idx => -x.get idx⟩
  quot x n := .ok ⟨x.shape, fun idx => x.get idx / n⟩
  scalar := NdArr.ofScalar
  vec := NdArr.ofVec
  dot := NdArr.matDot

/-- The indices of the entries of an array. -/
def indices : List ℕ → List (List ℕ)
  | [] => [[]]
  | d :: s => (List.range d).flatMap fun i => (indices s).map (i :: ·)

/-- The exceptions of `_compute_s`, rkstiff/solveras.py:450-455: `magu.max()` of an array without entries raises `ValueError`; indexing
`err` with a mask that has another shape raises `IndexError`, unless the mask only lacks the last axes. -/
def checkS (u err : NdArr ℂ) : Except PyErr Unit :=
  if 0 ∈ u.shape then .error .valueError
  else if u.shape <+: err.shape then .ok ()
  else .error .indexError

/-- `_compute_s`, rkstiff/solveras.py:450-455, for arrays that pass `checkS`. -/
noncomputable def ndComputeS (q : ℕ) (cfg : SolverConfig ℝ) (u err : NdArr ℂ) : Ext ℝ :=
  open Classical in
  let mx : ℝ := ((indices u.shape).map fun i => ‖u.get i‖).foldr max 0
  let sel : List ℕ → Prop := fun i => mx ≠ 0 ∧ cfg.adapt_cutoff < ‖u.get i‖ / mx
  let tol := cfg.epsilon * Real.sqrt ((indices u.shape).map fun i => if sel i then ‖u.get i‖ ^ 2 else 0).sum
  let nerr := Real.sqrt ((indices err.shape).map fun i => if sel (i.take u.shape.length) then ‖err.get i‖ ^ 2 else 0).sum
  npScale cfg.safety_f (npPower (npDiv tol nerr) (1 / q))

variable {N : ℕ}

namespace CSSolver

/-- The solver computes with NumPy arrays. -/
noncomputable def ndEnv (m : CSSolver (Fin N)) : AEnv m.Coef (Fin N) (NdArr ℂ) := ⟨ArrOps.numpy N, (m.env Arith.exact).coefs⟩

/-- A solver object. -/
abbrev NdSt (m : CSSolver (Fin N)) : Type := CSState ℝ (NdArr ℂ) (Wrap (AMethod m.Coef (NdArr ℂ)))

/-- The methods of the solver's class. -/
noncomputable def ndCls (m : CSSolver (Fin N)) (nl : NdArr ℂ → Except PyErr (NdArr ℂ)) :
    CSClass ℝ (NdArr ℂ) (Wrap (AMethod m.Coef (NdArr ℂ))) := m.rprog.acls m.ndEnv nl

/-- A newly constructed solver object, rkstiff/if4.py:63-70, 142-150, rkstiff/etd4.py:78-85, 222-233, rkstiff/etd5.py:95-113,
341-358: array attributes are zero. -/
noncomputable def ndNew (m : CSSolver (Fin N)) : m.NdSt :=
  CSClass.fresh ⟨false, none, ⟨m.init.method.coef, fun _ => NdArr.ofVec (0 : Vec (Fin N))⟩⟩

/-- `solver.step(u, h)` -/
noncomputable def ndStep (m : CSSolver (Fin N)) (nl : NdArr ℂ → Except PyErr (NdArr ℂ)) (u : NdArr ℂ) (h : ℝ) :
    PyM m.NdSt (NdArr ℂ) := (m.ndCls nl).step u h

/-- `solver.evolve(u, t0, tf, h, store_data, store_freq)` -/
noncomputable def ndEvolve (m : CSSolver (Fin N)) (nl : NdArr ℂ → Except PyErr (NdArr ℂ)) (rnd : ℝ → ℝ) (pyDiv : Bool) (fuel : ℕ)
    (u : NdArr ℂ) (t0 tf h : ℝ) (storeData : Bool) (freq : ℤ) : PyM m.NdSt (Option (NdArr ℂ)) :=
  (m.ndCls nl).evolve rnd pyDiv fuel u t0 tf h storeData freq

end CSSolver

namespace ASSolver

/-- The solver computes with NumPy arrays. -/
noncomputable def ndEnv (m : ASSolver (Fin N)) : AEnv m.Coef (Fin N) (NdArr ℂ) := ⟨ArrOps.numpy N, (m.env Arith.exact).coefs⟩

/-- A solver object. -/
abbrev NdSt (m : ASSolver (Fin N)) : Type := ASState ℝ (NdArr ℂ) (Wrap (AMethod m.Coef (NdArr ℂ)))

/-- `_q()`, rkstiff/if34.py:336-338, rkstiff/etd34.py:611-621, rkstiff/etd35.py:880-889, rkstiff/if45dp.py:240-249. -/
def ndQ (m : ASSolver (Fin N)) : ℕ := if m.isDP then 5 else 4

/-- The methods of the solver's class. -/
noncomputable def ndCls (m : ASSolver (Fin N)) (nl : NdArr ℂ → Except PyErr (NdArr ℂ)) :
    ASClass ℝ (NdArr ℂ) (Wrap (AMethod m.Coef (NdArr ℂ))) := m.rprog.acls m.isDP m.ndEnv checkS (ndComputeS m.ndQ) nl

/-- A newly constructed solver object: array attributes are zero. -/
noncomputable def ndNew (m : ASSolver (Fin N)) : m.NdSt :=
  ASClass.fresh ⟨false, none, ⟨m.init.method.coef, fun _ => NdArr.ofVec (0 : Vec (Fin N))⟩⟩

/-- One trial of a step: `_update_stages`, and the exceptions of `_compute_s`. -/
noncomputable def ndTrial (m : ASSolver (Fin N)) (nl : NdArr ℂ → Except PyErr (NdArr ℂ)) (u : NdArr ℂ) (h : ℝ) :
    PyM m.NdSt (NdArr ℂ × NdArr ℂ) := (m.ndCls nl).trial u h

/-- `solver.step(u, h)` -/
noncomputable def ndStep (m : ASSolver (Fin N)) (nl : NdArr ℂ → Except PyErr (NdArr ℂ)) (rnd : ℝ → ℝ) (cfg : SolverConfig ℝ)
    (u : NdArr ℂ) (h : ℝ) : PyM m.NdSt (NdArr ℂ × ℝ × ℝ) := (m.ndCls nl).step rnd cfg u h

/-- `solver.evolve(u, t0, tf, h_init, store_data, store_freq)` -/
noncomputable def ndEvolve (m : ASSolver (Fin N)) (nl : NdArr ℂ → Except PyErr (NdArr ℂ)) (rnd : ℝ → ℝ) (pyDiv : Bool)
    (cfg : SolverConfig ℝ) (fuel : ℕ) (u : NdArr ℂ) (t0 tf : ℝ) (hInit : Option ℝ) (storeData : Bool) (freq : ℤ) :
    PyM m.NdSt (Option (NdArr ℂ)) := (m.ndCls nl).evolve rnd pyDiv cfg fuel u t0 tf hInit storeData freq

end ASSolver

end Verif
