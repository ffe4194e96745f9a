import Verif.Model.Arrays
import Verif.Model.ComputeS

/-!
# The solvers with floating-point numbers that may be infinite or `nan`

The programs of `Verif.Model.Rounded`, run on one-dimensional `complex128` arrays whose entries may have infinite or `nan` components
(`Verif.Model.Arrays` says how).  `rnd` takes the exact result of a real operation to a float: any function, so that sums and products may
overflow; `load` takes a coefficient or a literal to the float that the code holds, which need not be finite either.  Signs of zero are not
modelled.
-/

set_option linter.unusedSectionVars false

namespace Verif

namespace Ext

variable (rnd : ℝ → Ext ℝ)

/-- `-x` -/
noncomputable def neg : Ext ℝ → Ext ℝ
  | nan => nan
  | ninf => pinf
  | pinf => ninf
  | fin x => fin (-x)

/-- `x + y` -/
noncomputable def add : Ext ℝ → Ext ℝ → Ext ℝ
  | fin x, fin y => rnd (x + y)
  | nan, _ => nan
  | _, nan => nan
  | pinf, ninf => nan
  | ninf, pinf => nan
  | pinf, _ => pinf
  | ninf, _ => ninf
  | fin _, y => y

/-- `x - y` -/
noncomputable def sub (x y : Ext ℝ) : Ext ℝ := add rnd x y.neg

/-- An infinity times the sign of a number. -/
noncomputable def infTimes (x : ℝ) : Ext ℝ := if x = 0 then nan else if 0 < x then pinf else ninf

/-- `x * y` -/
noncomputable def mul : Ext ℝ → Ext ℝ → Ext ℝ
  | fin x, fin y => rnd (x * y)
  | nan, _ => nan
  | _, nan => nan
  | pinf, fin y => infTimes y
  | ninf, fin y => infTimes (-y)
  | fin x, pinf => infTimes x
  | fin x, ninf => infTimes (-x)
  | pinf, pinf => pinf
  | ninf, ninf => pinf
  | pinf, ninf => ninf
  | ninf, pinf => ninf

/-- `x / y`, with zero as positive zero -/
noncomputable def div : Ext ℝ → Ext ℝ → Ext ℝ
  | fin x, fin y => if y = 0 then infTimes x else rnd (x / y)
  | nan, _ => nan
  | _, nan => nan
  | fin _, _ => fin 0
  | pinf, fin y => if y < 0 then ninf else pinf
  | ninf, fin y => if y < 0 then pinf else ninf
  | _, _ => nan

/-- `np.sqrt(x)` -/
noncomputable def sqrt : Ext ℝ → Ext ℝ
  | fin x => if x < 0 then nan else rnd (Real.sqrt x)
  | pinf => pinf
  | _ => nan

/-- `np.power(x, p)` for a number `p > 0` -/
noncomputable def power (x : Ext ℝ) (p : ℝ) : Ext ℝ :=
  match x with
  | fin x => if x < 0 then nan else rnd (x ^ p)
  | pinf => pinf
  | ninf => pinf
  | nan => nan

/-- One step of `x.max()`: `nan` if there is one. -/
noncomputable def max : Ext ℝ → Ext ℝ → Ext ℝ
  | nan, _ => nan
  | _, nan => nan
  | x, y => if lt x y then y else x

end Ext

/-- An entry of a `complex128` array. -/
structure CFl where
  re : Ext ℝ
  im : Ext ℝ

namespace CFl

variable (rnd : ℝ → Ext ℝ)

/-- A finite number. -/
def ofComplex (z : ℂ) : CFl := ⟨.fin z.re, .fin z.im⟩

/-- `z + w` -/
noncomputable def add (z w : CFl) : CFl := ⟨.add rnd z.re w.re, .add rnd z.im w.im⟩

/-- `z - w` -/
noncomputable def sub (z w : CFl) : CFl := ⟨.sub rnd z.re w.re, .sub rnd z.im w.im⟩

/-- `-z` -/
noncomputable def neg (z : CFl) : CFl := ⟨z.re.neg, z.im.neg⟩

/-- `z * w` -/
noncomputable def mul (z w : CFl) : CFl :=
  ⟨.sub rnd (.mul rnd z.re w.re) (.mul rnd z.im w.im), .add rnd (.mul rnd z.re w.im) (.mul rnd z.im w.re)⟩

/-- `z / n` for a literal `n > 0`, by Smith's algorithm: the divisor has imaginary part 0, so that `rat` is 0 and `scl` is `1 / n`. -/
noncomputable def quot (z : CFl) (n : ℕ) : CFl :=
  ⟨.mul rnd (.add rnd z.re (.mul rnd z.im (.fin 0))) (rnd (1 / n)),
    .mul rnd (.sub rnd z.im (.mul rnd z.re (.fin 0))) (rnd (1 / n))⟩

/-- The sum of products, one after the other. -/
noncomputable def dot {ι : Type} (a x : ι → CFl) : List ι → CFl
  | [] => ofComplex 0
  | j :: l => add rnd (mul rnd (a j) (x j)) (dot a x l)

/-- `np.abs(z)`: `hypot`, which is infinite if a component is, whatever the other. -/
noncomputable def abs (z : CFl) : Ext ℝ :=
  match z.re, z.im with
  | .fin a, .fin b => rnd (Real.sqrt (a ^ 2 + b ^ 2))
  | .pinf, _ => .pinf
  | .ninf, _ => .pinf
  | _, .pinf => .pinf
  | _, .ninf => .pinf
  | _, _ => .nan

end CFl

variable {ι : Type} [Fintype ι]

/-- The operations on one-dimensional arrays of floats.  The step size and literals are broadcast. -/
noncomputable def ArrOps.floats (rnd : ℝ → Ext ℝ) (load : ℂ → CFl) : ArrOps ι (ι → CFl) where
  add x y := .ok fun i => (x i).add rnd (y i)
  sub x y := .ok fun i => (x i).sub rnd (y i)
  mul x y := .ok fun i => (x i).mul rnd (y i)
  neg x := .ok fun i => (x i).neg
  quot x n := .ok fun i => (x i).quot rnd n
  scalar z := fun _ => load z
  vec v := fun i => load (v i)
  dot M x := .ok fun i => CFl.dot rnd (fun j => load (M i j)) x Finset.univ.toList

/-- `np.linalg.norm(w)` of the selected entries: the root of the sum of the squares of all real and imaginary parts. -/
noncomputable def flNorm (rnd : ℝ → Ext ℝ) (w : List CFl) : Ext ℝ :=
  .sqrt rnd (.add rnd ((w.map fun z => Ext.mul rnd z.re z.re).foldr (.add rnd) (.fin 0))
    ((w.map fun z => Ext.mul rnd z.im z.im).foldr (.add rnd) (.fin 0)))

/-- `x.max()` of a list with at least one entry. -/
noncomputable def flMax : List (Ext ℝ) → Ext ℝ
  | [] => .nan
  | x :: l => l.foldl Ext.max x

/-- `_compute_s`, rkstiff/solveras.py:450-455. -/
noncomputable def flComputeS (rnd : ℝ → Ext ℝ) (q : ℕ) (cfg : SolverConfig ℝ) (u err : ι → CFl) : Ext ℝ :=
  let l : List ι := Finset.univ.toList
  let mx := flMax (l.map fun i => (u i).abs rnd)
  let sel := l.filter fun i => Ext.lt (.fin cfg.adapt_cutoff) (.div rnd ((u i).abs rnd) mx)
  let tol := Ext.mul rnd (.fin cfg.epsilon) (flNorm rnd (sel.map u))
  .mul rnd (.fin cfg.safety_f) (.power rnd (.div rnd tol (flNorm rnd (sel.map err))) (1 / q))

/-- `magu.max()` of an empty array raises `ValueError`. -/
noncomputable def flCheck (_u _err : ι → CFl) : Except PyErr Unit := if Fintype.card ι = 0 then .error .valueError else .ok ()

variable [DecidableEq ι]

namespace CSSolver

/-- A solver object. -/
abbrev FlSt (m : CSSolver ι) : Type := CSState ℝ (ι → CFl) (Wrap (AMethod m.Coef (ι → CFl)))

/-- The methods of the solver's class; `coefs` is the computation of the coefficients. -/
noncomputable def flCls (m : CSSolver ι) (rnd : ℝ → Ext ℝ) (load : ℂ → CFl) (coefs : ℝ → Except PyErr m.Coef)
    (nl : (ι → CFl) → Except PyErr (ι → CFl)) : CSClass ℝ (ι → CFl) (Wrap (AMethod m.Coef (ι → CFl))) :=
  m.rprog.acls ⟨ArrOps.floats rnd load, coefs⟩ nl

/-- A newly constructed solver object. -/
noncomputable def flNew (m : CSSolver ι) : m.FlSt := CSClass.fresh ⟨false, none, ⟨m.init.method.coef, fun _ _ => .ofComplex 0⟩⟩

/-- `solver.step(u, h)`, rkstiff/solvercs.py:163-186. -/
noncomputable def flStep (m : CSSolver ι) (rnd : ℝ → Ext ℝ) (load : ℂ → CFl) (coefs : ℝ → Except PyErr m.Coef)
    (nl : (ι → CFl) → Except PyErr (ι → CFl)) (u : ι → CFl) (h : ℝ) : PyM m.FlSt (ι → CFl) := (m.flCls rnd load coefs nl).step u h

/-- `solver.evolve(u, t0, tf, h, store_data, store_freq)`, rkstiff/solvercs.py:191-279; `clk` is the rounding of the clock. -/
noncomputable def flEvolve (m : CSSolver ι) (rnd : ℝ → Ext ℝ) (load : ℂ → CFl) (coefs : ℝ → Except PyErr m.Coef)
    (nl : (ι → CFl) → Except PyErr (ι → CFl)) (clk : ℝ → ℝ) (pyDiv : Bool) (fuel : ℕ) (u : ι → CFl) (t0 tf h : ℝ) (storeData : Bool)
    (freq : ℤ) : PyM m.FlSt (Option (ι → CFl)) := (m.flCls rnd load coefs nl).evolve clk pyDiv fuel u t0 tf h storeData freq

end CSSolver

namespace ASSolver

/-- A solver object. -/
abbrev FlSt (m : ASSolver ι) : Type := ASState ℝ (ι → CFl) (Wrap (AMethod m.Coef (ι → CFl)))

/-- The methods of the solver's class; `coefs` is the computation of the coefficients. -/
noncomputable def flCls (m : ASSolver ι) (rnd : ℝ → Ext ℝ) (load : ℂ → CFl) (coefs : ℝ → Except PyErr m.Coef)
    (nl : (ι → CFl) → Except PyErr (ι → CFl)) : ASClass ℝ (ι → CFl) (Wrap (AMethod m.Coef (ι → CFl))) :=
  m.rprog.acls m.isDP ⟨ArrOps.floats rnd load, coefs⟩ flCheck (flComputeS rnd (if m.isDP then 5 else 4)) nl

/-- A newly constructed solver object. -/
noncomputable def flNew (m : ASSolver ι) : m.FlSt := ASClass.fresh ⟨false, none, ⟨m.init.method.coef, fun _ _ => .ofComplex 0⟩⟩

/-- `solver.step(u, h)`, rkstiff/solveras.py:336-410; `clk` is the rounding of step sizes. -/
noncomputable def flStep (m : ASSolver ι) (rnd : ℝ → Ext ℝ) (load : ℂ → CFl) (coefs : ℝ → Except PyErr m.Coef)
    (nl : (ι → CFl) → Except PyErr (ι → CFl)) (clk : ℝ → ℝ) (cfg : SolverConfig ℝ) (u : ι → CFl) (h : ℝ) :
    PyM m.FlSt ((ι → CFl) × ℝ × ℝ) := (m.flCls rnd load coefs nl).step clk cfg u h

/-- `solver.evolve(u, t0, tf, h_init, store_data, store_freq)`, rkstiff/solveras.py:556-650. -/
noncomputable def flEvolve (m : ASSolver ι) (rnd : ℝ → Ext ℝ) (load : ℂ → CFl) (coefs : ℝ → Except PyErr m.Coef)
    (nl : (ι → CFl) → Except PyErr (ι → CFl)) (clk : ℝ → ℝ) (pyDiv : Bool) (cfg : SolverConfig ℝ) (fuel : ℕ) (u : ι → CFl) (t0 tf : ℝ)
    (hInit : Option ℝ) (storeData : Bool) (freq : ℤ) : PyM m.FlSt (Option (ι → CFl)) :=
  (m.flCls rnd load coefs nl).evolve clk pyDiv cfg fuel u t0 tf hInit storeData freq

end ASSolver

end Verif
