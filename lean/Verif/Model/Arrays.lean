import Verif.Model.Rounded

/-!
# The solvers on arrays of any kind

The programs of `Verif.Model.Rounded` (the bodies of `n1_init` and `update_stages`, in the order in which Python evaluates them), run on
an arbitrary type `A` of arrays whose operations may raise.  `Verif.Model.Broadcast` takes for `A` NumPy's arrays with their shapes.
`lin_op` and the coefficients are as in the other model files: a one-dimensional array or a square matrix, computed by
`update_coeffs` without looking at `u`.
-/

set_option linter.unusedSectionVars false

namespace Verif

variable {ι A : Type}

/-- The operations on arrays. -/
structure ArrOps (ι A : Type) where
  add : A → A → Except PyErr A
  sub : A → A → Except PyErr A
  mul : A → A → Except PyErr A
  neg : A → Except PyErr A
  /-- `x / n` for a literal `n` -/
  quot : A → ℕ → Except PyErr A
  /-- a Python number -/
  scalar : ℂ → A
  /-- a one-dimensional array -/
  vec : Vec ι → A
  /-- `M.dot(x)` for a square matrix `M` -/
  dot : Mat ι → A → Except PyErr A

namespace Exp

variable {Coef : Type}

/-- The array an expression evaluates to, or the exception it raises. -/
noncomputable def evalA (O : ArrOps ι A) (c : Coef) (h : ℝ) (x : Attr → A) : Exp Coef ι → Except PyErr A
  | var a => .ok (x a)
  | cof p => .ok (O.vec (p c))
  | size => .ok (O.scalar h)
  | num n => .ok (O.scalar n)
  | add e f => (e.evalA O c h x).bind fun a => (f.evalA O c h x).bind fun b => O.add a b
  | sub e f => (e.evalA O c h x).bind fun a => (f.evalA O c h x).bind fun b => O.sub a b
  | mul e f => (e.evalA O c h x).bind fun a => (f.evalA O c h x).bind fun b => O.mul a b
  | neg e => (e.evalA O c h x).bind O.neg
  | over e n => (e.evalA O c h x).bind fun a => O.quot a n
  | dot p e => (e.evalA O c h x).bind (O.dot (p c))
  | fix M e => (e.evalA O c h x).bind (O.dot M)

end Exp

/-- A strategy object: coefficients and array attributes. -/
structure AMethod (Coef A : Type) where
  coef : Coef
  vars : Attr → A

namespace AMethod

variable {Coef : Type}

/-- One assignment.  The attribute keeps its value if the right-hand side raises. -/
noncomputable def exec (O : ArrOps ι A) (nl : A → Except PyErr A) {C : Type} (c : C) (h : ℝ) :
    RInstr C ι → PyM (AMethod Coef A) Unit
  | .set a e => fun s =>
    match e.evalA O c h s.vars with
    | .ok v => (.ok (), { s with vars := Function.update s.vars a v })
    | .error er => (.error er, s)
  | .call a b => fun s =>
    match nl (s.vars b) with
    | .ok v => (.ok (), { s with vars := Function.update s.vars a v })
    | .error er => (.error er, s)

/-- A sequence of assignments. -/
noncomputable def run (O : ArrOps ι A) (nl : A → Except PyErr A) {C : Type} (c : C) (h : ℝ) :
    List (RInstr C ι) → PyM (AMethod Coef A) Unit
  | [] => pure ()
  | i :: is => do
    exec O nl c h i
    run O nl c h is

/-- Passing an array as the argument `u`. -/
def arg (u : A) : PyM (AMethod Coef A) Unit := PyM.modify fun s => { s with vars := Function.update s.vars .u u }

/-- `update_coeffs`. -/
def setCoefs (coefs : ℝ → Except PyErr Coef) (h : ℝ) : PyM (AMethod Coef A) Unit := fun s =>
  match coefs h with
  | .ok c => (.ok (), { s with coef := c })
  | .error e => (.error e, s)

/-- `_update_coeffs`, rkstiff/if4.py:261-267, rkstiff/etd4.py:387-400, rkstiff/etd5.py:595-620, rkstiff/if34.py:314-319,
rkstiff/etd34.py:569-587, rkstiff/etd35.py:842-855, rkstiff/if45dp.py:183-238. -/
noncomputable def coeffs (coefs : ℝ → Except PyErr Coef) (h : ℝ) : PyM (Wrap (AMethod Coef A)) Unit := do
  let s ← PyM.get
  if some h = s.hCoeff then pure ()
  else
    PyM.modify fun s => { s with hCoeff := some h }
    Wrap.onMethod (setCoefs coefs h)

end AMethod

/-- What a solver class is run with: the operations on arrays and `update_coeffs`. -/
structure AEnv (Coef ι A : Type) where
  ops : ArrOps ι A
  coefs : ℝ → Except PyErr Coef

namespace RCSProg

variable {Coef : Type}

/-- The stages and `return self._k`. -/
noncomputable def abody (P : RCSProg Coef ι) (F : AEnv Coef ι A) (nl : A → Except PyErr A) (h : ℝ) : PyM (AMethod Coef A) A := do
  let s ← PyM.get
  AMethod.run F.ops nl s.coef h P.stages
  let s ← PyM.get
  pure (s.vars .k)

/-- `_update_stages`, rkstiff/if4.py:269-275, rkstiff/etd4.py:402-422, rkstiff/etd5.py:622-655. -/
noncomputable def aUpdateStages (P : RCSProg Coef ι) (F : AEnv Coef ι A) (nl : A → Except PyErr A) (u : A) (h : ℝ) :
    PyM (Wrap (AMethod Coef A)) A := do
  AMethod.coeffs F.coefs h
  Wrap.onMethod (AMethod.arg u)
  let s ← PyM.get
  if s.n1init = false then
    Wrap.onMethod (AMethod.run F.ops nl () 0 P.init)
    PyM.modify fun s => { s with n1init := true }
  Wrap.onMethod (P.abody F nl h)

/-- The class; `_reset` as in `Verif.IF4.reset`. -/
noncomputable def acls (P : RCSProg Coef ι) (F : AEnv Coef ι A) (nl : A → Except PyErr A) :
    CSClass ℝ A (Wrap (AMethod Coef A)) :=
  ⟨fun s => { s with n1init := false, hCoeff := none }, P.aUpdateStages F nl⟩

end RCSProg

namespace RASProg

variable {Coef : Type}

/-- The stages and `return`.  `check` is what the following call of `_compute_s` may raise. -/
noncomputable def abody (P : RASProg Coef ι) (F : AEnv Coef ι A) (check : A → A → Except PyErr Unit) (nl : A → Except PyErr A)
    (h : ℝ) : PyM (AMethod Coef A) (A × A) := do
  let s ← PyM.get
  AMethod.run F.ops nl s.coef h P.stages
  let s ← PyM.get
  match check (s.vars P.out) (s.vars .err) with
  | .ok () => pure (s.vars P.out, s.vars .err)
  | .error e => PyM.throw e

/-- `_update_stages`, rkstiff/if34.py:321-334, rkstiff/etd34.py:589-609, rkstiff/etd35.py:857-878; with `dp` that of
IF45DP, rkstiff/if45dp.py:112-181, where `_NL1` is not refreshed in the first call.  The exceptions of `_compute_s`, which is
called next (rkstiff/solveras.py:385-387), are raised here. -/
noncomputable def aUpdateStages (P : RASProg Coef ι) (dp : Bool) (F : AEnv Coef ι A) (check : A → A → Except PyErr Unit)
    (nl : A → Except PyErr A) (u : A) (h : ℝ) (accept : Bool) : PyM (Wrap (AMethod Coef A)) (A × A) := do
  AMethod.coeffs F.coefs h
  Wrap.onMethod (AMethod.arg u)
  let s ← PyM.get
  if s.n1init = false then
    Wrap.onMethod (AMethod.run F.ops nl () 0 P.init)
    PyM.modify fun s => { s with n1init := true }
  if accept = true ∧ ¬ (dp = true ∧ s.n1init = false) then
    Wrap.onMethod (AMethod.run F.ops nl () 0 P.accepted)
  Wrap.onMethod (P.abody F check nl h)

/-- The class, with a computation of the error factor. -/
noncomputable def acls (P : RASProg Coef ι) (dp : Bool) (F : AEnv Coef ι A) (check : A → A → Except PyErr Unit)
    (fac : SolverConfig ℝ → A → A → Ext ℝ) (nl : A → Except PyErr A) : ASClass ℝ A (Wrap (AMethod Coef A)) :=
  ⟨fun s => { s with n1init := false, hCoeff := none }, P.aUpdateStages dp F check nl, fac⟩

end RASProg

end Verif
