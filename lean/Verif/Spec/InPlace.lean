import Verif.Spec.Heap
import Verif.Spec.Solvers
import Verif.Spec.RungeKutta

/-!
# A nonlinear function that works in place (specification)
-/

set_option linter.unusedSectionVars false

namespace Verif

variable {ι : Type}

/-- `nl_func` overwrites its argument with the value and returns it, as `def nl_func(u): u *= u; return u` does. -/
def inPlaceNl (g : Vec ι → Vec ι) : HeapNl ι := fun r H => (.ok r, H.write r (g (H.cell r)))

section
variable [Fintype ι] [DecidableEq ι]

/-- What steps of the sizes `hs` make of `z` with such a function: each step is one of the method, from `z` and with `z`
itself in place of `g z` as the first stage; then `g` is applied to its result. -/
inductive CSSolver.Distorted (m : CSSolver ι) (g : Vec ι → Vec ι) : List ℝ → Vec ι → Vec ι → Prop
  | nil (z : Vec ι) : Distorted m g [] z z
  | cons {h : ℝ} {hs : List ℝ} {z v e z' : Vec ι} :
    (m.method h).stepFrom (total g) z z = .ok (v, e) → Distorted m g hs (g v) z' → Distorted m g (h :: hs) z z'

/-- `for h in hs: u = solver.step(u, h)` -/
noncomputable def CSSolver.heapSteps (m : CSSolver ι) (f : HeapNl ι) : List ℝ → ℕ → PyM m.HState ℕ
  | [], u => pure u
  | h :: hs, u => do
    let u ← m.heapStep f u h
    heapSteps m f hs u

/-- What a trial of an adaptive solver with such a function works with: the array it starts from, the value it uses as the
first stage, and the array that the trial before returned, as it was then. -/
structure Bent (ι : Type) where
  start : Vec ι
  first : Vec ι
  out : Vec ι

/-- What the array that step `j` of `n` returned (the caller's, for `j = 0`) holds at the end: a step that followed may have
overwritten it. -/
def Bent.snapshot (st : ℕ → Bent ι) (n j : ℕ) : Vec ι := if j < n then (st j).start else (st j).out

/-- After an accepted trial that computed `v`.  IF34, ETD34, IF45DP return `g v` in place of `v` and go on from there with the same
array as the first stage.  ETD35 returns `v`, but the next step overwrites this array with `g v` and goes on from there.  IF34 and
ETD34 with `diagonalize=True` call `nl_func` with arrays of their own: they return `v` and go on properly. -/
def ASSolver.bentAfter (g : Vec ι → Vec ι) (v : Vec ι) : ASSolver ι → Bent ι
  | etd35 _ _ => ⟨g v, g v, v⟩
  | if34 (.eig _ _ _ _) => ⟨v, g v, v⟩
  | etd34 _ (.eig _ _ _ _) => ⟨v, g v, v⟩
  | _ => ⟨g v, g v, g v⟩

/-- One trial from `z`: that of the method (in its working coordinates, see `ASSolver.oneTrial`), with `z.first` in place of the value
of the nonlinear function at `z.start`.  The error estimate is the `out` of the second component. -/
noncomputable def ASSolver.bentTrial (m : ASSolver ι) (g : Vec ι → Vec ι) (h : ℝ) (z : Bent ι) : Except PyErr (Bent ι × Bent ι) :=
  open Classical in
  if m.CoefOk h then
    ((m.method h).stepFrom (fun w => .ok (m.op.prj (g (m.op.emb w)))) (m.op.prj z.first) (m.op.prj z.start)).map
      fun r => (m.bentAfter g (m.op.emb r.1), ⟨r.2, r.2, r.2⟩)
  else .error .linAlgError

/-- The error factor of such a trial is computed from the array that is returned. -/
noncomputable def ASSolver.bentFactor (m : ASSolver ι) (g : Vec ι → Vec ι) (cfg : SolverConfig ℝ) (r : Bent ι × Bent ι) : Ext ℝ :=
  m.factor (total g) cfg (r.1.out, r.2.out)

end

end Verif
