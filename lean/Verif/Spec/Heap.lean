import Verif.Model.Heap
import Verif.Spec.Relate

/-!
# Arrays as references (specification)
-/

set_option linter.unusedSectionVars false

namespace Verif

variable {ι : Type}

/-- An array that exists and that `nl_func` does not keep for itself. -/
def Heap.Pub (H : Heap ι) (r : ℕ) : Prop := r < H.next ∧ ¬ H.priv r

/-- `H'` is a later heap in which no public array of `H` has been written. -/
def Heap.Keeps (H H' : Heap ι) : Prop :=
  H.next ≤ H'.next ∧ ∀ r, H.Pub r → ¬ H'.priv r ∧ H'.cell r = H.cell r

/-- The array at address `r` is public and has contents `v`. -/
def Heap.Den (H : Heap ι) (r : ℕ) (v : Vec ι) : Prop := H.Pub r ∧ H.cell r = v

/-- `nl_func` computes the function `nl` and is well behaved: it does not write to arrays other than its own work
buffers, and it does not return one of those.  It may return its argument, or the same array for the same argument
again. -/
def CleanNl (f : HeapNl ι) (nl : NlFunc ι) : Prop :=
  ∀ r H, H.Pub r → H.Keeps (f r H).2 ∧ RelE (fun r' v => (f r H).2.Den r' v) (f r H).1 (nl (H.cell r))

/-- `nl_func` returns a new array each time. -/
def FreshNl (f : HeapNl ι) : Prop :=
  ∀ r H, H.next ≤ (f r H).2.next ∧ ∀ r', (f r H).1 = .ok r' → H.next ≤ r' ∧ r' < (f r H).2.next

/-- `nl_func` computes `g` into a new array, as `return g(u)` does when `g` is a numpy expression. -/
def newNl (g : Vec ι → Vec ι) : HeapNl ι := fun r H => (.ok H.next, H.alloc (g (H.cell r)))

open Classical in
/-- `nl_func` computes `g` into a new array and leaves garbage in all its work buffers. -/
noncomputable def workNl (g : Vec ι → Vec ι) : HeapNl ι := fun r H =>
  (.ok H.next, { H with cell := fun a => if H.priv a then 37 else H.cell a }.alloc (g (H.cell r)))

/-- `nl_func` returns its argument, as `lambda u: u` does. -/
def sameNl : HeapNl ι := fun r H => (.ok r, H)

/-- `nl_func` returns the array at address `b` each time: it reuses one output buffer. -/
def BufferNl (b : ℕ) (f : HeapNl ι) : Prop := ∀ r H r', (f r H).1 = .ok r' → r' = b

/-- `nl_func` computes `nl` into the array at address `b` and returns that array. -/
def bufferNl (b : ℕ) (nl : NlFunc ι) : HeapNl ι := fun r H =>
  match nl (H.cell r) with
  | .ok v => (.ok b, H.write b v)
  | .error e => (.error e, H)

section
variable [Fintype ι] [DecidableEq ι]

/-- The solvers whose error estimate is a difference of values of `nl_func` and which use those values directly: IF34,
ETD34 and ETD35 with a 1D operator, or a 2D operator and `diagonalize=False`. -/
def ASSolver.Direct : ASSolver ι → Prop
  | if34 (.diag _) => True
  | if34 (.full _) => True
  | etd34 _ (.diag _) => True
  | etd34 _ (.full _) => True
  | etd35 _ (.diag _) => True
  | etd35 _ (.full _) => True
  | _ => False

/-- States of a solver object in a program: any calls with any arguments, and between them the caller's code may do
anything to the arrays. -/
inductive ASSolver.Uses (m : ASSolver ι) (f : HeapNl ι) : m.HState → Prop
  | new (H) : Uses m f (m.heapNew H)
  | step {s} (rnd cfg u h) : Uses m f s → Uses m f (m.heapStep f rnd cfg u h s).2
  | evolve {s} (rnd pyDiv cfg fuel u t0 tf hInit storeData freq) : Uses m f s →
      Uses m f (m.heapEvolve f rnd pyDiv cfg fuel u t0 tf hInit storeData freq s).2
  | reset {s} : Uses m f s → Uses m f (m.heapReset f s).2
  | caller {s} (H) : Uses m f s → Uses m f (setHeap s H)

/-- Arrays whose contents matter to a constant-step solver object between calls: the stored snapshots, and the stored
value of `nl_func`. -/
def CSSolver.Needs {m : CSSolver ι} (s : m.HState) (r : ℕ) : Prop := r ∈ s.u ∨ r = s.sub.method.attr .NL1

/-- Arrays whose contents matter to an adaptive solver object between calls. -/
def ASSolver.Needs {m : ASSolver ι} (s : m.HState) (r : ℕ) : Prop :=
  r ∈ s.u.map HArr.ref ∨ r = s.sub.method.attr .NL1 ∨ r = s.sub.method.attr .NL5 ∨ r = s.sub.method.attr .NL7 ∨
    r = s.sub.method.attr .v

/-- A program that uses a solver object, run twice: over the heap with `nl_func = f`, and with arrays as values and
`nl_func = nl`.  Every call gets a public array with contents `w` in the first run and the value `w` in the second; the
calls may raise.  In the first run the caller may also make new arrays and write to any array that the object does not
need. -/
inductive CSSolver.Session (m : CSSolver ι) (f : HeapNl ι) (nl : NlFunc ι) : m.HState → m.State → Prop
  | new (H) : Session m f nl (m.heapNew H) m.new
  | step {s s' u w} (h) : Session m f nl s s' → (heap s).Den u w →
      Session m f nl (m.heapStep f u h s).2 (m.step nl w h s').2
  | evolve {s s' u w} (rnd pyDiv fuel t0 tf h storeData freq) : Session m f nl s s' → (heap s).Den u w →
      Session m f nl (m.heapEvolve f rnd pyDiv fuel u t0 tf h storeData freq s).2
        (m.evolve nl rnd pyDiv fuel w t0 tf h storeData freq s').2
  | reset {s s'} : Session m f nl s s' → Session m f nl (m.heapReset f s).2 (m.reset nl s').2
  | alloc {s s'} (v) : Session m f nl s s' → Session m f nl (setHeap s ((heap s).alloc v)) s'
  | write {s s' r} (v) : Session m f nl s s' → ¬ Needs s r → Session m f nl (setHeap s ((heap s).write r v)) s'

/-- The same for adaptive solvers; the settings may change from call to call. -/
inductive ASSolver.Session (m : ASSolver ι) (f : HeapNl ι) (nl : NlFunc ι) : m.HState → m.State → Prop
  | new (H) : Session m f nl (m.heapNew H) m.new
  | step {s s' u w} (rnd cfg h) : Session m f nl s s' → (heap s).Den u w →
      Session m f nl (m.heapStep f rnd cfg u h s).2 (m.step nl rnd cfg w h s').2
  | evolve {s s' u w} (rnd pyDiv cfg fuel t0 tf hInit storeData freq) : Session m f nl s s' → (heap s).Den u w →
      Session m f nl (m.heapEvolve f rnd pyDiv cfg fuel u t0 tf hInit storeData freq s).2
        (m.evolve nl rnd pyDiv cfg fuel w t0 tf hInit storeData freq s').2
  | reset {s s'} : Session m f nl s s' → Session m f nl (m.heapReset f s).2 (m.reset nl s').2
  | alloc {s s'} (v) : Session m f nl s s' → Session m f nl (setHeap s ((heap s).alloc v)) s'
  | write {s s' r} (v) : Session m f nl s s' → ¬ Needs s r → Session m f nl (setHeap s ((heap s).write r v)) s'

end

end Verif
