import Verif.Lemmas.ArraysRel

/-!
# The exact operations on `(N,)` arrays, as an instance of operations on arrays
-/

set_option linter.unusedSectionVars false

namespace Verif

open Attr

variable {ι Coef : Type} [Fintype ι] [DecidableEq ι]

/-- Operations that never raise. -/
noncomputable def ArrOps.exact (ι : Type) [Fintype ι] : ArrOps ι (Vec ι) where
  add v w := .ok (v + w)
  sub v w := .ok (v - w)
  mul v w := .ok (v * w)
  neg v := .ok (-v)
  quot v n := .ok (v / bc n)
  scalar z := bc z
  vec v := v
  dot M v := .ok (M.mulVec v)

theorem Exp.evalA_exact (c : Coef) (h : ℝ) (x : Attr → Vec ι) (e : Exp Coef ι) :
    e.evalA (ArrOps.exact ι) c h x = .ok (e.eval Arith.exact c h x) := by
  induction e with
  | var _ | cof _ | size | num _ => rfl
  | add e f ie iff | sub e f ie iff | mul e f ie iff => simp only [evalA, ie, iff]; rfl
  | neg e ih | over e _ ih | dot _ e ih | fix _ e ih => simp only [evalA, ih]; rfl

theorem avals_exact (c : Coef) (h : ℝ) (nl : NlFunc ι) (is : List (RInstr Coef ι)) (x : Attr → Vec ι) :
    avals (ArrOps.exact ι) c h nl is x = vals nl (is.map (RInstr.inst Arith.exact c h)) x := by
  induction is generalizing x with
  | nil => rfl
  | cons i is ih =>
    cases i with
    | set a e => simp only [avals, Exp.evalA_exact, List.map_cons, RInstr.inst, vals, ih]
    | call a b =>
      simp only [avals, List.map_cons, RInstr.inst, vals, ih]
      cases nl (x b) <;> rfl

theorem RCSProg.aStep_exact {P : RCSProg Coef ι} (hP : P.Ok) (coefs : ℝ → Except PyErr Coef) (nl : NlFunc ι) (h : ℝ) (u : Vec ι) :
    P.aStep ⟨ArrOps.exact ι, coefs⟩ nl h u = P.oneStep ⟨Arith.exact, coefs⟩ nl h u := by
  unfold aStep oneStep
  refine congrArg _ (funext fun c => congrArg _ (funext fun n => ?_))
  simp only [avals_exact]
  have := vals_congr Arith.exact c h nl P.stages [.u, NL1] hP.reads (x := Function.update (fun _ => u) NL1 n)
    (y := Function.update (argOnly u) NL1 n) (by
      intro a ha
      fin_cases ha
      · rw [Function.update_of_ne (by decide), Function.update_of_ne (by decide)]; simp [argOnly]
      · simp)
  revert this
  cases vals nl (P.stages.map (RInstr.inst Arith.exact c h)) (Function.update (fun _ => u) NL1 n) <;>
    cases vals nl (P.stages.map (RInstr.inst Arith.exact c h)) (Function.update (argOnly u) NL1 n) <;> intro this <;>
    simp only [OutEq] at this
  · rw [this]
  · simp only [Except.map]; rw [this k (List.mem_append.mpr (.inl hP.out))]

theorem RASProg.aTrial_exact {P : RASProg Coef ι} (hP : P.Ok) (coefs : ℝ → Except PyErr Coef) (nl : NlFunc ι) (h : ℝ) (u : Vec ι) :
    P.aTrial ⟨ArrOps.exact ι, coefs⟩ (fun _ _ => .ok ()) nl h u = P.oneTrial ⟨Arith.exact, coefs⟩ nl h u := by
  unfold aTrial oneTrial aload load
  refine congrArg _ (funext fun c => ?_)
  simp only [avals_exact]
  have h1 := vals_congr Arith.exact () 0 nl P.init [.u] hP.init (x := fun _ => u) (y := argOnly u) (by
      intro a ha
      fin_cases ha
      simp [argOnly])
  revert h1
  cases vals nl (P.init.map (RInstr.inst Arith.exact () 0)) (fun _ => u) <;>
    cases vals nl (P.init.map (RInstr.inst Arith.exact () 0)) (argOnly u) <;> intro h1 <;> simp only [OutEq] at h1
  · rw [h1]; rfl
  rename_i x y
  simp only [Except.bind]
  have h2 := vals_congr Arith.exact c h nl P.stages (.u :: P.live) hP.reads (x := x) (y := y) (by
    intro a ha
    refine h1 a (List.mem_append.mpr ?_)
    rcases List.mem_cons.mp ha with rfl | ha
    · simp
    · exact .inl (hP.init_live a ha))
  revert h2
  cases vals nl (P.stages.map (RInstr.inst Arith.exact c h)) x <;>
    cases vals nl (P.stages.map (RInstr.inst Arith.exact c h)) y <;> intro h2 <;> simp only [OutEq] at h2
  · rw [h2]; rfl
  · simp only [Except.map]
    rw [h2 P.out (List.mem_append.mpr (.inl hP.out)), h2 err (List.mem_append.mpr (.inl hP.err))]

end Verif
