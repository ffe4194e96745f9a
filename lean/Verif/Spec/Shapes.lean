import Verif.Model.Broadcast

/-!
# Arrays of any shape (specification)
-/

set_option linter.unusedSectionVars false

namespace Verif

variable {N : ℕ} {ι κ : Type}

/-- The indices of the entries of an array of shape `s`. -/
abbrev Cells (s : List ℕ) : Type := {i : List ℕ // i ∈ indices s}

/-- All entries. -/
def NdArr.flat (s : List ℕ) (x : NdArr ℂ) : Vec (Cells s) := fun i => x.get i.1

/-- The row `x[b]` of an array with last axis of length `N`. -/
def NdArr.row (N : ℕ) (b : List ℕ) (x : NdArr ℂ) : Vec (Fin N) := fun j => x.get (b ++ [j.val])

/-- The column `x[:, b]` of an array of shape `(N, B)`. -/
def NdArr.col (N : ℕ) (b : ℕ) (x : NdArr ℂ) : Vec (Fin N) := fun j => x.get [j.val, b]

/-- On arrays of shape `s`, `nl` returns arrays of shape `s` and computes `nl'` on the part `p` of the array. -/
def ActsOn {V : Type} (s : List ℕ) (p : NdArr ℂ → V) (nl : NdArr ℂ → Except PyErr (NdArr ℂ)) (nl' : V → Except PyErr V) : Prop :=
  ∀ x, x.shape = s → (nl x).map p = nl' (p x) ∧ ∀ y, nl x = .ok y → y.shape = s

/-- An `evolve` on arrays of shape `s` (return value `r`, then `solver.t` and `solver.u`), of which one looks at the part `p`, is the
same as another one: same exception or result, same times, same stored arrays. -/
structure SeenAs {V : Type} (s : List ℕ) (p : NdArr ℂ → V) (r : Except PyErr (Option (NdArr ℂ))) (t : List ℝ) (u : List (NdArr ℂ))
    (r' : Except PyErr (Option V)) (t' : List ℝ) (u' : List V) : Prop where
  result : r.map (Option.map p) = r'
  shape : ∀ y, r = .ok (some y) → y.shape = s
  times : t = t'
  stored : u.map p = u'
  shapes : ∀ y ∈ u, y.shape = s

/-- A solver of the same class and with the same configuration for another operator. -/
def CSSolver.withOp : CSSolver ι → LinOp κ → CSSolver κ
  | if4 _, L => if4 L
  | etd4 cfg _, L => etd4 cfg L
  | etd5 cfg _, L => etd5 cfg L

/-- A solver of the same class and with the same configuration for another operator (IF45DP needs a one-dimensional one). -/
def ASSolver.withDiag [Fintype ι] [DecidableEq ι] [Fintype κ] [DecidableEq κ] : ASSolver ι → Vec κ → ASSolver κ
  | if34 _, L => if34 (.diag L)
  | etd34 cfg _, L => etd34 cfg (.diag L)
  | etd35 cfg _, L => etd35 cfg (.diag L)
  | if45dp _, L => if45dp L

/-- The same solver with other eigenvalues in place of those that `np.linalg.eig` returned. -/
def ASSolver.withEigenvalues [Fintype ι] [DecidableEq ι] : ASSolver ι → Vec ι → ASSolver ι
  | if34 (.eig _ S T hS), l => if34 (.eig l S T hS)
  | etd34 cfg (.eig _ S T hS), l => etd34 cfg (.eig l S T hS)
  | etd35 cfg (.eig _ S T hS), l => etd35 cfg (.eig l S T hS)
  | m, _ => m

theorem mem_indices {s i : List ℕ} : i ∈ indices s ↔ List.Forall₂ (· < ·) i s := by
  induction s generalizing i with
  | nil => simp [indices]
  | cons d s ih =>
    simp only [indices, List.mem_flatMap, List.mem_range, List.mem_map, ih]
    constructor
    · rintro ⟨a, ha, b, hb, rfl⟩
      exact .cons ha hb
    · intro h
      cases h with
      | cons ha hb => exact ⟨_, ha, _, hb, rfl⟩

/-- The last index of an entry. -/
def Cells.last {B : List ℕ} (i : Cells (B ++ [N])) : Fin N :=
  ⟨i.1.getLastD 0, by
    obtain ⟨i, hi⟩ := i
    rw [mem_indices] at hi
    have := List.rel_reverse hi
    simp only [List.reverse_append, List.reverse_cons, List.reverse_nil, List.nil_append, List.cons_append] at this
    cases hr : i.reverse with
    | nil => rw [hr] at this; cases this
    | cons a l =>
      rw [hr] at this
      have e : i = l.reverse ++ [a] := by rw [← List.reverse_reverse i, hr]; simp
      cases this with
      | cons h _ => simpa [e] using h⟩

end Verif
