import Verif.Model.SolverType

/-!
# C60: the kind of a solver
-/

set_option linter.unusedSectionVars false

namespace Verif

/-- Whether a class steps adaptively (specification). -/
def SolverClass.adaptive : SolverClass → Bool
  | if4 | etd4 | etd5 => false
  | if34 | etd34 | etd35 | if45dp => true

/-- **C60.** For an instance of a solver class of rkstiff, or of any subclass whose further ancestors are classes of the user that do not
redefine the property, `SolverType.from_solver(solver)` returns, and equals `solver.solver_type`. -/
theorem C60_agree (c : SolverClass) (own : List ℕ) (ov : ℕ → Option SolverType) (h : ∀ n ∈ own, ov n = none) :
    fromSolver (own.map .user ++ c.mro) = .ok (if c.adaptive then .adaptiveStep else .constantStep) ∧
    solverTypeAttr ov (own.map .user ++ c.mro) = some (some (if c.adaptive then .adaptiveStep else .constantStep)) := by
  constructor
  · cases c <;> simp [fromSolver, SolverClass.mro, SolverClass.adaptive]
  · have h0 : (own.map ClassId.user).findSome? (ownSolverType ov) = none := by
      rw [List.findSome?_eq_none_iff]
      intro x hx
      obtain ⟨n, hn, rfl⟩ := List.mem_map.1 hx
      simp [ownSolverType, h n hn]
    rw [solverTypeAttr, List.findSome?_append, h0]
    cases c <;> rfl

/-- **C60.** `from_solver` raises `TypeError` exactly for objects that derive from neither base class. -/
theorem C60_error (mro : List ClassId) :
    fromSolver mro = .error .typeError ↔ ClassId.baseSolverAS ∉ mro ∧ ClassId.baseSolverCS ∉ mro := by
  rw [fromSolver]
  by_cases h1 : ClassId.baseSolverAS ∈ mro <;> by_cases h2 : ClassId.baseSolverCS ∈ mro <;> simp [h1, h2]

theorem C60_error_only (mro : List ClassId) (e : PyErr) (h : fromSolver mro = .error e) : e = .typeError := by
  rw [fromSolver] at h
  split_ifs at h
  exact (Except.error.inj h).symm

theorem findSome?_eq_of_prefix {ov : ℕ → Option SolverType} (hov : ∀ n, ov n = none) {p q : List ClassId} {c : ClassId}
    (h1 : ClassId.baseSolver ∉ p) (h2 : ClassId.baseSolverCS ∉ p) (h3 : ClassId.baseSolverAS ∉ p) :
    solverTypeAttr ov (p ++ c :: q) = (ownSolverType ov c).or (solverTypeAttr ov q) := by
  have h0 : p.findSome? (ownSolverType ov) = none := by
    rw [List.findSome?_eq_none_iff]
    intro x hx
    cases x with
    | user n => simp [ownSolverType, hov]
    | baseSolver => exact absurd hx h1
    | baseSolverCS => exact absurd hx h2
    | baseSolverAS => exact absurd hx h3
    | _ => rfl
  rw [solverTypeAttr, List.findSome?_append, h0, List.findSome?_cons, solverTypeAttr]
  cases ownSolverType ov c <;> rfl

/-- **C60.** For a class that derives from both base classes (which come before `BaseSolver` in every method resolution order), and in
which nobody redefines the property, `from_solver` and `solver_type` agree iff `BaseSolverAS` comes first. -/
theorem C60_both (p q r : List ClassId) (ov : ℕ → Option SolverType) (hov : ∀ n, ov n = none) (first second : ClassId)
    (h : first = .baseSolverCS ∧ second = .baseSolverAS ∨ first = .baseSolverAS ∧ second = .baseSolverCS)
    (hp : ClassId.baseSolver ∉ p ∧ ClassId.baseSolverCS ∉ p ∧ ClassId.baseSolverAS ∉ p) :
    (∃ k, fromSolver (p ++ first :: q ++ second :: r) = .ok k ∧
      solverTypeAttr ov (p ++ first :: q ++ second :: r) = some (some k)) ↔ first = .baseSolverAS := by
  have hm : ClassId.baseSolverAS ∈ p ++ first :: q ++ second :: r := by
    rcases h with ⟨-, rfl⟩ | ⟨rfl, -⟩ <;> simp
  rw [fromSolver, if_pos hm, show p ++ first :: q ++ second :: r = p ++ first :: (q ++ second :: r) by simp,
    findSome?_eq_of_prefix hov hp.1 hp.2.1 hp.2.2]
  rcases h with ⟨rfl, rfl⟩ | ⟨rfl, rfl⟩ <;> simp [ownSolverType]

/-- **C60.** In a class that derives from `BaseSolver` but from neither of the two base classes, what `super().solver_type` gives to an
override in front of `mro` is `None` (the abstract property has an empty body), and `from_solver` refuses its objects. -/
theorem C60_super (ov : ℕ → Option SolverType) (hov : ∀ n, ov n = none) (own : List ClassId) (p q : List ClassId)
    (hp : ClassId.baseSolver ∉ p) (h1 : ClassId.baseSolverCS ∉ own ++ p ++ .baseSolver :: q)
    (h2 : ClassId.baseSolverAS ∉ own ++ p ++ .baseSolver :: q) :
    solverTypeAttr ov (p ++ .baseSolver :: q) = some none ∧ fromSolver (own ++ p ++ .baseSolver :: q) = .error .typeError := by
  refine ⟨?_, (C60_error _).2 ⟨h2, h1⟩⟩
  simp only [List.mem_append, not_or] at h1 h2
  rw [findSome?_eq_of_prefix hov hp h1.1.2 h2.1.2]
  rfl

/-- **C60.** The string form of the two members. -/
theorem C60_str (s : SolverType) : s.str = match s with | .constantStep => "Constant Step" | .adaptiveStep => "Adaptive Step" := by
  cases s <;> decide

/-- A subclass of ETD35 by the user. -/
example : fromSolver [.user 7, .solver .etd35, .etdas, .baseSolverAS, .baseSolver, .abc, .object] = .ok .adaptiveStep :=
  (C60_agree .etd35 [7] (fun _ => none) (by simp)).1

/-- `class Both(BaseSolverCS, BaseSolverAS)`: the two answers differ. -/
example : ¬ ∃ k, fromSolver [.user 0, .baseSolverCS, .baseSolverAS, .baseSolver, .abc, .object] = .ok k ∧
    solverTypeAttr (fun _ => none) [.user 0, .baseSolverCS, .baseSolverAS, .baseSolver, .abc, .object] = some (some k) := by
  have := C60_both [.user 0] [] [.baseSolver, .abc, .object] (fun _ => none) (fun _ => rfl) .baseSolverCS .baseSolverAS
    (.inl ⟨rfl, rfl⟩) (by simp)
  exact fun h => by simpa using this.1 h

/-- An override in a direct subclass of `BaseSolver`, seen from that class. -/
example : solverTypeAttr (fun _ => none) [.baseSolver, .abc, .object] = some none :=
  (C60_super (fun _ => none) (fun _ => rfl) [.user 0] [] [.abc, .object] (by simp) (by simp) (by simp)).1

/-- A direct subclass of `BaseSolver`. -/
example : fromSolver [.user 0, .baseSolver, .abc, .object] = .error .typeError := (C60_error _).2 (by simp)

/-- A class that is no solver. -/
example (e : PyErr) (h : fromSolver [.user 0, .object] = .error e) : e = .typeError := C60_error_only _ e h

example : SolverType.adaptiveStep.str = "Adaptive Step" := C60_str .adaptiveStep

end Verif
