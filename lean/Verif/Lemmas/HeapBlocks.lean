import Verif.Spec.InPlace
import Verif.Lemmas.Heap
import Verif.Lemmas.HeapSolvers

/-!
# Running assignments with a nonlinear function that works in place
-/

set_option linter.unusedSectionVars false

namespace Verif

open Attr

variable {ι : Type} {Coef : Type}

/-- The expression does not read the attributes marked in `D`. -/
def Off (D : Attr → Bool) (e : (Attr → Vec ι) → Vec ι) : Prop := ∀ x y : Attr → Vec ι, (∀ a, D a = false → x a = y a) → e x = e y

/-- Assignments in which `nl_func` is only called with an array that was made just before; `D` marks the attributes whose
array was the argument of a call since it was made, before and (second argument) after. -/
inductive Blocks : (Attr → Bool) → (Attr → Bool) → List (Instr ι) → Prop
  | nil {D} : Blocks D D []
  | set {D D' x e is} : Off D e → Blocks (Function.update D x false) D' is → Blocks D D' (.set x e :: is)
  | call {D D' x y e is} : Off D e → Blocks (Function.update (Function.update D y true) x false) D' is →
    Blocks D D' (.set y e :: .call x y :: is)

/-- The attributes marked in `D` refer to arrays that hold `g` of what they should. -/
structure Bends (g : Vec ι → Vec ι) (D : Attr → Bool) (s : HMethod Coef ι) (q : RState ι) : Prop where
  bdd : ∀ a, s.attr a < s.heap.next
  val : ∀ a, s.val a = if D a then g (q.val a) else q.val a

theorem HMethod.run_blocks (g : Vec ι → Vec ι) {D D' : Attr → Bool} {is : List (Instr ι)} (hb : Blocks D D' is) :
    ∀ (s : HMethod Coef ι) (q : RState ι), Bends g D s q →
    ∃ s' q', HMethod.run (inPlaceNl g) is s = (.ok (), s') ∧ RState.run (total g) is q = (.ok (), q') ∧ Bends g D' s' q' ∧
      s'.coef = s.coef ∧ s.heap.next ≤ s'.heap.next ∧ (∀ a, a < s.heap.next → s'.heap.cell a = s.heap.cell a) ∧
      ∀ a, s.heap.next ≤ s'.attr a ∨ (assigns a is = false ∧ s'.attr a = s.attr a) := by
  induction hb with
  | nil => intro s q h; exact ⟨s, q, rfl, rfl, h, rfl, le_rfl, fun _ _ => rfl, fun a => .inr ⟨rfl, rfl⟩⟩
  | @set D D' x e is he hb ih =>
    intro s q h
    have hv : e s.val = e q.val := he _ _ fun a ha => by rw [h.val a, ha]; rfl
    obtain ⟨s', q', h1, h2, h3, h4, h5, h6, h7⟩ := ih
      ⟨s.coef, Function.update s.attr x s.heap.next, s.heap.alloc (e s.val), s.evals⟩
      ⟨Function.update q.val x (e q.val), q.evals⟩
      ⟨fun a => by
        have := h.bdd a
        by_cases ha : a = x
        · subst ha; simp [Heap.alloc]
        · simp [Heap.alloc, ha]; omega,
       fun a => by
        by_cases ha : a = x
        · subst ha; simp [HMethod.val, Heap.alloc, hv]
        · have h8 := h.val a
          have h9 : s.attr a ≠ s.heap.next := (h.bdd a).ne
          simp only [HMethod.val] at h8
          simp [HMethod.val, Heap.alloc, ha, h9, h8]⟩
    simp only [Heap.alloc] at h5 h6 h7
    refine ⟨s', q', ?_, ?_, h3, h4, by omega, fun a ha => ?_, fun a => ?_⟩
    · rw [← h1]; simp [HMethod.run, HMethod.exec, PyM.bind_apply]
    · rw [← h2]; simp [RState.run, RState.exec, PyM.bind_apply]
    · rw [h6 a (by omega)]
      simp [ha.ne]
    · rcases h7 a with h8 | ⟨h8, h9⟩
      · left; omega
      · by_cases ha : x = a
        · subst ha
          left; rw [h9]; simp
        · have ha' : a ≠ x := fun h => ha h.symm
          right
          rw [h9]
          simp [assigns, h8, ha, ha']
  | @call D D' x y e is he hb ih =>
    intro s q h
    have hv : e s.val = e q.val := he _ _ fun a ha => by rw [h.val a, ha]; rfl
    obtain ⟨s', q', h1, h2, h3, h4, h5, h6, h7⟩ := ih
      ⟨s.coef, Function.update (Function.update s.attr y s.heap.next) x s.heap.next,
        (s.heap.alloc (e s.val)).write s.heap.next (g (e s.val)), s.evals + 1⟩
      ⟨Function.update (Function.update q.val y (e q.val)) x (g (e q.val)), q.evals + 1⟩
      ⟨fun a => by
        have := h.bdd a
        by_cases ha : a = x
        · subst ha; simp [Heap.alloc, Heap.write]
        · by_cases hy : a = y
          · subst hy; simp [Heap.alloc, Heap.write, ha]
          · simp [Heap.alloc, Heap.write, ha, hy]; omega,
       fun a => by
        by_cases ha : a = x
        · subst ha; simp [HMethod.val, Heap.write, hv]
        · by_cases hy : a = y
          · subst hy; simp [HMethod.val, Heap.write, hv, ha]
          · have h8 := h.val a
            have h9 : s.attr a ≠ s.heap.next := (h.bdd a).ne
            simp only [HMethod.val] at h8
            simp [HMethod.val, Heap.alloc, Heap.write, ha, hy, h9, h8]⟩
    simp only [Heap.alloc, Heap.write] at h5 h6 h7
    refine ⟨s', q', ?_, ?_, h3, h4, by omega, fun a ha => ?_, fun a => ?_⟩
    · rw [← h1]; simp [HMethod.run, HMethod.exec, PyM.bind_apply, inPlaceNl, Heap.alloc, Heap.write]
    · rw [← h2]; simp [RState.run, RState.exec, PyM.bind_apply, total]
    · rw [h6 a (by omega)]
      simp [ha.ne]
    · rcases h7 a with h8 | ⟨h8, h9⟩
      · left; omega
      · by_cases ha : x = a
        · subst ha
          left; rw [h9]; simp
        · have ha' : a ≠ x := fun h => ha h.symm
          by_cases hy : y = a
          · subst hy
            left; rw [h9]; simp [ha']
          · have hy' : a ≠ y := fun h => hy h.symm
            right
            rw [h9]
            simp [assigns, h8, ha, ha', hy, hy']

end Verif
