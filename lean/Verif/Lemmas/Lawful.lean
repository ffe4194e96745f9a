import Verif.Lemmas.LawIF4
import Verif.Lemmas.LawETD4
import Verif.Lemmas.LawETD5
import Verif.Lemmas.LawIF34
import Verif.Lemmas.LawETD34
import Verif.Lemmas.LawETD35
import Verif.Lemmas.LawIF45DP
import Verif.Spec.Solvers

/-!
# Every solver implements its method
-/

set_option linter.unusedSectionVars false

namespace Verif

open Matrix

variable {ι : Type} [Fintype ι] [DecidableEq ι]

/-- Change the class and the map along equalities. -/
def LawfulCS.cast {K V Sub : Type} [Field K] [LinearOrder K] {C C' : CSClass K V Sub} {Φ Φ' : K → V → Except PyErr V}
    (hC : C = C') (hΦ : Φ = Φ') (L : LawfulCS C Φ) : LawfulCS C' Φ' where
  Inv := L.Inv
  CoefOk := L.CoefOk
  reset_inv := hC ▸ L.reset_inv
  result := hC ▸ hΦ ▸ L.result
  inv_ok := hC ▸ hΦ ▸ L.inv_ok
  inv_err := hC ▸ hΦ ▸ L.inv_err

/-- Change the map along an equality. -/
def LawfulAS.cast {K V Sub : Type} [Field K] [LinearOrder K] {C : ASClass K V Sub} {Φ Φ' : K → V → Except PyErr (V × V)}
    (hΦ : Φ = Φ') (L : LawfulAS C Φ) : LawfulAS C Φ' where
  Ready := L.Ready
  CoefOk := L.CoefOk
  reset_ready := L.reset_ready
  result := hΦ ▸ L.result
  ready_ok := hΦ ▸ L.ready_ok
  ready_err := hΦ ▸ L.ready_err

namespace CSSolver

theorem cls_eq (m : CSSolver ι) (nl : NlFunc ι) : m.cls nl = IF4.cls (m.strategy nl) := by
  rcases m with (_ | _) | ⟨_, _ | _⟩ | ⟨_, _ | _⟩ <;> rfl

/-- Every strategy implements its method. -/
noncomputable def law : (m : CSSolver ι) → (nl : NlFunc ι) → LawfulCSStrategy (m.strategy nl) nl m.CoefOk m.method
  | if4 (.diag L), nl => IF4.lawDiagonal L nl
  | if4 (.full L), nl => IF4.lawNonDiagonal L nl
  | etd4 cfg (.diag L), nl => ETD4.lawDiagonal cfg L nl
  | etd4 cfg (.full L), nl => ETD4.lawNonDiagonal cfg L nl
  | etd5 cfg (.diag L), nl => ETD5.lawDiagonal cfg L nl
  | etd5 cfg (.full L), nl => ETD5.lawNonDiagonal cfg L nl

theorem law_cost (m : CSSolver ι) (nl : NlFunc ι) : (m.law nl).cost = m.cost := by
  rcases m with (_ | _) | ⟨_, _ | _⟩ | ⟨_, _ | _⟩ <;> rfl

theorem oneStep_eq (m : CSSolver ι) (nl : NlFunc ι) : m.oneStep nl = stepMapCS m.CoefOk m.method nl := by
  funext h u
  unfold oneStep stepMapCS stepMap
  split <;> rfl

/-- Every solver class implements its one-step map. -/
noncomputable def lawful (m : CSSolver ι) (nl : NlFunc ι) : LawfulCS (m.cls nl) (m.oneStep nl) :=
  (m.law nl).lawful.cast (cls_eq m nl).symm (oneStep_eq m nl).symm

theorem lawful_coefOk (m : CSSolver ι) (nl : NlFunc ι) : (m.lawful nl).CoefOk = m.CoefOk := rfl

theorem lawful_inv (m : CSSolver ι) (nl : NlFunc ι) : (m.lawful nl).Inv = (m.law nl).Inv := rfl

theorem reset_init (m : CSSolver ι) (nl : NlFunc ι) : (m.cls nl).reset m.init = m.init := by
  rcases m with (_ | _) | ⟨_, _ | _⟩ | ⟨_, _ | _⟩ <;> rfl

theorem init_inv (m : CSSolver ι) (nl : NlFunc ι) (u : Vec ι) : (m.lawful nl).Inv m.init u := by
  rw [← m.reset_init nl]; exact (m.lawful nl).reset_inv _ _

end CSSolver

namespace ASSolver

theorem oneTrial_eq (m : ASSolver ι) (nl : NlFunc ι) :
    m.oneTrial nl = guarded m.CoefOk (coordStep m.op.emb m.op.prj m.method nl) := by
  funext h u
  unfold oneTrial guarded coordStep conj
  split <;> rfl

/-- Every solver class implements its trial map. -/
noncomputable def lawful' : (m : ASSolver ι) → (nl : NlFunc ι) →
    LawfulAS (m.cls nl) (guarded m.CoefOk (coordStep m.op.emb m.op.prj m.method nl))
  | if34 (.diag L), nl => (IF34.rawDiagonal L nl).law.lawful
  | if34 (.full L), nl => (IF34.rawNonDiagonal L nl).law.lawful
  | if34 (.eig lam S Sinv hS), nl => (IF34.rawDiagonalized lam S Sinv hS nl).law.lawful
  | etd34 cfg (.diag L), nl => (ETD34.rawDiagonal cfg L nl).law.lawful
  | etd34 cfg (.full L), nl => (ETD34.rawNonDiagonal cfg L nl).law.lawful
  | etd34 cfg (.eig lam S Sinv hS), nl => (ETD34.rawDiagonalized cfg lam S Sinv hS nl).law.lawful
  | etd35 cfg (.diag L), nl => (ETD35.rawDiagonal cfg L nl).law.lawful
  | etd35 cfg (.full L), nl => (ETD35.rawNonDiagonal cfg L nl).law.lawful
  | etd35 cfg (.eig lam S Sinv hS), nl => (ETD35.rawDiagonalized cfg lam S Sinv hS nl).law.lawful
  | if45dp L, nl => IF45DP.lawful L nl

/-- Every solver class implements its trial map. -/
noncomputable def lawful (m : ASSolver ι) (nl : NlFunc ι) : LawfulAS (m.cls nl) (m.oneTrial nl) :=
  (m.lawful' nl).cast (oneTrial_eq m nl).symm

theorem lawful_coefOk (m : ASSolver ι) (nl : NlFunc ι) : (m.lawful nl).CoefOk = m.CoefOk := by
  rcases m with (_ | _ | _) | ⟨_, _ | _ | _⟩ | ⟨_, _ | _ | _⟩ | _ <;> rfl

theorem reset_init (m : ASSolver ι) (nl : NlFunc ι) : (m.cls nl).reset m.init = m.init := by
  rcases m with (_ | _ | _) | ⟨_, _ | _ | _⟩ | ⟨_, _ | _ | _⟩ | _ <;> rfl

theorem init_ready (m : ASSolver ι) (nl : NlFunc ι) (u : Vec ι) : (m.lawful nl).Ready m.init false u := by
  rw [← m.reset_init nl]; exact (m.lawful nl).reset_ready _ _

end ASSolver

end Verif
