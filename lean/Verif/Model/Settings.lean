import Verif.Model.Solvers

/-!
# Assigning to the attributes of `etd_config` of a live solver

The strategy objects of the ETD solvers keep a reference to the `ETDConfig` (rkstiff/etd4.py:78, 224,
rkstiff/etd5.py:91, 331, rkstiff/etd34.py:65, 338, rkstiff/etd35.py:126, 570) and read its attributes only while they compute
coefficients (e.g. rkstiff/etd4.py:100, 120-130, 248-262).  An assignment such as `solver.etd_config.contour_radius = 2.0`
therefore changes nothing of the solver object but the values it will read later: the object goes on, in the same
state, as a solver with other settings.
-/

set_option linter.unusedSectionVars false

namespace Verif

open Matrix

variable {ι : Type} [Fintype ι] [DecidableEq ι]

namespace CSSolver

/-- The values of the attributes of `etd_config` (IF4 has none; the default values stand in). -/
noncomputable def etd : CSSolver ι → ETDConfig ℝ
  | if4 _ => ⟨1 / 100, 32, 1⟩
  | etd4 cfg _ => cfg
  | etd5 cfg _ => cfg

/-- The solver with other values of the attributes of `etd_config`. -/
def withEtd (c : ETDConfig ℝ) : CSSolver ι → CSSolver ι
  | if4 L => if4 L
  | etd4 _ L => etd4 c L
  | etd5 _ L => etd5 c L

/-- Attributes of the subclass after assignments to the attributes of `etd_config` (rkstiff/etd.py:97-131): unchanged. -/
def keepSub (c : ETDConfig ℝ) : (m : CSSolver ι) → m.Sub → (m.withEtd c).Sub
  | if4 (.diag _) => id
  | if4 (.full _) => id
  | etd4 _ (.diag _) => id
  | etd4 _ (.full _) => id
  | etd5 _ (.diag _) => id
  | etd5 _ (.full _) => id

/-- The object after assignments to the attributes of `etd_config`: unchanged. -/
def keep (c : ETDConfig ℝ) (m : CSSolver ι) (s : m.State) : (m.withEtd c).State :=
  ⟨s.t, s.u, s.tf, s.tc, m.keepSub c s.sub⟩

end CSSolver

namespace ASSolver

/-- The values of the attributes of `etd_config` (IF34 and IF45DP have none; the default values stand in). -/
noncomputable def etd : ASSolver ι → ETDConfig ℝ
  | if34 _ => ⟨1 / 100, 32, 1⟩
  | etd34 cfg _ => cfg
  | etd35 cfg _ => cfg
  | if45dp _ => ⟨1 / 100, 32, 1⟩

/-- The solver with other values of the attributes of `etd_config`. -/
def withEtd (c : ETDConfig ℝ) : ASSolver ι → ASSolver ι
  | if34 L => if34 L
  | etd34 _ L => etd34 c L
  | etd35 _ L => etd35 c L
  | if45dp L => if45dp L

/-- Attributes of the subclass after assignments to the attributes of `etd_config` (rkstiff/etd.py:97-131): unchanged. -/
def keepSub (c : ETDConfig ℝ) : (m : ASSolver ι) → m.Sub → (m.withEtd c).Sub
  | if34 (.diag _) => id
  | if34 (.full _) => id
  | if34 (.eig _ _ _ _) => id
  | etd34 _ (.diag _) => id
  | etd34 _ (.full _) => id
  | etd34 _ (.eig _ _ _ _) => id
  | etd35 _ (.diag _) => id
  | etd35 _ (.full _) => id
  | etd35 _ (.eig _ _ _ _) => id
  | if45dp _ => id

/-- The object after assignments to the attributes of `etd_config`: unchanged. -/
def keep (c : ETDConfig ℝ) (m : ASSolver ι) (s : m.State) : (m.withEtd c).State :=
  ⟨s.t, s.u, s.tf, s.tc, s.accept, m.keepSub c s.sub, s.trials⟩

end ASSolver

end Verif
