import Verif.Model.NonFinite

/-!
# Finite and non-finite entries
-/

namespace Verif

/-- Neither infinite nor `nan`. -/
def Ext.IsFinite (x : Ext ℝ) : Prop := ∃ a, x = .fin a

/-- Both components are finite. -/
def CFl.IsFinite (z : CFl) : Prop := z.re.IsFinite ∧ z.im.IsFinite

/-- Entry `i` counts for the error: it is not negligible compared with the largest. -/
def Counts {ι : Type} [Fintype ι] (rnd : ℝ → Ext ℝ) (cfg : SolverConfig ℝ) (u : ι → CFl) (i : ι) : Prop :=
  Ext.lt (.fin cfg.adapt_cutoff) (.div rnd ((u i).abs rnd) (flMax (Finset.univ.toList.map fun i => (u i).abs rnd))) = true

end Verif
