import Verif.Lemmas.BroadcastSeen
import Verif.Lemmas.CSEvolve
import Verif.Lemmas.ASEvolve

/-!
# A first step that raises
-/

set_option linter.unusedSectionVars false

namespace Verif

variable {K V Sub : Type} [Field K] [LinearOrder K]

theorem CSClass.evolve_first {C : CSClass K V Sub} {Φ : K → V → Except PyErr V} (L : LawfulCS C Φ) (rnd : K → K) (pyDiv : Bool) (fuel : ℕ)
    {u : V} {t0 tf h : K} (storeData : Bool) (freq : ℤ) (hh : 0 ≤ h) (hspan : rnd (t0 + h) ≤ tf) (hlt : t0 < tf) {e : PyErr}
    (he : Φ h u = .error e) (s : CSState K V Sub) :
    (C.evolve rnd pyDiv (fuel + 1) u t0 tf h storeData freq s).1 = .error e ∧
    (C.evolve rnd pyDiv (fuel + 1) u t0 tf h storeData freq s).2.t = (if storeData then [t0] else []) ∧
    (C.evolve rnd pyDiv (fuel + 1) u t0 tf h storeData freq s).2.u = (if storeData then [u] else []) := by
  rw [evolve_apply, if_neg (not_lt.mpr hspan)]
  rw [loop_step_error (e := e) (s' := { C.start u t0 tf storeData s with
      sub := (C.updateStages u h (C.start u t0 tf storeData s).sub).2 }) (hlt := hlt)]
  · exact ⟨rfl, rfl, rfl⟩
  · have hr := L.result (C.start u t0 tf storeData s).sub u h (L.reset_inv _ _)
    rw [step_apply _ _ hh, hr, he]

theorem ASClass.evolve_first {C : ASClass K V Sub} {Φ : K → V → Except PyErr (V × V)} (L : LawfulAS C Φ) (rnd : K → K) (pyDiv : Bool)
    (cfg : SolverConfig K) (fuel : ℕ) {u : V} {t0 tf : K} {hInit : Option K} (storeData : Bool) (freq : ℤ)
    (hh : 0 ≤ firstSize rnd t0 tf hInit) (hlt : t0 < tf) {e : PyErr} (he : Φ (firstSize rnd t0 tf hInit) u = .error e)
    (s : ASState K V Sub) :
    (C.evolve rnd pyDiv cfg (fuel + 1) u t0 tf hInit storeData freq s).1 = .error e ∧
    (C.evolve rnd pyDiv cfg (fuel + 1) u t0 tf hInit storeData freq s).2.t = (if storeData then [t0] else []) ∧
    (C.evolve rnd pyDiv cfg (fuel + 1) u t0 tf hInit storeData freq s).2.u = (if storeData then [u] else []) := by
  have hr := L.result (C.start u t0 tf storeData s).sub (C.start u t0 tf storeData s).accept u (firstSize rnd t0 tf hInit)
    (L.reset_ready _ _)
  rw [he] at hr
  have h1 := stepLoop_error (C := C) rnd cfg u 0 (firstSize rnd t0 tf hInit) (C.start u t0 tf storeData s) e hr
  rw [← step_nonneg _ _ _ _ hh] at h1
  rw [evolve_apply, loop]
  simp only [PyM.bind_get_apply]
  rw [if_pos (show (C.start u t0 tf storeData s).tc < (C.start u t0 tf storeData s).tf from hlt), PyM.bind_error h1]
  exact ⟨rfl, rfl, rfl⟩

end Verif
