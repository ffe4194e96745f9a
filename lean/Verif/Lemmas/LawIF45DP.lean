import Verif.Lemmas.BuildAS
import Verif.Lemmas.LawIF4
import Verif.Model.IF45DP

/-!
# IF45DP implements the Lawson transform of the Dormand–Prince method

The error weights are those of the code, which differ from Dormand–Prince in one entry (`17/1920` instead of
`71/1920`).
-/

set_option linter.unusedSectionVars false

namespace Verif

open Matrix

variable {ι : Type} [Fintype ι] [DecidableEq ι]

theorem lawson_dp_fsal (r4 : ℝ) (L : Mat ι) (h : ℝ) : IsFSAL (lawson (dpWith r4) L h) 6 where
  s_eq := rfl
  first := by simp [lawson, dpWith, dormandPrince]
  Eout := by simp [lawson, dpWith, dormandPrince]
  B j hj := by
    interval_cases j <;> simp [lawson, dpWith, dormandPrince]
  Blast := by simp [lawson, dpWith, dormandPrince]

namespace IF45DP

/-- IF45DP as a strategy object. -/
noncomputable def strategy (L : Vec ι) (nl : NlFunc ι) : ASStrategy (If45dpCoef ι) ι where
  updateCoeffs h := PyM.modify fun m => { m with coef := coefs L h }
  init u := do
    let n ← ASMethod.call nl u
    PyM.modify fun s => { s with NL1 := n }
  updateStages u _ a := do
    if a then PyM.modify fun s => { s with NL1 := s.NLlast }
    stages nl u

theorem updateCoeffs_eq (L : Vec ι) (nl : NlFunc ι) (h : ℝ) (s) :
    updateCoeffs L h s = IF34.updateCoeffs (strategy L nl) h s := rfl

theorem updateStages_eq (L : Vec ι) (nl : NlFunc ι) (u : Vec ι) (h : ℝ) (a : Bool)
    (s : Wrap (ASMethod (If45dpCoef ι) ι)) (hs : s.n1init = false → a = false) :
    updateStages L nl u h a s = IF34.updateStages (strategy L nl) u h a s := by
  unfold updateStages IF34.updateStages
  have hk : ∃ s', updateCoeffs L h s = (.ok (), s') ∧ s'.n1init = s.n1init := by
    unfold updateCoeffs
    simp only [PyM.bind_get_apply]
    split
    · exact ⟨s, rfl, rfl⟩
    · exact ⟨_, rfl, rfl⟩
  obtain ⟨s', h1, h2⟩ := hk
  rw [PyM.bind_ok h1, PyM.bind_ok (s' := s') (a := ()) (by rw [← updateCoeffs_eq]; exact h1)]
  simp only [PyM.bind_get_apply]
  rw [← h2] at hs
  cases hn : s'.n1init with
  | false =>
    obtain rfl := hs hn
    simp [strategy]
  | true =>
    cases a <;> simp [strategy] <;> rfl

/-- IF45DP is Lawson–Dormand–Prince. -/
noncomputable def raw (L : Vec ι) (nl : NlFunc ι) :
    FsalAS (strategy L nl) nl (fun _ => True) (lawson (dpWith (17 / 1920)) (Matrix.diagonal L)) false id id :=
  FsalAS.mk (fun _ => rfl) (coefs L) 6 (fun h => (lawson_dp_fsal _ _ h).first)
    (fun h => by simp [lawson, dpWith, dormandPrince])
    (fun h s _ => rfl) (fun h s hc => absurd trivial hc)
    (fun u s n hn => by simp [strategy, PyM.bind_apply, ASMethod.call, hn])
    (fun u s e hn => by simp [strategy, PyM.bind_apply, ASMethod.call, hn])
    (fun u h s => rfl)
    (fun u h s hc => by
      rw [conj_id]
      refine as_stages6 (u := u) (lawson_dp_fsal _ _ h)
        (s.coef.EL15 * u + s.coef.a21 * s.NL1)
        (fun a => s.coef.EL310 * u + s.coef.a31 * s.NL1 + s.coef.a32 * a)
        (fun a b => s.coef.EL45 * u + s.coef.a41 * s.NL1 + s.coef.a42 * a + s.coef.a43 * b)
        (fun a b c => s.coef.EL89 * u + s.coef.a51 * s.NL1 + s.coef.a52 * a + s.coef.a53 * b + s.coef.a54 * c)
        (fun a b c d => s.coef.EL * u + s.coef.a61 * s.NL1 + s.coef.a62 * a + s.coef.a63 * b + s.coef.a64 * c +
          s.coef.a65 * d)
        (fun _ b c d x => s.coef.EL * u + s.coef.a71 * s.NL1 + s.coef.a73 * b + s.coef.a74 * c + s.coef.a75 * d +
          bc s.coef.a76 * x)
        (fun _ b c d x y => s.coef.r1 * s.NL1 + s.coef.r3 * b + s.coef.r4 * c + s.coef.r5 * d + bc s.coef.r6 * x +
          bc s.coef.r7 * y)
        ?_ ?_ ?_ ?_ ?_ ?_ ?_ s ((strategy L nl).updateStages u h false) rfl
      all_goals
        intros
        funext i
        simp [lawson, dpWith, dormandPrince, expm_diagonal, hc, coefs, mulVec_diagonal, smul_mulVec, npExp_apply,
          bc_apply]
        ring_nf)

/-- The strategy form of IF45DP is lawful. -/
noncomputable def law (L : Vec ι) (nl : NlFunc ι) :
    LawfulASStrategy (strategy L nl) nl (fun _ => True)
      (coordStep id id (lawson (dpWith (17 / 1920)) (Matrix.diagonal L)) nl) := (raw L nl).law

/-- The class IF45DP implements the same trial map. -/
noncomputable def lawful (L : Vec ι) (nl : NlFunc ι) : LawfulAS (cls L nl)
    (guarded (fun _ => True) (coordStep id id (lawson (dpWith (17 / 1920)) (Matrix.diagonal L)) nl)) where
  Ready := (law L nl).lawful.Ready
  CoefOk := (law L nl).lawful.CoefOk
  reset_ready := (law L nl).lawful.reset_ready
  result s a u h hr := by
    have := (law L nl).lawful.result s a u h hr
    rw [← this]
    exact congrArg Prod.fst (updateStages_eq L nl u h a s hr.2.1)
  ready_ok s a u h r hr hv := by
    have := (law L nl).lawful.ready_ok s a u h r hr hv
    have e : (cls L nl).updateStages u h a s = (IF34.cls (strategy L nl)).updateStages u h a s :=
      updateStages_eq L nl u h a s hr.2.1
    rw [e]; exact this
  ready_err s a u h e hr hc hv := by
    have := (law L nl).lawful.ready_err s a u h e hr hc hv
    have e' : (cls L nl).updateStages u h a s = (IF34.cls (strategy L nl)).updateStages u h a s :=
      updateStages_eq L nl u h a s hr.2.1
    rw [e']; exact this

end IF45DP

end Verif
