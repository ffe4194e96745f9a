import Verif.Lemmas.Conj
import Verif.Props.Schemes
import Verif.Props.Adaptive

/-!
# Properties of arrays that a step preserves hold in whole runs
-/

set_option linter.unusedSectionVars false

namespace Verif

open Matrix

variable {ι : Type} [Fintype ι] [DecidableEq ι]

theorem forall2_eq_and {α : Type} {P : α → Prop} {x y : List α} (h : List.Forall₂ (fun a b => b = a ∧ P a) x y) :
    ∀ a ∈ x, P a := by
  induction h with
  | nil => simp
  | cons h1 _ ih =>
    intro a ha
    rcases List.mem_cons.mp ha with rfl | ha
    · exact h1.2
    · exact ih a ha

theorem relE_self {α : Type} {P : α → Prop} (x : Except PyErr α) (h : ∀ a, x = .ok a → P a) :
    RelE (fun a b => b = a ∧ P a) x x := by
  cases x with
  | error e => exact rfl
  | ok a => exact ⟨rfl, h a rfl⟩

/-- A property that every step of a constant-step solver preserves. -/
theorem CSSolver.evolve_invariant (m : CSSolver ι) (nl : NlFunc ι) (P : Vec ι → Prop)
    (rnd : ℝ → ℝ) (pyDiv : Bool) (fuel : ℕ) (u : Vec ι) (hu : P u)
    (t0 tf h : ℝ) (hP : ∀ u v, P u → m.oneStep nl h u = .ok v → P v) (storeData : Bool) (freq : ℤ) (s : m.State) :
    (∀ v, (m.evolve nl rnd pyDiv fuel u t0 tf h storeData freq s).1 = .ok (some v) → P v) ∧
    ∀ v ∈ (m.evolve nl rnd pyDiv fuel u t0 tf h storeData freq s).2.u, P v := by
  have := CSClass.evolve_rel (m.lawful nl) (m.lawful nl) (fun a b => b = a ∧ P a) rnd pyDiv fuel u u t0 tf h
    (fun u u' hu => by
      obtain ⟨rfl, hu⟩ := hu
      exact relE_self _ fun a ha => hP _ a hu ha) storeData freq s s ⟨rfl, hu⟩
  refine ⟨fun v hv => ?_, forall2_eq_and this.2.2⟩
  obtain ⟨b, _, hr⟩ := this.1.ok hv
  cases b with
  | none => exact hr.elim
  | some b => exact hr.2

theorem CSSolver.step_invariant (m : CSSolver ι) (nl : NlFunc ι) (P : Vec ι → Prop)
    (hP : ∀ h u v, P u → m.oneStep nl h u = .ok v → P v) (u : Vec ι) (hu : P u) (h : ℝ) {s : m.State}
    (hs : (m.lawful nl).Inv s.sub u) (v : Vec ι) (hv : (m.step nl u h s).1 = .ok v) : P v := by
  have := CSClass.step_rel (m.lawful nl) (m.lawful nl) (fun a b => b = a ∧ P a)
    (fun h u u' hu => by
      obtain ⟨rfl, hu⟩ := hu
      exact relE_self _ fun a ha => hP h _ a hu ha) h u u s s ⟨rfl, hu⟩ hs hs
  obtain ⟨b, _, hr⟩ := this.ok hv
  exact hr.2

/-- A property that every trial of an adaptive solver preserves. -/
theorem ASSolver.evolve_invariant (m : ASSolver ι) (nl : NlFunc ι) (P : Vec ι → Prop)
    (hP : ∀ h u r, P u → m.oneTrial nl h u = .ok r → P r.1) (rnd : ℝ → ℝ) (pyDiv : Bool) (cfg : SolverConfig ℝ) (fuel : ℕ)
    (u : Vec ι) (hu : P u) (t0 tf : ℝ) (hInit : Option ℝ) (storeData : Bool) (freq : ℤ) (s : m.State) :
    (∀ v, (m.evolve nl rnd pyDiv cfg fuel u t0 tf hInit storeData freq s).1 = .ok (some v) → P v) ∧
    ∀ v ∈ (m.evolve nl rnd pyDiv cfg fuel u t0 tf hInit storeData freq s).2.u, P v := by
  have := ASClass.evolve_rel (m.lawful nl) (m.lawful nl) (fun a b => b = a ∧ P a) (fun r r' => r' = r ∧ P r.1)
    (fun r r' h => ⟨by rw [h.1], h.2⟩)
    (fun h u u' hu => by
      obtain ⟨rfl, hu⟩ := hu
      exact relE_self _ fun a ha => hP h _ a hu ha) rnd pyDiv cfg (fun r r' h => by rw [h.1]) fuel u u t0 tf hInit storeData
      freq s s ⟨rfl, hu⟩
  refine ⟨fun v hv => ?_, forall2_eq_and this.2.2⟩
  obtain ⟨b, _, hr⟩ := this.1.ok hv
  cases b with
  | none => exact hr.elim
  | some b => exact hr.2

theorem ASSolver.step_invariant (m : ASSolver ι) (nl : NlFunc ι) (P : Vec ι → Prop)
    (hP : ∀ h u r, P u → m.oneTrial nl h u = .ok r → P r.1) (rnd : ℝ → ℝ) (cfg : SolverConfig ℝ) (u : Vec ι) (hu : P u)
    (h : ℝ) {s : m.State} (hs : (m.lawful nl).Ready s.sub s.accept u) (v : Vec ι) (h1 h2 : ℝ)
    (hv : (m.step nl rnd cfg u h s).1 = .ok (v, h1, h2)) : P v := by
  have := ASClass.step_rel (m.lawful nl) (m.lawful nl) (fun a b => b = a ∧ P a) (fun r r' => r' = r ∧ P r.1)
    (fun r r' h => ⟨by rw [h.1], h.2⟩)
    (fun h u u' hu => by
      obtain ⟨rfl, hu⟩ := hu
      exact relE_self _ fun a ha => hP h _ a hu ha) rnd cfg (fun r r' h => by rw [h.1]) u u h s s ⟨rfl, hu⟩ hs hs
  obtain ⟨b, _, hr⟩ := this.ok hv
  exact hr.1.2

/-! ### A mode that the equation leaves alone -/

/-- Equal in mode `p`; the first is real in mode `q`. -/
def KeepRel (p q : ι) (v v' : Vec ι) : Prop := v p = v' p ∧ (v q).im = 0

theorem keepRel_linear (p q : ι) : RealLinear (KeepRel p q) where
  zero := ⟨rfl, by simp⟩
  add := fun h1 h2 => ⟨by simp [h1.1, h2.1], by simp [h1.2, h2.2]⟩
  smul := fun r _ _ h => ⟨by simp [h.1], by simp [h.2]⟩

theorem MatRel.keep (p q : ι) (d : Vec ι) (hd : (d q).im = 0) : MatRel (KeepRel p q) (diagonal d) (diagonal d) :=
  ⟨fun v v' h => ⟨by rw [mulVec_diagonal, mulVec_diagonal, h.1], by rw [mulVec_diagonal]; simp [Complex.mul_im, hd, h.2]⟩⟩

theorem phiMode_real (cut R : ℝ) (N k : ℕ) (c : ℝ) {z : ℂ} (hz : z.im = 0) : (phiMode cut R N k c z).im = 0 := by
  rw [← Complex.conj_eq_iff_im] at hz ⊢
  have := phiMode_conj cut R N k c z
  rw [Complex.star_def, hz] at this
  exact this.symm

theorem LinOp.keep_rel (p q : ι) {L : Vec ι} (hL : (L q).im = 0) : (LinOp.diag L).Rel (KeepRel p q) (LinOp.diag L) where
  exp := fun θ => by
    show MatRel _ (expm (diagonal L) θ) (expm (diagonal L) θ)
    rw [expm_diagonal]
    refine MatRel.keep p q _ ?_
    have : (θ : ℂ) * L q = ((θ * (L q).re : ℝ) : ℂ) := by
      apply Complex.ext <;> simp [hL]
    rw [this, ← Complex.ofReal_exp, Complex.ofReal_im]
  phi := fun cfg h k c => MatRel.keep p q _ (phiMode_real _ _ _ _ _ (by simp [Complex.mul_im, hL]))
  ok := fun _ _ _ => Iff.rfl

theorem ASOp.keep_rel (p q : ι) {L : Vec ι} (hL : (L q).im = 0) : (ASOp.diag L).Rel (KeepRel p q) (ASOp.diag L) :=
  ⟨LinOp.keep_rel p q hL, fun _ _ h => h, fun _ _ h => h⟩

theorem keepNl_rel {p q : ι} {nl : NlFunc ι} (hnl : ∀ w, (w q).im = 0 → ∃ n, nl w = .ok n ∧ n p = 0 ∧ (n q).im = 0)
    (w w' : Vec ι) (h : KeepRel p q w w') : RelE (KeepRel p q) (nl w) (total (fun _ => 0) w') := by
  obtain ⟨n, h1, h2, h3⟩ := hnl w h.2
  rw [h1]
  exact ⟨by simp [h2], h3⟩

theorem CSSolver.keep_step {p q : ι} (m : CSSolver ι) {L : Vec ι} (hm : m.op = .diag L) (hp : L p = 0) (hq : (L q).im = 0)
    {nl : NlFunc ι} (hnl : ∀ w, (w q).im = 0 → ∃ n, nl w = .ok n ∧ n p = 0 ∧ (n q).im = 0) (h : ℝ) (u v : Vec ι)
    (hu : (u q).im = 0) (hv : m.oneStep nl h u = .ok v) : v p = u p ∧ (v q).im = 0 := by
  have hrel : m.Rel (KeepRel p q) m := by
    cases m <;> simp only [op] at hm <;> subst hm
    · exact .if4 (LinOp.keep_rel p q hq)
    · exact .etd4 _ (LinOp.keep_rel p q hq)
    · exact .etd5 _ (LinOp.keep_rel p q hq)
  obtain ⟨v', h1, h2⟩ := (CSSolver.oneStep_rel (keepRel_linear p q) hrel (keepNl_rel hnl) h u u ⟨rfl, hu⟩).ok hv
  refine ⟨?_, h2.2⟩
  rw [h2.1]
  have hc : m.CoefOk h := by
    cases m <;> simp only [op] at hm <;> subst hm <;> trivial
  have hE : (m.method h).Eout = expm m.op.mat h := by cases m <;> rfl
  rw [oneStep, if_pos hc, (m.method h).step_of (total fun _ => 0) u (N := 0) fun i _ => rfl] at h1
  simp only [Except.map, Except.ok.injEq] at h1
  rw [← h1, ERK.out, hE, hm]
  simp only [Pi.zero_apply, mulVec_zero, Finset.sum_const_zero, add_zero]
  show (expm (diagonal L) h *ᵥ u) p = u p
  rw [expm_diagonal, mulVec_diagonal, hp]
  simp

theorem ASSolver.keep_trial {p q : ι} (m : ASSolver ι) {L : Vec ι} (hm : m.op = .diag L) (hp : L p = 0) (hq : (L q).im = 0)
    {nl : NlFunc ι} (hnl : ∀ w, (w q).im = 0 → ∃ n, nl w = .ok n ∧ n p = 0 ∧ (n q).im = 0) (h : ℝ) (u : Vec ι)
    (r : Vec ι × Vec ι) (hu : (u q).im = 0) (hv : m.oneTrial nl h u = .ok r) : r.1 p = u p ∧ (r.1 q).im = 0 := by
  have hrel : m.Rel (KeepRel p q) m := by
    cases m <;> simp only [op] at hm
    · subst hm; exact .if34 (ASOp.keep_rel p q hq)
    · subst hm; exact .etd34 _ (ASOp.keep_rel p q hq)
    · subst hm; exact .etd35 _ (ASOp.keep_rel p q hq)
    · cases hm; exact .if45dp (ASOp.keep_rel p q hq)
  obtain ⟨r', h1, h2⟩ := (ASSolver.oneTrial_rel (keepRel_linear p q) hrel (keepNl_rel hnl) h u u ⟨rfl, hu⟩).ok hv
  refine ⟨?_, h2.1.2⟩
  rw [h2.1.1]
  have hc : m.CoefOk h := by
    cases m <;> simp only [op] at hm
    · trivial
    · subst hm; trivial
    · subst hm; trivial
    · trivial
  have := C24_trial m u h hc
  rw [ASSolver.trial_new, h1] at this
  cases this
  rw [hm]
  show (expm (diagonal L) h *ᵥ u) p = u p
  rw [expm_diagonal, mulVec_diagonal, hp]
  simp

end Verif
