import Verif.Lemmas.RelLoop
import Verif.Lemmas.Expm
import Verif.Lemmas.Similar
import Verif.Lemmas.Limit

/-!
# Exponential Runge–Kutta steps preserve relations that their coefficients preserve
-/

set_option linter.unusedSectionVars false

namespace Verif

open Matrix

variable {ι κ : Type} [Fintype ι] [DecidableEq ι] [Fintype κ] [DecidableEq κ]

/-- A relation that is closed under real linear combinations. -/
structure RealLinear (R : Vec ι → Vec κ → Prop) : Prop where
  zero : R 0 0
  add : ∀ {v w v' w'}, R v v' → R w w' → R (v + w) (v' + w')
  smul : ∀ (r : ℝ) {v v'}, R v v' → R ((r : ℂ) • v) ((r : ℂ) • v')

/-- Two matrices map related vectors to related vectors. -/
structure MatRel (R : Vec ι → Vec κ → Prop) (X : Mat ι) (X' : Mat κ) : Prop where
  app : ∀ v v', R v v' → R (X *ᵥ v) (X' *ᵥ v')

namespace MatRel

variable {R : Vec ι → Vec κ → Prop} {X Y : Mat ι} {X' Y' : Mat κ}

theorem one : MatRel R 1 1 := ⟨fun v v' h => by simpa using h⟩

theorem zero (hR : RealLinear R) : MatRel R 0 0 := ⟨fun v v' _ => by simpa using hR.zero⟩

theorem add (hR : RealLinear R) (h1 : MatRel R X X') (h2 : MatRel R Y Y') : MatRel R (X + Y) (X' + Y') :=
  ⟨fun v v' h => by rw [add_mulVec, add_mulVec]; exact hR.add (h1.app v v' h) (h2.app v v' h)⟩

theorem smul (hR : RealLinear R) {c : ℂ} (hc : c.im = 0) (h1 : MatRel R X X') : MatRel R (c • X) (c • X') :=
  ⟨fun v v' h => by
    have : c = ((c.re : ℝ) : ℂ) := Complex.ext rfl (by simpa using hc)
    rw [smul_mulVec, smul_mulVec, this]; exact hR.smul _ (h1.app v v' h)⟩

theorem neg (hR : RealLinear R) (h1 : MatRel R X X') : MatRel R (-X) (-X') := by
  have := smul hR (c := -1) (by simp) h1
  simpa using this

theorem sub (hR : RealLinear R) (h1 : MatRel R X X') (h2 : MatRel R Y Y') : MatRel R (X - Y) (X' - Y') := by
  rw [sub_eq_add_neg, sub_eq_add_neg]; exact h1.add hR (h2.neg hR)

end MatRel

/-- The coefficients of two methods preserve the relation. -/
structure ERK.Rel (R : Vec ι → Vec κ → Prop) (M : ERK ι) (M' : ERK κ) : Prop where
  s : M.s = M'.s
  E : ∀ i, MatRel R (M.E i) (M'.E i)
  A : ∀ i j, MatRel R (M.A i j) (M'.A i j)
  Eout : MatRel R M.Eout M'.Eout
  B : ∀ j, MatRel R (M.B j) (M'.B j)
  R : ∀ j, MatRel R (M.R j) (M'.R j)

theorem RealLinear.sum {R : Vec ι → Vec κ → Prop} (hR : RealLinear R) {N : ℕ → Vec ι} {N' : ℕ → Vec κ} (n : ℕ)
    (h : ∀ j, R (N j) (N' j)) : R (∑ j ∈ Finset.range n, N j) (∑ j ∈ Finset.range n, N' j) := by
  induction n with
  | zero => simpa using hR.zero
  | succ n ih => rw [Finset.sum_range_succ, Finset.sum_range_succ]; exact hR.add ih (h n)

namespace ERK

theorem stages_rel {R : Vec ι → Vec κ → Prop} (hR : RealLinear R) {M : ERK ι} {M' : ERK κ} (hM : M.Rel R M')
    {nl : NlFunc ι} {nl' : NlFunc κ} (hnl : ∀ w w', R w w' → RelE R (nl w) (nl' w')) {u : Vec ι} {u' : Vec κ}
    (hu : R u u') (k : ℕ) : RelE (fun N N' => ∀ j, R (N j) (N' j)) (M.stages nl u k) (M'.stages nl' u' k) := by
  induction k with
  | zero => exact fun j => hR.zero
  | succ k ih =>
    simp only [stages]
    cases hN : M.stages nl u k with
    | error e => rw [ih.error hN]; rfl
    | ok N =>
      obtain ⟨N', hN', hj⟩ := ih.ok hN
      rw [hN']
      have harg : R (M.arg u N k) (M'.arg u' N' k) :=
        hR.add ((hM.E k).app _ _ hu) (hR.sum k fun j => (hM.A k j).app _ _ (hj j))
      have := hnl _ _ harg
      cases hn : nl (M.arg u N k) with
      | error e => simp only [hn, this.error hn]; rfl
      | ok n =>
        obtain ⟨n', hn', hr⟩ := this.ok hn
        simp only [hn, hn']
        intro j
        by_cases hjk : j = k
        · subst hjk; simpa using hr
        · simpa [hjk] using hj j

/-- Related data give related steps. -/
theorem step_rel {R : Vec ι → Vec κ → Prop} (hR : RealLinear R) {M : ERK ι} {M' : ERK κ} (hM : M.Rel R M')
    {nl : NlFunc ι} {nl' : NlFunc κ} (hnl : ∀ w w', R w w' → RelE R (nl w) (nl' w')) {u : Vec ι} {u' : Vec κ}
    (hu : R u u') : RelE (fun r r' => R r.1 r'.1 ∧ R r.2 r'.2) (M.step nl u) (M'.step nl' u') := by
  unfold step
  have h := stages_rel hR hM hnl hu M.s
  rw [← hM.s]
  cases hN : M.stages nl u M.s with
  | error e => rw [h.error hN]; rfl
  | ok N =>
    obtain ⟨N', hN', hj⟩ := h.ok hN
    rw [hN']
    refine ⟨hR.add (hM.Eout.app _ _ hu) ?_, ?_⟩
    · rw [← hM.s]; exact hR.sum _ fun j => (hM.B j).app _ _ (hj j)
    · unfold err; rw [← hM.s]; exact hR.sum _ fun j => (hM.R j).app _ _ (hj j)

end ERK

variable {R : Vec ι → Vec κ → Prop}

theorem lawson_rel (hR : RealLinear R) (T : Tableau) {L : Mat ι} {L' : Mat κ}
    (hE : ∀ θ, MatRel R (expm L θ) (expm L' θ)) (h : ℝ) : (lawson T L h).Rel R (lawson T L' h) where
  s := rfl
  E := fun _ => hE _
  A := fun _ _ => (hE _).smul hR (Complex.ofReal_im _)
  Eout := hE _
  B := fun _ => (hE _).smul hR (Complex.ofReal_im _)
  R := fun _ => (hE _).smul hR (Complex.ofReal_im _)

/-- Splits a real linear combination of φ matrices. -/
macro "matrel" hR:term "," hφ:term : tactic => `(tactic|
  repeat' first
    | with_reducible exact $hφ _ _
    | with_reducible exact MatRel.zero $hR
    | with_reducible exact MatRel.one
    | with_reducible apply MatRel.add $hR
    | with_reducible apply MatRel.sub $hR
    | with_reducible apply MatRel.neg $hR
    | with_reducible refine MatRel.smul $hR (by simp) ?_)

theorem krogstad_rel (hR : RealLinear R) {L : Mat ι} {L' : Mat κ} {φ : ℕ → ℝ → Mat ι} {φ' : ℕ → ℝ → Mat κ} (h : ℝ)
    (hE : ∀ θ, MatRel R (expm L θ) (expm L' θ)) (hφ : ∀ k c, MatRel R (φ k c) (φ' k c)) :
    (krogstad φ L h).Rel R (krogstad φ' L' h) where
  s := rfl
  E := fun i => by
    simp only [krogstad]
    split <;> first | exact hE _ | exact MatRel.one
  A := fun i j => by
    simp only [krogstad]
    refine MatRel.smul hR (Complex.ofReal_im _) ?_
    split <;> matrel hR, hφ
  Eout := hE _
  B := fun j => by
    simp only [krogstad]
    refine MatRel.smul hR (Complex.ofReal_im _) ?_
    split <;> matrel hR, hφ
  R := fun j => by
    simp only [krogstad]
    refine MatRel.smul hR (Complex.ofReal_im _) ?_
    split <;> matrel hR, hφ

theorem etd5_rel (hR : RealLinear R) (fsal : Bool) {L : Mat ι} {L' : Mat κ} {φ : ℕ → ℝ → Mat ι} {φ' : ℕ → ℝ → Mat κ}
    (h : ℝ) (hE : ∀ θ, MatRel R (expm L θ) (expm L' θ)) (hφ : ∀ k c, MatRel R (φ k c) (φ' k c)) :
    (etd5Method fsal φ L h).Rel R (etd5Method fsal φ' L' h) where
  s := rfl
  E := fun i => by
    simp only [etd5Method]
    split <;> first | exact hE _ | exact MatRel.one
  A := fun i j => by
    simp only [etd5Method]
    refine MatRel.smul hR (Complex.ofReal_im _) ?_
    split <;> try (matrel hR, hφ; done)
    split <;> matrel hR, hφ
  Eout := hE _
  B := fun j => by
    simp only [etd5Method]
    refine MatRel.smul hR (Complex.ofReal_im _) ?_
    split <;> matrel hR, hφ
  R := fun j => by
    simp only [etd5Method]
    refine MatRel.smul hR (Complex.ofReal_im _) ?_
    split <;> matrel hR, hφ

/-- The coefficients made from two operators preserve the relation. -/
structure LinOp.Rel (R : Vec ι → Vec κ → Prop) (L : LinOp ι) (L' : LinOp κ) : Prop where
  exp : ∀ θ, MatRel R (expm L.mat θ) (expm L'.mat θ)
  phi : ∀ cfg h k c, MatRel R (L.phi cfg h k c) (L'.phi cfg h k c)
  ok : ∀ cfg cs h, L.CoefOk cfg cs h ↔ L'.CoefOk cfg cs h

/-- Solvers of the same class with related operators. -/
inductive CSSolver.Rel (R : Vec ι → Vec κ → Prop) : CSSolver ι → CSSolver κ → Prop
  | if4 {L L'} : L.Rel R L' → Rel R (.if4 L) (.if4 L')
  | etd4 (cfg) {L L'} : L.Rel R L' → Rel R (.etd4 cfg L) (.etd4 cfg L')
  | etd5 (cfg) {L L'} : L.Rel R L' → Rel R (.etd5 cfg L) (.etd5 cfg L')

theorem CSSolver.oneStep_rel (hR : RealLinear R) {m : CSSolver ι} {m' : CSSolver κ} (hm : m.Rel R m')
    {nl : NlFunc ι} {nl' : NlFunc κ} (hnl : ∀ w w', R w w' → RelE R (nl w) (nl' w')) (h : ℝ) (u : Vec ι) (u' : Vec κ)
    (hu : R u u') : RelE R (m.oneStep nl h u) (m'.oneStep nl' h u') := by
  have key : (m.CoefOk h ↔ m'.CoefOk h) ∧ (m.method h).Rel R (m'.method h) := by
    cases hm with
    | if4 hL => exact ⟨Iff.rfl, lawson_rel hR _ hL.exp h⟩
    | etd4 cfg hL => exact ⟨hL.ok _ _ _, krogstad_rel hR h hL.exp (hL.phi cfg h)⟩
    | etd5 cfg hL => exact ⟨hL.ok _ _ _, etd5_rel hR true h hL.exp (hL.phi cfg h)⟩
  unfold CSSolver.oneStep
  by_cases hc : m.CoefOk h
  · rw [if_pos hc, if_pos (key.1.mp hc)]
    exact (ERK.step_rel hR key.2 hnl hu).map fun _ _ h => h.1
  · rw [if_neg hc, if_neg (fun h' => hc (key.1.mpr h'))]
    rfl

theorem CSSolver.step_rel (hR : RealLinear R) {m : CSSolver ι} {m' : CSSolver κ} (hm : m.Rel R m')
    {nl : NlFunc ι} {nl' : NlFunc κ} (hnl : ∀ w w', R w w' → RelE R (nl w) (nl' w')) (h : ℝ) (u : Vec ι) (u' : Vec κ)
    (hu : R u u') {s : m.State} {s' : m'.State} (hi : (m.lawful nl).Inv s.sub u) (hi' : (m'.lawful nl').Inv s'.sub u') :
    RelE R (m.step nl u h s).1 (m'.step nl' u' h s').1 :=
  CSClass.step_rel (m.lawful nl) (m'.lawful nl') R (fun h u u' hu => oneStep_rel hR hm hnl h u u' hu) h u u' s s' hu hi hi'

theorem CSSolver.evolve_rel (hR : RealLinear R) {m : CSSolver ι} {m' : CSSolver κ} (hm : m.Rel R m')
    {nl : NlFunc ι} {nl' : NlFunc κ} (hnl : ∀ w w', R w w' → RelE R (nl w) (nl' w')) (rnd : ℝ → ℝ) (pyDiv : Bool)
    (fuel : ℕ) (u : Vec ι) (u' : Vec κ) (t0 tf h : ℝ) (storeData : Bool) (freq : ℤ) (s : m.State) (s' : m'.State)
    (hu : R u u') :
    RelE (RelO R) (m.evolve nl rnd pyDiv fuel u t0 tf h storeData freq s).1
      (m'.evolve nl' rnd pyDiv fuel u' t0 tf h storeData freq s').1 ∧
    (m.evolve nl rnd pyDiv fuel u t0 tf h storeData freq s).2.t =
      (m'.evolve nl' rnd pyDiv fuel u' t0 tf h storeData freq s').2.t ∧
    List.Forall₂ R (m.evolve nl rnd pyDiv fuel u t0 tf h storeData freq s).2.u
      (m'.evolve nl' rnd pyDiv fuel u' t0 tf h storeData freq s').2.u :=
  CSClass.evolve_rel (m.lawful nl) (m'.lawful nl') R rnd pyDiv fuel u u' t0 tf h
    (fun u u' hu => oneStep_rel hR hm hnl h u u' hu) storeData freq s s' hu

/-- Operators of adaptive solvers: related in the working coordinates, with compatible changes of coordinates. -/
structure ASOp.Rel (R : Vec ι → Vec κ → Prop) (L : ASOp ι) (L' : ASOp κ) : Prop where
  inner : L.inner.Rel R L'.inner
  emb : ∀ w w', R w w' → R (L.emb w) (L'.emb w')
  prj : ∀ w w', R w w' → R (L.prj w) (L'.prj w')

/-- Adaptive solvers of the same class with related operators. -/
inductive ASSolver.Rel (R : Vec ι → Vec κ → Prop) : ASSolver ι → ASSolver κ → Prop
  | if34 {L L'} : L.Rel R L' → Rel R (.if34 L) (.if34 L')
  | etd34 (cfg) {L L'} : L.Rel R L' → Rel R (.etd34 cfg L) (.etd34 cfg L')
  | etd35 (cfg) {L L'} : L.Rel R L' → Rel R (.etd35 cfg L) (.etd35 cfg L')
  | if45dp {L L'} : (ASOp.diag L).Rel R (ASOp.diag L') → Rel R (.if45dp L) (.if45dp L')

theorem ASSolver.oneTrial_rel (hR : RealLinear R) {m : ASSolver ι} {m' : ASSolver κ} (hm : m.Rel R m')
    {nl : NlFunc ι} {nl' : NlFunc κ} (hnl : ∀ w w', R w w' → RelE R (nl w) (nl' w')) (h : ℝ) (u : Vec ι) (u' : Vec κ)
    (hu : R u u') :
    RelE (fun r r' => R r.1 r'.1 ∧ R r.2 r'.2) (m.oneTrial nl h u) (m'.oneTrial nl' h u') := by
  have key : (m.CoefOk h ↔ m'.CoefOk h) ∧ (m.method h).Rel R (m'.method h) ∧ m.op.Rel R m'.op := by
    cases hm with
    | if34 hL => exact ⟨Iff.rfl, lawson_rel hR _ hL.inner.exp h, hL⟩
    | etd34 cfg hL => exact ⟨hL.inner.ok _ _ _, krogstad_rel hR h hL.inner.exp (hL.inner.phi cfg h), hL⟩
    | etd35 cfg hL => exact ⟨hL.inner.ok _ _ _, etd5_rel hR false h hL.inner.exp (hL.inner.phi cfg h), hL⟩
    | if45dp hL => exact ⟨Iff.rfl, lawson_rel hR _ hL.inner.exp h, hL⟩
  unfold ASSolver.oneTrial
  by_cases hc : m.CoefOk h
  · rw [if_pos hc, if_pos (key.1.mp hc)]
    refine (ERK.step_rel hR key.2.1 (fun w w' hw => ?_) (key.2.2.prj _ _ hu)).map fun _ _ h => ⟨key.2.2.emb _ _ h.1, h.2⟩
    exact (hnl _ _ (key.2.2.emb _ _ hw)).map fun _ _ h => key.2.2.prj _ _ h
  · rw [if_neg hc, if_neg (fun h' => hc (key.1.mpr h'))]
    rfl

theorem ASSolver.trial_rel (hR : RealLinear R) {m : ASSolver ι} {m' : ASSolver κ} (hm : m.Rel R m')
    {nl : NlFunc ι} {nl' : NlFunc κ} (hnl : ∀ w w', R w w' → RelE R (nl w) (nl' w')) (h : ℝ) (u : Vec ι) (u' : Vec κ)
    (hu : R u u') {s : m.State} {s' : m'.State} (hi : (m.lawful nl).Ready s.sub s.accept u)
    (hi' : (m'.lawful nl').Ready s'.sub s'.accept u') :
    RelE (fun r r' => R r.1 r'.1 ∧ R r.2 r'.2) (m.trial nl u h s).1 (m'.trial nl' u' h s').1 := by
  unfold ASSolver.trial
  rw [ASClass.trial_apply, ASClass.trial_apply]
  simp only
  rw [(m.lawful nl).result _ _ _ _ hi, (m'.lawful nl').result _ _ _ _ hi']
  exact oneTrial_rel hR hm hnl h u u' hu

/-- The order used in the error factor. -/
def ASSolver.qOrder : ASSolver ι → ℕ
  | if34 _ => 4
  | etd34 _ _ => 4
  | etd35 _ _ => 4
  | if45dp _ => 5

theorem ASSolver.factor_computeS (m : ASSolver ι) (nl : NlFunc ι) (cfg : SolverConfig ℝ) (r : Vec ι × Vec ι) :
    m.factor nl cfg r = computeS m.qOrder cfg r.1 r.2 := by
  rcases m with (_ | L | _) | ⟨cfg, _ | L | _⟩ | ⟨cfg, _ | L | _⟩ | _ <;> rfl

theorem computeS_equiv (σ : κ ≃ ι) (q : ℕ) (cfg : SolverConfig ℝ) (u err : Vec ι) (u' err' : Vec κ)
    (hu : ∀ k, ‖u' k‖ = ‖u (σ k)‖) (he : ∀ k, ‖err' k‖ = ‖err (σ k)‖) :
    computeS q cfg u' err' = computeS q cfg u err := by
  unfold computeS maskedNorm
  have hmx : (⨆ k, ‖u' k‖) = ⨆ i, ‖u i‖ := by
    simp only [hu]
    exact σ.iSup_comp (g := fun i => ‖u i‖)
  have hs : ∀ (w : Vec ι) (w' : Vec κ), (∀ k, ‖w' k‖ = ‖w (σ k)‖) → ∀ mx : ℝ,
      (open Classical in (∑ k, if mx ≠ 0 ∧ cfg.adapt_cutoff < ‖u' k‖ / mx then ‖w' k‖ ^ 2 else 0 : ℝ)) =
      (open Classical in (∑ i, if mx ≠ 0 ∧ cfg.adapt_cutoff < ‖u i‖ / mx then ‖w i‖ ^ 2 else 0 : ℝ)) := by
    intro w w' hw mx
    rw [← Equiv.sum_comp σ]
    simp only [hu, hw]
  simp only [hmx, hs u u' hu, hs err err' he]

theorem ASSolver.qOrder_rel {m : ASSolver ι} {m' : ASSolver κ} (hm : m.Rel R m') : m.qOrder = m'.qOrder := by cases hm <;> rfl

theorem ASSolver.factor_rel (σ : κ ≃ ι) (hσ : ∀ v v', R v v' → ∀ k, ‖v' k‖ = ‖v (σ k)‖) {m : ASSolver ι}
    {m' : ASSolver κ} (hm : m.Rel R m') (nl : NlFunc ι) (nl' : NlFunc κ) (cfg : SolverConfig ℝ) (r : Vec ι × Vec ι)
    (r' : Vec κ × Vec κ) (hr : R r.1 r'.1 ∧ R r.2 r'.2) : m.factor nl cfg r = m'.factor nl' cfg r' := by
  rw [factor_computeS, factor_computeS, qOrder_rel hm]
  exact (computeS_equiv σ _ cfg _ _ _ _ (hσ _ _ hr.1) (hσ _ _ hr.2)).symm

theorem ASSolver.step_rel (hR : RealLinear R) (σ : κ ≃ ι) (hσ : ∀ v v', R v v' → ∀ k, ‖v' k‖ = ‖v (σ k)‖)
    {m : ASSolver ι} {m' : ASSolver κ} (hm : m.Rel R m')
    {nl : NlFunc ι} {nl' : NlFunc κ} (hnl : ∀ w w', R w w' → RelE R (nl w) (nl' w')) (rnd : ℝ → ℝ)
    (cfg : SolverConfig ℝ) (h : ℝ) (u : Vec ι) (u' : Vec κ)
    (hu : R u u') {s : m.State} {s' : m'.State} (hi : (m.lawful nl).Ready s.sub s.accept u)
    (hi' : (m'.lawful nl').Ready s'.sub s'.accept u') :
    RelE (RelStep R) (m.step nl rnd cfg u h s).1 (m'.step nl' rnd cfg u' h s').1 :=
  ASClass.step_rel (m.lawful nl) (m'.lawful nl') R (fun r r' => R r.1 r'.1 ∧ R r.2 r'.2) (fun _ _ h => h.1)
    (fun h u u' hu => oneTrial_rel hR hm hnl h u u' hu) rnd cfg (factor_rel σ hσ hm nl nl' cfg) u u' h s s' hu hi hi'

theorem ASSolver.evolve_rel (hR : RealLinear R) (σ : κ ≃ ι) (hσ : ∀ v v', R v v' → ∀ k, ‖v' k‖ = ‖v (σ k)‖)
    {m : ASSolver ι} {m' : ASSolver κ} (hm : m.Rel R m')
    {nl : NlFunc ι} {nl' : NlFunc κ} (hnl : ∀ w w', R w w' → RelE R (nl w) (nl' w')) (rnd : ℝ → ℝ) (pyDiv : Bool)
    (cfg : SolverConfig ℝ) (fuel : ℕ) (u : Vec ι) (u' : Vec κ) (t0 tf : ℝ) (hInit : Option ℝ) (storeData : Bool) (freq : ℤ)
    (s : m.State) (s' : m'.State) (hu : R u u') :
    RelE (RelO R) (m.evolve nl rnd pyDiv cfg fuel u t0 tf hInit storeData freq s).1
      (m'.evolve nl' rnd pyDiv cfg fuel u' t0 tf hInit storeData freq s').1 ∧
    (m.evolve nl rnd pyDiv cfg fuel u t0 tf hInit storeData freq s).2.t =
      (m'.evolve nl' rnd pyDiv cfg fuel u' t0 tf hInit storeData freq s').2.t ∧
    List.Forall₂ R (m.evolve nl rnd pyDiv cfg fuel u t0 tf hInit storeData freq s).2.u
      (m'.evolve nl' rnd pyDiv cfg fuel u' t0 tf hInit storeData freq s').2.u :=
  ASClass.evolve_rel (m.lawful nl) (m'.lawful nl') R (fun r r' => R r.1 r'.1 ∧ R r.2 r'.2) (fun _ _ h => h.1)
    (fun h u u' hu => oneTrial_rel hR hm hnl h u u' hu) rnd pyDiv cfg (factor_rel σ hσ hm nl nl' cfg) fuel u u' t0 tf
    hInit storeData freq s s' hu

end Verif
