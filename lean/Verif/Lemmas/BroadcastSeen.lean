import Verif.Lemmas.BroadcastNorm
import Verif.Lemmas.BroadcastFull

/-!
# Calls on arrays of any shape
-/

set_option linter.unusedSectionVars false

namespace Verif

variable {N : ℕ} {κ V : Type} [Fintype κ] [DecidableEq κ]

/-- An array of shape `s` and its part `p`. -/
def Part (s : List ℕ) (p : NdArr ℂ → V) (x : NdArr ℂ) (v : V) : Prop := x.shape = s ∧ p x = v

theorem relE_part {s : List ℕ} {p : NdArr ℂ → V} {r : Except PyErr (NdArr ℂ)} {r' : Except PyErr V} :
    RelE (Part s p) r r' ↔ r.map p = r' ∧ ∀ y, r = .ok y → y.shape = s := by
  cases r <;> cases r' <;> simp [RelE, Part, Except.map, and_comm]

theorem ActsOn.rel {s : List ℕ} {p : NdArr ℂ → V} {nl : NdArr ℂ → Except PyErr (NdArr ℂ)} {nl' : V → Except PyErr V}
    (h : ActsOn s p nl nl') (x : NdArr ℂ) (v : V) (hx : Part s p x v) : RelE (Part s p) (nl x) (nl' v) := by
  obtain ⟨h1, rfl⟩ := hx
  exact relE_part.mpr (h x h1)

theorem seen_of_rel {s : List ℕ} {p : NdArr ℂ → V} {r : Except PyErr (Option (NdArr ℂ))} {t : List ℝ} {u : List (NdArr ℂ)}
    {r' : Except PyErr (Option V)} {t' : List ℝ} {u' : List V} (h1 : RelE (RelO (Part s p)) r r') (h2 : t = t')
    (h3 : List.Forall₂ (Part s p) u u') : SeenAs s p r t u r' t' u' where
  result := by
    cases r with
    | error e => cases r' <;> simp_all [RelE, Except.map]
    | ok o =>
      cases r' with
      | error e => exact h1.elim
      | ok o' =>
        cases o <;> cases o' <;> simp only [RelE, RelO, Part] at h1 <;> simp_all [Except.map]
  shape y hy := by
    subst hy
    cases r' with
    | error e => exact h1.elim
    | ok o' =>
      cases o' with
      | none => exact h1.elim
      | some v => exact h1.1
  times := h2
  stored := by
    induction h3 with
    | nil => rfl
    | cons h _ ih => simp [h.2, ih]
  shapes := by
    induction h3 with
    | nil => simp
    | cons h _ ih => simpa using ⟨h.1, ih⟩

theorem CSSolver.seen {m : CSSolver (Fin N)} {m' : CSSolver κ} {s : List ℕ} {p : NdArr ℂ → Vec κ}
    {nl : NdArr ℂ → Except PyErr (NdArr ℂ)} {nl' : NlFunc κ} {h : ℝ}
    (hstep : ∀ x v, Part s p x v → RelE (Part s p) (m.rprog.aStep m.ndEnv nl h x) (m'.oneStep nl' h v))
    (rnd : ℝ → ℝ) (pyDiv : Bool) (fuel : ℕ) {u : NdArr ℂ} (hu : u.shape = s) (t0 tf : ℝ) (storeData : Bool) (freq : ℤ) (st : m.NdSt)
    (st' : m'.State) :
    SeenAs s p (m.ndEvolve nl rnd pyDiv fuel u t0 tf h storeData freq st).1
      (m.ndEvolve nl rnd pyDiv fuel u t0 tf h storeData freq st).2.t (m.ndEvolve nl rnd pyDiv fuel u t0 tf h storeData freq st).2.u
      (m'.evolve nl' rnd pyDiv fuel (p u) t0 tf h storeData freq st').1
      (m'.evolve nl' rnd pyDiv fuel (p u) t0 tf h storeData freq st').2.t
      (m'.evolve nl' rnd pyDiv fuel (p u) t0 tf h storeData freq st').2.u := by
  obtain ⟨h1, h2, h3⟩ := CSClass.evolve_rel (RCSProg.alawful m.rprog_ok m.ndEnv nl) (m'.lawful nl') (Part s p) rnd pyDiv fuel u (p u)
    t0 tf h hstep storeData freq st st' ⟨hu, rfl⟩
  exact seen_of_rel h1 h2 h3

theorem ASSolver.seen {m : ASSolver (Fin N)} {m' : ASSolver κ} {s : List ℕ} {p : NdArr ℂ → Vec κ}
    {nl : NdArr ℂ → Except PyErr (NdArr ℂ)} {nl' : NlFunc κ}
    (hstep : ∀ h x v, Part s p x v → RelE (fun r r' => Part s p r.1 r'.1 ∧ Part s p r.2 r'.2) (m.rprog.aTrial m.ndEnv checkS nl h x)
      (m'.oneTrial nl' h v))
    (rnd : ℝ → ℝ) (pyDiv : Bool) (cfg : SolverConfig ℝ)
    (hS : ∀ x e, x.shape = s → e.shape = s → ndComputeS m.ndQ cfg x e = computeS m'.q cfg (p x) (p e)) (fuel : ℕ) {u : NdArr ℂ}
    (hu : u.shape = s) (t0 tf : ℝ) (hInit : Option ℝ) (storeData : Bool) (freq : ℤ) (st : m.NdSt) (st' : m'.State) :
    SeenAs s p (m.ndEvolve nl rnd pyDiv cfg fuel u t0 tf hInit storeData freq st).1
      (m.ndEvolve nl rnd pyDiv cfg fuel u t0 tf hInit storeData freq st).2.t
      (m.ndEvolve nl rnd pyDiv cfg fuel u t0 tf hInit storeData freq st).2.u
      (m'.evolve nl' rnd pyDiv cfg fuel (p u) t0 tf hInit storeData freq st').1
      (m'.evolve nl' rnd pyDiv cfg fuel (p u) t0 tf hInit storeData freq st').2.t
      (m'.evolve nl' rnd pyDiv cfg fuel (p u) t0 tf hInit storeData freq st').2.u := by
  obtain ⟨h1, h2, h3⟩ := ASClass.evolve_rel
    (RASProg.alawful m.rprog_ok (m.rprog_next _) m.isDP m.ndEnv checkS (ndComputeS m.ndQ) nl) (m'.lawful nl') (Part s p)
    (fun r r' => Part s p r.1 r'.1 ∧ Part s p r.2 r'.2) (fun r r' h => h.1) hstep rnd pyDiv cfg
    (by
      rintro ⟨x, e⟩ ⟨x', e'⟩ ⟨⟨a1, rfl⟩, ⟨a2, rfl⟩⟩
      exact (hS x e a1 a2).trans (m'.factor_eq nl' cfg (p x, p e)).symm)
    fuel u (p u) t0 tf hInit storeData freq st st' ⟨hu, rfl⟩
  exact seen_of_rel h1 h2 h3

/-- Lines as parts. -/
theorem LineRel.part {s : List ℕ} {f : κ → List ℕ} (hf : ∀ j, List.Forall₂ (· < ·) (f j) s) {x : NdArr ℂ} {v : Vec κ} :
    LineRel s f true .arr x v ↔ Part s (fun x j => x.get (f j)) x v := LineRel.arr_iff hf

theorem LineRel.eq_part {s : List ℕ} {f : κ → List ℕ} (hf : ∀ j, List.Forall₂ (· < ·) (f j) s) :
    LineRel s f true .arr = Part s (fun x j => x.get (f j)) := by
  funext x v
  exact propext (LineRel.part hf)

theorem ASSolver.q_withDiag {ι : Type} [Fintype ι] [DecidableEq ι] (m : ASSolver ι) (L : Vec κ) : (m.withDiag L).q = m.q := by
  cases m <;> rfl

theorem ASSolver.ndQ_eq (m : ASSolver (Fin N)) : m.ndQ = m.q := by cases m <;> rfl

/-! ### Lines and cells -/

theorem row_valid {B b : List ℕ} (hb : b ∈ indices B) (j : Fin N) : List.Forall₂ (· < ·) (b ++ [j.val]) (B ++ [N]) := by
  rw [mem_indices] at hb
  exact List.rel_append hb (.cons j.2 .nil)

theorem fits_last (B : List ℕ) : Fits [N] (B ++ [N]) := by simp [Fits, FitsRev]

theorem bcIdx_last (b : List ℕ) (j : Fin N) : bcIdx [N] (b ++ [j.val]) = [j.val] := by
  have := j.2
  simp only [bcIdx, List.reverse_append, List.reverse_cons, List.reverse_nil, List.nil_append, List.cons_append, bcIdxRev]
  split <;> simp
  omega

theorem cell_last {B : List ℕ} (i : Cells (B ++ [N])) : bcIdx [N] i.1 = [i.last.val] := by
  have h1 : i.1 ≠ [] := by
    intro h
    have := indices_length i.2
    simp [h] at this
  have e : i.1.dropLast ++ [i.last.val] = i.1 := by
    conv_rhs => rw [← List.dropLast_append_getLast h1]
    simp [Cells.last, List.getLastD_eq_getLast?, List.getLast?_eq_getLast_of_ne_nil h1]
  rw [← e]
  exact bcIdx_last _ _

theorem cell_valid {s : List ℕ} (i : Cells s) : List.Forall₂ (· < ·) i.1 s := mem_indices.mp i.2

/-- A step on all entries. -/
theorem CSSolver.flat_step {m : CSSolver (Fin N)} {lam : Vec (Fin N)} (hm : m.op = .diag lam) {s : List ℕ} (hs : Fits [N] s)
    {g : Cells s → Fin N} (hg : ∀ i, bcIdx [N] i.1 = [(g i).val]) {nl : NdArr ℂ → Except PyErr (NdArr ℂ)} {nl' : NlFunc (Cells s)}
    (hnl : ActsOn s (NdArr.flat s) nl nl') (h : ℝ) (x : NdArr ℂ) (v : Vec (Cells s)) (hx : Part s (NdArr.flat s) x v) :
    RelE (Part s (NdArr.flat s)) (m.rprog.aStep m.ndEnv nl h x) ((m.withOp (.diag (lam ∘ g))).oneStep nl' h v) := by
  rw [← m.tiled_step hm g nl' h v]
  have e : LineRel s (fun i : Cells s => i.1) true .arr = Part s (NdArr.flat s) := LineRel.eq_part cell_valid
  have := RCSProg.aStep_rel (P := m.rprog) (F := m.ndEnv) (F' := ⟨ArrOps.tiled g, (m.env Arith.exact).coefs⟩) (h := h)
    (lineOps (s := s) (f := fun i : Cells s => i.1) (fun i => indices_length i.2) false true (fun v => v ∘ g) (fun _ v => v) (by simp))
    (nl := nl) (nl' := nl') (by rw [e]; exact hnl.rel) (stages_diag hm) ?_ (u := x) (u' := v) (by rw [e]; exact hx)
  · rwa [e] at this
  · unfold CoefsRel
    show RelE _ ((m.env Arith.exact).coefs h) ((m.env Arith.exact).coefs h)
    cases (m.env Arith.exact).coefs h with
    | error e => rfl
    | ok c => exact fun i hi => ⟨fun p hp => lineVec true hs hg (p c), fun _ _ => rfl⟩

/-- A trial on all entries. -/
theorem ASSolver.flat_trial {m : ASSolver (Fin N)} {lam : Vec (Fin N)} (hm : m.op = .diag lam) {s : List ℕ} (h0 : 0 ∉ s)
    (hs : Fits [N] s) {g : Cells s → Fin N} (hg : ∀ i, bcIdx [N] i.1 = [(g i).val]) {nl : NdArr ℂ → Except PyErr (NdArr ℂ)}
    {nl' : NlFunc (Cells s)} (hnl : ActsOn s (NdArr.flat s) nl nl') (h : ℝ) (x : NdArr ℂ) (v : Vec (Cells s))
    (hx : Part s (NdArr.flat s) x v) :
    RelE (fun r r' => Part s (NdArr.flat s) r.1 r'.1 ∧ Part s (NdArr.flat s) r.2 r'.2) (m.rprog.aTrial m.ndEnv checkS nl h x)
      ((m.withDiag (lam ∘ g)).oneTrial nl' h v) := by
  rw [← m.tiled_trial hm g nl' h v]
  have e : LineRel s (fun i : Cells s => i.1) true .arr = Part s (NdArr.flat s) := LineRel.eq_part cell_valid
  have := RASProg.aTrial_rel (P := m.rprog) (F := m.ndEnv) (F' := ⟨ArrOps.tiled g, (m.env Arith.exact).coefs⟩) (h := h)
    (check := checkS) (check' := fun _ _ => .ok ())
    (lineOps (s := s) (f := fun i : Cells s => i.1) (fun i => indices_length i.2) false true (fun v => v ∘ g) (fun _ v => v) (by simp))
    (nl := nl) (nl' := nl') (by rw [e]; exact hnl.rel) ?_ (init_diag hm) m.init_vecs (stages_diag hm) ?_ (u := x) (u' := v)
    (by rw [e]; exact hx)
  · rwa [e] at this
  · intro a b e g ha he
    rw [checkS, ha.eq rfl rfl, he.eq rfl rfl, if_neg h0, if_pos (List.prefix_refl s)]
    trivial
  · unfold CoefsRel
    show RelE _ ((m.env Arith.exact).coefs h) ((m.env Arith.exact).coefs h)
    cases (m.env Arith.exact).coefs h with
    | error e => rfl
    | ok c => exact fun i hi => ⟨fun p hp => lineVec true hs hg (p c), fun _ _ => rfl⟩

theorem cells_nonempty {s : List ℕ} (h0 : 0 ∉ s) : Nonempty (Cells s) := by
  refine ⟨⟨s.map fun _ => 0, mem_indices.mpr ?_⟩⟩
  induction s with
  | nil => exact .nil
  | cons d s ih =>
    simp only [List.mem_cons, not_or] at h0
    exact .cons (Nat.pos_of_ne_zero (Ne.symm h0.1)) (ih h0.2)

end Verif
