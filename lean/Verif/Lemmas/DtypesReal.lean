import Verif.Lemmas.Dtypes
import Verif.Lemmas.ArraysTie
import Verif.Lemmas.RoundedTie
import Verif.Lemmas.Conj

/-!
# Arrays of real dtype have real entries
-/

set_option linter.unusedSectionVars false

namespace Verif

open Attr

variable {ι Coef : Type} [Fintype ι] [DecidableEq ι]

/-- The coefficients that an expression uses are real where their dtype is. -/
def Exp.RealAt (cv cm : DType) (c : Coef) : Exp Coef ι → Prop
  | var _ | size | num _ => True
  | cof p => cv = .complex128 ∨ ∀ i, (p c i).im = 0
  | add e f | sub e f | mul e f => e.RealAt cv cm c ∧ f.RealAt cv cm c
  | neg e | over e _ => e.RealAt cv cm c
  | dot p e => (cm = .complex128 ∨ ∀ i j, (p c i j).im = 0) ∧ e.RealAt cv cm c
  | fix M e => (cm = .complex128 ∨ ∀ i j, (M i j).im = 0) ∧ e.RealAt cv cm c

/-- The coefficients that an assignment uses are real where their dtype is. -/
def RInstr.RealAt (cv cm : DType) (c : Coef) : RInstr Coef ι → Prop
  | set _ e => e.RealAt cv cm c
  | call _ _ => True

/-- The same for a list of assignments. -/
def RealAll (cv cm : DType) (c : Coef) : List (RInstr Coef ι) → Prop
  | [] => True
  | i :: is => i.RealAt cv cm c ∧ RealAll cv cm c is

theorem promote_ne {a b : DType} : a.promote b = .complex128 ∨ (a ≠ .complex128 ∧ b ≠ .complex128) := by
  cases a <;> cases b <;> simp [DType.promote]

theorem fits_join {a b : DType} {v w x : Vec ι} (hv : a = .complex128 ∨ ∀ i, (v i).im = 0) (hw : b = .complex128 ∨ ∀ i, (w i).im = 0)
    (hx : (∀ i, (v i).im = 0) → (∀ i, (w i).im = 0) → ∀ i, (x i).im = 0) : a.promote b = .complex128 ∨ ∀ i, (x i).im = 0 := by
  rcases promote_ne (a := a) (b := b) with h | ⟨h1, h2⟩
  · exact .inl h
  · exact .inr (hx (hv.resolve_left h1) (hw.resolve_left h2))

theorem mulVec_im {M : Mat ι} {v : Vec ι} (hM : ∀ i j, (M i j).im = 0) (hv : ∀ i, (v i).im = 0) (i : ι) : ((M.mulVec v) i).im = 0 := by
  simp [Matrix.mulVec, dotProduct, Complex.im_sum, hM, hv]

theorem Exp.evalA_fits {cv cm : DType} {c : Coef} {h : ℝ} {x : Attr → TArr (Vec ι)} (hx : ∀ a, (x a).Fits) {e : Exp Coef ι}
    (hc : e.RealAt cv cm c) {v : TArr (Vec ι)} (hv : e.evalA ((ArrOps.exact ι).typed cv cm) c h x = .ok v) : v.Fits := by
  induction e generalizing v with
  | var a => simp only [evalA, Except.ok.injEq] at hv; rw [← hv]; exact hx a
  | cof p => simp only [evalA, Except.ok.injEq] at hv; rw [← hv]; exact hc
  | size => simp only [evalA, Except.ok.injEq] at hv; rw [← hv]; exact .inr fun i => by simp [ArrOps.typed, ArrOps.exact, bc]
  | num n => simp only [evalA, Except.ok.injEq] at hv; rw [← hv]; exact .inr fun i => by simp [ArrOps.typed, ArrOps.exact, bc]
  | add e f ie iff | sub e f ie iff | mul e f ie iff =>
    simp only [evalA] at hv
    cases h1 : e.evalA ((ArrOps.exact ι).typed cv cm) c h x with
    | error e => simp [h1, Except.bind] at hv
    | ok a =>
      cases h2 : f.evalA ((ArrOps.exact ι).typed cv cm) c h x with
      | error e => simp [h1, h2, Except.bind] at hv
      | ok b =>
        simp only [h1, h2, Except.bind] at hv
        simp only [ArrOps.typed, ArrOps.exact, Except.map, Except.ok.injEq] at hv
        rw [← hv]
        exact fits_join (ie hc.1 h1) (iff hc.2 h2) fun h3 h4 i => by simp [h3 i, h4 i]
  | neg e ih =>
    simp only [evalA] at hv
    cases h1 : e.evalA ((ArrOps.exact ι).typed cv cm) c h x with
    | error e => simp [h1, Except.bind] at hv
    | ok a =>
      simp only [h1, Except.bind] at hv
      simp only [ArrOps.typed, ArrOps.exact, Except.map, Except.ok.injEq] at hv
      rw [← hv]
      exact (ih hc h1).imp id fun h3 i => by simp [h3 i]
  | over e n ih =>
    simp only [evalA] at hv
    cases h1 : e.evalA ((ArrOps.exact ι).typed cv cm) c h x with
    | error e => simp [h1, Except.bind] at hv
    | ok a =>
      simp only [h1, Except.bind] at hv
      simp only [ArrOps.typed, ArrOps.exact, Except.map, Except.ok.injEq] at hv
      rw [← hv]
      exact fits_join (w := 0) (ih hc h1) (.inr fun _ => rfl) fun h3 _ i => by simp [h3 i, bc, Complex.div_im]
  | dot p e ih =>
    simp only [evalA] at hv
    cases h1 : e.evalA ((ArrOps.exact ι).typed cv cm) c h x with
    | error e => simp [h1, Except.bind] at hv
    | ok a =>
      simp only [h1, Except.bind] at hv
      simp only [ArrOps.typed, ArrOps.exact, Except.map, Except.ok.injEq] at hv
      rw [← hv]
      have := ih hc.2 h1
      rcases promote_ne (a := cm) (b := a.ty) with h | ⟨h2, h3⟩
      · exact .inl h
      · exact .inr (mulVec_im (hc.1.resolve_left h2) (this.resolve_left h3))
  | fix M e ih =>
    simp only [evalA] at hv
    cases h1 : e.evalA ((ArrOps.exact ι).typed cv cm) c h x with
    | error e => simp [h1, Except.bind] at hv
    | ok a =>
      simp only [h1, Except.bind] at hv
      simp only [ArrOps.typed, ArrOps.exact, Except.map, Except.ok.injEq] at hv
      rw [← hv]
      have := ih hc.2 h1
      rcases promote_ne (a := cm) (b := a.ty) with h | ⟨h2, h3⟩
      · exact .inl h
      · exact .inr (mulVec_im (hc.1.resolve_left h2) (this.resolve_left h3))

theorem avals_fits {cv cm : DType} {c : Coef} {h : ℝ} {nl : TArr (Vec ι) → Except PyErr (TArr (Vec ι))}
    (hn : ∀ x v, nl x = .ok v → x.Fits → v.Fits) (is : List (RInstr Coef ι)) (hc : RealAll cv cm c is) {x y : Attr → TArr (Vec ι)}
    (hx : ∀ a, (x a).Fits) (hy : avals ((ArrOps.exact ι).typed cv cm) c h nl is x = .ok y) (a : Attr) : (y a).Fits := by
  induction is generalizing x with
  | nil => simp only [avals, Except.ok.injEq] at hy; rw [← hy]; exact hx a
  | cons i is ih =>
    have hu : ∀ b (v : TArr (Vec ι)), v.Fits → ∀ a, (Function.update x b v a).Fits := by
      intro b v hv a
      by_cases ha : a = b
      · subst ha; simpa using hv
      · simpa [Function.update_of_ne ha] using hx a
    cases i with
    | set b e =>
      simp only [avals] at hy
      cases h1 : e.evalA ((ArrOps.exact ι).typed cv cm) c h x with
      | error e => simp [h1] at hy
      | ok v =>
        rw [h1] at hy
        exact ih hc.2 (hu b v (Exp.evalA_fits hx hc.1 h1)) hy
    | call b b' =>
      simp only [avals] at hy
      cases h1 : nl (x b') with
      | error e => simp [h1] at hy
      | ok v =>
        rw [h1] at hy
        exact ih hc.2 (hu b v (hn _ _ h1 (hx b'))) hy

/-! ### The coefficients -/

theorem npExp_im {v : Vec ι} (hv : ∀ i, (v i).im = 0) (i : ι) : (npExp v i).im = 0 := by
  rw [npExp_apply, Complex.exp_im, hv i]; simp

theorem expm_im {M : Mat ι} (hM : ∀ i j, (M i j).im = 0) (θ : ℝ) (i j : ι) : (expm M θ i j).im = 0 := by
  have h1 : M.map star = M := by ext i j; simpa using Complex.conj_eq_iff_im.mpr (hM i j)
  have h2 := congrFun (congrFun (expm_map_star M θ) i) j
  rw [h1] at h2
  exact Complex.conj_eq_iff_im.mp (by simpa using h2.symm)

theorem dp_im {L : Vec ι} (hL : ∀ i, (L i).im = 0) (h : ℝ) (cv cm : DType) :
    RealAll cv cm (IF45DP.coefs L h) (IF45DP.rProg (ι := ι)).stages := by
  obtain ⟨l, rfl⟩ : ∃ l : ι → ℝ, L = fun i => (l i : ℂ) := ⟨fun i => (L i).re, by
    funext i; exact Complex.ext rfl (by simp [hL i])⟩
  repeat' first | exact trivial | refine And.intro ?_ ?_ | refine Or.inr fun i => ?_
  all_goals
    simp only [IF45DP.coefs, npExp_apply, bc, Pi.mul_apply, Pi.div_apply, Pi.ofNat_apply, Pi.neg_apply]
    refine Complex.conj_eq_iff_im.mp ?_
    simp only [map_mul, map_div₀, map_neg, ← Complex.exp_conj, Complex.conj_ofReal, map_ofNat]

theorem Exp.realAt_complex (c : Coef) (e : Exp Coef ι) : e.RealAt .complex128 .complex128 c := by
  induction e with
  | var _ | size | num _ => trivial
  | cof p => exact .inl rfl
  | add e f ie iff | sub e f ie iff | mul e f ie iff => exact ⟨ie, iff⟩
  | neg e ih | over e _ ih => exact ih
  | dot p e ih | fix M e ih => exact ⟨.inl rfl, ih⟩

theorem realAll_complex (c : Coef) (is : List (RInstr Coef ι)) : RealAll .complex128 .complex128 c is := by
  induction is with
  | nil => trivial
  | cons i is ih =>
    refine ⟨?_, ih⟩
    cases i with
    | set a e => exact e.realAt_complex c
    | call a b => trivial

theorem diagonal_im {L : Vec ι} (h : ∀ i j, (Matrix.diagonal L i j).im = 0) (i : ι) : (L i).im = 0 := by simpa using h i i

theorem bc_mul_im {L : Vec ι} (hL : ∀ i, (L i).im = 0) (h : ℝ) (i : ι) : ((bc (h : ℂ) * L : Vec ι) i).im = 0 := by simp [bc, hL i]

theorem half_im {L : Vec ι} (hL : ∀ i, (L i).im = 0) (i : ι) : ((L / 2 : Vec ι) i).im = 0 := by
  rw [Pi.div_apply, Pi.ofNat_apply, Complex.div_ofNat_im, hL i, zero_div]

theorem CSSolver.real_at (m : CSSolver ι) {d : DType} (hm : m.OpFits d) {h : ℝ} {c : m.Coef}
    (hc : (m.env Arith.exact).coefs h = .ok c) : RealAll (m.coefTy d) (m.coefTy d) c m.rprog.stages := by
  simp only [CSSolver.env] at hc
  split_ifs at hc with hok
  rw [m.coefsAt_eq (fun _ => .ok 0) hok, Except.ok.injEq] at hc
  subst hc
  rcases m with (L | L) | ⟨cfg, L⟩ | ⟨cfg, L⟩
  · rcases hm with rfl | hm
    · exact realAll_complex _ _
    · have hL := diagonal_im hm
      repeat' first | exact trivial | exact .inr (npExp_im (bc_mul_im hL h)) | exact .inr (npExp_im (half_im (bc_mul_im hL h))) |
        refine And.intro ?_ ?_
  · rcases hm with rfl | hm
    · exact realAll_complex _ _
    · repeat' first | exact trivial | exact .inr (expm_im hm _) | refine And.intro ?_ ?_
  · exact realAll_complex _ _
  · exact realAll_complex _ _

theorem ASSolver.real_at (m : ASSolver ι) {d e : DType} (hm : m.OpFits d e) {h : ℝ} {c : m.Coef}
    (hc : (m.env Arith.exact).coefs h = .ok c) : RealAll (m.coefTy d e) (m.matTy d e) c m.rprog.stages ∧
      RealAll (m.coefTy d e) (m.matTy d e) () m.rprog.init := by
  simp only [ASSolver.env] at hc
  split_ifs at hc with hok
  rw [m.coefsAt_eq (fun _ => .ok 0) hok, Except.ok.injEq] at hc
  subst hc
  rcases m with (L | L | ⟨l, S, T, hS⟩) | ⟨cfg, L | L | ⟨l, S, T, hS⟩⟩ | ⟨cfg, L | L | ⟨l, S, T, hS⟩⟩ | L
  · rcases hm with rfl | hm
    · exact ⟨realAll_complex _ _, realAll_complex _ _⟩
    · have hL := diagonal_im hm
      repeat' first | exact trivial | exact .inr (npExp_im (bc_mul_im hL h)) | exact .inr (npExp_im (half_im (bc_mul_im hL h))) |
        refine And.intro ?_ ?_
  · rcases hm with rfl | hm
    · exact ⟨realAll_complex _ _, realAll_complex _ _⟩
    · repeat' first | exact trivial | exact .inr (expm_im hm _) | refine And.intro ?_ ?_
  · rcases hm with rfl | ⟨hL, hS1, hT⟩
    · exact ⟨realAll_complex _ _, realAll_complex _ _⟩
    · repeat' first | exact trivial | exact .inr hS1 | exact .inr hT |
        exact .inr (npExp_im (bc_mul_im hL h)) | exact .inr (npExp_im (half_im (bc_mul_im hL h))) | refine And.intro ?_ ?_
  · exact ⟨realAll_complex _ _, realAll_complex _ _⟩
  · exact ⟨realAll_complex _ _, realAll_complex _ _⟩
  · rcases hm with rfl | ⟨hL, hS1, hT⟩
    · exact ⟨realAll_complex _ _, realAll_complex _ _⟩
    · repeat' first | exact trivial | exact .inl rfl | exact .inr hS1 | exact .inr hT | refine And.intro ?_ ?_
  · exact ⟨realAll_complex _ _, realAll_complex _ _⟩
  · exact ⟨realAll_complex _ _, realAll_complex _ _⟩
  · rcases hm with rfl | ⟨hL, hS1, hT⟩
    · exact ⟨realAll_complex _ _, realAll_complex _ _⟩
    · repeat' first | exact trivial | exact .inl rfl | exact .inr hS1 | exact .inr hT | refine And.intro ?_ ?_
  · rcases hm with rfl | hm
    · exact ⟨realAll_complex _ _, realAll_complex _ _⟩
    · exact ⟨dp_im (diagonal_im hm) h _ _, trivial, trivial⟩

/-! ### Steps -/

theorem CSSolver.aStep_fits (m : CSSolver ι) {d : DType} (hm : m.OpFits d) {nl : TArr (Vec ι) → Except PyErr (TArr (Vec ι))}
    (hn : ∀ x v, nl x = .ok v → x.Fits → v.Fits) {h : ℝ} {u v : TArr (Vec ι)} (hu : u.Fits)
    (hv : m.rprog.aStep ⟨(ArrOps.exact ι).typed (m.coefTy d) (m.coefTy d), (m.env Arith.exact).coefs⟩ nl h u = .ok v) : v.Fits := by
  unfold RCSProg.aStep at hv
  cases hc : (m.env Arith.exact).coefs h with
  | error e => simp [hc, Except.bind] at hv
  | ok c =>
    cases hu1 : nl u with
    | error e => simp [hc, hu1, Except.bind] at hv
    | ok n =>
      cases hy : avals ((ArrOps.exact ι).typed (m.coefTy d) (m.coefTy d)) c h nl m.rprog.stages (Function.update (fun _ => u) NL1 n) with
      | error e => simp [hc, hu1, hy, Except.bind, Except.map] at hv
      | ok y =>
        simp only [hc, hu1, hy, Except.bind, Except.map, Except.ok.injEq] at hv
        rw [← hv]
        refine avals_fits hn _ (m.real_at hm hc) (fun a => ?_) hy k
        by_cases ha : a = NL1
        · subst ha; simpa using hn _ _ hu1 hu
        · simpa [Function.update_of_ne ha] using hu

theorem ASSolver.aTrial_fits (m : ASSolver ι) {d e : DType} (hm : m.OpFits d e) {check : TArr (Vec ι) → TArr (Vec ι) → Except PyErr Unit}
    {nl : TArr (Vec ι) → Except PyErr (TArr (Vec ι))} (hn : ∀ x v, nl x = .ok v → x.Fits → v.Fits) {h : ℝ} {u : TArr (Vec ι)}
    {r : TArr (Vec ι) × TArr (Vec ι)} (hu : u.Fits)
    (hr : m.rprog.aTrial ⟨(ArrOps.exact ι).typed (m.coefTy d e) (m.matTy d e), (m.env Arith.exact).coefs⟩ check nl h u = .ok r) :
    r.1.Fits := by
  unfold RASProg.aTrial RASProg.aload at hr
  cases hc : (m.env Arith.exact).coefs h with
  | error e => simp [hc, Except.bind] at hr
  | ok c =>
    cases hx : avals ((ArrOps.exact ι).typed (m.coefTy d e) (m.matTy d e)) () 0 nl m.rprog.init (fun _ => u) with
    | error e => simp [hc, hx, Except.bind] at hr
    | ok x =>
      cases hy : avals ((ArrOps.exact ι).typed (m.coefTy d e) (m.matTy d e)) c h nl m.rprog.stages x with
      | error e => simp [hc, hx, hy, Except.bind] at hr
      | ok y =>
        cases hk : check (y m.rprog.out) (y Attr.err) with
        | error e => simp [hc, hx, hy, hk, Except.bind, Except.map] at hr
        | ok _ =>
          simp only [hc, hx, hy, hk, Except.bind, Except.map, Except.ok.injEq] at hr
          subst hr
          obtain ⟨h1, h2⟩ := m.real_at hm hc
          exact avals_fits hn _ h1 (avals_fits hn _ h2 (fun _ => hu) hx) hy _

end Verif
