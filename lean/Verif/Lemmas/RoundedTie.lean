import Verif.Lemmas.RoundedOk
import Verif.Lemmas.HeapSolvers
import Verif.Lemmas.Count
import Verif.Spec.Rounded

/-!
# With exact arithmetic the solvers of `Verif.Model.Rounded` compute the same steps as the other modules
-/

set_option linter.unusedSectionVars false
set_option linter.unusedSimpArgs false

namespace Verif

open Attr

variable {ι Coef : Type} [Fintype ι] [DecidableEq ι]

theorem bc_natCast (n : ℕ) : (bc (n : ℂ) : Vec ι) = n := by
  funext i
  simp [bc]

/-- The assignments with exact arithmetic. -/
noncomputable abbrev exactly (c : Coef) (h : ℝ) (is : List (RInstr Coef ι)) : List (Instr ι) := is.map (RInstr.inst Arith.exact c h)

namespace Exp

variable (c : Coef) (h : ℝ) (x : Attr → Vec ι) (e f : Exp Coef ι)

theorem ev_add : (e + f).eval Arith.exact c h x = e.eval Arith.exact c h x + f.eval Arith.exact c h x := rfl
theorem ev_sub : (e - f).eval Arith.exact c h x = e.eval Arith.exact c h x - f.eval Arith.exact c h x := rfl
theorem ev_mul : (e * f).eval Arith.exact c h x = e.eval Arith.exact c h x * f.eval Arith.exact c h x := rfl
theorem ev_neg : (-e).eval Arith.exact c h x = -e.eval Arith.exact c h x := rfl
theorem ev_over (n : ℕ) : (over e n).eval Arith.exact c h x = e.eval Arith.exact c h x / n := by
  show _ / bc _ = _
  rw [bc_natCast]
theorem ev_num (n : ℕ) : (num n : Exp Coef ι).eval Arith.exact c h x = n := by
  show bc _ = _
  rw [bc_natCast]
theorem ev_dot (p : Coef → Mat ι) : (dot p e).eval Arith.exact c h x = (p c).mulVec (e.eval Arith.exact c h x) := rfl
theorem ev_fix (A : Mat ι) : (fix A e).eval Arith.exact c h x = A.mulVec (e.eval Arith.exact c h x) := rfl
theorem ev_var (a : Attr) : (var a : Exp Coef ι).eval Arith.exact c h x = x a := rfl
theorem ev_cof (p : Coef → Vec ι) : (cof p).eval Arith.exact c h x = p c := rfl
theorem ev_size : (size : Exp Coef ι).eval Arith.exact c h x = bc h := rfl

end Exp

section
open Exp

theorem IF4.rDiagonal_exact (L : Vec ι) (c : IFCoef (Vec ι)) (h : ℝ) :
    exactly c h (IF4.rProgDiagonal (ι := ι)).stages = (IF4.progDiagonal L).stages c h := by
  simp only [exactly, IF4.rProgDiagonal, IF4.progDiagonal, List.map_cons, List.map_nil, RInstr.inst, ev_add, ev_sub, ev_mul, ev_neg, ev_over,
    ev_num, ev_dot, ev_fix, ev_var, ev_cof, ev_size, Nat.cast_ofNat]

theorem IF4.rNonDiagonal_exact (L : Mat ι) (c : IFCoef (Mat ι)) (h : ℝ) :
    exactly c h (IF4.rProgNonDiagonal (ι := ι)).stages = (IF4.progNonDiagonal L).stages c h := by
  simp only [exactly, IF4.rProgNonDiagonal, IF4.progNonDiagonal, List.map_cons, List.map_nil, RInstr.inst, ev_add, ev_sub, ev_mul, ev_neg, ev_over,
    ev_num, ev_dot, ev_fix, ev_var, ev_cof, ev_size, Nat.cast_ofNat]

theorem ETD4.rDiagonal_exact (cfg : ETDConfig ℝ) (L : Vec ι) (c : Etd4Coef (Vec ι)) (h : ℝ) :
    exactly c h (ETD4.rProgDiagonal (ι := ι)).stages = (ETD4.progDiagonal cfg L).stages c h := by
  simp only [exactly, ETD4.rProgDiagonal, ETD4.progDiagonal, List.map_cons, List.map_nil, RInstr.inst, ev_add, ev_sub, ev_mul, ev_neg, ev_over,
    ev_num, ev_dot, ev_fix, ev_var, ev_cof, ev_size, Nat.cast_ofNat]

theorem ETD4.rNonDiagonal_exact (cfg : ETDConfig ℝ) (L : Mat ι) (c : Etd4Coef (Mat ι)) (h : ℝ) :
    exactly c h (ETD4.rProgNonDiagonal (ι := ι)).stages = (ETD4.progNonDiagonal cfg L).stages c h := by
  simp only [exactly, ETD4.rProgNonDiagonal, ETD4.progNonDiagonal, List.map_cons, List.map_nil, RInstr.inst, ev_add, ev_sub, ev_mul, ev_neg, ev_over,
    ev_num, ev_dot, ev_fix, ev_var, ev_cof, ev_size, Nat.cast_ofNat]

theorem ETD5.rDiagonal_exact (cfg : ETDConfig ℝ) (L : Vec ι) (c : Etd5Coef (Vec ι)) (h : ℝ) :
    exactly c h (ETD5.rProgDiagonal (ι := ι)).stages = (ETD5.progDiagonal cfg L).stages c h := by
  simp only [exactly, ETD5.rProgDiagonal, ETD5.progDiagonal, List.map_cons, List.map_nil, RInstr.inst, ev_add, ev_sub, ev_mul, ev_neg, ev_over,
    ev_num, ev_dot, ev_fix, ev_var, ev_cof, ev_size, Nat.cast_ofNat]

theorem ETD5.rNonDiagonal_exact (cfg : ETDConfig ℝ) (L : Mat ι) (c : Etd5Coef (Mat ι)) (h : ℝ) :
    exactly c h (ETD5.rProgNonDiagonal (ι := ι)).stages = (ETD5.progNonDiagonal cfg L).stages c h := by
  simp only [exactly, ETD5.rProgNonDiagonal, ETD5.progNonDiagonal, List.map_cons, List.map_nil, RInstr.inst, ev_add, ev_sub, ev_mul, ev_neg, ev_over,
    ev_num, ev_dot, ev_fix, ev_var, ev_cof, ev_size, Nat.cast_ofNat]

theorem IF34.rDiagonal_exact (L : Vec ι) (c : IFCoef (Vec ι)) (h : ℝ) :
    exactly c h (IF34.rProgDiagonal (ι := ι)).stages = (IF34.progDiagonal L).stages c h := by
  simp only [exactly, IF34.rProgDiagonal, IF34.progDiagonal, List.map_cons, List.map_nil, RInstr.inst, ev_add, ev_sub, ev_mul, ev_neg, ev_over,
    ev_num, ev_dot, ev_fix, ev_var, ev_cof, ev_size, Nat.cast_ofNat]

theorem IF34.rNonDiagonal_exact (L : Mat ι) (c : IFCoef (Mat ι)) (h : ℝ) :
    exactly c h (IF34.rProgNonDiagonal (ι := ι)).stages = (IF34.progNonDiagonal L).stages c h := by
  simp only [exactly, IF34.rProgNonDiagonal, IF34.progNonDiagonal, List.map_cons, List.map_nil, RInstr.inst, ev_add, ev_sub, ev_mul, ev_neg, ev_over,
    ev_num, ev_dot, ev_fix, ev_var, ev_cof, ev_size, Nat.cast_ofNat]

theorem IF34.rDiagonalized_exact (eig : Vec ι) (S Sinv : Mat ι) (c : IFCoef (Vec ι)) (h : ℝ) :
    exactly c h (IF34.rProgDiagonalized S Sinv).stages = (IF34.progDiagonalized eig S Sinv).stages c h := by
  simp only [exactly, IF34.rProgDiagonalized, IF34.progDiagonalized, List.map_cons, List.map_nil, RInstr.inst, ev_add, ev_sub, ev_mul, ev_neg, ev_over,
    ev_num, ev_dot, ev_fix, ev_var, ev_cof, ev_size, Nat.cast_ofNat]

theorem ETD34.rDiagonal_exact (cfg : ETDConfig ℝ) (L : Vec ι) (c : Etd34Coef (Vec ι)) (h : ℝ) :
    exactly c h (ETD34.rProgDiagonal (ι := ι)).stages = (ETD34.progDiagonal cfg L).stages c h := by
  simp only [exactly, ETD34.rProgDiagonal, ETD34.progDiagonal, List.map_cons, List.map_nil, RInstr.inst, ev_add, ev_sub, ev_mul, ev_neg, ev_over,
    ev_num, ev_dot, ev_fix, ev_var, ev_cof, ev_size, Nat.cast_ofNat]

theorem ETD34.rNonDiagonal_exact (cfg : ETDConfig ℝ) (L : Mat ι) (c : Etd34Coef (Mat ι)) (h : ℝ) :
    exactly c h (ETD34.rProgNonDiagonal (ι := ι)).stages = (ETD34.progNonDiagonal cfg L).stages c h := by
  simp only [exactly, ETD34.rProgNonDiagonal, ETD34.progNonDiagonal, List.map_cons, List.map_nil, RInstr.inst, ev_add, ev_sub, ev_mul, ev_neg, ev_over,
    ev_num, ev_dot, ev_fix, ev_var, ev_cof, ev_size, Nat.cast_ofNat]

theorem ETD34.rDiagonalized_exact (cfg : ETDConfig ℝ) (eig : Vec ι) (S Sinv : Mat ι) (c : Etd34Coef (Vec ι)) (h : ℝ) :
    exactly c h (ETD34.rProgDiagonalized S Sinv).stages = (ETD34.progDiagonalized cfg eig S Sinv).stages c h := by
  simp only [exactly, ETD34.rProgDiagonalized, ETD34.progDiagonalized, List.map_cons, List.map_nil, RInstr.inst, ev_add, ev_sub, ev_mul, ev_neg, ev_over,
    ev_num, ev_dot, ev_fix, ev_var, ev_cof, ev_size, Nat.cast_ofNat]

theorem ETD35.rDiagonal_exact (cfg : ETDConfig ℝ) (L : Vec ι) (c : Etd35Coef (Vec ι)) (h : ℝ) :
    exactly c h (ETD35.rProgDiagonal (ι := ι)).stages = (ETD35.progDiagonal cfg L).stages c h := by
  simp only [exactly, ETD35.rProgDiagonal, ETD35.progDiagonal, List.map_cons, List.map_nil, RInstr.inst, ev_add, ev_sub, ev_mul, ev_neg, ev_over,
    ev_num, ev_dot, ev_fix, ev_var, ev_cof, ev_size, Nat.cast_ofNat]

theorem ETD35.rNonDiagonal_exact (cfg : ETDConfig ℝ) (L : Mat ι) (c : Etd35Coef (Mat ι)) (h : ℝ) :
    exactly c h (ETD35.rProgNonDiagonal (ι := ι)).stages = (ETD35.progNonDiagonal cfg L).stages c h := by
  simp only [exactly, ETD35.rProgNonDiagonal, ETD35.progNonDiagonal, List.map_cons, List.map_nil, RInstr.inst, ev_add, ev_sub, ev_mul, ev_neg, ev_over,
    ev_num, ev_dot, ev_fix, ev_var, ev_cof, ev_size, Nat.cast_ofNat]

theorem ETD35.rDiagonalized_exact (cfg : ETDConfig ℝ) (eig : Vec ι) (S Sinv : Mat ι) (c : Etd35Coef (Vec ι)) (h : ℝ) :
    exactly c h (ETD35.rProgDiagonalized S Sinv).stages = (ETD35.progDiagonalized cfg eig S Sinv).stages c h := by
  simp only [exactly, ETD35.rProgDiagonalized, ETD35.progDiagonalized, List.map_cons, List.map_nil, RInstr.inst, ev_add, ev_sub, ev_mul, ev_neg, ev_over,
    ev_num, ev_dot, ev_fix, ev_var, ev_cof, ev_size, Nat.cast_ofNat]

theorem IF45DP.r_exact (L : Vec ι) (c : If45dpCoef ι) (h : ℝ) :
    exactly c h (IF45DP.rProg (ι := ι)).stages = (IF45DP.prog L).stages c h := by
  simp only [exactly, IF45DP.rProg, IF45DP.prog, List.map_cons, List.map_nil, RInstr.inst, ev_add, ev_sub, ev_mul, ev_neg, ev_over,
    ev_num, ev_dot, ev_fix, ev_var, ev_cof, ev_size, Nat.cast_ofNat]

end

theorem CSSolver.rprog_exact (m : CSSolver ι) (c : m.Coef) (h : ℝ) : exactly c h m.rprog.stages = m.prog.stages c h := by
  rcases m with (L | L) | ⟨cfg, L | L⟩ | ⟨cfg, L | L⟩
  exacts [IF4.rDiagonal_exact L c h, IF4.rNonDiagonal_exact L c h, ETD4.rDiagonal_exact cfg L c h,
    ETD4.rNonDiagonal_exact cfg L c h, ETD5.rDiagonal_exact cfg L c h, ETD5.rNonDiagonal_exact cfg L c h]

theorem CSSolver.tie (m : CSSolver ι) (nl : NlFunc ι) : TieCS m.prog (m.strategy nl) nl := by
  rcases m with (L | L) | ⟨cfg, L | L⟩ | ⟨cfg, L | L⟩
  exacts [IF4.tieDiagonal L nl, IF4.tieNonDiagonal L nl, ETD4.tieDiagonal cfg L nl, ETD4.tieNonDiagonal cfg L nl,
    ETD5.tieDiagonal cfg L nl, ETD5.tieNonDiagonal cfg L nl]

/-- With exact arithmetic and coefficients a constant step is the exact step. -/
theorem TieCS.oneStep {P : CSProg Coef ι} {S : CSStrategy Coef ι} {nl : NlFunc ι} {CoefOk : ℝ → Prop} {M : ℝ → ERK ι}
    (T : TieCS P S nl) (L : LawfulCSStrategy S nl CoefOk M) {R : RCSProg Coef ι}
    (hR : ∀ c h, exactly c h R.stages = P.stages c h) {F : FPEnv Coef ι} (har : F.ar = Arith.exact) {h : ℝ}
    (hc : F.coefs h = .ok (L.coefs h)) (w : Vec ι) : R.oneStep F nl h w = ((M h).step nl w).map Prod.fst := by
  unfold RCSProg.oneStep
  rw [hc]
  cases hn : nl w with
  | error e =>
    rw [ERK.step_of_first_error _ _ _ (L.first h) (L.pos h) hn]
    rfl
  | ok n =>
    simp only [Except.bind]
    have hx : ∀ x : Attr → Vec ι, x = Function.update (argOnly w) NL1 n → x u = w ∧ x NL1 = n := by
      rintro x rfl
      exact ⟨by simp [argOnly], by simp⟩
    generalize hxe : Function.update (argOnly w) NL1 n = x
    obtain ⟨hu, hN⟩ := hx x hxe.symm
    have ht := T.stages h (L.coefs h) x 0
    have hl : exactly (L.coefs h) h R.stages = P.stages (L.coefs h) h := hR _ _
    rw [har]
    change (vals nl (exactly (L.coefs h) h R.stages) x).map _ = _
    rw [hl]
    rw [hu, hN] at ht
    obtain ⟨k, hk⟩ := RState.run_vals nl (P.stages (L.coefs h) h) ⟨x, 0⟩
    cases hv : vals nl (P.stages (L.coefs h) h) x with
    | ok y =>
      rw [show (RState.mk x 0).val = x from rfl, hv] at hk
      simp only at hk
      rw [hk] at ht
      simp only [Except.map] at ht ⊢
      cases hs : (M h).step nl w with
      | ok r =>
        obtain ⟨n', h1, -⟩ := L.stages_ok w h ⟨L.coefs h, n, 0⟩ r rfl hn hs
        rw [ht] at h1
        simp only [Prod.mk.injEq, Except.ok.injEq] at h1
        rw [h1.1]
      | error e =>
        obtain ⟨j, -, h1⟩ := L.stages_err w h ⟨L.coefs h, n, 0⟩ e rfl hn hs
        rw [ht] at h1
        simp at h1
    | error e =>
      rw [show (RState.mk x 0).val = x from rfl, hv] at hk
      simp only at hk
      rw [hk] at ht
      simp only [Except.map] at ht ⊢
      cases hs : (M h).step nl w with
      | ok r =>
        obtain ⟨n', h1, -⟩ := L.stages_ok w h ⟨L.coefs h, n, 0⟩ r rfl hn hs
        rw [ht] at h1
        simp at h1
      | error e' =>
        obtain ⟨j, -, h1⟩ := L.stages_err w h ⟨L.coefs h, n, 0⟩ e' rfl hn hs
        rw [ht] at h1
        simp only [Prod.mk.injEq, Except.error.injEq] at h1
        rw [h1.1]

theorem CSSolver.law_coefs (m : CSSolver ι) (nl nl' : NlFunc ι) : (m.law nl).coefs = (m.law nl').coefs := by
  rcases m with (_ | _) | ⟨_, _ | _⟩ | ⟨_, _ | _⟩ <;> rfl

theorem ERK.step_ofTotal (M : ERK ι) (f : Vec ι → Vec ι) (w : Vec ι) : ∃ r, M.step (fun v => .ok (f v)) w = .ok r := by
  cases h : M.step (fun v => .ok (f v)) w with
  | ok r => exact ⟨r, rfl⟩
  | error e =>
    obtain ⟨x, hx⟩ := ERK.step_error _ _ _ h
    exact absurd hx (by simp)

theorem CSSolver.coefsAt_eq (m : CSSolver ι) (nl : NlFunc ι) {h : ℝ} (hc : m.CoefOk h) : m.coefsAt h = (m.law nl).coefs h := by
  obtain ⟨r, hr⟩ := (m.method h).step_ofTotal (fun _ => 0) 0
  have hi := m.init_inv (fun _ => .ok 0) 0
  rw [m.lawful_inv] at hi
  obtain ⟨n, h1, -⟩ := (m.law fun _ => .ok 0).wrap_ok hi hc hr
  unfold CSSolver.coefsAt
  rw [m.cls_eq]
  show (IF4.updateStages _ _ _ _).2.method.coef = _
  rw [h1, m.law_coefs nl]

theorem CSSolver.exact_step (m : CSSolver ι) (nl : NlFunc ι) {F : FPEnv m.Coef ι} (har : F.ar = Arith.exact) {h : ℝ}
    (hc : m.CoefOk h) (hF : F.coefs h = .ok (m.coefsAt h)) (w : Vec ι) :
    m.rprog.oneStep F nl h w = ((m.method h).step nl w).map Prod.fst :=
  (m.tie nl).oneStep (m.law nl) (fun c h => m.rprog_exact c h) har (by rw [hF, m.coefsAt_eq nl hc]) w

/-- With exact arithmetic and coefficients a trial is the exact trial. -/
theorem TieAS.oneTrial {P : ASProg Coef ι} {S : ASStrategy Coef ι} {nl : NlFunc ι} {CoefOk : ℝ → Prop}
    {Φ : ℝ → Vec ι → Except PyErr (Vec ι × Vec ι)} {last : Attr} (T : TieAS P S last nl) (L : LawfulASStrategy S nl CoefOk Φ)
    {R : RASProg Coef ι} (hI : exactly () 0 R.init = P.init)
    (hR : ∀ c h, exactly c h R.stages = P.stages c h) (ho : R.out = P.out) {F : FPEnv Coef ι} (har : F.ar = Arith.exact)
    {h : ℝ} (hc : F.coefs h = .ok (L.coefs h)) (w : Vec ι) : R.oneTrial F nl h w = Φ h w := by
  unfold RASProg.oneTrial RASProg.load
  rw [hc, har]
  change (vals nl (exactly () 0 R.init) (argOnly w)).bind (fun x => (vals nl (exactly (L.coefs h) h R.stages) x).map _) = _
  rw [hI, hR, ho]
  have hw : argOnly w u = w := by simp [argOnly]
  obtain ⟨hi, hi'⟩ := T.init (L.coefs h) (argOnly w) 0
  obtain ⟨k, hk⟩ := RState.run_vals nl P.init ⟨argOnly w, 0⟩
  rw [hw] at hi hi'
  generalize hsi : (ASMethod.mk (L.coefs h) (argOnly w NL1) (argOnly w last) (argOnly w v) 0 : ASMethod Coef ι) = s0 at hi
  cases hn : nl w with
  | error e =>
    rw [L.first_err h w e hn]
    rw [L.init_err w s0 e hn] at hi
    cases hv : vals nl P.init (argOnly w) with
    | ok y =>
      rw [show (RState.mk (argOnly w) 0).val = argOnly w from rfl, hv] at hk
      simp only at hk
      rw [hk] at hi
      simp at hi
    | error e' =>
      rw [show (RState.mk (argOnly w) 0).val = argOnly w from rfl, hv] at hk
      simp only at hk
      rw [hk] at hi
      simp only [Prod.mk.injEq, Except.error.injEq] at hi
      rw [hi.1]
      rfl
  | ok n =>
    obtain ⟨s1, h1, h2, h3, -⟩ := L.init_ok w s0 n hn
    rw [h1] at hi
    cases hv : vals nl P.init (argOnly w) with
    | error e' =>
      rw [show (RState.mk (argOnly w) 0).val = argOnly w from rfl, hv] at hk
      simp only at hk
      rw [hk] at hi
      simp at hi
    | ok y =>
      rw [show (RState.mk (argOnly w) 0).val = argOnly w from rfl, hv] at hk
      simp only at hk
      rw [hk] at hi hi'
      simp only [Prod.mk.injEq, true_and] at hi
      simp only at hi'
      have ht := T.stages h false (L.coefs h) y k
      rw [hi', ← hi] at ht
      simp only [Bool.false_eq_true, if_false, List.nil_append] at ht
      obtain ⟨k', hk'⟩ := RState.run_vals nl (P.stages (L.coefs h) h) ⟨y, k⟩
      rw [show (RState.mk y k).val = y from rfl] at hk'
      obtain ⟨g1, g2⟩ := L.stages w h s1 false (by rw [hi]) (by simp) (fun _ => h3)
      simp only [Except.bind]
      cases hv' : vals nl (P.stages (L.coefs h) h) y with
      | ok z =>
        rw [hv'] at hk'
        simp only at hk'
        rw [hk'] at ht
        simp only [Except.map] at ht ⊢
        cases hs : Φ h w with
        | ok r =>
          obtain ⟨s', q, -⟩ := g1 r hs
          rw [ht] at q
          simp only [Prod.mk.injEq, Except.ok.injEq] at q
          rw [q.1]
        | error e =>
          obtain ⟨s', q, -⟩ := g2 e hs
          rw [ht] at q
          simp at q
      | error e' =>
        rw [hv'] at hk'
        simp only at hk'
        rw [hk'] at ht
        simp only [Except.map] at ht ⊢
        cases hs : Φ h w with
        | ok r =>
          obtain ⟨s', q, -⟩ := g1 r hs
          rw [ht] at q
          simp at q
        | error e =>
          obtain ⟨s', q, -⟩ := g2 e hs
          rw [ht] at q
          simp only [Prod.mk.injEq, Except.error.injEq] at q
          rw [q.1]

theorem ASSolver.aslaw_coefs' (m : ASSolver ι) (nl nl' : NlFunc ι) : (m.aslaw nl).coefs = (m.aslaw nl').coefs := by
  rcases m with (_ | _ | _) | ⟨_, _ | _ | _⟩ | ⟨_, _ | _ | _⟩ | _ <;> rfl

theorem ASSolver.coefsAt_eq (m : ASSolver ι) (nl : NlFunc ι) {h : ℝ} (hc : m.CoefOk h) : m.coefsAt h = (m.aslaw nl).coefs h := by
  have hi := m.init_ready (fun _ => .ok 0) 0
  rw [m.lawful_ready] at hi
  obtain ⟨r, hr⟩ := (m.method h).step_ofTotal (fun _ => m.op.prj 0) (m.op.prj 0)
  obtain ⟨s', h1, h2, -⟩ := (m.aslaw fun _ => .ok 0).wrap_ok (u := 0) hi hc (r := (m.op.emb r.1, r.2)) (by
    have e : Verif.conj m.op.emb m.op.prj (fun _ => .ok 0) = fun _ => .ok (m.op.prj 0) := rfl
    unfold coordStep
    rw [e, hr]
    rfl)
  unfold ASSolver.coefsAt
  rw [m.updateStages_eq _ _ _ _ _ (fun _ => rfl), h1, m.aslaw_coefs' nl]
  exact h2

theorem ASSolver.exact_trial (m : ASSolver ι) (nl : NlFunc ι) {F : FPEnv m.Coef ι} (har : F.ar = Arith.exact) {h : ℝ}
    (hc : m.CoefOk h) (hF : F.coefs h = .ok (m.coefsAt h)) (w : Vec ι) :
    m.rprog.oneTrial F nl h w = m.oneTrial nl h w := by
  rw [m.coefsAt_eq nl hc] at hF
  rw [m.oneTrial_eq]
  unfold guarded
  rw [if_pos hc]
  rcases m with (L | L | ⟨l, S, T, hS⟩) | ⟨cfg, L | L | ⟨l, S, T, hS⟩⟩ | ⟨cfg, L | L | ⟨l, S, T, hS⟩⟩ | L
  · exact (IF34.tieDiagonal L nl).oneTrial ((if34 (.diag L)).aslaw nl) (R := IF34.rProgDiagonal) rfl (IF34.rDiagonal_exact L) rfl har hF w
  · exact (IF34.tieNonDiagonal L nl).oneTrial ((if34 (.full L)).aslaw nl) (R := IF34.rProgNonDiagonal) rfl (IF34.rNonDiagonal_exact L) rfl har hF w
  · exact (IF34.tieDiagonalized l S T nl).oneTrial ((if34 (.eig l S T hS)).aslaw nl) (R := IF34.rProgDiagonalized S T) rfl (IF34.rDiagonalized_exact l S T) rfl har hF w
  · exact (ETD34.tieDiagonal cfg L nl).oneTrial ((etd34 cfg (.diag L)).aslaw nl) (R := ETD34.rProgDiagonal) rfl (ETD34.rDiagonal_exact cfg L) rfl har hF w
  · exact (ETD34.tieNonDiagonal cfg L nl).oneTrial ((etd34 cfg (.full L)).aslaw nl) (R := ETD34.rProgNonDiagonal) rfl (ETD34.rNonDiagonal_exact cfg L) rfl har hF w
  · exact (ETD34.tieDiagonalized cfg l S T nl).oneTrial ((etd34 cfg (.eig l S T hS)).aslaw nl) (R := ETD34.rProgDiagonalized S T) rfl (ETD34.rDiagonalized_exact cfg l S T) rfl har hF w
  · exact (ETD35.tieDiagonal cfg L nl).oneTrial ((etd35 cfg (.diag L)).aslaw nl) (R := ETD35.rProgDiagonal) rfl (ETD35.rDiagonal_exact cfg L) rfl har hF w
  · exact (ETD35.tieNonDiagonal cfg L nl).oneTrial ((etd35 cfg (.full L)).aslaw nl) (R := ETD35.rProgNonDiagonal) rfl (ETD35.rNonDiagonal_exact cfg L) rfl har hF w
  · exact (ETD35.tieDiagonalized cfg l S T nl).oneTrial ((etd35 cfg (.eig l S T hS)).aslaw nl) (R := ETD35.rProgDiagonalized S T) rfl (ETD35.rDiagonalized_exact cfg l S T) rfl har hF w
  · exact (IF45DP.tie L nl).oneTrial ((if45dp L).aslaw nl) (R := IF45DP.rProg) rfl (IF45DP.r_exact L) rfl har hF w

end Verif
