import Verif.Lemmas.WrapAS
import Verif.Lemmas.StagesCS

/-!
# Stage code of adaptive strategies implements the specified method

The diagonalized strategies evaluate `nl' w = prj (nl (emb w))` with `emb = S.dot`, `prj = Sinv.dot`; the others are the
case `emb = prj = id`.
-/

set_option linter.unusedSectionVars false

namespace Verif

open Matrix

variable {ι : Type} [Fintype ι] [DecidableEq ι] {Coef : Type}

/-- The nonlinear function in other coordinates. -/
def conj (emb prj : Vec ι → Vec ι) (nl : NlFunc ι) : NlFunc ι := fun w => (nl (emb w)).map prj

theorem conj_id (nl : NlFunc ι) : conj id id nl = nl := by
  funext w; unfold conj; simp only [id]; cases nl w <;> rfl

theorem conj_ok {emb prj : Vec ι → Vec ι} {nl : NlFunc ι} {w n : Vec ι} (h : nl (emb w) = .ok n) :
    conj emb prj nl w = .ok (prj n) := by simp [conj, h, Except.map]

theorem conj_err {emb prj : Vec ι → Vec ι} {nl : NlFunc ι} {w : Vec ι} {e : PyErr} (h : nl (emb w) = .error e) :
    conj emb prj nl w = .error e := by simp [conj, h, Except.map]

section chains
variable (nl : NlFunc ι) (emb prj : Vec ι → Vec ι) (f1 : Vec ι) (f2 : Vec ι → Vec ι) (f3 : Vec ι → Vec ι → Vec ι)
  (f4 : Vec ι → Vec ι → Vec ι → Vec ι) (f5 : Vec ι → Vec ι → Vec ι → Vec ι → Vec ι)

theorem chain4_conj : chain4 (conj emb prj nl) f1 f2 f3 f4 =
    (chain4 nl (emb f1) (fun a => emb (f2 (prj a))) (fun a b => emb (f3 (prj a) (prj b)))
      (fun a b c => emb (f4 (prj a) (prj b) (prj c)))).map fun x => (prj x.1, prj x.2.1, prj x.2.2.1, prj x.2.2.2) := by
  unfold chain4
  rcases h1 : nl (emb f1) with e | a
  · simp [conj_err h1, Except.map]
  rcases h2 : nl (emb (f2 (prj a))) with e | b
  · simp [conj_ok h1, conj_err h2, h2, Except.map]
  rcases h3 : nl (emb (f3 (prj a) (prj b))) with e | c
  · simp [conj_ok h1, conj_ok h2, conj_err h3, h2, h3, Except.map]
  rcases h4 : nl (emb (f4 (prj a) (prj b) (prj c))) with e | d
  · simp [conj_ok h1, conj_ok h2, conj_ok h3, conj_err h4, h2, h3, h4, Except.map]
  simp [conj_ok h1, conj_ok h2, conj_ok h3, conj_ok h4, h2, h3, h4, Except.map]

theorem chain5_conj : chain5 (conj emb prj nl) f1 f2 f3 f4 f5 =
    (chain5 nl (emb f1) (fun a => emb (f2 (prj a))) (fun a b => emb (f3 (prj a) (prj b)))
      (fun a b c => emb (f4 (prj a) (prj b) (prj c)))
      (fun a b c d => emb (f5 (prj a) (prj b) (prj c) (prj d)))).map
        fun x => (prj x.1, prj x.2.1, prj x.2.2.1, prj x.2.2.2.1, prj x.2.2.2.2) := by
  unfold chain5
  rw [chain4_conj]
  rcases h : chain4 nl (emb f1) (fun a => emb (f2 (prj a))) (fun a b => emb (f3 (prj a) (prj b)))
      (fun a b c => emb (f4 (prj a) (prj b) (prj c))) with e | ⟨a, b, c, d⟩
  · simp [Except.map]
  rcases h5 : nl (emb (f5 (prj a) (prj b) (prj c) (prj d))) with e | x
  · simp [conj_err h5, h5, Except.map]
  simp [conj_ok h5, h5, Except.map]

end chains

/-- Effect of a call on the strategy state. -/
def ASMethod.tick (s : ASMethod Coef ι) : ASMethod Coef ι := { s with evals := s.evals + 1 }

theorem ASMethod.tick_iterate (s : ASMethod Coef ι) (j : ℕ) :
    ASMethod.tick^[j] s = { s with evals := s.evals + j } := by
  induction j generalizing s with
  | zero => rfl
  | succ j ih => rw [Function.iterate_succ_apply, ih]; simp [ASMethod.tick]; omega

theorem ASMethod.call_eq (nl : NlFunc ι) (x : Vec ι) (s : ASMethod Coef ι) :
    ASMethod.call nl x s = (nl x, ASMethod.tick s) := rfl

theorem as_stages4 {nl : NlFunc ι} {emb prj : Vec ι → Vec ι} {M : ERK ι} (hM : IsFSAL M 4) {v n1 : Vec ι}
    (f1 : Vec ι) (f2 : Vec ι → Vec ι) (f3 : Vec ι → Vec ι → Vec ι) (f4 : Vec ι → Vec ι → Vec ι → Vec ι)
    (g : Vec ι → Vec ι → Vec ι → Vec ι → Vec ι)
    (e1 : f1 = M.E 1 *ᵥ v + M.A 1 0 *ᵥ n1)
    (e2 : ∀ a, f2 a = M.E 2 *ᵥ v + (M.A 2 0 *ᵥ n1 + M.A 2 1 *ᵥ a))
    (e3 : ∀ a b, f3 a b = M.E 3 *ᵥ v + (M.A 3 0 *ᵥ n1 + M.A 3 1 *ᵥ a + M.A 3 2 *ᵥ b))
    (e4 : ∀ a b c, f4 a b c = M.E 4 *ᵥ v + (M.A 4 0 *ᵥ n1 + M.A 4 1 *ᵥ a + M.A 4 2 *ᵥ b + M.A 4 3 *ᵥ c))
    (e5 : ∀ a b c d, g a b c d = M.R 0 *ᵥ n1 + M.R 1 *ᵥ a + M.R 2 *ᵥ b + M.R 3 *ᵥ c + M.R 4 *ᵥ d)
    (s : ASMethod Coef ι) (prog : PyM (ASMethod Coef ι) (Vec ι × Vec ι))
    (hprog : prog s = (do
      let a ← ASMethod.call nl (emb f1)
      let b ← ASMethod.call nl (emb (f2 (prj a)))
      let c ← ASMethod.call nl (emb (f3 (prj a) (prj b)))
      let d ← ASMethod.call nl (emb (f4 (prj a) (prj b) (prj c)))
      PyM.modify fun s => { s with NLlast := prj d }
      pure (emb (f4 (prj a) (prj b) (prj c)), g (prj a) (prj b) (prj c) (prj d)) :
        PyM (ASMethod Coef ι) (Vec ι × Vec ι)) s) :
    (∀ r, M.stepFrom (conj emb prj nl) n1 v = .ok r → ∃ d, nl (emb r.1) = .ok d ∧
      prog s = (.ok (emb r.1, r.2), { s with NLlast := prj d, evals := s.evals + 4 })) ∧
    (∀ e, M.stepFrom (conj emb prj nl) n1 v = .error e →
      ∃ j, j ≤ 4 ∧ prog s = (.error e, { s with evals := s.evals + j })) := by
  obtain rfl : f2 = _ := funext e2
  obtain rfl : f3 = _ := funext fun a => funext (e3 a)
  obtain rfl : f4 = _ := funext fun a => funext fun b => funext (e4 a b)
  obtain rfl : g = _ := funext fun a => funext fun b => funext fun c => funext (e5 a b c)
  subst e1
  have h5 := M.stages_five (conj emb prj nl) v n1
  rw [chain4_conj] at h5
  have hc := call4 (ASMethod.call_eq (Coef := Coef) nl) (emb (M.E 1 *ᵥ v + M.A 1 0 *ᵥ n1))
    (fun a => emb (M.E 2 *ᵥ v + (M.A 2 0 *ᵥ n1 + M.A 2 1 *ᵥ prj a)))
    (fun a b => emb (M.E 3 *ᵥ v + (M.A 3 0 *ᵥ n1 + M.A 3 1 *ᵥ prj a + M.A 3 2 *ᵥ prj b)))
    (fun a b c => emb (M.E 4 *ᵥ v + (M.A 4 0 *ᵥ n1 + M.A 4 1 *ᵥ prj a + M.A 4 2 *ᵥ prj b + M.A 4 3 *ᵥ prj c)))
    (fun a b c d => (do
      PyM.modify fun s => { s with NLlast := prj d }
      pure (emb (M.E 4 *ᵥ v + (M.A 4 0 *ᵥ n1 + M.A 4 1 *ᵥ prj a + M.A 4 2 *ᵥ prj b + M.A 4 3 *ᵥ prj c)),
        M.R 0 *ᵥ n1 + M.R 1 *ᵥ prj a + M.R 2 *ᵥ prj b + M.R 3 *ᵥ prj c + M.R 4 *ᵥ prj d) :
      PyM (ASMethod Coef ι) (Vec ι × Vec ι))) s
  obtain ⟨c1, c2⟩ := hc
  rw [hprog]
  unfold ERK.stepFrom
  rw [hM.s_eq, h5]
  rcases hch : chain4 nl (emb (M.E 1 *ᵥ v + M.A 1 0 *ᵥ n1))
    (fun a => emb (M.E 2 *ᵥ v + (M.A 2 0 *ᵥ n1 + M.A 2 1 *ᵥ prj a)))
    (fun a b => emb (M.E 3 *ᵥ v + (M.A 3 0 *ᵥ n1 + M.A 3 1 *ᵥ prj a + M.A 3 2 *ᵥ prj b)))
    (fun a b c => emb (M.E 4 *ᵥ v + (M.A 4 0 *ᵥ n1 + M.A 4 1 *ᵥ prj a + M.A 4 2 *ᵥ prj b + M.A 4 3 *ᵥ prj c)))
    with e' | ⟨a, b, c, d⟩
  · refine ⟨by simp [Except.map], fun e he => ?_⟩
    simp only [Except.map, Except.error.injEq] at he
    subst he
    obtain ⟨j, -, j2, j3⟩ := c2 _ hch
    exact ⟨j, j2, by rw [j3, ASMethod.tick_iterate]⟩
  · refine ⟨fun r hr => ?_, by simp [Except.map]⟩
    simp only [Except.map, Except.ok.injEq] at hr
    subst hr
    have hlast := chain4_last hch
    rw [c1 a b c d hch]
    refine ⟨d, ?_, ?_⟩
    · rw [← hlast]
      congr 2
      simp [ERK.out, hM.s_eq, Finset.sum_range_succ, hM.Eout, hM.B, hM.Blast]
    · simp [ASMethod.tick_iterate, ERK.out, ERK.err, hM.s_eq, Finset.sum_range_succ, hM.Eout, hM.B, hM.Blast]

theorem as_stages5 {nl : NlFunc ι} {emb prj : Vec ι → Vec ι} {M : ERK ι} (hs : M.s = 6)
    {v n1 : Vec ι}
    (f1 : Vec ι) (f2 : Vec ι → Vec ι) (f3 : Vec ι → Vec ι → Vec ι) (f4 : Vec ι → Vec ι → Vec ι → Vec ι)
    (f5 : Vec ι → Vec ι → Vec ι → Vec ι → Vec ι) (k g : Vec ι → Vec ι → Vec ι → Vec ι → Vec ι → Vec ι)
    (e1 : f1 = M.E 1 *ᵥ v + M.A 1 0 *ᵥ n1)
    (e2 : ∀ a, f2 a = M.E 2 *ᵥ v + (M.A 2 0 *ᵥ n1 + M.A 2 1 *ᵥ a))
    (e3 : ∀ a b, f3 a b = M.E 3 *ᵥ v + (M.A 3 0 *ᵥ n1 + M.A 3 1 *ᵥ a + M.A 3 2 *ᵥ b))
    (e4 : ∀ a b c, f4 a b c = M.E 4 *ᵥ v + (M.A 4 0 *ᵥ n1 + M.A 4 1 *ᵥ a + M.A 4 2 *ᵥ b + M.A 4 3 *ᵥ c))
    (e5 : ∀ a b c d, f5 a b c d = M.E 5 *ᵥ v +
      (M.A 5 0 *ᵥ n1 + M.A 5 1 *ᵥ a + M.A 5 2 *ᵥ b + M.A 5 3 *ᵥ c + M.A 5 4 *ᵥ d))
    (ek : ∀ a b c d x, k a b c d x = M.Eout *ᵥ v +
      (M.B 0 *ᵥ n1 + M.B 1 *ᵥ a + M.B 2 *ᵥ b + M.B 3 *ᵥ c + M.B 4 *ᵥ d + M.B 5 *ᵥ x))
    (eg : ∀ a b c d x, g a b c d x =
      M.R 0 *ᵥ n1 + M.R 1 *ᵥ a + M.R 2 *ᵥ b + M.R 3 *ᵥ c + M.R 4 *ᵥ d + M.R 5 *ᵥ x)
    (s : ASMethod Coef ι) (prog : PyM (ASMethod Coef ι) (Vec ι × Vec ι))
    (hprog : prog s = (do
      let a ← ASMethod.call nl (emb f1)
      let b ← ASMethod.call nl (emb (f2 (prj a)))
      let c ← ASMethod.call nl (emb (f3 (prj a) (prj b)))
      let d ← ASMethod.call nl (emb (f4 (prj a) (prj b) (prj c)))
      let x ← ASMethod.call nl (emb (f5 (prj a) (prj b) (prj c) (prj d)))
      pure (emb (k (prj a) (prj b) (prj c) (prj d) (prj x)), g (prj a) (prj b) (prj c) (prj d) (prj x)) :
        PyM (ASMethod Coef ι) (Vec ι × Vec ι)) s) :
    (∀ r, M.stepFrom (conj emb prj nl) n1 v = .ok r →
      prog s = (.ok (emb r.1, r.2), { s with evals := s.evals + 5 })) ∧
    (∀ e, M.stepFrom (conj emb prj nl) n1 v = .error e →
      ∃ j, j ≤ 5 ∧ prog s = (.error e, { s with evals := s.evals + j })) := by
  obtain rfl : f2 = _ := funext e2
  obtain rfl : f3 = _ := funext fun a => funext (e3 a)
  obtain rfl : f4 = _ := funext fun a => funext fun b => funext (e4 a b)
  obtain rfl : f5 = _ := funext fun a => funext fun b => funext fun c => funext (e5 a b c)
  obtain rfl : k = _ := funext fun a => funext fun b => funext fun c => funext fun d => funext (ek a b c d)
  obtain rfl : g = _ := funext fun a => funext fun b => funext fun c => funext fun d => funext (eg a b c d)
  subst e1
  have h5 := M.stages_six (conj emb prj nl) v n1
  rw [chain5_conj] at h5
  have hc := call5 (ASMethod.call_eq (Coef := Coef) nl) (emb (M.E 1 *ᵥ v + M.A 1 0 *ᵥ n1))
    (fun a => emb (M.E 2 *ᵥ v + (M.A 2 0 *ᵥ n1 + M.A 2 1 *ᵥ prj a)))
    (fun a b => emb (M.E 3 *ᵥ v + (M.A 3 0 *ᵥ n1 + M.A 3 1 *ᵥ prj a + M.A 3 2 *ᵥ prj b)))
    (fun a b c => emb (M.E 4 *ᵥ v + (M.A 4 0 *ᵥ n1 + M.A 4 1 *ᵥ prj a + M.A 4 2 *ᵥ prj b + M.A 4 3 *ᵥ prj c)))
    (fun a b c d => emb (M.E 5 *ᵥ v +
      (M.A 5 0 *ᵥ n1 + M.A 5 1 *ᵥ prj a + M.A 5 2 *ᵥ prj b + M.A 5 3 *ᵥ prj c + M.A 5 4 *ᵥ prj d)))
    (fun a b c d x => (pure (emb (M.Eout *ᵥ v + (M.B 0 *ᵥ n1 + M.B 1 *ᵥ prj a + M.B 2 *ᵥ prj b + M.B 3 *ᵥ prj c +
          M.B 4 *ᵥ prj d + M.B 5 *ᵥ prj x)),
        M.R 0 *ᵥ n1 + M.R 1 *ᵥ prj a + M.R 2 *ᵥ prj b + M.R 3 *ᵥ prj c + M.R 4 *ᵥ prj d + M.R 5 *ᵥ prj x) :
      PyM (ASMethod Coef ι) (Vec ι × Vec ι))) s
  obtain ⟨c1, c2⟩ := hc
  rw [hprog]
  unfold ERK.stepFrom
  rw [hs, h5]
  rcases hch : chain5 nl (emb (M.E 1 *ᵥ v + M.A 1 0 *ᵥ n1))
    (fun a => emb (M.E 2 *ᵥ v + (M.A 2 0 *ᵥ n1 + M.A 2 1 *ᵥ prj a)))
    (fun a b => emb (M.E 3 *ᵥ v + (M.A 3 0 *ᵥ n1 + M.A 3 1 *ᵥ prj a + M.A 3 2 *ᵥ prj b)))
    (fun a b c => emb (M.E 4 *ᵥ v + (M.A 4 0 *ᵥ n1 + M.A 4 1 *ᵥ prj a + M.A 4 2 *ᵥ prj b + M.A 4 3 *ᵥ prj c)))
    (fun a b c d => emb (M.E 5 *ᵥ v +
      (M.A 5 0 *ᵥ n1 + M.A 5 1 *ᵥ prj a + M.A 5 2 *ᵥ prj b + M.A 5 3 *ᵥ prj c + M.A 5 4 *ᵥ prj d)))
    with e' | ⟨a, b, c, d, x⟩
  · refine ⟨by simp [Except.map], fun e he => ?_⟩
    simp only [Except.map, Except.error.injEq] at he
    subst he
    obtain ⟨j, -, j2, j3⟩ := c2 _ hch
    exact ⟨j, j2, by rw [j3, ASMethod.tick_iterate]⟩
  · refine ⟨fun r hr => ?_, by simp [Except.map]⟩
    simp only [Except.map, Except.ok.injEq] at hr
    subst hr
    rw [c1 a b c d x hch]
    simp [ASMethod.tick_iterate, ERK.out, ERK.err, hs, Finset.sum_range_succ]

theorem as_stages6 {nl : NlFunc ι} {M : ERK ι} (hM : IsFSAL M 6) {u n1 : Vec ι}
    (f1 : Vec ι) (f2 : Vec ι → Vec ι) (f3 : Vec ι → Vec ι → Vec ι) (f4 : Vec ι → Vec ι → Vec ι → Vec ι)
    (f5 : Vec ι → Vec ι → Vec ι → Vec ι → Vec ι) (f6 : Vec ι → Vec ι → Vec ι → Vec ι → Vec ι → Vec ι)
    (g : Vec ι → Vec ι → Vec ι → Vec ι → Vec ι → Vec ι → Vec ι)
    (e1 : f1 = M.E 1 *ᵥ u + M.A 1 0 *ᵥ n1)
    (e2 : ∀ a, f2 a = M.E 2 *ᵥ u + (M.A 2 0 *ᵥ n1 + M.A 2 1 *ᵥ a))
    (e3 : ∀ a b, f3 a b = M.E 3 *ᵥ u + (M.A 3 0 *ᵥ n1 + M.A 3 1 *ᵥ a + M.A 3 2 *ᵥ b))
    (e4 : ∀ a b c, f4 a b c = M.E 4 *ᵥ u + (M.A 4 0 *ᵥ n1 + M.A 4 1 *ᵥ a + M.A 4 2 *ᵥ b + M.A 4 3 *ᵥ c))
    (e5 : ∀ a b c d, f5 a b c d = M.E 5 *ᵥ u +
      (M.A 5 0 *ᵥ n1 + M.A 5 1 *ᵥ a + M.A 5 2 *ᵥ b + M.A 5 3 *ᵥ c + M.A 5 4 *ᵥ d))
    (e6 : ∀ a b c d x, f6 a b c d x = M.E 6 *ᵥ u +
      (M.A 6 0 *ᵥ n1 + M.A 6 1 *ᵥ a + M.A 6 2 *ᵥ b + M.A 6 3 *ᵥ c + M.A 6 4 *ᵥ d + M.A 6 5 *ᵥ x))
    (eg : ∀ a b c d x y, g a b c d x y =
      M.R 0 *ᵥ n1 + M.R 1 *ᵥ a + M.R 2 *ᵥ b + M.R 3 *ᵥ c + M.R 4 *ᵥ d + M.R 5 *ᵥ x + M.R 6 *ᵥ y)
    (s : ASMethod Coef ι) (prog : PyM (ASMethod Coef ι) (Vec ι × Vec ι))
    (hprog : prog s = (do
      let a ← ASMethod.call nl f1
      let b ← ASMethod.call nl (f2 a)
      let c ← ASMethod.call nl (f3 a b)
      let d ← ASMethod.call nl (f4 a b c)
      let x ← ASMethod.call nl (f5 a b c d)
      let y ← ASMethod.call nl (f6 a b c d x)
      PyM.modify fun s => { s with NLlast := y }
      pure (f6 a b c d x, g a b c d x y) : PyM (ASMethod Coef ι) (Vec ι × Vec ι)) s) :
    (∀ r, M.stepFrom nl n1 u = .ok r → ∃ n, nl r.1 = .ok n ∧
      prog s = (.ok r, { s with NLlast := n, evals := s.evals + 6 })) ∧
    (∀ e, M.stepFrom nl n1 u = .error e → ∃ j, j ≤ 6 ∧ prog s = (.error e, { s with evals := s.evals + j })) := by
  obtain rfl : f2 = _ := funext e2
  obtain rfl : f3 = _ := funext fun a => funext (e3 a)
  obtain rfl : f4 = _ := funext fun a => funext fun b => funext (e4 a b)
  obtain rfl : f5 = _ := funext fun a => funext fun b => funext fun c => funext (e5 a b c)
  obtain rfl : f6 = _ := funext fun a => funext fun b => funext fun c => funext fun d => funext (e6 a b c d)
  obtain rfl : g = _ :=
    funext fun a => funext fun b => funext fun c => funext fun d => funext fun x => funext (eg a b c d x)
  subst e1
  have h5 := M.stages_seven nl u n1
  obtain ⟨c1, c2⟩ := call6 (ASMethod.call_eq (Coef := Coef) nl) _ _ _ _ _ _
    (fun a b c d x y => (do PyM.modify fun s => { s with NLlast := y }
                            pure (M.E 6 *ᵥ u + (M.A 6 0 *ᵥ n1 + M.A 6 1 *ᵥ a + M.A 6 2 *ᵥ b + M.A 6 3 *ᵥ c +
                              M.A 6 4 *ᵥ d + M.A 6 5 *ᵥ x),
                              M.R 0 *ᵥ n1 + M.R 1 *ᵥ a + M.R 2 *ᵥ b + M.R 3 *ᵥ c + M.R 4 *ᵥ d + M.R 5 *ᵥ x +
                                M.R 6 *ᵥ y) :
      PyM (ASMethod Coef ι) (Vec ι × Vec ι))) s
  rw [hprog]
  unfold ERK.stepFrom
  rw [hM.s_eq, h5]
  constructor
  · intro r hr
    split at hr
    · simp at hr
    rename_i N hN
    split at hN
    · simp at hN
    rename_i a b c d x y hch
    simp only [Except.ok.injEq] at hN hr
    subst hN hr
    have hlast := chain6_last hch
    rw [c1 a b c d x y hch]
    refine ⟨y, ?_, ?_⟩
    · rw [← hlast]
      congr 1
      simp [ERK.out, hM.s_eq, Finset.sum_range_succ, hM.Eout, hM.B, hM.Blast]
    · simp [ASMethod.tick_iterate, ERK.out, ERK.err, hM.s_eq, Finset.sum_range_succ, hM.Eout, hM.B, hM.Blast]
  · intro e he
    split at he
    · rename_i e' hN
      split at hN
      · rename_i e'' hch
        simp only [Except.error.injEq] at hN he
        subst hN he
        obtain ⟨j, -, j2, j3⟩ := c2 _ hch
        exact ⟨j, j2, by rw [j3, ASMethod.tick_iterate]⟩
      · simp at hN
    · simp at he

end Verif
