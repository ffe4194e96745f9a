import Verif.Model.Method

/-!
# Chains of evaluations of the nonlinear function

`chain4`, `chain5`, `chain6` are the pure counterparts of the stage code.
-/

set_option linter.unusedSectionVars false

namespace Verif

variable {V σ α : Type}

/-- Four dependent evaluations. -/
def chain4 (nl : V → Except PyErr V) (f1 : V) (f2 : V → V) (f3 : V → V → V) (f4 : V → V → V → V) :
    Except PyErr (V × V × V × V) :=
  match nl f1 with
  | .error e => .error e
  | .ok a =>
  match nl (f2 a) with
  | .error e => .error e
  | .ok b =>
  match nl (f3 a b) with
  | .error e => .error e
  | .ok c =>
  match nl (f4 a b c) with
  | .error e => .error e
  | .ok d => .ok (a, b, c, d)

/-- Five dependent evaluations. -/
def chain5 (nl : V → Except PyErr V) (f1 : V) (f2 : V → V) (f3 : V → V → V) (f4 : V → V → V → V)
    (f5 : V → V → V → V → V) : Except PyErr (V × V × V × V × V) :=
  match chain4 nl f1 f2 f3 f4 with
  | .error e => .error e
  | .ok (a, b, c, d) =>
  match nl (f5 a b c d) with
  | .error e => .error e
  | .ok x => .ok (a, b, c, d, x)

/-- Six dependent evaluations. -/
def chain6 (nl : V → Except PyErr V) (f1 : V) (f2 : V → V) (f3 : V → V → V) (f4 : V → V → V → V)
    (f5 : V → V → V → V → V) (f6 : V → V → V → V → V → V) : Except PyErr (V × V × V × V × V × V) :=
  match chain5 nl f1 f2 f3 f4 f5 with
  | .error e => .error e
  | .ok (a, b, c, d, x) =>
  match nl (f6 a b c d x) with
  | .error e => .error e
  | .ok y => .ok (a, b, c, d, x, y)

theorem chain4_last {nl : V → Except PyErr V} {f1 : V} {f2 : V → V} {f3 : V → V → V} {f4 : V → V → V → V}
    {a b c d : V} (h : chain4 nl f1 f2 f3 f4 = .ok (a, b, c, d)) : nl (f4 a b c) = .ok d := by
  unfold chain4 at h
  split at h
  · simp at h
  · split at h
    · simp at h
    · split at h
      · simp at h
      · split at h
        · simp at h
        · rename_i hd
          simp only [Except.ok.injEq, Prod.mk.injEq] at h
          obtain ⟨rfl, rfl, rfl, rfl⟩ := h
          exact hd

theorem chain6_last {nl : V → Except PyErr V} {f1 : V} {f2 : V → V} {f3 : V → V → V} {f4 : V → V → V → V}
    {f5 : V → V → V → V → V} {f6 : V → V → V → V → V → V} {a b c d x y : V}
    (h : chain6 nl f1 f2 f3 f4 f5 f6 = .ok (a, b, c, d, x, y)) : nl (f6 a b c d x) = .ok y := by
  unfold chain6 at h
  split at h
  · simp at h
  · split at h
    · simp at h
    · rename_i hd
      simp only [Except.ok.injEq, Prod.mk.injEq] at h
      obtain ⟨rfl, rfl, rfl, rfl, rfl, rfl⟩ := h
      exact hd

theorem call4 {nl : V → Except PyErr V} {call : V → PyM σ V} {tick : σ → σ}
    (hc : ∀ x s, call x s = (nl x, tick s)) (f1 : V) (f2 : V → V) (f3 : V → V → V) (f4 : V → V → V → V)
    (g : V → V → V → V → PyM σ α) (s : σ) :
    (∀ a b c d, chain4 nl f1 f2 f3 f4 = .ok (a, b, c, d) →
      (do let a ← call f1; let b ← call (f2 a); let c ← call (f3 a b); let d ← call (f4 a b c); g a b c d : PyM σ α) s
        = g a b c d (tick^[4] s)) ∧
    (∀ e, chain4 nl f1 f2 f3 f4 = .error e → ∃ j, 1 ≤ j ∧ j ≤ 4 ∧
      (do let a ← call f1; let b ← call (f2 a); let c ← call (f3 a b); let d ← call (f4 a b c); g a b c d : PyM σ α) s
        = (.error e, tick^[j] s)) := by
  unfold chain4
  rcases h1 : nl f1 with e1 | a
  · refine ⟨by simp, fun e he => ⟨1, le_rfl, by norm_num, ?_⟩⟩
    simp only [Except.error.injEq] at he; subst he
    simp [PyM.bind_apply, hc, h1]
  rcases h2 : nl (f2 a) with e2 | b
  · refine ⟨by simp [h2], fun e he => ⟨2, by norm_num, by norm_num, ?_⟩⟩
    simp only [h2, Except.error.injEq] at he; subst he
    simp [PyM.bind_apply, hc, h1, h2]
  rcases h3 : nl (f3 a b) with e3 | c
  · refine ⟨by simp [h2, h3], fun e he => ⟨3, by norm_num, by norm_num, ?_⟩⟩
    simp only [h2, h3, Except.error.injEq] at he; subst he
    simp [PyM.bind_apply, hc, h1, h2, h3]
  rcases h4 : nl (f4 a b c) with e4 | d
  · refine ⟨by simp [h2, h3, h4], fun e he => ⟨4, by norm_num, by norm_num, ?_⟩⟩
    simp only [h2, h3, h4, Except.error.injEq] at he; subst he
    simp [PyM.bind_apply, hc, h1, h2, h3, h4]
  refine ⟨fun a' b' c' d' h => ?_, by simp [h2, h3, h4]⟩
  simp only [h2, h3, h4, Except.ok.injEq, Prod.mk.injEq] at h
  obtain ⟨rfl, rfl, rfl, rfl⟩ := h
  simp [PyM.bind_apply, hc, h1, h2, h3, h4]

theorem call5 {nl : V → Except PyErr V} {call : V → PyM σ V} {tick : σ → σ}
    (hc : ∀ x s, call x s = (nl x, tick s)) (f1 : V) (f2 : V → V) (f3 : V → V → V) (f4 : V → V → V → V)
    (f5 : V → V → V → V → V) (g : V → V → V → V → V → PyM σ α) (s : σ) :
    (∀ a b c d x, chain5 nl f1 f2 f3 f4 f5 = .ok (a, b, c, d, x) →
      (do let a ← call f1; let b ← call (f2 a); let c ← call (f3 a b); let d ← call (f4 a b c)
          let x ← call (f5 a b c d); g a b c d x : PyM σ α) s
        = g a b c d x (tick^[5] s)) ∧
    (∀ e, chain5 nl f1 f2 f3 f4 f5 = .error e → ∃ j, 1 ≤ j ∧ j ≤ 5 ∧
      (do let a ← call f1; let b ← call (f2 a); let c ← call (f3 a b); let d ← call (f4 a b c)
          let x ← call (f5 a b c d); g a b c d x : PyM σ α) s
        = (.error e, tick^[j] s)) := by
  obtain ⟨ok4, er4⟩ := call4 hc f1 f2 f3 f4 (fun a b c d => (do let x ← call (f5 a b c d); g a b c d x)) s
  unfold chain5
  rcases h4 : chain4 nl f1 f2 f3 f4 with e4 | ⟨a, b, c, d⟩
  · refine ⟨by simp, fun e he => ?_⟩
    obtain ⟨j, j1, j2, j3⟩ := er4 e4 h4
    simp only [Except.error.injEq] at he; subst he
    exact ⟨j, j1, by omega, j3⟩
  have k4 := ok4 a b c d h4
  rcases h5 : nl (f5 a b c d) with e5 | x
  · refine ⟨by simp [h5], fun e he => ⟨5, by norm_num, by norm_num, ?_⟩⟩
    simp only [h5, Except.error.injEq] at he; subst he
    rw [k4]
    simp [PyM.bind_apply, hc, h5]
  refine ⟨fun a' b' c' d' x' h => ?_, by simp [h5]⟩
  simp only [h5, Except.ok.injEq, Prod.mk.injEq] at h
  obtain ⟨rfl, rfl, rfl, rfl, rfl⟩ := h
  rw [k4]
  simp [PyM.bind_apply, hc, h5]

theorem call6 {nl : V → Except PyErr V} {call : V → PyM σ V} {tick : σ → σ}
    (hc : ∀ x s, call x s = (nl x, tick s)) (f1 : V) (f2 : V → V) (f3 : V → V → V) (f4 : V → V → V → V)
    (f5 : V → V → V → V → V) (f6 : V → V → V → V → V → V) (g : V → V → V → V → V → V → PyM σ α) (s : σ) :
    (∀ a b c d x y, chain6 nl f1 f2 f3 f4 f5 f6 = .ok (a, b, c, d, x, y) →
      (do let a ← call f1; let b ← call (f2 a); let c ← call (f3 a b); let d ← call (f4 a b c)
          let x ← call (f5 a b c d); let y ← call (f6 a b c d x); g a b c d x y : PyM σ α) s
        = g a b c d x y (tick^[6] s)) ∧
    (∀ e, chain6 nl f1 f2 f3 f4 f5 f6 = .error e → ∃ j, 1 ≤ j ∧ j ≤ 6 ∧
      (do let a ← call f1; let b ← call (f2 a); let c ← call (f3 a b); let d ← call (f4 a b c)
          let x ← call (f5 a b c d); let y ← call (f6 a b c d x); g a b c d x y : PyM σ α) s
        = (.error e, tick^[j] s)) := by
  obtain ⟨ok5, er5⟩ := call5 hc f1 f2 f3 f4 f5 (fun a b c d x => (do let y ← call (f6 a b c d x); g a b c d x y)) s
  unfold chain6
  rcases h5 : chain5 nl f1 f2 f3 f4 f5 with e5 | ⟨a, b, c, d, x⟩
  · refine ⟨by simp, fun e he => ?_⟩
    obtain ⟨j, j1, j2, j3⟩ := er5 e5 h5
    simp only [Except.error.injEq] at he; subst he
    exact ⟨j, j1, by omega, j3⟩
  have k5 := ok5 a b c d x h5
  rcases h6 : nl (f6 a b c d x) with e6 | y
  · refine ⟨by simp [h6], fun e he => ⟨6, by norm_num, by norm_num, ?_⟩⟩
    simp only [h6, Except.error.injEq] at he; subst he
    rw [k5]
    simp [PyM.bind_apply, hc, h6]
  refine ⟨fun a' b' c' d' x' y' h => ?_, by simp [h6]⟩
  simp only [h6, Except.ok.injEq, Prod.mk.injEq] at h
  obtain ⟨rfl, rfl, rfl, rfl, rfl, rfl⟩ := h
  rw [k5]
  simp [PyM.bind_apply, hc, h6]

end Verif
