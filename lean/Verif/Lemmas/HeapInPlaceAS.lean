import Verif.Lemmas.HeapBlocks
import Verif.Lemmas.RoundedTie

/-!
# Trials of adaptive solvers with a nonlinear function that works in place
-/

set_option linter.unusedSectionVars false

namespace Verif

open Matrix Attr

variable {ι : Type} [Fintype ι] [DecidableEq ι]

/-- On states that occur, the branch of IF45DP does the same as that of the other classes. -/
theorem ASProg.updateStagesDP_eq {Coef : Type} (P : ASProg Coef ι) (f : HeapNl ι) (u : HArr ι) (h : ℝ) (a : Bool)
    (s : Wrap (HMethod Coef ι)) (hs : s.n1init = false → a = false) :
    P.updateStagesDP f u h a s = P.updateStages f u h a s := by
  cases a with
  | false =>
    simp only [ASProg.updateStagesDP, ASProg.updateStages, Bool.false_eq_true, if_false]
  | true =>
    have hn : s.n1init = true := by
      cases hb : s.n1init with
      | true => rfl
      | false => exact absurd (hs hb) (by simp)
    simp only [ASProg.updateStagesDP, ASProg.updateStages, if_true]
    have h1 : (P.coeffs h s).2.n1init = true := by
      simp only [ASProg.coeffs, PyM.bind_get_apply]
      split
      · exact hn
      · exact hn
    rcases hc : P.coeffs h s with ⟨r, s1⟩
    rw [hc] at h1
    cases r with
    | error e => rw [PyM.bind_error hc, PyM.bind_error hc]
    | ok r =>
      rw [PyM.bind_ok hc, PyM.bind_ok hc]
      obtain ⟨b, o, c, at0, H, n⟩ := s1
      simp only at h1
      subst h1
      rfl

namespace ASSolver

/-- The code of the solver's strategy, as in `Verif.ASSolver.heapCls`. -/
noncomputable def prog : (m : ASSolver ι) → ASProg m.Coef ι
  | if34 (.diag L) => IF34.progDiagonal L
  | if34 (.full L) => IF34.progNonDiagonal L
  | if34 (.eig lam S Sinv _) => IF34.progDiagonalized lam S Sinv
  | etd34 cfg (.diag L) => ETD34.progDiagonal cfg L
  | etd34 cfg (.full L) => ETD34.progNonDiagonal cfg L
  | etd34 cfg (.eig lam S Sinv _) => ETD34.progDiagonalized cfg lam S Sinv
  | etd35 cfg (.diag L) => ETD35.progDiagonal cfg L
  | etd35 cfg (.full L) => ETD35.progNonDiagonal cfg L
  | etd35 cfg (.eig lam S Sinv _) => ETD35.progDiagonalized cfg lam S Sinv
  | if45dp L => IF45DP.prog L

theorem prog_tie (m : ASSolver ι) (nl : NlFunc ι) : TieAS m.prog (m.strategy nl) m.last nl := by
  rcases m with (L | L | ⟨l, S, T, hS⟩) | ⟨cfg, L | L | ⟨l, S, T, hS⟩⟩ | ⟨cfg, L | L | ⟨l, S, T, hS⟩⟩ | L
  · exact IF34.tieDiagonal L nl
  · exact IF34.tieNonDiagonal L nl
  · exact IF34.tieDiagonalized l S T nl
  · exact ETD34.tieDiagonal cfg L nl
  · exact ETD34.tieNonDiagonal cfg L nl
  · exact ETD34.tieDiagonalized cfg l S T nl
  · exact ETD35.tieDiagonal cfg L nl
  · exact ETD35.tieNonDiagonal cfg L nl
  · exact ETD35.tieDiagonalized cfg l S T nl
  · exact IF45DP.tie L nl

theorem heapCls_stages (m : ASSolver ι) (f : HeapNl ι) (u : HArr ι) (h : ℝ) (a : Bool) (s : Wrap (HMethod m.Coef ι))
    (hs : s.n1init = false → a = false) :
    (m.heapCls f).updateStages u h a s = m.prog.updateStages f u h a s := by
  rcases m with (L | L | ⟨l, S, T, hS⟩) | ⟨cfg, L | L | ⟨l, S, T, hS⟩⟩ | ⟨cfg, L | L | ⟨l, S, T, hS⟩⟩ | L
  all_goals try rfl
  exact ASProg.updateStagesDP_eq _ f u h a s hs

/-- `n1_init` -/
def loadInit (m : ASSolver ι) : List (Instr ι) :=
  if m.useV then [.call tmp u, .set NL1 fun x => m.op.prj (x tmp), .set v fun x => m.op.prj (x u)] else [.call NL1 u]

theorem prog_init (m : ASSolver ι) : m.prog.init = m.loadInit := by
  rcases m with (L | L | ⟨l, S, T, hS⟩) | ⟨cfg, L | L | ⟨l, S, T, hS⟩⟩ | ⟨cfg, L | L | ⟨l, S, T, hS⟩⟩ | L <;> rfl

theorem prog_accepted_fsal (m : ASSolver ι) (hm : m.isFsal) : m.prog.accepted =
    if m.useV then [.set NL1 fun x => x m.last, .set v fun x => m.op.prj (x u)] else [.set NL1 fun x => x m.last] := by
  rcases m with (L | L | ⟨l, S, T, hS⟩) | ⟨cfg, L | L | ⟨l, S, T, hS⟩⟩ | ⟨cfg, L | L | ⟨l, S, T, hS⟩⟩ | L <;>
  first | rfl | exact absurd hm id

theorem prog_accepted_fresh (m : ASSolver ι) (hm : ¬ m.isFsal) : m.prog.accepted = m.loadInit := by
  rcases m with (L | L | ⟨l, S, T, hS⟩) | ⟨cfg, L | L | ⟨l, S, T, hS⟩⟩ | ⟨cfg, L | L | ⟨l, S, T, hS⟩⟩ | L <;>
  first | rfl | exact absurd trivial hm

theorem prog_assigns (m : ASSolver ι) (c : m.Coef) (h : ℝ) : assigns m.prog.out (m.prog.stages c h) = true ∧
    assigns u (m.prog.stages c h) = false := by
  rcases m with (L | L | ⟨l, S, T, hS⟩) | ⟨cfg, L | L | ⟨l, S, T, hS⟩⟩ | ⟨cfg, L | L | ⟨l, S, T, hS⟩⟩ | L <;> exact ⟨rfl, rfl⟩

/-- The array that a trial returns has been the argument of `nl_func`. -/
def bends : ASSolver ι → Bool
  | etd35 _ _ => false
  | if34 (.eig _ _ _ _) => false
  | etd34 _ (.eig _ _ _ _) => false
  | _ => true

theorem prog_blocks (m : ASSolver ι) (c : m.Coef) (h : ℝ) : ∃ D, Blocks (fun _ => false) D (m.prog.stages c h) ∧
    D m.prog.out = m.bends ∧ D err = false ∧ D NL1 = false ∧ D v = false ∧ D m.last = false := by
  rcases m with (L | L | ⟨l, S, T, hS⟩) | ⟨cfg, L | L | ⟨l, S, T, hS⟩⟩ | ⟨cfg, L | L | ⟨l, S, T, hS⟩⟩ | L
  all_goals
    refine ⟨?_, ?_, ?_⟩
    rotate_left
    · repeat' first | exact Blocks.nil | refine Blocks.call ?_ ?_ | refine Blocks.set ?_ ?_
      all_goals
        intro x y hxy
        try simp only [hxy .u rfl]
        try simp only [hxy .v rfl]
        try simp only [hxy .k rfl]
        try simp only [hxy .tmp rfl]
        try simp only [hxy .NL1 rfl]
        try simp only [hxy .NL2 rfl]
        try simp only [hxy .NL3 rfl]
        try simp only [hxy .NL4 rfl]
        try simp only [hxy .NL5 rfl]
        try simp only [hxy .NL6 rfl]
        try simp only [hxy .NL7 rfl]
    · exact ⟨rfl, rfl, rfl, rfl, rfl⟩

theorem bentAfter_fsal (m : ASSolver ι) (hm : m.isFsal) (g : Vec ι → Vec ι) (x : Vec ι) :
    m.bentAfter g x = ⟨if m.bends then g x else x, g x, if m.bends then g x else x⟩ := by
  rcases m with (L | L | ⟨l, S, T, hS⟩) | ⟨cfg, L | L | ⟨l, S, T, hS⟩⟩ | ⟨cfg, L | L | ⟨l, S, T, hS⟩⟩ | L <;>
  first | rfl | exact absurd hm id

theorem bentAfter_fresh (m : ASSolver ι) (hm : ¬ m.isFsal) (g : Vec ι → Vec ι) (x : Vec ι) :
    m.bentAfter g x = ⟨g x, g x, x⟩ ∧ m.bends = false := by
  rcases m with (L | L | ⟨l, S, T, hS⟩) | ⟨cfg, L | L | ⟨l, S, T, hS⟩⟩ | ⟨cfg, L | L | ⟨l, S, T, hS⟩⟩ | L <;>
  first | exact ⟨rfl, rfl⟩ | exact absurd trivial hm

theorem bentAfter_out (m : ASSolver ι) (g : Vec ι → Vec ι) (x : Vec ι) :
    (m.bentAfter g x).out = if m.bends then g x else x := by
  by_cases hm : m.isFsal
  · rw [m.bentAfter_fsal hm]
  · obtain ⟨h1, h2⟩ := m.bentAfter_fresh hm g x
    rw [h1, h2]; rfl

/-- The last stage that is kept. -/
theorem fsal_last (m : ASSolver ι) (nl : NlFunc ι) (hm : m.isFsal) (u : Vec ι) (h : ℝ) (s : ASMethod m.Coef ι)
    (hc : s.coef = (m.stale nl).coefs h) (r)
    (hr : (m.method h).stepFrom (Verif.conj m.op.emb m.op.prj nl) s.NL1 (working m.useV m.op.prj s u) = .ok r) :
    ∃ d, nl (m.op.emb r.1) = .ok d ∧ ((m.strategy nl).updateStages u h false s).2.NLlast = m.op.prj d := by
  rcases m with (L | L | ⟨l, S, T, hS⟩) | ⟨cfg, L | L | ⟨l, S, T, hS⟩⟩ | ⟨cfg, L | L | ⟨l, S, T, hS⟩⟩ | L
  · obtain ⟨d, h1, h2⟩ := ((IF34.rawDiagonal L nl).main u h s hc).1 r hr
    exact ⟨d, h1, congrArg (fun p => p.2.NLlast) h2⟩
  · obtain ⟨d, h1, h2⟩ := ((IF34.rawNonDiagonal L nl).main u h s hc).1 r hr
    exact ⟨d, h1, congrArg (fun p => p.2.NLlast) h2⟩
  · obtain ⟨d, h1, h2⟩ := ((IF34.rawDiagonalized l S T hS nl).main u h s hc).1 r hr
    exact ⟨d, h1, congrArg (fun p => p.2.NLlast) h2⟩
  · obtain ⟨d, h1, h2⟩ := ((ETD34.rawDiagonal cfg L nl).main u h s hc).1 r hr
    exact ⟨d, h1, congrArg (fun p => p.2.NLlast) h2⟩
  · obtain ⟨d, h1, h2⟩ := ((ETD34.rawNonDiagonal cfg L nl).main u h s hc).1 r hr
    exact ⟨d, h1, congrArg (fun p => p.2.NLlast) h2⟩
  · obtain ⟨d, h1, h2⟩ := ((ETD34.rawDiagonalized cfg l S T hS nl).main u h s hc).1 r hr
    exact ⟨d, h1, congrArg (fun p => p.2.NLlast) h2⟩
  · exact absurd hm id
  · exact absurd hm id
  · exact absurd hm id
  · obtain ⟨d, h1, h2⟩ := ((IF45DP.raw L nl).main u h s hc).1 r hr
    exact ⟨d, h1, congrArg (fun p => p.2.NLlast) h2⟩

/-- The object is such that the next trial from the array at address `u` (after an accepted one if `a`) works with `z`. -/
structure InState (m : ASSolver ι) (g : Vec ι → Vec ι) (s : Wrap (HMethod m.Coef ι)) (a : Bool) (u : ℕ) (z : Bent ι) : Prop where
  bdd : ∀ a, s.method.attr a < s.method.heap.next
  arg : u < s.method.heap.next
  coef : ∀ h, s.hCoeff = some h → m.CoefOk h ∧ s.method.coef = (m.stale (total g)).coefs h
  new : s.n1init = false → a = false ∧ g (s.method.heap.cell u) = z.start ∧ z.first = z.start
  loaded : s.n1init = true → a = false → s.method.val NL1 = m.op.prj z.first ∧
    (m.useV = true → s.method.val v = m.op.prj z.start) ∧ s.method.heap.cell u = z.start
  next : s.n1init = true → a = true → m.isFsal → s.method.val m.last = m.op.prj z.first ∧ s.method.heap.cell u = z.start
  again : s.n1init = true → a = true → ¬ m.isFsal → g (s.method.heap.cell u) = z.start ∧ z.first = z.start

/-- The stages and `return`. -/
theorem body_inPlace (m : ASSolver ι) (g : Vec ι → Vec ι) (s : HMethod m.Coef ι) {h : ℝ} (hco : m.CoefOk h)
    (hc : s.coef = (m.stale (total g)).coefs h) (hb : ∀ a, s.attr a < s.heap.next) {z : Bent ι}
    (h1 : s.val NL1 = m.op.prj z.first) (h2 : m.useV = true → s.val v = m.op.prj z.start) (h3 : s.val .u = z.start) :
    ∃ r1 r2 s' x e, m.prog.body (inPlaceNl g) h s = (.ok (r1, r2), s') ∧
      (m.method h).stepFrom (fun w => .ok (m.op.prj (g (m.op.emb w)))) (m.op.prj z.first) (m.op.prj z.start) = .ok (x, e) ∧
      r1.seen = (m.bentAfter g (m.op.emb x)).out ∧ r2.seen = e ∧
      m.InState g ⟨true, some h, s'⟩ false (s.attr .u) z ∧
      m.InState g ⟨true, some h, s'⟩ true r1.ref (m.bentAfter g (m.op.emb x)) ∧
      s'.heap.cell r1.ref = r1.seen ∧ s.heap.next ≤ r1.ref ∧ s.heap.next ≤ s'.heap.next ∧
      ∀ a, a < s.heap.next → s'.heap.cell a = s.heap.cell a := by
  obtain ⟨D, hB, d1, d2, d3, d4, d5⟩ := m.prog_blocks s.coef h
  obtain ⟨s', q', b1, b2, b3, b4, b5, b6, b7⟩ := HMethod.run_blocks g hB s ⟨s.val, s.evals⟩ ⟨hb, fun _ => rfl⟩
  have hS := (m.prog_tie (total g)).stages h false s.coef s.val s.evals
  simp only [Bool.false_eq_true, if_false, List.nil_append, b2, Except.map] at hS
  obtain ⟨t, t1, t2, t3, t4⟩ := (m.stale (total g)).main (s.val .u) h ⟨s.coef, s.val NL1, s.val m.last, s.val v, s.evals⟩ hc
  have hw : working m.useV m.op.prj (⟨s.coef, s.val NL1, s.val m.last, s.val v, s.evals⟩ : ASMethod m.Coef ι) (s.val .u) =
      m.op.prj z.start := by
    unfold working
    split
    · rename_i hv; exact h2 hv
    · rw [h3]
  have hj : Verif.conj m.op.emb m.op.prj (total g) = fun w => .ok (m.op.prj (g (m.op.emb w))) := rfl
  have hl := fun hm => m.fsal_last (total g) hm (s.val .u) h ⟨s.coef, s.val NL1, s.val m.last, s.val v, s.evals⟩ hc
  rw [t1] at hS
  rw [t1] at hl
  simp only [hw] at hS hl
  simp only [h1, hj] at hS hl
  cases hq : (m.method h).stepFrom (fun w => .ok (m.op.prj (g (m.op.emb w)))) (m.op.prj z.first) (m.op.prj z.start) with
  | error e => rw [hq] at hS; simp [Except.map] at hS
  | ok r =>
    rw [hq] at hS hl
    simp only [Except.map, Prod.mk.injEq, Except.ok.injEq] at hS
    obtain ⟨⟨e1, e2⟩, e3⟩ := hS
    subst e3
    simp only at t3 t4
    have vo : s'.val m.prog.out = if m.bends then g (m.op.emb r.1) else m.op.emb r.1 := by
      rw [b3.val, d1, e1]
    have ve : s'.val err = r.2 := by rw [b3.val, d2, e2]; rfl
    have vn : s'.val NL1 = m.op.prj z.first := by rw [b3.val, d3, ← h1, ← t3]; rfl
    have vv : m.useV = true → s'.val v = m.op.prj z.start := fun hv => by rw [b3.val, d4, ← h2 hv, ← t4]; rfl
    have hu : s'.heap.cell (s.attr .u) = z.start := (b6 _ (hb _)).trans h3
    have hcf : ∀ h', some h = some h' → m.CoefOk h' ∧ s'.coef = (m.stale (total g)).coefs h' := by
      rintro h' ⟨⟩
      exact ⟨hco, b4.trans hc⟩
    refine ⟨⟨s'.attr m.prog.out, s'.val m.prog.out⟩, ⟨s'.attr err, s'.val err⟩, s', r.1, r.2, ?_, rfl, ?_, ve, ?_, ?_, rfl, ?_,
      b5, b6⟩
    · simp only [ASProg.body, PyM.bind_get_apply]
      rw [PyM.bind_ok b1]
      rfl
    · rw [bentAfter_out]; exact vo
    · exact ⟨b3.bdd, lt_of_lt_of_le (hb _) b5, hcf, by simp, fun _ _ => ⟨vn, vv, hu⟩, by simp, by simp⟩
    · refine ⟨b3.bdd, b3.bdd _, hcf, by simp, by simp, fun _ _ hm => ?_, fun _ _ hm => ?_⟩
      · obtain ⟨d, hd1, hd2⟩ := hl hm r rfl
        rw [m.bentAfter_fsal hm]
        refine ⟨?_, vo⟩
        simp only [total, Except.ok.injEq] at hd1
        subst hd1
        rw [b3.val, d5]
        exact hd2
      · obtain ⟨k1, k2⟩ := m.bentAfter_fresh hm g (m.op.emb r.1)
        rw [k1]
        refine ⟨?_, rfl⟩
        have : s'.heap.cell (s'.attr m.prog.out) = m.op.emb r.1 := by
          have := vo; rw [k2] at this; exact this
        simp only [this]
    · rcases b7 m.prog.out with h | ⟨h, -⟩
      · exact h
      · rw [(m.prog_assigns s.coef _).1] at h; simp at h

theorem prj_of_not_useV (m : ASSolver ι) (hm : m.useV = false) (x : Vec ι) : m.op.prj x = x := by
  rcases m with (L | L | ⟨l, S, T, hS⟩) | ⟨cfg, L | L | ⟨l, S, T, hS⟩⟩ | ⟨cfg, L | L | ⟨l, S, T, hS⟩⟩ | L <;>
  first | rfl | exact absurd hm (by simp [useV, op])

theorem last_ne (m : ASSolver ι) : m.last ≠ .u := by
  rcases m with (L | L | ⟨l, S, T, hS⟩) | ⟨cfg, L | L | ⟨l, S, T, hS⟩⟩ | ⟨cfg, L | L | ⟨l, S, T, hS⟩⟩ | L <;> simp [last]

/-- `n1_init` overwrites the array it is given. -/
theorem load_inPlace (m : ASSolver ι) (g : Vec ι → Vec ι) (s : HMethod m.Coef ι) (hb : ∀ a, s.attr a < s.heap.next) :
    ∃ s', HMethod.run (inPlaceNl g) m.loadInit s = (.ok (), s') ∧ s'.coef = s.coef ∧ (∀ a, s'.attr a < s'.heap.next) ∧
      s'.val NL1 = m.op.prj (g (s.val .u)) ∧ (m.useV = true → s'.val v = m.op.prj (g (s.val .u))) ∧
      s'.val .u = g (s.val .u) ∧ s'.attr .u = s.attr .u ∧ s.heap.next ≤ s'.heap.next ∧
      ∀ a, a < s.heap.next → a ≠ s.attr .u → s'.heap.cell a = s.heap.cell a := by
  obtain ⟨c, at0, H, n⟩ := s
  simp only at hb
  have hu : at0 .u ≠ H.next := (hb .u).ne
  have hu2 : at0 .u ≠ H.next + 1 := by have := hb .u; omega
  cases hv : m.useV with
  | false =>
    refine ⟨⟨c, Function.update at0 NL1 (at0 .u), H.write (at0 .u) (g (H.cell (at0 .u))), n + 1⟩, ?_, rfl, fun a => ?_, ?_, by simp,
      ?_, by simp, by simp [Heap.write], fun a ha hau => by simp [Heap.write, hau]⟩
    · simp [loadInit, hv, HMethod.run, HMethod.exec, PyM.bind_apply, inPlaceNl]
    · by_cases ha : a = NL1
      · subst ha; simpa [Heap.write] using hb .u
      · simpa [Heap.write, ha] using hb a
    · rw [m.prj_of_not_useV hv]
      simp [HMethod.val, Heap.write]
    · simp [HMethod.val, Heap.write]
  | true =>
    refine ⟨⟨c, Function.update (Function.update (Function.update at0 tmp (at0 .u)) NL1 H.next) v (H.next + 1),
      ((H.write (at0 .u) (g (H.cell (at0 .u)))).alloc (m.op.prj (g (H.cell (at0 .u))))).alloc (m.op.prj (g (H.cell (at0 .u)))), n + 1⟩,
      ?_, rfl, fun a => ?_, ?_, fun _ => ?_, ?_, by simp, by simp [Heap.write, Heap.alloc]; omega, fun a ha hau => ?_⟩
    · simp [loadInit, hv, HMethod.run, HMethod.exec, PyM.bind_apply, inPlaceNl, HMethod.val, Heap.write, Heap.alloc, hu]
    · have h1 := hb a
      have h2 := hb .u
      by_cases h3 : a = v
      · subst h3; simp [Heap.write, Heap.alloc]
      · by_cases h4 : a = NL1
        · subst h4; simp [Heap.write, Heap.alloc]
        · by_cases h5 : a = tmp
          · subst h5; simp [Heap.write, Heap.alloc]; omega
          · simp [Heap.write, Heap.alloc, h3, h4, h5]; omega
    · simp [HMethod.val, Heap.write, Heap.alloc]
    · simp [HMethod.val, Heap.write, Heap.alloc]
    · simp [HMethod.val, Heap.write, Heap.alloc, hu, hu2]
    · have h1 : a ≠ H.next := ha.ne
      have h2 : a ≠ H.next + 1 := by simp only at ha; omega
      simp only at hau
      simp [Heap.write, Heap.alloc, h1, h2, hau]

/-- Taking over the last stage. -/
theorem take_inPlace (m : ASSolver ι) (f : HeapNl ι) (hm : m.isFsal) (s : HMethod m.Coef ι) (hb : ∀ a, s.attr a < s.heap.next) :
    ∃ s', HMethod.run f m.prog.accepted s = (.ok (), s') ∧ s'.coef = s.coef ∧ (∀ a, s'.attr a < s'.heap.next) ∧
      s'.val NL1 = s.val m.last ∧ (m.useV = true → s'.val v = m.op.prj (s.val .u)) ∧
      s'.val .u = s.val .u ∧ s'.attr .u = s.attr .u ∧ s.heap.next ≤ s'.heap.next ∧
      ∀ a, a < s.heap.next → s'.heap.cell a = s.heap.cell a := by
  obtain ⟨c, at0, H, n⟩ := s
  simp only at hb
  have hu : at0 .u ≠ H.next := (hb .u).ne
  have hu2 : at0 .u ≠ H.next + 1 := by have := hb .u; omega
  rw [m.prog_accepted_fsal hm]
  cases hv : m.useV with
  | false =>
    refine ⟨⟨c, Function.update at0 NL1 H.next, H.alloc (H.cell (at0 m.last)), n⟩, ?_, rfl, fun a => ?_, ?_, by simp,
      ?_, by simp, by simp [Heap.alloc], fun a ha => ?_⟩
    · simp [HMethod.run, HMethod.exec, PyM.bind_apply, HMethod.val]
    · have h1 := hb a
      by_cases ha : a = NL1
      · subst ha; simp [Heap.alloc]
      · simp [Heap.alloc, ha]; omega
    · simp [HMethod.val, Heap.alloc]
    · simp [HMethod.val, Heap.alloc, hu]
    · have h1 : a ≠ H.next := ha.ne
      simp [Heap.alloc, h1]
  | true =>
    refine ⟨⟨c, Function.update (Function.update at0 NL1 H.next) v (H.next + 1),
      (H.alloc (H.cell (at0 m.last))).alloc (m.op.prj (H.cell (at0 .u))), n⟩,
      ?_, rfl, fun a => ?_, ?_, fun _ => ?_, ?_, by simp, by simp [Heap.alloc]; omega, fun a ha => ?_⟩
    · simp [HMethod.run, HMethod.exec, PyM.bind_apply, HMethod.val, Heap.alloc, hu]
    · have h1 := hb a
      by_cases h3 : a = v
      · subst h3; simp [Heap.alloc]
      · by_cases h4 : a = NL1
        · subst h4; simp [Heap.alloc]
        · simp [Heap.alloc, h3, h4]; omega
    · simp [HMethod.val, Heap.alloc]
    · simp [HMethod.val, Heap.alloc]
    · simp [HMethod.val, Heap.alloc, hu, hu2]
    · have h1 : a ≠ H.next := ha.ne
      have h2 : a ≠ H.next + 1 := by simp only at ha; omega
      simp [Heap.alloc, h1, h2]

end ASSolver

end Verif
