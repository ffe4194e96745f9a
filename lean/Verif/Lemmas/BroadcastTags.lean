import Verif.Lemmas.BroadcastStep

/-!
# Shapes of results, and mismatches
-/

set_option linter.unusedSectionVars false

namespace Verif

variable {N : ℕ}

/-- Where the shape of an array comes from: a number, a coefficient, the argument, or argument and coefficient. -/
inductive Tag where
  | scal | coef | arr | both
  deriving DecidableEq

/-- The tag of a sum or product, if arguments and coefficients fit (`c`). -/
def Tag.join (c : Bool) : Tag → Tag → Except PyErr Tag
  | scal, t => .ok t
  | t, scal => .ok t
  | coef, coef => .ok coef
  | arr, arr => .ok arr
  | both, _ => .ok both
  | _, both => .ok both
  | coef, arr => bif c then .ok both else .error .valueError
  | arr, coef => bif c then .ok both else .error .valueError

/-- The shape. -/
def Tag.shape (N : ℕ) (s : List ℕ) (c : Option (List ℕ)) : Tag → List ℕ
  | scal => []
  | coef => [N]
  | arr => s
  | both => c.getD []

/-- Operations on tags. -/
def ArrOps.tags (N : ℕ) (c : Bool) : ArrOps (Fin N) Tag where
  add := Tag.join c
  sub := Tag.join c
  mul := Tag.join c
  neg t := .ok t
  quot t _ := .ok t
  scalar _ := .scal
  vec _ := .coef
  dot _ t := .ok t

/-- An array has the shape that the tag says. -/
structure TagRel (N : ℕ) (s : List ℕ) (c : Option (List ℕ)) (k : Kind) (x : NdArr ℂ) (t : Tag) : Prop where
  shape : x.shape = t.shape N s c
  both : t = .both → c.isSome = true
  arr : k = .arr → t = .arr ∨ t = .both

theorem bcShape_self (a : List ℕ) : bcShape a a = some a := by
  obtain ⟨c, h1, h2, h3, _⟩ := bcShape_fits (Fits.refl a) (Fits.refl a)
  rw [h1, h2.antisymm h3]

theorem bcShape_of_fits {a b : List ℕ} (h : Fits a b) : bcShape a b = some b ∧ bcShape b a = some b := by
  constructor
  · obtain ⟨c, h1, h2, h3, h4, _⟩ := bcShape_fits h (Fits.refl b)
    rw [h1, h2.antisymm h4]
  · obtain ⟨c, h1, h2, h3, h4, _⟩ := bcShape_fits (Fits.refl b) h
    rw [h1, h2.antisymm h3]

theorem bcRev_lub : ∀ {a b c : List ℕ}, bcRev a b = some c → FitsRev a c ∧ FitsRev b c
  | [], b, c, h => by
    simp only [bcRev, Option.some.injEq] at h
    subst h
    exact ⟨trivial, .refl _⟩
  | x :: a, [], c, h => by
    simp only [bcRev, Option.some.injEq] at h
    subst h
    exact ⟨.refl _, trivial⟩
  | x :: a, y :: b, c, h => by
    simp only [bcRev] at h
    cases h1 : bcDim x y with
    | none => simp [h1] at h
    | some z =>
      cases h2 : bcRev a b with
      | none => simp [h1, h2] at h
      | some d =>
        simp only [h1, h2, Option.some.injEq] at h
        subst h
        obtain ⟨i1, i2⟩ := bcRev_lub h2
        unfold bcDim at h1
        have : (x = z ∨ x = 1) ∧ (y = z ∨ y = 1) := by
          split at h1
          · simp at h1; omega
          split at h1
          · simp at h1; omega
          split at h1
          · simp at h1; omega
          · cases h1
        exact ⟨⟨this.1, i1⟩, ⟨this.2, i2⟩⟩

theorem bcShape_lub {a b c : List ℕ} (h : bcShape a b = some c) : Fits a c ∧ Fits b c := by
  unfold bcShape at h
  cases h1 : bcRev a.reverse b.reverse with
  | none => simp [h1] at h
  | some d =>
    simp only [h1, Option.map_some, Option.some.injEq] at h
    subst h
    simpa [Fits] using bcRev_lub h1

theorem bcRev_comm : ∀ a b : List ℕ, bcRev a b = bcRev b a
  | [], [] => rfl
  | [], _ :: _ => rfl
  | _ :: _, [] => rfl
  | x :: a, y :: b => by
    have : bcDim x y = bcDim y x := by
      unfold bcDim
      split_ifs <;> first | rfl | omega | (congr 1; done)
    simp only [bcRev, this, bcRev_comm a b]

theorem bcShape_comm (a b : List ℕ) : bcShape a b = bcShape b a := by unfold bcShape; rw [bcRev_comm]

theorem elementwise_tag {s : List ℕ} {c : Option (List ℕ)} (hc : bcShape [N] s = c) (g : ℂ → ℂ → ℂ) {k l : Kind} {x y : NdArr ℂ}
    {t r : Tag} (hx : TagRel N s c k x t) (hy : TagRel N s c l y r) :
    RelE (TagRel N s c (k.join l)) (NdArr.elementwise g x y) (Tag.join c.isSome t r) := by
  have hk : ∀ t' : Tag, Tag.join c.isSome t r = .ok t' → k.join l = .arr → t' = .arr ∨ t' = .both := by
    intro t' h1 h2
    have : k = .arr ∨ l = .arr := by cases k <;> cases l <;> simp_all [Kind.join]
    rcases this with h | h
    · rcases hx.arr h with rfl | rfl <;> cases r <;> cases hc' : c.isSome <;> simp [Tag.join, hc'] at h1 <;> simp [← h1]
    · rcases hy.arr h with rfl | rfl <;> cases t <;> cases hc' : c.isSome <;> simp [Tag.join, hc'] at h1 <;> simp [← h1]
  have key : ∀ t' : Tag, (t' = .both → c.isSome = true) → Tag.join c.isSome t r = .ok t' →
      bcShape x.shape y.shape = some (t'.shape N s c) → RelE (TagRel N s c (k.join l)) (NdArr.elementwise g x y) (Tag.join c.isSome t r) := by
    intro t' h0 h1 h2
    rw [h1]
    simp only [NdArr.elementwise, h2]
    exact ⟨rfl, h0, hk t' h1⟩
  rw [hx.shape, hy.shape] at key
  have hb := hx.both
  have hb' := hy.both
  cases c with
  | none =>
    cases t <;> cases r <;> simp only [reduceCtorEq, forall_const, Option.isSome_none, Bool.false_eq_true] at hb hb'
    case scal.scal => exact key .scal (by simp) rfl (bcShape_self _)
    case scal.coef => exact key .coef (by simp) rfl (bcShape_of_fits (.nil _)).1
    case scal.arr => exact key .arr (by simp) rfl (bcShape_of_fits (.nil _)).1
    case coef.scal => exact key .coef (by simp) rfl (bcShape_of_fits (.nil _)).2
    case arr.scal => exact key .arr (by simp) rfl (bcShape_of_fits (.nil _)).2
    case coef.coef => exact key .coef (by simp) rfl (bcShape_self _)
    case arr.arr => exact key .arr (by simp) rfl (bcShape_self _)
    case coef.arr =>
      simp only [NdArr.elementwise, hx.shape, hy.shape, Tag.shape, hc]
      rfl
    case arr.coef =>
      simp only [NdArr.elementwise, hx.shape, hy.shape, Tag.shape, bcShape_comm s, hc]
      rfl
  | some d =>
    obtain ⟨h1, h2⟩ := bcShape_lub hc
    cases t <;> cases r
    case scal.scal => exact key .scal (by simp) rfl (bcShape_self _)
    case scal.coef => exact key .coef (by simp) rfl (bcShape_of_fits (.nil _)).1
    case scal.arr => exact key .arr (by simp) rfl (bcShape_of_fits (.nil _)).1
    case scal.both => exact key .both (by simp) rfl (bcShape_of_fits (.nil _)).1
    case coef.scal => exact key .coef (by simp) rfl (bcShape_of_fits (.nil _)).2
    case arr.scal => exact key .arr (by simp) rfl (bcShape_of_fits (.nil _)).2
    case both.scal => exact key .both (by simp) rfl (bcShape_of_fits (.nil _)).2
    case coef.coef => exact key .coef (by simp) rfl (bcShape_self _)
    case arr.arr => exact key .arr (by simp) rfl (bcShape_self _)
    case both.both => exact key .both (by simp) rfl (bcShape_self _)
    case coef.arr => exact key .both (by simp) rfl hc
    case arr.coef => exact key .both (by simp) rfl (by rw [bcShape_comm]; exact hc)
    case coef.both => exact key .both (by simp) rfl (bcShape_of_fits h1).1
    case both.coef => exact key .both (by simp) rfl (bcShape_of_fits h1).2
    case arr.both => exact key .both (by simp) rfl (bcShape_of_fits h2).1
    case both.arr => exact key .both (by simp) rfl (bcShape_of_fits h2).2

theorem tagOps {s : List ℕ} {c : Option (List ℕ)} (hc : bcShape [N] s = c) (dots : Bool)
    (hd : dots = true → ∀ (M : Mat (Fin N)) x t, TagRel N s c .arr x t → RelE (TagRel N s c .arr) (NdArr.matDot M x) (.ok t)) :
    RelOps dots (TagRel N s c) (ArrOps.numpy N) (ArrOps.tags N c.isSome) where
  add _ _ _ _ _ _ hx hy := elementwise_tag hc _ hx hy
  sub _ _ _ _ _ _ hx hy := elementwise_tag hc _ hx hy
  mul _ _ _ _ _ _ hx hy := elementwise_tag hc _ hx hy
  neg _ _ _ hx := ⟨hx.shape, hx.both, hx.arr⟩
  quot _ _ _ n hx := ⟨hx.shape, hx.both, hx.arr⟩
  scalar z := ⟨rfl, by simp [ArrOps.tags], by simp⟩
  dot := hd

/-- `dot` keeps the shapes `(N, B)`. -/
theorem dot_tag {B : ℕ} {c : Option (List ℕ)} (hc : bcShape [N] [N, B] = c) (M : Mat (Fin N)) {x : NdArr ℂ} {t : Tag}
    (hx : TagRel N [N, B] c .arr x t) : RelE (TagRel N [N, B] c .arr) (NdArr.matDot M x) (.ok t) := by
  have hs : ∃ b, x.shape = [N, b] := by
    rw [hx.shape]
    rcases hx.arr rfl with rfl | rfl
    · exact ⟨B, rfl⟩
    · have := hx.both rfl
      have h1 : bcShape [N] [N, B] = (bcDim N B).map fun d => [N, d] := by
        simp only [bcShape, List.reverse_cons, List.reverse_nil, List.nil_append, List.cons_append, bcRev]
        cases bcDim N B <;> simp
      rw [← hc, h1] at this ⊢
      cases h2 : bcDim N B with
      | none => simp [h2] at this
      | some d => exact ⟨d, rfl⟩
  obtain ⟨b, hb⟩ := hs
  have : NdArr.matDot M x = .ok ⟨N :: [].reverse ++ [b], fun idx => ∑ l : Fin N, NdArr.entry M (idx.headD 0) l *
      x.get (idx.tail.dropLast ++ [l.val, idx.getLastD 0])⟩ := by
    simp [NdArr.matDot, hb]
  rw [this]
  exact ⟨by rw [← hx.shape, hb]; rfl, hx.both, hx.arr⟩

/-- `nl` preserves shapes and does not raise. -/
theorem nl_tag {s : List ℕ} {c : Option (List ℕ)} {nl : NdArr ℂ → Except PyErr (NdArr ℂ)}
    (hnl : ∀ x, x.shape = s ∨ some x.shape = c → ∃ y, nl x = .ok y ∧ y.shape = x.shape) (x : NdArr ℂ) (t : Tag)
    (hx : TagRel N s c .arr x t) : RelE (TagRel N s c .arr) (nl x) (.ok t) := by
  obtain ⟨y, h1, h2⟩ := hnl x (by
    rcases hx.arr rfl with rfl | rfl
    · exact .inl hx.shape
    · refine .inr ?_
      obtain ⟨d, hd⟩ := Option.isSome_iff_exists.mp (hx.both rfl)
      rw [hx.shape, Tag.shape, hd]
      rfl)
  rw [h1]
  exact ⟨h2.trans hx.shape, hx.both, hx.arr⟩

theorem tagCoefs {Coef : Type} {s : List ℕ} {c : Option (List ℕ)} (coefs : ℝ → Except PyErr Coef) (is : List (RInstr Coef (Fin N)))
    (b : Bool) (h : ℝ) : CoefsRel (TagRel N s c) ⟨ArrOps.numpy N, coefs⟩ ⟨ArrOps.tags N b, coefs⟩ is h := by
  unfold CoefsRel
  simp only
  cases coefs h with
  | error e => rfl
  | ok c => exact fun i hi => ⟨fun p hp => ⟨rfl, by simp [ArrOps.tags], by simp⟩, fun _ _ => rfl⟩

namespace CSSolver

theorem tag_step (m : CSSolver (Fin N)) {lam : Vec (Fin N)} (hm : m.op = .diag lam) {s : List ℕ} {c : Option (List ℕ)}
    (hc : bcShape [N] s = c) {nl : NdArr ℂ → Except PyErr (NdArr ℂ)}
    (hnl : ∀ x, x.shape = s ∨ some x.shape = c → ∃ y, nl x = .ok y ∧ y.shape = x.shape) (h : ℝ) {u : NdArr ℂ} (hu : u.shape = s) :
    RelE (TagRel N s c .arr) (m.rprog.aStep m.ndEnv nl h u) (bif c.isSome then .ok .both else .error .valueError) := by
  have := RCSProg.aStep_rel (P := m.rprog) (F := m.ndEnv) (F' := ⟨ArrOps.tags N c.isSome, (m.env Arith.exact).coefs⟩) (h := h)
    (tagOps hc false (by simp)) (nl' := fun t => .ok t) (nl_tag hnl) (stages_diag hm) (tagCoefs _ _ _ h)
    (u := u) (u' := .arr) ⟨hu, by simp, by simp⟩
  convert this using 1
  cases c.isSome <;> rcases m with (L | L) | ⟨cfg, L | L⟩ | ⟨cfg, L | L⟩ <;>
    first
    | (cases hm; done)
    | (unfold RCSProg.aStep; simp only [env]; rw [if_pos (by trivial)]; rfl)

end CSSolver

namespace ASSolver

theorem tag_aux (m : ASSolver (Fin N)) {dots : Bool} (hi : m.rprog.init.all (RInstr.kinded dots) = true)
    (hk : m.rprog.stages.all (RInstr.kinded dots) = true) {s : List ℕ} {c : Option (List ℕ)} (hc : bcShape [N] s = c)
    (hd : dots = true → ∀ (M : Mat (Fin N)) x t, TagRel N s c .arr x t → RelE (TagRel N s c .arr) (NdArr.matDot M x) (.ok t))
    {nl : NdArr ℂ → Except PyErr (NdArr ℂ)} (hnl : ∀ x, x.shape = s ∨ some x.shape = c → ∃ y, nl x = .ok y ∧ y.shape = x.shape) (h : ℝ)
    {u : NdArr ℂ} (hu : u.shape = s) :
    RelE (fun r r' => TagRel N s c .arr r.1 r'.1 ∧ TagRel N s c .arr r.2 r'.2) (m.rprog.aTrial m.ndEnv checkS nl h u)
      (m.rprog.aTrial ⟨ArrOps.tags N c.isSome, (m.env Arith.exact).coefs⟩
        (fun t r => checkS ⟨t.shape N s c, fun _ => 0⟩ ⟨r.shape N s c, fun _ => 0⟩) (fun t => .ok t) h .arr) := by
  refine RASProg.aTrial_rel (P := m.rprog) (F := m.ndEnv) (F' := ⟨ArrOps.tags N c.isSome, (m.env Arith.exact).coefs⟩) (h := h)
    (tagOps hc dots hd) (nl' := fun t => .ok t) (nl_tag hnl) ?_ hi m.init_vecs hk (tagCoefs _ _ _ h)
    (u := u) (u' := .arr) ⟨hu, by simp, by simp⟩
  intro a t e r ha he
  simp only [checkS, ha.shape, he.shape]
  split_ifs <;> trivial

/-- The last check of a trial. -/
def endCheck (c : Option (List ℕ)) : Except PyErr Unit :=
  match c with
  | none => .error .valueError
  | some d => if 0 ∈ d then .error .valueError else .ok ()

/-- The operator is not used as a matrix: `lin_op` is one-dimensional, or a matrix that is diagonalized. -/
def Entrywise (m : ASSolver (Fin N)) : Prop := ∀ L, m.op ≠ .full L

theorem tag_eval (m : ASSolver (Fin N)) (hm : m.Entrywise) (b : Bool) (chk : Tag → Tag → Except PyErr Unit) (h : ℝ) :
    m.rprog.aTrial ⟨ArrOps.tags N b, (m.env Arith.exact).coefs⟩ chk (fun t => .ok t) h .arr =
      bif b then (chk .both .both).map (fun _ => (.both, .both)) else .error .valueError := by
  cases b <;> rcases m with (L | L | ⟨l, S, T, hS⟩) | ⟨cfg, L | L | ⟨l, S, T, hS⟩⟩ | ⟨cfg, L | L | ⟨l, S, T, hS⟩⟩ | L <;>
    first
    | exact absurd rfl (hm L)
    | (unfold RASProg.aTrial; simp only [env]; rw [if_pos (by trivial)]; rfl)

theorem tag_end (m : ASSolver (Fin N)) (hm : m.Entrywise) {s : List ℕ} {c : Option (List ℕ)} {h : ℝ}
    {x : Except PyErr (NdArr ℂ × NdArr ℂ)}
    (hx : RelE (fun r r' => TagRel N s c .arr r.1 r'.1 ∧ TagRel N s c .arr r.2 r'.2) x
      (m.rprog.aTrial ⟨ArrOps.tags N c.isSome, (m.env Arith.exact).coefs⟩
        (fun t r => checkS ⟨t.shape N s c, fun _ => 0⟩ ⟨r.shape N s c, fun _ => 0⟩) (fun t => .ok t) h .arr)) :
    RelE (fun r _ => c = some r.1.shape ∧ c = some r.2.shape) x (endCheck c) := by
  rw [m.tag_eval hm] at hx
  cases c with
  | none =>
    cases x with
    | error e => exact hx
    | ok r => exact hx.elim
  | some d =>
    have hk : checkS ⟨Tag.both.shape N s (some d), fun _ => 0⟩ ⟨Tag.both.shape N s (some d), fun _ => 0⟩ = endCheck (some d) := by
      simp [checkS, endCheck, Tag.shape]
    rw [hk] at hx
    cases hE : endCheck (some d) with
    | error e =>
      rw [hE] at hx
      cases x with
      | error e => exact hx
      | ok r => exact hx.elim
    | ok e =>
      rw [hE] at hx
      cases x with
      | error e => exact hx.elim
      | ok r =>
        obtain ⟨h1, h2⟩ := hx
        exact ⟨by rw [h1.shape]; rfl, by rw [h2.shape]; rfl⟩

/-- Trials of a solver with one-dimensional operator. -/
theorem tag_trial (m : ASSolver (Fin N)) {lam : Vec (Fin N)} (hm : m.op = .diag lam) {s : List ℕ} {c : Option (List ℕ)}
    (hc : bcShape [N] s = c) {nl : NdArr ℂ → Except PyErr (NdArr ℂ)}
    (hnl : ∀ x, x.shape = s ∨ some x.shape = c → ∃ y, nl x = .ok y ∧ y.shape = x.shape) (h : ℝ) {u : NdArr ℂ} (hu : u.shape = s) :
    RelE (fun r _ => c = some r.1.shape ∧ c = some r.2.shape) (m.rprog.aTrial m.ndEnv checkS nl h u) (endCheck c) :=
  m.tag_end (by intro L; rw [hm]; simp) (m.tag_aux (init_diag hm) (stages_diag hm) hc (by simp) hnl h hu)

/-- Trials of a solver that diagonalizes. -/
theorem tag_trial_eig (m : ASSolver (Fin N)) (hm : m.Entrywise) {B : ℕ} {c : Option (List ℕ)}
    (hc : bcShape [N] [N, B] = c) {nl : NdArr ℂ → Except PyErr (NdArr ℂ)}
    (hnl : ∀ x, x.shape = [N, B] ∨ some x.shape = c → ∃ y, nl x = .ok y ∧ y.shape = x.shape) (h : ℝ) {u : NdArr ℂ}
    (hu : u.shape = [N, B]) :
    RelE (fun r _ => c = some r.1.shape ∧ c = some r.2.shape) (m.rprog.aTrial m.ndEnv checkS nl h u) (endCheck c) :=
  m.tag_end hm (m.tag_aux m.init_kinded m.stages_kinded hc (fun _ M x t hx => dot_tag hc M hx) hnl h hu)

end ASSolver

end Verif
