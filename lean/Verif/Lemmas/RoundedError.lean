import Verif.Lemmas.RoundedTie
import Verif.Lemmas.Stability

/-!
# How far inexact assignments can be from the exact ones

`Near B ε v v'`: the exact array `v` is bounded by `B`, and `v'` differs from it by at most `B ε`.
-/

set_option linter.unusedSectionVars false

namespace Verif

open Matrix
open scoped Matrix.Norms.Operator

variable {ι Coef : Type} [Fintype ι] [DecidableEq ι]

/-- An exact array of size at most `B`, and one that differs from it by at most `B ε`. -/
def Near {V : Type} [NormedAddCommGroup V] (B ε : ℝ) (v v' : V) : Prop := ‖v‖ ≤ B ∧ ‖v' - v‖ ≤ B * ε

theorem Near.mono {V : Type} [NormedAddCommGroup V] {B B' ε : ℝ} {v v' : V} (hv : Near B ε v v') (hB : B ≤ B') (hε : 0 ≤ ε) :
    Near B' ε v v' := ⟨hv.1.trans hB, hv.2.trans (mul_le_mul_of_nonneg_right hB hε)⟩

theorem Near.norm_le {V : Type} [NormedAddCommGroup V] {B ε : ℝ} {v v' : V} (hv : Near B ε v v') (hB : 0 ≤ B) (hε1 : ε ≤ 1) :
    ‖v'‖ ≤ 2 * B := by
  have h1 : ‖v'‖ ≤ ‖v' - v‖ + ‖v‖ := by
    have := norm_add_le (v' - v) v
    rwa [sub_add_cancel] at this
  nlinarith [hv.1, hv.2]

theorem Arith.Within.mono {ar : Arith ι} {ε R R' : ℝ} (h : ar.Within ε R') (hR : R ≤ R') : ar.Within ε R where
  add v w hv hw := h.add v w (hv.trans hR) (hw.trans hR)
  sub v w hv hw := h.sub v w (hv.trans hR) (hw.trans hR)
  mul v w hv hw := h.mul v w (hv.trans hR) (hw.trans hR)
  quot v n hv hn := h.quot v n (hv.trans hR) hn
  dot A v hA hv := h.dot A v (hA.trans hR) (hv.trans hR)

theorem NlNear.mono {nl : NlFunc ι} {f : Vec ι → Vec ι} {ε R R' : ℝ} (h : NlNear nl f ε R') (hR : R ≤ R') : NlNear nl f ε R :=
  fun v hv => h v (hv.trans hR)

theorem norm_bc_le (z : ℂ) : ‖(bc z : Vec ι)‖ ≤ ‖z‖ := by
  rw [pi_norm_le_iff_of_nonneg (norm_nonneg _)]
  intro i
  rfl

/-- The error of a product, for any bilinear operation of norm at most one. -/
theorem near_prod {U V W : Type} [NormedAddCommGroup U] [NormedAddCommGroup V] [NormedAddCommGroup W] (op : U → V → W)
    (h1 : ∀ a v, ‖op a v‖ ≤ ‖a‖ * ‖v‖) (h2 : ∀ a a' v, op (a - a') v = op a v - op a' v)
    (h3 : ∀ a v v', op a (v - v') = op a v - op a v') {M ε : ℝ} (hM : 1 ≤ M) (hε : 0 ≤ ε) (hε1 : ε ≤ 1) {a a' : U} {v v' : V}
    {w : W} (ha : Near M ε a a') (hv : Near M ε v v') (hw : ‖w - op a' v'‖ ≤ ε * (1 + ‖a'‖ * ‖v'‖)) :
    Near (7 * M ^ 2 + 1) ε (op a v) w := by
  have hM0 : (0 : ℝ) ≤ M := by linarith
  have ha' := ha.norm_le hM0 hε1
  have hv' := hv.norm_le hM0 hε1
  constructor
  · have := mul_le_mul ha.1 hv.1 (norm_nonneg _) hM0
    nlinarith [h1 a v]
  · have e : w - op a v = (w - op a' v') + (op a' (v' - v) + op (a' - a) v) := by rw [h2, h3]; abel
    rw [e]
    have i1 : ‖op a' (v' - v)‖ ≤ (2 * M) * (M * ε) :=
      (h1 _ _).trans (mul_le_mul ha' hv.2 (norm_nonneg _) (by linarith))
    have i2 : ‖op (a' - a) v‖ ≤ (M * ε) * M :=
      (h1 _ _).trans (mul_le_mul ha.2 hv.1 (norm_nonneg _) (by positivity))
    have i3 : ε * (1 + ‖a'‖ * ‖v'‖) ≤ ε * (1 + (2 * M) * (2 * M)) := by
      refine mul_le_mul_of_nonneg_left ?_ hε
      have := mul_le_mul ha' hv' (norm_nonneg _) (by linarith)
      linarith
    have i4 := norm_add_le (w - op a' v') (op a' (v' - v) + op (a' - a) v)
    have i5 := norm_add_le (op a' (v' - v)) (op (a' - a) v)
    nlinarith

/-- The literals by which an expression divides are not zero. -/
def Exp.DivOk : Exp Coef ι → Prop
  | .var _ | .cof _ | .size | .num _ => True
  | .add e f | .sub e f | .mul e f => e.DivOk ∧ f.DivOk
  | .over e n => n ≠ 0 ∧ e.DivOk
  | .neg e | .dot _ e | .fix _ e => e.DivOk

/-- The coefficients in lists `ps`, `qs` are near the exact ones. -/
def CoefsNear (ps : List (Coef → Vec ι)) (qs : List (Coef → Mat ι)) (B ε : ℝ) (c c' : Coef) : Prop :=
  (∀ p ∈ ps, Near B ε (p c) (p c')) ∧ ∀ p ∈ qs, Near B ε (p c) (p c')

theorem Exp.eval_near (e : Exp Coef ι) (hd : e.DivOk) {B : ℝ} (hB : 1 ≤ B) : ∃ B', B ≤ B' ∧
    ∀ (ar : Arith ι) (ε : ℝ) (c c' : Coef) (h : ℝ) (x x' : Attr → Vec ι), 0 ≤ ε → ε ≤ 1 → ar.Within ε B' → 0 ≤ h → h ≤ 1 →
      CoefsNear e.vecs e.mats B ε c c' → (∀ a, Near B ε (x a) (x' a)) →
      Near B' ε (e.eval Arith.exact c h x) (e.eval ar c' h x') := by
  have two : ∀ (e f : Exp Coef ι) (op : Arith ι → Vec ι → Vec ι → Vec ι) (ex : Vec ι → Vec ι → Vec ι)
      (hop : ∀ ar ε R, ar.Within ε R → ∀ v w, ‖v‖ ≤ R → ‖w‖ ≤ R → ‖op ar v w - ex v w‖ ≤ ε * (1 + ‖v‖ + ‖w‖))
      (hex : ∀ v w, ‖ex v w‖ ≤ ‖v‖ + ‖w‖) (hsub : ∀ v w v' w', ex v' w' - ex v w = ex (v' - v) (w' - w)),
      (∃ B', B ≤ B' ∧ ∀ (ar : Arith ι) (ε : ℝ) (c c' : Coef) (h : ℝ) (x x' : Attr → Vec ι), 0 ≤ ε → ε ≤ 1 → ar.Within ε B' →
        0 ≤ h → h ≤ 1 → CoefsNear e.vecs e.mats B ε c c' → (∀ a, Near B ε (x a) (x' a)) →
        Near B' ε (e.eval Arith.exact c h x) (e.eval ar c' h x')) →
      (∃ B', B ≤ B' ∧ ∀ (ar : Arith ι) (ε : ℝ) (c c' : Coef) (h : ℝ) (x x' : Attr → Vec ι), 0 ≤ ε → ε ≤ 1 → ar.Within ε B' →
        0 ≤ h → h ≤ 1 → CoefsNear f.vecs f.mats B ε c c' → (∀ a, Near B ε (x a) (x' a)) →
        Near B' ε (f.eval Arith.exact c h x) (f.eval ar c' h x')) →
      ∃ B', B ≤ B' ∧ ∀ (ar : Arith ι) (ε : ℝ) (c c' : Coef) (h : ℝ) (x x' : Attr → Vec ι), 0 ≤ ε → ε ≤ 1 → ar.Within ε B' →
        0 ≤ h → h ≤ 1 → CoefsNear (e.vecs ++ f.vecs) (e.mats ++ f.mats) B ε c c' → (∀ a, Near B ε (x a) (x' a)) →
        Near B' ε (ex (e.eval Arith.exact c h x) (f.eval Arith.exact c h x)) (op ar (e.eval ar c' h x') (f.eval ar c' h x')) := by
    rintro e f op ex hop hex hsub ⟨B1, hB1, h1⟩ ⟨B2, hB2, h2⟩
    refine ⟨6 * max B1 B2 + 1, by linarith [le_max_left B1 B2], ?_⟩
    intro ar ε c c' h x x' hε hε1 har hh hh1 hc hx
    have hm1 := le_max_left B1 B2
    have hm2 := le_max_right B1 B2
    have n1 := (h1 ar ε c c' h x x' hε hε1 (har.mono (by linarith)) hh hh1
      ⟨fun p hp => hc.1 p (List.mem_append_left _ hp), fun p hp => hc.2 p (List.mem_append_left _ hp)⟩ hx).mono hm1 hε
    have n2 := (h2 ar ε c c' h x x' hε hε1 (har.mono (by linarith)) hh hh1
      ⟨fun p hp => hc.1 p (List.mem_append_right _ hp), fun p hp => hc.2 p (List.mem_append_right _ hp)⟩ hx).mono hm2 hε
    have hM0 : 0 ≤ max B1 B2 := by linarith
    have b1 := n1.norm_le hM0 hε1
    have b2 := n2.norm_le hM0 hε1
    have r := hop ar ε _ har _ _ (b1.trans (by linarith)) (b2.trans (by linarith))
    generalize e.eval Arith.exact c h x = v at *
    generalize f.eval Arith.exact c h x = w at *
    generalize e.eval ar c' h x' = v' at *
    generalize f.eval ar c' h x' = w' at *
    constructor
    · have := hex v w
      linarith [n1.1, n2.1]
    · have i1 := norm_add_le (op ar v' w' - ex v' w') (ex v' w' - ex v w)
      rw [sub_add_sub_cancel, hsub] at i1
      have i2 := hex (v' - v) (w' - w)
      have i3 : ε * (1 + ‖v'‖ + ‖w'‖) ≤ ε * (1 + 2 * max B1 B2 + 2 * max B1 B2) := mul_le_mul_of_nonneg_left (by linarith) hε
      nlinarith [n1.2, n2.2]
  induction e with
  | var a => exact ⟨B, le_rfl, fun _ _ _ _ _ _ _ _ _ _ _ _ _ hx => hx a⟩
  | cof p => exact ⟨B, le_rfl, fun _ _ _ _ _ _ _ _ _ _ _ _ hc _ => hc.1 p (List.mem_singleton.2 rfl)⟩
  | size =>
    refine ⟨B, le_rfl, fun ar ε c c' h x x' hε hε1 har hh hh1 hc hx => ⟨?_, ?_⟩⟩
    · show ‖bc _‖ ≤ B
      refine (norm_bc_le _).trans ?_
      rw [Complex.norm_real, Real.norm_of_nonneg hh]
      linarith
    · show ‖bc _ - bc _‖ ≤ _
      rw [sub_self, norm_zero]
      positivity
  | num n =>
    refine ⟨max B n, le_max_left _ _, fun ar ε c c' h x x' hε hε1 har hh hh1 hc hx => ⟨?_, ?_⟩⟩
    · show ‖bc _‖ ≤ _
      refine (norm_bc_le _).trans ?_
      rw [Complex.norm_natCast]
      exact le_max_right _ _
    · show ‖bc _ - bc _‖ ≤ _
      rw [sub_self, norm_zero]
      have := le_max_left B n
      have : 0 ≤ max B n := by linarith
      positivity
  | add e f ihe ihf =>
    exact two e f (fun ar => ar.add) (fun v w => v + w) (fun ar ε R h => h.add) norm_add_le
      (fun v w v' w' => by abel) (ihe hd.1) (ihf hd.2)
  | sub e f ihe ihf =>
    exact two e f (fun ar => ar.sub) (fun v w => v - w) (fun ar ε R h => h.sub) norm_sub_le
      (fun v w v' w' => by abel) (ihe hd.1) (ihf hd.2)
  | mul e f ihe ihf =>
    obtain ⟨B1, hB1, h1⟩ := ihe hd.1
    obtain ⟨B2, hB2, h2⟩ := ihf hd.2
    have hm1 := le_max_left B1 B2
    have hm2 := le_max_right B1 B2
    have hM : 1 ≤ max B1 B2 := by linarith
    refine ⟨7 * max B1 B2 ^ 2 + 1, by nlinarith, ?_⟩
    intro ar ε c c' h x x' hε hε1 har hh hh1 hc hx
    have n1 := (h1 ar ε c c' h x x' hε hε1 (har.mono (by nlinarith)) hh hh1
      ⟨fun p hp => hc.1 p (List.mem_append_left _ hp), fun p hp => hc.2 p (List.mem_append_left _ hp)⟩ hx).mono hm1 hε
    have n2 := (h2 ar ε c c' h x x' hε hε1 (har.mono (by nlinarith)) hh hh1
      ⟨fun p hp => hc.1 p (List.mem_append_right _ hp), fun p hp => hc.2 p (List.mem_append_right _ hp)⟩ hx).mono hm2 hε
    exact near_prod (fun v w : Vec ι => v * w) norm_mul_le (fun a b v => sub_mul a b v) (fun a v w => mul_sub a v w) hM hε hε1 n1 n2
      (har.mul _ _ ((n1.norm_le (by linarith) hε1).trans (by nlinarith)) ((n2.norm_le (by linarith) hε1).trans (by nlinarith)))
  | neg e ih =>
    obtain ⟨B1, hB1, h1⟩ := ih hd
    refine ⟨B1, hB1, fun ar ε c c' h x x' hε hε1 har hh hh1 hc hx => ?_⟩
    obtain ⟨i1, i2⟩ := h1 ar ε c c' h x x' hε hε1 har hh hh1 hc hx
    refine ⟨?_, ?_⟩
    · show ‖-_‖ ≤ _
      rwa [norm_neg]
    · show ‖-_ - -_‖ ≤ _
      rwa [neg_sub_neg, norm_sub_rev]
  | over e n ih =>
    obtain ⟨B1, hB1, h1⟩ := ih hd.2
    refine ⟨3 * B1 + 1, by linarith, fun ar ε c c' h x x' hε hε1 har hh hh1 hc hx => ?_⟩
    have n1 := h1 ar ε c c' h x x' hε hε1 (har.mono (by linarith)) hh hh1 hc hx
    have b1 := n1.norm_le (by linarith) hε1
    have r := har.quot _ n (b1.trans (by linarith)) hd.1
    have hq : ∀ v : Vec ι, ‖v / bc (n : ℂ)‖ ≤ ‖v‖ := by
      intro v
      rw [pi_norm_le_iff_of_nonneg (norm_nonneg _)]
      intro i
      show ‖v i / (n : ℂ)‖ ≤ _
      rw [norm_div, Complex.norm_natCast]
      exact (div_le_self (norm_nonneg _) (by exact_mod_cast Nat.one_le_iff_ne_zero.2 hd.1)).trans (norm_le_pi_norm v i)
    refine ⟨?_, ?_⟩
    · show ‖_ / bc _‖ ≤ _
      refine (hq _).trans ?_
      linarith [n1.1]
    · show ‖ar.quot _ n - _ / bc _‖ ≤ _
      generalize e.eval Arith.exact c h x = v at *
      generalize e.eval ar c' h x' = v' at *
      have i1 := norm_add_le (ar.quot v' n - v' / bc n) (v' / bc n - v / bc n)
      rw [sub_add_sub_cancel, show v' / bc (n : ℂ) - v / bc (n : ℂ) = (v' - v) / bc (n : ℂ) from by
        funext i; exact (sub_div _ _ _).symm] at i1
      have i2 := hq (v' - v)
      have i3 : ε * (1 + ‖v'‖) ≤ ε * (1 + 2 * B1) := mul_le_mul_of_nonneg_left (by linarith) hε
      nlinarith [n1.2]
  | dot p e ih =>
    obtain ⟨B1, hB1, h1⟩ := ih hd
    refine ⟨7 * B1 ^ 2 + 1, by nlinarith, fun ar ε c c' h x x' hε hε1 har hh hh1 hc hx => ?_⟩
    have n1 := h1 ar ε c c' h x x' hε hε1 (har.mono (by nlinarith)) hh hh1 ⟨hc.1, fun q hq => hc.2 q (List.mem_cons_of_mem _ hq)⟩ hx
    have n2 := (hc.2 p List.mem_cons_self).mono hB1 hε
    exact near_prod (fun (A : Mat ι) (v : Vec ι) => A *ᵥ v) Matrix.linfty_opNorm_mulVec (fun a b v => Matrix.sub_mulVec a b v)
      (fun a v w => Matrix.mulVec_sub a v w) (by linarith) hε hε1 n2 n1
      (har.dot _ _ ((n2.norm_le (by linarith) hε1).trans (by nlinarith)) ((n1.norm_le (by linarith) hε1).trans (by nlinarith)))
  | fix A e ih =>
    obtain ⟨B1, hB1, h1⟩ := ih hd
    have hm1 := le_max_left B1 ‖A‖
    have hm2 := le_max_right B1 ‖A‖
    have hM : 1 ≤ max B1 ‖A‖ := by linarith
    refine ⟨7 * max B1 ‖A‖ ^ 2 + 1, by nlinarith, fun ar ε c c' h x x' hε hε1 har hh hh1 hc hx => ?_⟩
    have n1 := (h1 ar ε c c' h x x' hε hε1 (har.mono (by nlinarith)) hh hh1 hc hx).mono hm1 hε
    have n2 : Near (max B1 ‖A‖) ε A A := ⟨hm2, by rw [sub_self, norm_zero]; positivity⟩
    exact near_prod (fun (A : Mat ι) (v : Vec ι) => A *ᵥ v) Matrix.linfty_opNorm_mulVec (fun a b v => Matrix.sub_mulVec a b v)
      (fun a v w => Matrix.mulVec_sub a v w) hM hε hε1 n2 n1
      (har.dot _ _ ((n2.norm_le (by linarith) hε1).trans (by nlinarith)) ((n1.norm_le (by linarith) hε1).trans (by nlinarith)))

/-- The literals by which an assignment divides are not zero. -/
def RInstr.DivOk : RInstr Coef ι → Prop
  | .set _ e => e.DivOk
  | .call _ _ => True

/-- The coefficients that the assignments use are bounded by `B`. -/
def CoefBdd (is : List (RInstr Coef ι)) (B : ℝ) (c : Coef) : Prop :=
  ∀ i ∈ is, (∀ p ∈ i.vecs, ‖p c‖ ≤ B) ∧ ∀ p ∈ i.mats, ‖p c‖ ≤ B

theorem near_update {B ε : ℝ} {x x' : Attr → Vec ι} (hx : ∀ a, Near B ε (x a) (x' a)) (a : Attr) {v v' : Vec ι} (hv : Near B ε v v') :
    ∀ b, Near B ε (Function.update x a v b) (Function.update x' a v' b) := by
  intro b
  by_cases hb : b = a
  · subst hb
    simpa using hv
  · rw [Function.update_of_ne hb, Function.update_of_ne hb]
    exact hx b

theorem vals_near {f : Vec ι → Vec ι} (hf : LipOnBalls f) (is : List (RInstr Coef ι)) (hd : ∀ i ∈ is, i.DivOk) {B : ℝ} (hB : 1 ≤ B) :
    ∃ B', B ≤ B' ∧ ∀ (ar : Arith ι) (ε : ℝ) (nl : NlFunc ι) (c c' : Coef) (h : ℝ) (x x' : Attr → Vec ι), 0 ≤ ε → ε ≤ 1 →
      ar.Within ε B' → NlNear nl f ε B' → 0 ≤ h → h ≤ 1 → CoefBdd is B c → CoefNear is ε c c' →
      (∀ a, Near B ε (x a) (x' a)) →
      ∃ y y', vals (fun v => .ok (f v)) (exactly c h is) x = .ok y ∧ vals nl (is.map (RInstr.inst ar c' h)) x' = .ok y' ∧
        ∀ a, Near B' ε (y a) (y' a) := by
  induction is generalizing B with
  | nil => exact ⟨B, le_rfl, fun ar ε nl c c' h x x' _ _ _ _ _ _ _ _ hx => ⟨x, x', rfl, rfl, hx⟩⟩
  | cons i is ih =>
    cases i with
    | set a e =>
      obtain ⟨B1, hB1, h1⟩ := e.eval_near (hd _ List.mem_cons_self) hB
      obtain ⟨B2, hB2, h2⟩ := ih (fun i hi => hd i (List.mem_cons_of_mem _ hi)) (hB.trans hB1)
      refine ⟨B2, hB1.trans hB2, ?_⟩
      intro ar ε nl c c' h x x' hε hε1 har hnl hh hh1 hcb hcn hx
      have n1 := h1 ar ε c c' h x x' hε hε1 (har.mono hB2) hh hh1
        ⟨fun p hp => ⟨(hcb _ List.mem_cons_self).1 p hp, ((hcn _ List.mem_cons_self).1 p hp).trans (by nlinarith)⟩,
          fun p hp => ⟨(hcb _ List.mem_cons_self).2 p hp, ((hcn _ List.mem_cons_self).2 p hp).trans (by nlinarith)⟩⟩ hx
      exact h2 ar ε nl c c' h _ _ hε hε1 har hnl hh hh1
        (fun i hi => ⟨fun p hp => ((hcb i (List.mem_cons_of_mem _ hi)).1 p hp).trans hB1,
          fun p hp => ((hcb i (List.mem_cons_of_mem _ hi)).2 p hp).trans hB1⟩)
        (fun i hi => hcn i (List.mem_cons_of_mem _ hi))
        (near_update (fun a => (hx a).mono hB1 hε) a n1)
    | call a b =>
      obtain ⟨K, hK, hlip⟩ := hf (2 * B)
      obtain ⟨M, hM, hbd⟩ := hf.bounded (2 * B)
      obtain ⟨B2, hB2, h2⟩ := ih (fun i hi => hd i (List.mem_cons_of_mem _ hi)) (B := B + M + 1 + K * B) (by nlinarith)
      have hKB : 0 ≤ K * B := mul_nonneg hK (by linarith)
      refine ⟨2 * B + B2, by linarith, ?_⟩
      intro ar ε nl c c' h x x' hε hε1 har hnl hh hh1 hcb hcn hx
      have hb' := (hx b).norm_le (by linarith) hε1
      obtain ⟨n, hn, hn'⟩ := hnl (x' b) (hb'.trans (by linarith))
      have n1 : Near (B + M + 1 + K * B) ε (f (x b)) n := by
        refine ⟨(hbd _ ((hx b).1.trans (by linarith))).trans (by linarith), ?_⟩
        have i1 := norm_add_le (n - f (x' b)) (f (x' b) - f (x b))
        rw [sub_add_sub_cancel] at i1
        have i2 := hlip _ _ hb' ((hx b).1.trans (by linarith))
        have i3 := mul_le_mul_of_nonneg_left (hx b).2 hK
        nlinarith [mul_nonneg (by linarith : 0 ≤ B + M) hε]
      obtain ⟨y, y', hy, hy', hyy⟩ := h2 ar ε nl c c' h (Function.update x a (f (x b))) (Function.update x' a n) hε hε1
        (har.mono (by linarith)) (hnl.mono (by linarith)) hh hh1
        (fun i hi => ⟨fun p hp => ((hcb i (List.mem_cons_of_mem _ hi)).1 p hp).trans (by linarith),
          fun p hp => ((hcb i (List.mem_cons_of_mem _ hi)).2 p hp).trans (by linarith)⟩)
        (fun i hi => hcn i (List.mem_cons_of_mem _ hi))
        (near_update (fun a => (hx a).mono (by linarith) hε) a n1)
      refine ⟨y, y', hy, ?_, fun a => (hyy a).mono (by linarith) hε⟩
      simp only [List.map_cons, RInstr.inst, vals, hn]
      exact hy'

end Verif
