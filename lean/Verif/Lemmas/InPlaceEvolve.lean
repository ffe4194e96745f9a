import Verif.Lemmas.InPlaceStep
import Verif.Lemmas.ASEvolve
import Verif.Props.Lists

/-!
# `evolve` of an adaptive solver with a nonlinear function that works in place
-/

set_option linter.unusedSectionVars false

namespace Verif

open Matrix Attr

/-- One iteration of the loop of `evolve` that is part of a run that returns. -/
theorem ASClass.loop_returned {V Sub : Type} (C : ASClass ℝ V Sub) {rnd : ℝ → ℝ} {pyDiv : Bool} {cfg : SolverConfig ℝ} {h : ℝ}
    {storeData : Bool} {freq : ℤ} {fuel : ℕ} {u r : V} {v : V × ℝ × ℝ} {c : ℕ} {s s1 s' : ASState ℝ V Sub} (hlt : s.tc < s.tf)
    (hs : C.step rnd cfg u h s = (.ok v, s1))
    (hr : C.loop rnd pyDiv cfg storeData freq (fuel + 1) u h c s = (.ok (some r), s')) :
    ∃ s2, C.loop rnd pyDiv cfg storeData freq fuel v.1 (limitTo rnd s2.tc s2.tf v.2.2) (c + 1) s2 = (.ok (some r), s') ∧
      s2.sub = s1.sub ∧ s2.accept = s1.accept ∧ s2.tc = rnd (s.tc + v.2.1) ∧ s2.tf = s.tf ∧
      s2.t = s.t ++ (if storeData && decide (freq ∣ ((c + 1 : ℕ) : ℤ)) then [s2.tc] else []) ∧
      s2.u = s.u ++ (if storeData && decide (freq ∣ ((c + 1 : ℕ) : ℤ)) then [v.1] else []) := by
  obtain ⟨p1, p2, p3, p4⟩ : SamePublic s s1 := by
    have := ASClass.step_public (C := C) rnd cfg u h s
    rwa [hs] at this
  rw [ASClass.loop] at hr
  simp only [PyM.bind_get_apply, hlt, if_true] at hr
  rw [PyM.bind_ok hs] at hr
  simp only [PyM.bind_modify_apply] at hr
  by_cases hp : CSClass.ProgressRaises pyDiv s.tf (c + 1)
  · rw [PyM.bind_error (CSClass.progress_raises pyDiv (c + 1) s.tf _ hp)] at hr
    cases hr
  · rw [PyM.bind_ok (CSClass.progress_apply pyDiv (c + 1) s.tf _ hp)] at hr
    simp only [PyM.bind_get_apply] at hr
    by_cases hf : storeData = true → freq ≠ 0
    · rw [PyM.bind_ok (ASClass.store_apply storeData freq (c + 1) v.1 _ hf)] at hr
      have htc : (if storeData && decide (freq ∣ ((c + 1 : ℕ) : ℤ)) then
          { { s1 with tc := rnd (s1.tc + v.2.1) } with t := s1.t ++ [rnd (s1.tc + v.2.1)], u := s1.u ++ [v.1] }
         else { s1 with tc := rnd (s1.tc + v.2.1) } : ASState ℝ V Sub).tc = rnd (s1.tc + v.2.1) := by split <;> rfl
      have htf : (if storeData && decide (freq ∣ ((c + 1 : ℕ) : ℤ)) then
          { { s1 with tc := rnd (s1.tc + v.2.1) } with t := s1.t ++ [rnd (s1.tc + v.2.1)], u := s1.u ++ [v.1] }
         else { s1 with tc := rnd (s1.tc + v.2.1) } : ASState ℝ V Sub).tf = s1.tf := by split <;> rfl
      refine ⟨_, ?_, ?_, ?_, htc.trans (by rw [p4]), htf.trans p3, ?_, ?_⟩
      · rw [htc, htf]; exact hr
      · split <;> rfl
      · split <;> rfl
      · rw [htc]; split <;> simp [p1]
      · split <;> simp [p2]
    · obtain ⟨h1, h2⟩ := _root_.not_imp.mp hf
      rw [PyM.bind_error (e := .zeroDivisionError) (s' := { s1 with tc := rnd (s1.tc + v.2.1) })
        (by simp [ASClass.store, h1, not_not.mp h2])] at hr
      cases hr

/-- A part of a loop that returns does not have a step that raises. -/
theorem ASClass.loop_step_ok {V Sub : Type} (C : ASClass ℝ V Sub) {rnd : ℝ → ℝ} {pyDiv : Bool} {cfg : SolverConfig ℝ} {h : ℝ}
    {storeData : Bool} {freq : ℤ} {fuel : ℕ} {u r : V} {c : ℕ} {s s' : ASState ℝ V Sub} (hlt : s.tc < s.tf)
    (hr : C.loop rnd pyDiv cfg storeData freq (fuel + 1) u h c s = (.ok (some r), s')) :
    0 ≤ h ∧ ∃ v s1, C.step rnd cfg u h s = (.ok v, s1) := by
  rw [ASClass.loop] at hr
  simp only [PyM.bind_get_apply, hlt, if_true] at hr
  rcases hq : C.step rnd cfg u h s with ⟨e | v, s1⟩
  · rw [PyM.bind_error hq] at hr; cases hr
  · refine ⟨?_, v, s1, rfl⟩
    by_contra hh
    rw [ASClass.step_neg _ _ _ _ hh] at hq
    cases hq

variable {ι : Type} [Fintype ι] [DecidableEq ι]

namespace ASSolver

theorem loop_inPlace (m : ASSolver ι) (g : Vec ι → Vec ι) (rnd : ℝ → ℝ) (pyDiv : Bool) (cfg : SolverConfig ℝ) (storeData : Bool)
    (freq : ℤ) : ∀ (fuel : ℕ) (u : HArr ι) (h : ℝ) (c : ℕ) (s : m.HState) (z : Bent ι) (r : HArr ι) (s' : m.HState),
      m.InState g s.sub s.accept u.ref z →
      (m.heapCls (inPlaceNl g)).loop rnd pyDiv cfg storeData freq fuel u h c s = (.ok (some r), s') →
      ∃ (n : ℕ) (tm : ℕ → ℝ) (st : ℕ → Bent ι) (hp hu : ℕ → ℝ) (l : List (HArr ι)),
        tm 0 = s.tc ∧ st 0 = z ∧ hp 0 = h ∧
        AdaptiveRun (m.bentTrial g) (m.bentFactor g cfg) cfg rnd s.tf n tm st hp hu ∧ ¬ tm n < s.tf ∧
        s'.t = s.t ++ (storedOff storeData freq c n).map (fun i => tm (i + 1)) ∧ s'.u = s.u ++ l ∧
        l.map (fun a => (heap s').cell a.ref) = (storedOff storeData freq c n).map (fun i => Bent.snapshot st n (i + 1)) ∧
        (n = 0 → r = u ∧ s' = s) ∧ (0 < n → (heap s').cell u.ref = z.start ∧ (heap s').cell r.ref = (st n).out) ∧
        (heap s).next ≤ (heap s').next ∧
        ∀ a, a < (heap s).next → a ≠ u.ref → (heap s').cell a = (heap s).cell a := by
  intro fuel
  induction fuel with
  | zero => intro u h c s z r s' _ hl; cases hl
  | succ fuel ih =>
    intro u h c s z r s' hi hl
    by_cases hlt : s.tc < s.tf
    · obtain ⟨hh, v, s1, hst⟩ := ASClass.loop_step_ok _ hlt hl
      obtain ⟨s2, k1, k2, k3, k4, k5, k6, k7⟩ := ASClass.loop_returned _ hlt hst hl
      obtain ⟨o, o1, o2⟩ := m.step_inPlace g rnd cfg u z hh s hi
      rw [hst] at o2
      rcases o with e | ⟨b, h', hs⟩
      · cases o2
      obtain ⟨r1, q1, q2, q3, q4, q5, q6, q7, q8, q9, q10⟩ := o2
      simp only [Except.ok.injEq] at q1
      subst q1
      simp only at k1 k4 k7 q3 q5 q6 q8 q9 q10
      have h2h : heap s2 = heap s1 := congrArg (fun w => w.method.heap) k2
      obtain ⟨n, tm, st, hp, hu, l, i1, i2, i3, i4, i5, i6, i7, i8, i9, i10, i11, i12⟩ :=
        ih r1 (limitTo rnd s2.tc s2.tf hs) (c + 1) s2 b r s' (by rw [k2, k3, q6]; exact q5) k1
      have hur : u.ref < (heap s).next := hi.arg
      have hr1 : (heap s').cell r1.ref = Bent.snapshot (consSeq z st) (n + 1) 1 := by
        rcases Nat.eq_zero_or_pos n with h0 | h0
        · obtain ⟨-, e2⟩ := i9 h0
          subst h0
          rw [e2, h2h, q3, q2]
          simp [Bent.snapshot, consSeq, i2]
        · rw [(i10 h0).1]
          simp [Bent.snapshot, consSeq, i2, h0]
      refine ⟨n + 1, consSeq s.tc tm, consSeq z st, consSeq h hp, consSeq h' hu,
        (if storeData && decide (freq ∣ ((c + 1 : ℕ) : ℤ)) then [r1] else []) ++ l, rfl, rfl, rfl, ?_, ?_, ?_, ?_, ?_, by simp, ?_, ?_, ?_⟩
      · constructor
        · intro k hk
          cases k with
          | zero => exact hlt
          | succ k => rw [← k5]; exact i4.before_end k (by omega)
        · intro k hk
          cases k with
          | zero =>
            refine ⟨hh, hs, ?_, ?_, ?_⟩
            · show StepSpec _ _ cfg rnd z h (.ok (st 0, h', hs))
              rw [i2]; exact o1
            · show tm 0 = rnd (s.tc + h')
              rw [i1, k4]
            · show hp 0 = limitTo rnd (tm 0) s.tf hs
              rw [i3, i1, k5]
          | succ k =>
            obtain ⟨j1, hs', j2, j3, j4⟩ := i4.step k (by omega)
            refine ⟨j1, hs', j2, j3, ?_⟩
            show hp (k + 1) = limitTo rnd (tm (k + 1)) s.tf hs'
            rw [j4, k5]
      · show ¬ tm n < s.tf
        rw [← k5]; exact i5
      · rw [i6, k6, storedOff_succ, List.map_append, List.map_map, List.append_assoc, ← i1]
        congr 2
        split <;> rfl
      · rw [i7, k7, List.append_assoc]
      · rw [List.map_append, i8, storedOff_succ, List.map_append, List.map_map]
        congr 1
        · split
          · simp only [List.map_cons, List.map_nil, zero_add, hr1]
          · rfl
        · refine List.map_congr_left fun i _ => ?_
          simp [Bent.snapshot, consSeq]
      · intro _
        have hcu : (heap s').cell u.ref = z.start := by
          rw [i12 u.ref (by rw [h2h]; exact hur.trans_le q9) (by omega), h2h]; exact q8
        refine ⟨hcu, ?_⟩
        rcases Nat.eq_zero_or_pos n with h0 | h0
        · obtain ⟨e1, e2⟩ := i9 h0
          subst h0
          rw [e1, e2, h2h, q3, q2]
          simp [consSeq, i2]
        · exact (i10 h0).2
      · rw [h2h] at i11; exact q9.trans i11
      · intro a ha hau
        rw [i12 a (by rw [h2h]; exact ha.trans_le q9) (by omega), h2h]
        exact q10 a ha hau
    · have e : (m.heapCls (inPlaceNl g)).loop rnd pyDiv cfg storeData freq (fuel + 1) u h c s = (.ok (some u), s) := by
        rw [ASClass.loop]; simp [hlt]
      rw [e] at hl
      cases hl
      exact ⟨0, fun _ => s.tc, fun _ => z, fun _ => h, fun _ => 0, [], rfl, rfl, rfl, ⟨by simp, by simp⟩, hlt, by simp [storedOff],
        by simp, by simp [storedOff], fun _ => ⟨rfl, rfl⟩, by simp, le_rfl, fun _ _ _ => rfl⟩

end ASSolver

end Verif
