import Verif.Lemmas.InPlaceTrial

/-!
# Steps of an adaptive solver with a nonlinear function that works in place
-/

set_option linter.unusedSectionVars false

namespace Verif

open Matrix Attr

variable {ι : Type} [Fintype ι] [DecidableEq ι]

namespace ASSolver

theorem heapCls_factor (m : ASSolver ι) (f : HeapNl ι) (nl : NlFunc ι) (cfg : SolverConfig ℝ) (r : HArr ι × HArr ι) :
    (m.heapCls f).factor cfg r = m.factor nl cfg (r.1.seen, r.2.seen) := by
  rcases m with (L | L | ⟨l, S, T, hS⟩) | ⟨cfg, L | L | ⟨l, S, T, hS⟩⟩ | ⟨cfg, L | L | ⟨l, S, T, hS⟩⟩ | L <;> rfl

/-- What a step leaves behind, for the outcome `o` that it should have. -/
def Outcome (m : ASSolver ι) (g : Vec ι → Vec ι) (H : Heap ι) (u : ℕ) (z : Bent ι) (q : Except PyErr (HArr ι × ℝ × ℝ) × m.HState) :
    Except PyErr (Bent ι × ℝ × ℝ) → Prop
  | .error e => q.1 = .error e
  | .ok (b, h', hs) => ∃ r, q.1 = .ok (r, h', hs) ∧ r.seen = b.out ∧ (heap q.2).cell r.ref = r.seen ∧ H.next ≤ r.ref ∧
      m.InState g q.2.sub true r.ref b ∧ q.2.accept = true ∧ q.2.sub.n1init = true ∧ (heap q.2).cell u = z.start ∧
      H.next ≤ (heap q.2).next ∧ ∀ a, a < H.next → a ≠ u → (heap q.2).cell a = H.cell a

theorem stepLoop_inPlace (m : ASSolver ι) (g : Vec ι → Vec ι) (rnd : ℝ → ℝ) (cfg : SolverConfig ℝ) (H : Heap ι) (u : HArr ι)
    (z : Bent ι) (hu : u.ref < H.next) (h0 : ℝ) :
    ∀ (d n : ℕ) (h : ℝ) (s : m.HState), MAX_LOOPS - n = d → n ≤ MAX_LOOPS → m.InState g s.sub s.accept u.ref z →
      H.next ≤ (heap s).next → (∀ a, a < H.next → a ≠ u.ref → (heap s).cell a = H.cell a) →
      RejectsTo (m.bentTrial g) (m.bentFactor g cfg) cfg rnd z n h0 h →
      ∃ o, StepSpec (m.bentTrial g) (m.bentFactor g cfg) cfg rnd z h0 o ∧
        m.Outcome g H u.ref z ((m.heapCls (inPlaceNl g)).stepLoop rnd cfg u n h s) o := by
  intro d
  induction d with
  | zero =>
    intro n h s hd hn hi hN hK hrej
    have hn50 : n = MAX_LOOPS := by omega
    by_cases hc : m.CoefOk h
    · obtain ⟨r1, r2, s', x, e, t1, t2, t3, t4, t5, t6, t7, t8, t9, t10, t11, t12⟩ := m.trial_inPlace g s.sub hi hc
      have hΦ : m.bentTrial g h z = .ok (m.bentAfter g (m.op.emb x), ⟨e, e, e⟩) := by
        rw [bentTrial, if_pos hc, t2]; rfl
      have hr : ((m.heapCls (inPlaceNl g)).updateStages u h s.accept s.sub).1 = .ok (r1, r2) := by rw [t1]
      have ha : ((m.heapCls (inPlaceNl g)).afterTrial u h s).sub = s' := by simp only [ASClass.afterTrial, t1]
      have hfac : (m.heapCls (inPlaceNl g)).factor cfg (r1, r2) = m.bentFactor g cfg (m.bentAfter g (m.op.emb x), ⟨e, e, e⟩) := by
        rw [m.heapCls_factor _ (total g), bentFactor, t3, t4]
      by_cases hacc : Acceptable ((m.heapCls (inPlaceNl g)).factor cfg (r1, r2))
      · obtain ⟨y, hy, hy1⟩ := hacc
        refine ⟨_, .accept (j := n) (by simpa [MAX_LOOPS] using hn) hrej hΦ (hfac ▸ hy) hy1, ?_⟩
        rw [ASClass.stepLoop_accept rnd cfg u n h s _ hr y hy hy1]
        refine ⟨r1, rfl, t3, ?_, hN.trans t9, ?_, rfl, ?_, ?_, ?_, fun a haH hau => ?_⟩
        · simpa only [heap, ha] using t8
        · simpa only [ha] using t6
        · simpa only [ha] using t7
        · simpa only [heap, ha] using t10
        · simpa only [heap, ha] using hN.trans t11
        · simpa only [heap, ha] using (t12 a (haH.trans_le hN) hau).trans (hK a haH hau)
      · refine ⟨_, .maxLoops (by simpa [hn50, MAX_LOOPS] using hrej) hΦ (hfac ▸ hacc), ?_⟩
        rw [ASClass.stepLoop_reject rnd cfg u n h s _ hr hacc, if_pos (by omega)]
        rfl
    · have hΦ : m.bentTrial g h z = .error .linAlgError := by rw [bentTrial, if_neg hc]
      refine ⟨_, .raised (j := n) (by simpa [MAX_LOOPS] using hn) hrej hΦ, ?_⟩
      rw [ASClass.stepLoop_error rnd cfg u n h s _ (m.trial_inPlace_err g s.sub hi hc)]
      rfl
  | succ d ih =>
    intro n h s hd hn hi hN hK hrej
    by_cases hc : m.CoefOk h
    · obtain ⟨r1, r2, s', x, e, t1, t2, t3, t4, t5, t6, t7, t8, t9, t10, t11, t12⟩ := m.trial_inPlace g s.sub hi hc
      have hΦ : m.bentTrial g h z = .ok (m.bentAfter g (m.op.emb x), ⟨e, e, e⟩) := by
        rw [bentTrial, if_pos hc, t2]; rfl
      have hr : ((m.heapCls (inPlaceNl g)).updateStages u h s.accept s.sub).1 = .ok (r1, r2) := by rw [t1]
      have ha : ((m.heapCls (inPlaceNl g)).afterTrial u h s).sub = s' := by simp only [ASClass.afterTrial, t1]
      have hfac : (m.heapCls (inPlaceNl g)).factor cfg (r1, r2) = m.bentFactor g cfg (m.bentAfter g (m.op.emb x), ⟨e, e, e⟩) := by
        rw [m.heapCls_factor _ (total g), bentFactor, t3, t4]
      by_cases hacc : Acceptable ((m.heapCls (inPlaceNl g)).factor cfg (r1, r2))
      · obtain ⟨y, hy, hy1⟩ := hacc
        refine ⟨_, .accept (j := n) (by simpa [MAX_LOOPS] using hn) hrej hΦ (hfac ▸ hy) hy1, ?_⟩
        rw [ASClass.stepLoop_accept rnd cfg u n h s _ hr y hy hy1]
        refine ⟨r1, rfl, t3, ?_, hN.trans t9, ?_, rfl, ?_, ?_, ?_, fun a haH hau => ?_⟩
        · simpa only [heap, ha] using t8
        · simpa only [ha] using t6
        · simpa only [ha] using t7
        · simpa only [heap, ha] using t10
        · simpa only [heap, ha] using hN.trans t11
        · simpa only [heap, ha] using (t12 a (haH.trans_le hN) hau).trans (hK a haH hau)
      · rw [ASClass.stepLoop_reject rnd cfg u n h s _ hr hacc, if_neg (by omega)]
        rw [hfac] at hacc ⊢
        by_cases hmin : rnd (shrink cfg.decr_f (m.bentFactor g cfg (m.bentAfter g (m.op.emb x), ⟨e, e, e⟩)) * h) < cfg.minh
        · rw [if_pos hmin]
          exact ⟨_, .minStep (j := n) (by simp [MAX_LOOPS] at hd hn; omega) hrej hΦ hacc hmin, rfl⟩
        · rw [if_neg hmin]
          refine ih (n + 1) _ { (m.heapCls (inPlaceNl g)).afterTrial u h s with accept := false } (by omega) (by omega) ?_ ?_ ?_
            (.succ hrej hΦ hacc (not_lt.mp hmin))
          · simpa only [ha] using t5
          · simpa only [heap, ha] using hN.trans t11
          · intro a haH hau
            simpa only [heap, ha] using (t12 a (haH.trans_le hN) hau).trans (hK a haH hau)
    · have hΦ : m.bentTrial g h z = .error .linAlgError := by rw [bentTrial, if_neg hc]
      refine ⟨_, .raised (j := n) (by simpa [MAX_LOOPS] using hn) hrej hΦ, ?_⟩
      rw [ASClass.stepLoop_error rnd cfg u n h s _ (m.trial_inPlace_err g s.sub hi hc)]
      rfl

theorem step_inPlace (m : ASSolver ι) (g : Vec ι → Vec ι) (rnd : ℝ → ℝ) (cfg : SolverConfig ℝ) (u : HArr ι)
    (z : Bent ι) {h : ℝ} (hh : 0 ≤ h) (s : m.HState) (hi : m.InState g s.sub s.accept u.ref z) :
    ∃ o, StepSpec (m.bentTrial g) (m.bentFactor g cfg) cfg rnd z h o ∧
      m.Outcome g (heap s) u.ref z ((m.heapCls (inPlaceNl g)).step rnd cfg u h s) o := by
  rw [ASClass.step_nonneg _ _ _ _ hh]
  exact m.stepLoop_inPlace g rnd cfg (heap s) u z hi.arg h MAX_LOOPS 0 h s rfl (Nat.zero_le _) hi le_rfl (fun _ _ _ => rfl) (.zero h)

/-- A new object, for the array at address `u`: the first trial overwrites it. -/
theorem InState.start (m : ASSolver ι) (g : Vec ι → Vec ι) (H : Heap ι) {u : ℕ} (hu : u < H.next) (w : Vec ι) :
    m.InState g (m.heapNew H).sub false u ⟨g (H.cell u), g (H.cell u), w⟩ := by
  have h1 : u ≠ H.next := hu.ne
  refine ⟨fun a => ?_, ?_, ?_, ?_, ?_, ?_, ?_⟩
  · simp [heapNew, ASClass.fresh, Heap.alloc]
  · simp [heapNew, ASClass.fresh, Heap.alloc]; omega
  all_goals simp [heapNew, ASClass.fresh, Heap.alloc, h1]

end ASSolver

end Verif
