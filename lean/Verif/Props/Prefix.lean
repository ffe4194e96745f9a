import Verif.Props.StepGrowth

/-!
# C97: the beginning of an adaptive run does not depend on its end
-/

set_option linter.unusedSectionVars false

namespace Verif

variable {ι : Type} [Fintype ι] [DecidableEq ι]

theorem FreshRun.agree {m : ASSolver ι} {nl : NlFunc ι} {cfg : SolverConfig ℝ} {tf tf' : ℝ} {n n' : ℕ} {tm tm' : ℕ → ℝ}
    {st st' : ℕ → Vec ι} {hp hu hs hp' hu' hs' : ℕ → ℝ} (R : FreshRun m nl cfg tf n tm st hp hu hs)
    (R' : FreshRun m nl cfg tf' n' tm' st' hp' hu' hs') (hd : cfg.decr_f < 1) (hm : 0 < cfg.minh) (h0 : 0 < hp 0)
    (e1 : tm' 0 = tm 0) (e2 : st' 0 = st 0) (e3 : hp' 0 = hp 0) (K : ℕ)
    (hK : ∀ j, j + 1 < K → tm (j + 1) + 4 * hu j ≤ tf ∧ tm (j + 1) + 4 * hu j ≤ tf') :
    ∀ k ≤ K, k ≤ n → k ≤ n' → tm' k = tm k ∧ st' k = st k ∧ (k < K → hp' k = hp k) := by
  intro k
  induction k with
  | zero => exact fun _ _ _ => ⟨e1, e2, fun _ => e3⟩
  | succ k ih =>
    intro hk hn hn'
    obtain ⟨i1, i2, i3⟩ := ih (by omega) (by omega) (by omega)
    have i3 := i3 (by omega)
    have hs1 := R'.step k (by omega)
    rw [i2, i3, R.step k (by omega)] at hs1
    simp only [Except.ok.injEq, Prod.mk.injEq] at hs1
    obtain ⟨a1, a2, a3⟩ := hs1
    have ht : tm' (k + 1) = tm (k + 1) := by rw [R'.time k (by omega), R.time k (by omega), i1, a2]
    refine ⟨ht, a1.symm, fun hlt => ?_⟩
    have hpk := (R.sizes hd hm (fun _ => h0) k (by omega)).1
    obtain ⟨⟨-, -, -, b4⟩, -⟩ := C08_step_sizes m nl cfg hd hm _ _ hpk _ _ _ _ (R.step k (by omega))
    obtain ⟨c1, c2⟩ := hK k hlt
    rw [R'.next k (by omega), R.next k (by omega), ht, ← a3, min_eq_left (by linarith), min_eq_left (by linarith)]

theorem FreshRun.mono {m : ASSolver ι} {nl : NlFunc ι} {cfg : SolverConfig ℝ} {tf : ℝ} {n : ℕ} {tm : ℕ → ℝ} {st : ℕ → Vec ι}
    {hp hu hs : ℕ → ℝ} (R : FreshRun m nl cfg tf n tm st hp hu hs) (hd : cfg.decr_f < 1) (hm : 0 < cfg.minh) (h0 : 0 < n → 0 < hp 0)
    {i j : ℕ} (hij : i ≤ j) (hj : j ≤ n) : tm i ≤ tm j := by
  induction j, hij using Nat.le_induction with
  | base => exact le_rfl
  | succ j hij ih =>
    have := (R.sizes hd hm h0 j (by omega)).2.1
    have := ih (by omega)
    rw [R.time j (by omega)]
    linarith

theorem getElem?_stored {α : Type} (f : ℕ → α) (n k : ℕ) (a : α) :
    ((List.range (n / (1 : ℤ).natAbs + 1)).map fun j => f (j * (1 : ℤ).natAbs))[k]? = some a ↔ k ≤ n ∧ f k = a := by
  simp only [Int.natAbs_one, Nat.div_one, mul_one, List.getElem?_map, Option.map_eq_some_iff]
  constructor
  · rintro ⟨j, hj, rfl⟩
    obtain ⟨hlt, he⟩ := List.getElem?_eq_some_iff.mp hj
    rw [List.getElem_range] at he
    rw [List.length_range] at hlt
    subst he
    exact ⟨by omega, rfl⟩
  · rintro ⟨hk, rfl⟩
    exact ⟨k, by rw [List.getElem?_range (by omega)], rfl⟩

/-- **C97.** Two adaptive runs from the same state with the same `h_init` to different ends `tf` and `tf'` store the same times and
states, as long as four times the last step fits into both intervals. -/
theorem C97_prefix (m : ASSolver ι) (nl : NlFunc ι) (pyDiv : Bool) (cfg : SolverConfig ℝ) (hd : cfg.decr_f < 1)
    (hm : 0 < cfg.minh) (fuel fuel' : ℕ) (u : Vec ι) (t0 tf tf' h : ℝ) (hh : 0 < h) (hle : t0 + h ≤ tf) (hle' : t0 + h ≤ tf')
    (hz : tf' ≠ 0) (s s' : m.State) (hend : (m.evolve nl id pyDiv cfg fuel' u t0 tf' (some h) true 1 s').1 ≠ .ok none) (k : ℕ)
    (a : ℝ) (v : Vec ι) (ha : (m.evolve nl id pyDiv cfg fuel u t0 tf (some h) true 1 s).2.t[k]? = some a)
    (hv : (m.evolve nl id pyDiv cfg fuel u t0 tf (some h) true 1 s).2.u[k]? = some v)
    (hfit : ∀ j x y, j + 2 ≤ k → (m.evolve nl id pyDiv cfg fuel u t0 tf (some h) true 1 s).2.t[j]? = some x →
      (m.evolve nl id pyDiv cfg fuel u t0 tf (some h) true 1 s).2.t[j + 1]? = some y → y + 4 * (y - x) ≤ min tf tf') :
    (m.evolve nl id pyDiv cfg fuel' u t0 tf' (some h) true 1 s').2.t[k]? = some a ∧
    (m.evolve nl id pyDiv cfg fuel' u t0 tf' (some h) true 1 s').2.u[k]? = some v := by
  obtain ⟨n, tm, st, hp, hu, hs, h1, h2, h3, R, h5, h6, -⟩ := C13_stored m nl pyDiv cfg fuel u t0 tf (some h) true 1 one_ne_zero s
  obtain ⟨n', tm', st', hp', hu', hs', g1, g2, g3, R', g5, g6, g7, g8⟩ :=
    C13_stored m nl pyDiv cfg fuel' u t0 tf' (some h) true 1 one_ne_zero s'
  rw [h5, if_pos rfl, getElem?_stored] at ha
  rw [h6, if_pos rfl, getElem?_stored] at hv
  rw [g5, if_pos rfl, getElem?_stored, g6, if_pos rfl, getElem?_stored]
  have hp0 : hp 0 = h := by rw [h3]; exact min_eq_left (by simp; linarith)
  have hp0' : hp' 0 = h := by rw [g3]; exact min_eq_left (by simp; linarith)
  have hpos : 0 < hp 0 := by rw [hp0]; exact hh
  have hK : ∀ j, j + 1 < k → tm (j + 1) + 4 * hu j ≤ tf ∧ tm (j + 1) + 4 * hu j ≤ tf' := by
    intro j hj
    have := hfit j (tm j) (tm (j + 1)) (by omega) (by rw [h5, if_pos rfl, getElem?_stored]; exact ⟨by omega, rfl⟩)
      (by rw [h5, if_pos rfl, getElem?_stored]; exact ⟨by omega, rfl⟩)
    rw [R.time j (by omega), add_sub_cancel_left, ← R.time j (by omega)] at this
    exact ⟨this.trans (min_le_left _ _), this.trans (min_le_right _ _)⟩
  have A := R.agree R' hd hm hpos (g1.trans h1.symm) (g2.trans h2.symm) (hp0'.trans hp0.symm) k hK
  have hn' : k ≤ n' := by
    by_contra hc
    obtain ⟨b1, b2, b3⟩ := A n' (by omega) (by omega) le_rfl
    have b3 := b3 (by omega)
    have hstep := R.step n' (by omega)
    cases hr : (m.evolve nl id pyDiv cfg fuel' u t0 tf' (some h) true 1 s').1 with
    | error e =>
      rcases (g8 e hr).2 with he | ⟨-, he, -⟩
      · rw [b2, b3, hstep] at he; simp at he
      · exact hz he
    | ok w =>
      cases w with
      | none => exact hend hr
      | some w =>
        have hge := (g7 w hr).2
        rw [b1] at hge
        rcases Nat.eq_zero_or_pos n' with h0 | h0
        · subst h0; rw [h1] at hge; linarith
        · obtain ⟨j, rfl⟩ : ∃ j, n' = j + 1 := ⟨n' - 1, by omega⟩
          have := (hK j (by omega)).2
          have := (R.sizes hd hm (fun _ => hpos) j (by omega)).2.1
          linarith
  obtain ⟨b1, b2, -⟩ := A k le_rfl ha.1 hn'
  exact ⟨⟨hn', b1.trans ha.2⟩, hn', b2.trans hv.2⟩

/-- **C97.** In particular the states stored in the first fifth of the shorter interval, and the one that follows, are independent of the
end. -/
theorem C97_first_fifth (m : ASSolver ι) (nl : NlFunc ι) (pyDiv : Bool) (cfg : SolverConfig ℝ) (hd : cfg.decr_f < 1)
    (hm : 0 < cfg.minh) (fuel fuel' : ℕ) (u : Vec ι) (t0 tf tf' h : ℝ) (hh : 0 < h) (hle : t0 + h ≤ tf) (hle' : t0 + h ≤ tf')
    (hz : tf' ≠ 0) (s s' : m.State) (hend : (m.evolve nl id pyDiv cfg fuel' u t0 tf' (some h) true 1 s').1 ≠ .ok none) (k : ℕ)
    (a b : ℝ) (v : Vec ι) (hb : (m.evolve nl id pyDiv cfg fuel u t0 tf (some h) true 1 s).2.t[k]? = some b)
    (hfifth : 5 * (b - t0) ≤ min tf tf' - t0)
    (ha : (m.evolve nl id pyDiv cfg fuel u t0 tf (some h) true 1 s).2.t[k + 1]? = some a)
    (hv : (m.evolve nl id pyDiv cfg fuel u t0 tf (some h) true 1 s).2.u[k + 1]? = some v) :
    (m.evolve nl id pyDiv cfg fuel' u t0 tf' (some h) true 1 s').2.t[k + 1]? = some a ∧
    (m.evolve nl id pyDiv cfg fuel' u t0 tf' (some h) true 1 s').2.u[k + 1]? = some v := by
  refine C97_prefix m nl pyDiv cfg hd hm fuel fuel' u t0 tf tf' h hh hle hle' hz s s' hend (k + 1) a v ha hv fun j x y hj hx hy => ?_
  obtain ⟨n, tm, st, hp, hu, hs, h1, h2, h3, R, h5, h6, -⟩ := C13_stored m nl pyDiv cfg fuel u t0 tf (some h) true 1 one_ne_zero s
  rw [h5, if_pos rfl, getElem?_stored] at hb hx hy
  have hpos : 0 < hp 0 := by rw [h3]; exact firstProposal_pos (by linarith) (by simpa using hh)
  have m1 := R.mono hd hm (fun _ => hpos) (Nat.zero_le j) hx.1
  have m2 := R.mono hd hm (fun _ => hpos) (show j + 1 ≤ k by omega) hb.1
  rw [hx.2, h1] at m1
  rw [hy.2, hb.2] at m2
  linarith

/-! ### Example -/

/-- From the run of C95 over `[0, 1]` follow the first times of the run over `[0, 2]` with the same `h_init`. -/
example (s : demo.State) :
    (demo.evolve (fun x => .ok x) id true { demoCfg with minh := 1 / 100 } 300 1 0 2 (some (1 / 100)) true 1 s).2.t[3]? = some (21 / 100) ∧
    (demo.evolve (fun x => .ok x) id true { demoCfg with minh := 1 / 100 } 300 1 0 2 (some (1 / 100)) true 1 s).2.t[4]? = some (85 / 100) := by
  have he : demo.evolve (fun x => .ok x) id true { demoCfg with minh := 1 / 100 } 200 1 0 1 (some (1 / 100)) true 1 s =
      demo.evolve (fun x => .ok x) id true { demoCfg with minh := 1 / 100 } 200 1 0 1 none true 1 s := by
    unfold ASSolver.evolve
    have hf : ASClass.firstSize id (0 : ℝ) 1 (some (1 / 100)) = ASClass.firstSize id 0 1 none := by norm_num [ASClass.firstSize]
    rw [ASClass.evolve_apply, ASClass.evolve_apply, hf]
  have ht := (demo_five_steps s).2
  obtain ⟨n, tm, st, hp, hu, hs, h1, h2, h3, R, h5, h6, -⟩ := C13_stored demo (fun x => .ok x) true { demoCfg with minh := 1 / 100 } 200 1 0 1
    none true 1 one_ne_zero s
  have h4 : (demo.evolve (fun x => .ok x) id true { demoCfg with minh := 1 / 100 } 200 1 0 1 none true 1 s).2.t[4]? = some (85 / 100) := by
    rw [ht]; rfl
  have hn : 4 ≤ n := by rw [h5, if_pos rfl, getElem?_stored] at h4; exact h4.1
  have hend : (demo.evolve (fun x => .ok x) id true { demoCfg with minh := 1 / 100 } 300 1 0 2 (some (1 / 100)) true 1 s).1 ≠ .ok none := by
    rcases C12_terminates demo (fun x => .ok x) true { demoCfg with minh := 1 / 100 } (by norm_num [demoCfg]) (by norm_num) 300 1 0 2
      (by norm_num) (some (1 / 100)) (by simp) true 1 s (by norm_num) with ⟨v, h⟩ | ⟨e, h⟩ <;> rw [h] <;> simp
  have hst : ∀ k ≤ 4, (demo.evolve (fun x => .ok x) id true { demoCfg with minh := 1 / 100 } 200 1 0 1 (some (1 / 100)) true 1 s).2.u[k]? =
      some (st k) := fun k hk => by rw [he, h6, if_pos rfl, getElem?_stored]; exact ⟨by omega, rfl⟩
  constructor
  · exact (C97_first_fifth demo (fun x => .ok x) true { demoCfg with minh := 1 / 100 } (by norm_num [demoCfg]) (by norm_num) 200 300 1 0 1 2
      (1 / 100) (by norm_num) (by norm_num) (by norm_num) (by norm_num) s s hend 2 (21 / 100) (5 / 100) (st 3) (by rw [he, ht]; rfl) (by norm_num)
      (by rw [he, ht]; rfl) (hst 3 (by norm_num))).1
  refine (C97_prefix demo (fun x => .ok x) true { demoCfg with minh := 1 / 100 } (by norm_num [demoCfg]) (by norm_num) 200 300 1 0 1 2 (1 / 100)
    (by norm_num) (by norm_num) (by norm_num) (by norm_num) s s hend 4 (85 / 100) (st 4) (by rw [he]; exact h4) (hst 4 le_rfl) ?_).1
  intro j x y hj hx hy
  rw [he, ht] at hx hy
  have hj' : j ≤ 2 := by omega
  interval_cases j <;> simp at hx hy <;> subst hx hy <;> norm_num

end Verif
