import Verif.Props.Replay
import Verif.Props.Schemes

/-!
# C99: adaptive runs replayed by the constant-step solvers
-/

set_option linter.unusedSectionVars false

namespace Verif

variable {ι : Type} [Fintype ι] [DecidableEq ι]

/-- The constant-step solver that belongs to an adaptive one, for the same `lin_op` and ETD configuration; for IF34 in any strategy. -/
inductive Companion : ASSolver ι → CSSolver ι → Prop
  | if4 {L' : ASOp ι} {L : LinOp ι} : L'.mat = L.mat → Companion (.if34 L') (.if4 L)
  | etd4 (cfg : ETDConfig ℝ) (L : LinOp ι) : Companion (.etd34 cfg L.adaptive) (.etd4 cfg L)
  | etd5 (cfg : ETDConfig ℝ) (L : LinOp ι) : Companion (.etd35 cfg L.adaptive) (.etd5 cfg L)

/-- **C99.** A successful adaptive step, after whatever rejections, is the step of the constant-step companion with the size used. `nl_func`
must not raise on the result, where ETD5 evaluates it already. -/
theorem C99_step {m : ASSolver ι} {c : CSSolver ι} (hmc : Companion m c) (nl : NlFunc ι) (cfg : SolverConfig ℝ) (hd : cfg.decr_f < 1)
    (hm : 0 < cfg.minh) (he : 0 < cfg.epsilon) (u v : Vec ι) (h hu hs : ℝ) (hh : 0 < h)
    (hret : (m.step nl id cfg u h m.new).1 = .ok (v, hu, hs)) (hv : ∃ n, nl v = .ok n) : (c.step nl u hu c.new).1 = .ok v := by
  have hpos := (C08_step_sizes m nl cfg hd hm u h hh m.new v hu hs hret).1.1
  obtain ⟨err, ht, -⟩ := C09_tolerance m nl id cfg he u h v hu hs hret
  obtain ⟨n, hn⟩ := hv
  cases hmc with
  | if4 hL => rw [← C23_if _ _ hL nl u hu hpos.le, ht]; rfl
  | etd4 ec L => rw [← C23_etd4 ec L nl u hu hpos.le, ht]; rfl
  | etd5 ec L => rw [C23_etd5 ec L nl u hu hpos.le, ht]; simp only [hn]; rfl

/-- **C99.** Whatever an adaptive run has stored, whether it succeeded or not, is reproduced by steps of the constant-step companion whose
sizes are the differences of the stored times. -/
theorem C99_replay {m : ASSolver ι} {c : CSSolver ι} (hmc : Companion m c) (nl : NlFunc ι) (pyDiv : Bool) (cfg : SolverConfig ℝ)
    (hd : cfg.decr_f < 1) (hm : 0 < cfg.minh) (he : 0 < cfg.epsilon) (fuel : ℕ) (u : Vec ι) (t0 tf : ℝ) (ht : t0 < tf)
    (hInit : Option ℝ) (hpos : ∀ h, hInit = some h → 0 < h) (s : m.State) (k : ℕ) (a b : ℝ) (v w : Vec ι)
    (ha : (m.evolve nl id pyDiv cfg fuel u t0 tf hInit true 1 s).2.t[k]? = some a)
    (hb : (m.evolve nl id pyDiv cfg fuel u t0 tf hInit true 1 s).2.t[k + 1]? = some b)
    (hv : (m.evolve nl id pyDiv cfg fuel u t0 tf hInit true 1 s).2.u[k]? = some v)
    (hw : (m.evolve nl id pyDiv cfg fuel u t0 tf hInit true 1 s).2.u[k + 1]? = some w) (hn : ∃ n, nl w = .ok n) :
    (c.step nl v (b - a) c.new).1 = .ok w := by
  obtain ⟨n, tm, st, hp, hu, hs, h1, h2, h3, R, h5, h6, -⟩ := C13_stored m nl pyDiv cfg fuel u t0 tf hInit true 1 one_ne_zero s
  rw [h5, if_pos rfl, getElem?_stored] at ha hb
  rw [h6, if_pos rfl, getElem?_stored] at hv hw
  obtain ⟨-, rfl⟩ := ha
  obtain ⟨hk, rfl⟩ := hb
  obtain ⟨-, rfl⟩ := hv
  obtain ⟨-, rfl⟩ := hw
  have hp0 : 0 < hp 0 := by rw [h3]; exact firstProposal_pos ht hpos
  have hpk := (R.sizes hd hm (fun _ => hp0) k (by omega)).1
  rw [R.time k (by omega), add_sub_cancel_left]
  exact C99_step hmc nl cfg hd hm he _ _ _ _ _ hpk (R.step k (by omega)) hn

/-! ### Example -/

theorem demo_companion : Companion demo (.if4 (.diag 0)) := .if4 rfl

/-- The concrete step of C07 by IF4. -/
example : ((CSSolver.if4 (.diag (0 : Vec (Fin 1)))).step (fun x => .ok x) 1 1 (CSSolver.if4 (.diag 0)).new).1 = .ok ((65 / 24 : ℂ) • 1) :=
  C99_step demo_companion (fun x => .ok x) demoCfg (by norm_num [demoCfg]) (by norm_num [demoCfg]) (by norm_num [demoCfg]) 1 _ 1 _ _ one_pos
    demo_step ⟨_, rfl⟩

/-- The fourth step of the run of C95, by IF4. -/
example (s : demo.State) (v w : Vec (Fin 1))
    (hv : (demo.evolve (fun x => .ok x) id true { demoCfg with minh := 1 / 100 } 200 1 0 1 none true 1 s).2.u[3]? = some v)
    (hw : (demo.evolve (fun x => .ok x) id true { demoCfg with minh := 1 / 100 } 200 1 0 1 none true 1 s).2.u[4]? = some w) :
    ((CSSolver.if4 (.diag (0 : Vec (Fin 1)))).step (fun x => .ok x) v (85 / 100 - 21 / 100) (CSSolver.if4 (.diag 0)).new).1 = .ok w := by
  have ht := (demo_five_steps s).2
  exact C99_replay demo_companion (fun x => .ok x) true { demoCfg with minh := 1 / 100 } (by norm_num [demoCfg]) (by norm_num)
    (by norm_num [demoCfg]) 200 1 0 1 one_pos none (by simp) s 3 (21 / 100) (85 / 100) v w (by rw [ht]; rfl) (by rw [ht]; rfl) hv hw ⟨_, rfl⟩

end Verif
