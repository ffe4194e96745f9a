import Verif.Lemmas.Similar
import Verif.Lemmas.ApiCS
import Verif.Lemmas.ApiAS

/-!
# The trial of an adaptive solver in the user's coordinates
-/

set_option linter.unusedSectionVars false

namespace Verif

open Matrix

variable {ι : Type} [Fintype ι] [DecidableEq ι]

/-- A method given in working coordinates, in the user's coordinates. -/
def ASOp.user : ASOp ι → ERK ι → ERK ι
  | diag _, M => M
  | full _, M => M
  | eig _ S Sinv _, M => M.sim S Sinv

theorem Except.map_id' {ε α : Type} (x : Except ε α) : x.map (fun a => a) = x := by cases x <;> rfl

theorem ASOp.step_user (L : ASOp ι) (M : ERK ι) (nl : NlFunc ι) (u : Vec ι) :
    (M.step (fun w => (nl (L.emb w)).map L.prj) (L.prj u)).map (fun r => (L.emb r.1, r.2)) =
      ((L.user M).step nl u).map fun r => (r.1, L.prj r.2) := by
  have hid : (fun w => (nl w).map (id : Vec ι → Vec ι)) = nl := by
    funext w; cases nl w <;> rfl
  rcases L with _ | _ | ⟨lam, S, Sinv, hS⟩
  · simp only [emb, prj, user, id_eq, hid]
  · simp only [emb, prj, user, id_eq, hid]
  · simp only [emb, prj, user]
    rw [ERK.sim_step S Sinv hS]
    cases M.step (fun w => (nl (S *ᵥ w)).map fun x => Sinv *ᵥ x) (Sinv *ᵥ u) with
    | error e => rfl
    | ok r =>
      have hS' : Sinv * S = 1 := mul_eq_one_comm.mp hS
      simp only [Except.map]
      rw [mulVec_mulVec, hS', one_mulVec]

namespace ASSolver

theorem oneTrial_user (m : ASSolver ι) (nl : NlFunc ι) (h : ℝ) (u : Vec ι) (hc : m.CoefOk h) :
    m.oneTrial nl h u = ((m.op.user (m.method h)).step nl u).map fun r => (r.1, m.op.prj r.2) := by
  unfold oneTrial
  rw [if_pos hc]
  exact m.op.step_user _ nl u

end ASSolver

theorem ASOp.user_lawson (L : ASOp ι) (T : Tableau) (h : ℝ) : L.user (lawson T L.inner.mat h) = lawson T L.mat h := by
  rcases L with _ | _ | ⟨lam, S, Sinv, hS⟩
  · rfl
  · rfl
  · simp only [user, inner, LinOp.mat, mat]; rw [lawson_sim T S Sinv _ hS]

theorem ASOp.user_krogstad (L : ASOp ι) (cfg : ETDConfig ℝ) (h : ℝ) :
    L.user (krogstad (L.inner.phi cfg h) L.inner.mat h) = krogstad (L.phi cfg h) L.mat h := by
  rcases L with _ | _ | ⟨lam, S, Sinv, hS⟩
  · rfl
  · rfl
  · simp only [user, inner, LinOp.mat, mat]
    exact (krogstad_sim _ _ S Sinv _ hS h (fun k c => rfl)).symm

theorem ASOp.user_etd5 (L : ASOp ι) (b : Bool) (cfg : ETDConfig ℝ) (h : ℝ) :
    L.user (etd5Method b (L.inner.phi cfg h) L.inner.mat h) = etd5Method b (L.phi cfg h) L.mat h := by
  rcases L with _ | _ | ⟨lam, S, Sinv, hS⟩
  · rfl
  · rfl
  · simp only [user, inner, LinOp.mat, mat]
    exact (etd5_sim b _ _ S Sinv _ hS h (fun k c => rfl)).symm

theorem ASSolver.trial_if34 (L : ASOp ι) (nl : NlFunc ι) (u : Vec ι) (h : ℝ) :
    ((ASSolver.if34 L).trial nl u h (ASSolver.if34 L).new).1 =
      ((lawson rk4 L.mat h).step nl u).map fun r => (r.1, L.prj r.2) := by
  rw [trial_new, oneTrial_user _ _ _ _ (show (ASSolver.if34 L).CoefOk h from trivial)]
  show ((L.user (lawson rk4 L.inner.mat h)).step nl u).map _ = _
  rw [L.user_lawson]
  rfl

theorem ASSolver.trial_if45dp (L : Vec ι) (nl : NlFunc ι) (u : Vec ι) (h : ℝ) :
    ((ASSolver.if45dp L).trial nl u h (ASSolver.if45dp L).new).1 =
      (lawson (dpWith (17 / 1920)) (Matrix.diagonal L) h).step nl u := by
  rw [trial_new, oneTrial_user _ _ _ _ (show (ASSolver.if45dp L).CoefOk h from trivial)]
  exact Except.map_id' _

theorem ASSolver.trial_etd34 (cfg : ETDConfig ℝ) (L : ASOp ι) (nl : NlFunc ι) (u : Vec ι) (h : ℝ)
    (hc : L.inner.CoefOk cfg [1 / 2, 1] h) :
    ((ASSolver.etd34 cfg L).trial nl u h (ASSolver.etd34 cfg L).new).1 =
      ((krogstad (L.phi cfg h) L.mat h).step nl u).map fun r => (r.1, L.prj r.2) := by
  rw [trial_new, oneTrial_user _ _ _ _ (show (ASSolver.etd34 cfg L).CoefOk h from hc)]
  show ((L.user (krogstad (L.inner.phi cfg h) L.inner.mat h)).step nl u).map _ = _
  rw [L.user_krogstad]
  rfl

theorem ASSolver.trial_etd35 (cfg : ETDConfig ℝ) (L : ASOp ι) (nl : NlFunc ι) (u : Vec ι) (h : ℝ)
    (hc : L.inner.CoefOk cfg [1 / 4, 1 / 2, 3 / 4, 1] h) :
    ((ASSolver.etd35 cfg L).trial nl u h (ASSolver.etd35 cfg L).new).1 =
      ((etd5Method false (L.phi cfg h) L.mat h).step nl u).map fun r => (r.1, L.prj r.2) := by
  rw [trial_new, oneTrial_user _ _ _ _ (show (ASSolver.etd35 cfg L).CoefOk h from hc)]
  show ((L.user (etd5Method false (L.inner.phi cfg h) L.inner.mat h)).step nl u).map _ = _
  rw [L.user_etd5]
  rfl

/-- A trial whose coefficients cannot be computed. -/
theorem ASSolver.trial_fail (m : ASSolver ι) (nl : NlFunc ι) (u : Vec ι) (h : ℝ) (hc : ¬ m.CoefOk h) :
    (m.trial nl u h m.new).1 = .error .linAlgError := by
  rw [trial_new]
  unfold oneTrial
  rw [if_neg hc]

theorem CSSolver.step_method (m : CSSolver ι) (nl : NlFunc ι) (u : Vec ι) (h : ℝ) (hh : 0 ≤ h) (hc : m.CoefOk h) :
    (m.step nl u h m.new).1 = ((m.method h).step nl u).map Prod.fst := by
  rw [step_new _ _ _ _ hh]
  unfold oneStep
  rw [if_pos hc]

/-- A step whose coefficients cannot be computed. -/
theorem CSSolver.step_fail (m : CSSolver ι) (nl : NlFunc ι) (u : Vec ι) (h : ℝ) (hh : 0 ≤ h) (hc : ¬ m.CoefOk h) :
    (m.step nl u h m.new).1 = .error .linAlgError := by
  rw [step_new _ _ _ _ hh]
  unfold oneStep
  rw [if_neg hc]

end Verif
