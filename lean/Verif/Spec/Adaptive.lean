import Verif.Model.Config

/-!
# Specification of adaptive stepping

The documented step-size control (rkstiff/solveras.py:336-377, 457-490, 508-540 doc strings), as relations over a pure
trial map `Φ h u` (trial solution and error estimate, possibly raising) and an error factor `S`.
Nothing here refers to the solver model; `SolverConfig` is only the record of the six settings.
-/

namespace Verif

variable {K V : Type} [Field K] [LinearOrder K]

/-- A trial is acceptable when its factor is a finite number `≥ 1`. -/
def Acceptable (s : Ext K) : Prop := ∃ x : K, s = .fin x ∧ 1 ≤ x

/-- Reduction factor after a rejected trial: `1/4` for a non-finite factor, otherwise `s` limited to
`[1/4, decr_f]` (the upper limit wins). -/
def shrink (decr_f : K) : Ext K → K
  | .fin x => min (max x (1 / 4)) decr_f
  | _ => 1 / 4

/-- Suggested next size after accepting size `h` with factor `x`: growth by at most 4, and only if it exceeds
`incr_f`. -/
def grow (incr_f x h : K) : K := if incr_f < min x 4 then min x 4 * h else h

/-- `RejectsTo Φ S cfg rnd u j h h'`: starting with size `h`, the first `j` trials are rejected, no failure is raised,
and the size of the next trial is `h'`. -/
inductive RejectsTo (Φ : K → V → Except PyErr (V × V)) (S : V × V → Ext K) (cfg : SolverConfig K) (rnd : K → K)
    (u : V) : ℕ → K → K → Prop
  | zero (h : K) : RejectsTo Φ S cfg rnd u 0 h h
  | succ {j : ℕ} {h h' : K} {r : V × V} : RejectsTo Φ S cfg rnd u j h h' → Φ h' u = .ok r → ¬ Acceptable (S r) →
      cfg.minh ≤ rnd (shrink cfg.decr_f (S r) * h') →
      RejectsTo Φ S cfg rnd u (j + 1) h (rnd (shrink cfg.decr_f (S r) * h'))

/-- The outcome of one adaptive step from `u` with proposed size `h`: at most 51 trials. -/
inductive StepSpec (Φ : K → V → Except PyErr (V × V)) (S : V × V → Ext K) (cfg : SolverConfig K) (rnd : K → K)
    (u : V) (h : K) : Except PyErr (V × K × K) → Prop
  /-- the first acceptable trial is returned, with its size and the suggestion -/
  | accept {j : ℕ} {h' x : K} {r : V × V} : j ≤ 50 → RejectsTo Φ S cfg rnd u j h h' → Φ h' u = .ok r →
      S r = .fin x → 1 ≤ x → StepSpec Φ S cfg rnd u h (.ok (r.1, h', rnd (grow cfg.incr_f x h')))
  /-- the reduced size falls below the minimum -/
  | minStep {j : ℕ} {h' : K} {r : V × V} : j < 50 → RejectsTo Φ S cfg rnd u j h h' → Φ h' u = .ok r →
      ¬ Acceptable (S r) → rnd (shrink cfg.decr_f (S r) * h') < cfg.minh →
      StepSpec Φ S cfg rnd u h (.error .minimumStepReached)
  /-- 51 consecutive trials are rejected -/
  | maxLoops {h' : K} {r : V × V} : RejectsTo Φ S cfg rnd u 50 h h' → Φ h' u = .ok r →
      ¬ Acceptable (S r) → StepSpec Φ S cfg rnd u h (.error .maxLoopsExceeded)
  /-- a trial raises -/
  | raised {j : ℕ} {h' : K} {e : PyErr} : j ≤ 50 → RejectsTo Φ S cfg rnd u j h h' → Φ h' u = .error e →
      StepSpec Φ S cfg rnd u h (.error e)

/-- Limit a proposed size to the rest of the interval. -/
def limitTo (rnd : K → K) (t tf h : K) : K := if tf < rnd (t + h) then rnd (tf - t) else h

/-- `n` consecutive accepted steps on the way from `(tm 0, st 0)` to `tf`: in step `k` the size `hp k` is proposed and
`hu k` is used. -/
structure AdaptiveRun (Φ : K → V → Except PyErr (V × V)) (S : V × V → Ext K) (cfg : SolverConfig K) (rnd : K → K)
    (tf : K) (n : ℕ) (tm : ℕ → K) (st : ℕ → V) (hp hu : ℕ → K) : Prop where
  before_end : ∀ k, k < n → tm k < tf
  step : ∀ k, k < n → 0 ≤ hp k ∧ ∃ hs, StepSpec Φ S cfg rnd (st k) (hp k) (.ok (st (k + 1), hu k, hs)) ∧
    tm (k + 1) = rnd (tm k + hu k) ∧ hp (k + 1) = limitTo rnd (tm (k + 1)) tf hs

end Verif
