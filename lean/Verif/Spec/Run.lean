import Verif.Model.Py
import Mathlib.Data.Rat.Floor

/-!
# Specification vocabulary for runs of a one-step map

Nothing here refers to the solver model (only to `Except PyErr` for possibly raising maps).
-/

namespace Verif

variable {V K : Type}

/-- `n`-fold application of a possibly raising map; the first exception is the result. -/
def iterE (f : V → Except PyErr V) : ℕ → V → Except PyErr V
  | 0, u => .ok u
  | n + 1, u =>
    match iterE f n u with
    | .ok v => f v
    | .error e => .error e

/-- The `k`-th accumulated time when `h` is added repeatedly, every addition being rounded by `rnd`. -/
def timeAt [Add K] (rnd : K → K) (h t0 : K) : ℕ → K
  | 0 => t0
  | k + 1 => rnd (timeAt rnd h t0 k + h)

/-- The step numbers `≤ n` that are divisible by `f` (including 0): what "every `f`-th step" means. -/
def storedUpTo (f : ℤ) (n : ℕ) : List ℕ := (List.range (n + 1)).filter fun k => decide (f ∣ (k : ℤ))

theorem timeAt_id [Field K] (h t0 : K) (k : ℕ) : timeAt id h t0 k = t0 + k * h := by
  induction k with
  | zero => simp [timeAt]
  | succ k ih => simp [timeAt, ih]; ring

end Verif
