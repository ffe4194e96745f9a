import Verif.Lemmas.Lawful
import Verif.Lemmas.CSEvolve

/-!
# Constant-step solvers: lemmas at the level of the public methods
-/

set_option linter.unusedSectionVars false

namespace Verif

variable {ι : Type} [Fintype ι] [DecidableEq ι]

namespace CSSolver

theorem step_new (m : CSSolver ι) (nl : NlFunc ι) (u : Vec ι) (h : ℝ) (hh : 0 ≤ h) :
    (m.step nl u h m.new).1 = m.oneStep nl h u := by
  unfold step
  rw [CSClass.step_apply _ _ hh]
  exact (m.lawful nl).result _ _ _ (m.init_inv nl u)

theorem step_neg (m : CSSolver ι) (nl : NlFunc ι) (u : Vec ι) (h : ℝ) (hh : h < 0) (s : m.State) :
    m.step nl u h s = (.error .assertionError, s) := CSClass.step_neg _ _ (by linarith) _

theorem freshStep_eq (m : CSSolver ι) (nl : NlFunc ι) (h : ℝ) (hh : 0 ≤ h) :
    (fun v => (m.step nl v h m.new).1) = m.oneStep nl h := by
  funext v; exact m.step_new nl v h hh

/-- A run whose steps succeed. -/
theorem evolve_ok (m : CSSolver ι) (nl : NlFunc ι) (pyDiv : Bool) (u : Vec ι) (t0 tf h : ℝ) (storeData : Bool)
    (freq : ℤ) (hh : 0 < h) (hspan : t0 + h ≤ tf) (hf : storeData = true → freq ≠ 0) (n : ℕ)
    (hn : IsLeast {n : ℕ | tf ≤ t0 + n * h} n) (hp : pyDiv = true → tf = 0 → n < 100) (st : ℕ → Vec ι)
    (h0 : st 0 = u) (hok : ∀ k, k < n → m.oneStep nl h (st k) = .ok (st (k + 1))) (s : m.State) (fuel : ℕ)
    (hfuel : n < fuel) :
    (m.evolve nl id pyDiv fuel u t0 tf h storeData freq s).1 = .ok (some (st n)) ∧
    (m.evolve nl id pyDiv fuel u t0 tf h storeData freq s).2.t =
      (if storeData then (storedUpTo freq n).map (fun k : ℕ => t0 + k * h) else []) ∧
    (m.evolve nl id pyDiv fuel u t0 tf h storeData freq s).2.u =
      (if storeData then (storedUpTo freq n).map st else []) ∧
    (m.evolve nl id pyDiv fuel u t0 tf h storeData freq s).2.tc = t0 + n * h ∧
    (m.lawful nl).Inv (m.evolve nl id pyDiv fuel u t0 tf h storeData freq s).2.sub (st n) := by
  have key := CSClass.evolve_complete (m.lawful nl) id pyDiv u t0 tf h storeData freq hh.le (by simpa using hspan) hf st
    h0 n (fun k hk => by
      rw [timeAt_id]; by_contra hc
      exact absurd (hn.2 (show tf ≤ t0 + k * h by linarith)) (by omega))
    (by rw [timeAt_id]; exact hn.1) hok
    (fun k h1 h2 ⟨h3, h4, h5⟩ => by have := hp h4 h5; omega) s fuel hfuel
  have ht : timeAt id h t0 = fun k : ℕ => t0 + k * h := by funext k; exact timeAt_id h t0 k
  rw [ht] at key
  exact key

/-- A run in which a step raises. -/
theorem evolve_err (m : CSSolver ι) (nl : NlFunc ι) (pyDiv : Bool) (u : Vec ι) (t0 tf h : ℝ) (storeData : Bool)
    (freq : ℤ) (hh : 0 < h) (hspan : t0 + h ≤ tf) (hf : storeData = true → freq ≠ 0) (n : ℕ)
    (hn : IsLeast {n : ℕ | tf ≤ t0 + n * h} n) (k : ℕ) (hk : k < n) (hp : pyDiv = true → tf = 0 → k < 100)
    (st : ℕ → Vec ι) (e : PyErr)
    (h0 : st 0 = u) (hok : ∀ j, j < k → m.oneStep nl h (st j) = .ok (st (j + 1)))
    (he : m.oneStep nl h (st k) = .error e) (s : m.State) (fuel : ℕ) (hfuel : n < fuel) :
    (m.evolve nl id pyDiv fuel u t0 tf h storeData freq s).1 = .error e ∧
    (m.evolve nl id pyDiv fuel u t0 tf h storeData freq s).2.t =
      (if storeData then (storedUpTo freq k).map (fun k : ℕ => t0 + k * h) else []) ∧
    (m.evolve nl id pyDiv fuel u t0 tf h storeData freq s).2.u =
      (if storeData then (storedUpTo freq k).map st else []) := by
  have key := CSClass.evolve_crash (m.lawful nl) id pyDiv u t0 tf h storeData freq hh.le (by simpa using hspan) hf st
    h0 k (fun j hj => by
      rw [timeAt_id]; by_contra hc
      exact absurd (hn.2 (show tf ≤ t0 + j * h by linarith)) (by omega)) hok e he
    (fun j h1 h2 ⟨h3, h4, h5⟩ => by have := hp h4 h5; omega) s fuel (by omega)
  have ht : timeAt id h t0 = fun k : ℕ => t0 + k * h := by funext k; exact timeAt_id h t0 k
  rw [ht] at key
  exact key

/-- The result of `evolve` is the iterated one-step map. -/
theorem evolve_result (m : CSSolver ι) (nl : NlFunc ι) (pyDiv : Bool) (u : Vec ι) (t0 tf h : ℝ) (storeData : Bool)
    (freq : ℤ) (hh : 0 < h) (hspan : t0 + h ≤ tf) (hf : storeData = true → freq ≠ 0) (n : ℕ)
    (hn : IsLeast {n : ℕ | tf ≤ t0 + n * h} n) (hp : pyDiv = true → tf = 0 → n < 100) (s : m.State) (fuel : ℕ)
    (hfuel : n < fuel) :
    (m.evolve nl id pyDiv fuel u t0 tf h storeData freq s).1 = (iterE (m.oneStep nl h) n u).map some := by
  rcases iterE_cases (m.oneStep nl h) u n with ⟨st, h0, hok, hr⟩ | ⟨k, st, e, hk, h0, hok, he, hr⟩
  · rw [hr, (m.evolve_ok nl pyDiv u t0 tf h storeData freq hh hspan hf n hn hp st h0 hok s fuel hfuel).1]; rfl
  · rw [hr, (m.evolve_err nl pyDiv u t0 tf h storeData freq hh hspan hf n hn k hk (fun a b => by have := hp a b; omega) st e h0
      hok he s fuel hfuel).1]; rfl

end CSSolver

end Verif
