import Verif.Model.FloatCoefs
import Verif.Model.RoundedArith

/-!
# NumPy's arithmetic for complex numbers

What `npy_cmul`, `npy_cdiv`, `npy_cpow`, `npy_cexp`, `npy_cabs` of NumPy compute when every real operation (`exp`, `cos`, `sin` and
`hypot` of the C library included) is rounded by `rnd`.  The coefficients of rkstiff/etd4.py, rkstiff/etd34.py, rkstiff/etd5.py,
rkstiff/etd35.py, rkstiff/if4.py, rkstiff/if34.py and rkstiff/if45dp.py are made with these operations.  Simplified: overflow
does not occur, underflow does if it does in `rnd`; NumPy's order of additions in `np.sum` is a parameter.
-/

set_option linter.unusedSectionVars false

namespace Verif

/-- The quotient of complex numbers (Smith's method). -/
noncomputable def cdiv (rnd : ℝ → ℝ) (a b : ℂ) : ℂ :=
  if |b.im| ≤ |b.re| then
    let rat := rnd (b.im / b.re)
    let scl := rnd (1 / rnd (b.re + rnd (b.im * rat)))
    ⟨rnd (rnd (a.re + rnd (a.im * rat)) * scl), rnd (rnd (a.im - rnd (a.re * rat)) * scl)⟩
  else
    let rat := rnd (b.re / b.im)
    let scl := rnd (1 / rnd (b.im + rnd (b.re * rat)))
    ⟨rnd (rnd (rnd (a.re * rat) + a.im) * scl), rnd (rnd (rnd (a.im * rat) - a.re) * scl)⟩

/-- Powers with small exponents are products. -/
noncomputable def cpow (rnd : ℝ → ℝ) (z : ℂ) : ℕ → ℂ
  | 0 => 1
  | 1 => z
  | n + 1 => cmul rnd z (cpow rnd z n)

/-- The exponential of a complex number. -/
noncomputable def cexp (rnd : ℝ → ℝ) (z : ℂ) : ℂ :=
  ⟨rnd (rnd (Real.exp z.re) * rnd (Real.cos z.im)), rnd (rnd (Real.exp z.re) * rnd (Real.sin z.im))⟩

/-- NumPy's arithmetic for complex numbers, for rounding `rnd` and an order of summation. -/
noncomputable def CArith.numpy (rnd : ℝ → ℝ) (sum : List ℂ → ℂ) : CArith where
  add x y := cround rnd (x + y)
  sub x y := cround rnd (x - y)
  mul := cmul rnd
  div := cdiv rnd
  pow := cpow rnd
  exp := cexp rnd
  abs x := rnd ‖x‖
  sum := sum
  tau := ⟨0, rnd (2 * rnd Real.pi)⟩

end Verif
