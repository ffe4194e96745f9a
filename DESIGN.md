# DESIGN — formal model of rkstiff in Lean 4

Source modelled: `/repo/rkstiff` (Python), pinned commit. Everything is in
`/verif/lean/Verif`; `lake build` in `/verif/lean` builds it.

## 1. Layout

| Directory | Content |
|---|---|
| `Verif/Model/*` | model of the Python code, function by function; every definition cites file and lines |
| `Verif/Spec/*`  | small specifications that do not mention how the model computes (trajectories, trial sequences, tableaux, exponential Runge–Kutta steps, φ functions, trees, ...) |
| `Verif/Lemmas/*` | helper lemmas |
| `Verif/Props/*` | the property theorems (one file per group), named `Cnn_...` after the property, with `example`s that meet the hypotheses |

`properties.jsonl` lists the properties, `MANIFEST.json` maps them to theorem names, `seeded/LOG.jsonl` records the
experiments with wrong programs.

### Model files

| Model | Source |
|---|---|
| `Py` | exceptions, dynamic values, the monad `PyM`, extended numbers |
| `Config` | `SolverConfig` (solveras.py), `ETDConfig` (etd.py) with their setters |
| `SolverCS`, `SolverAS` | `BaseSolverCS` (solvercs.py), `BaseSolverAS` (solveras.py): `step`, `evolve`, `reset`, the controller, progress messages |
| `Method` | what the solver classes add around a strategy object (`_h_coeff`, `_update_coeffs`) |
| `IF4`, `ETD4`, `ETD5`, `IF34`, `ETD34`, `ETD35`, `IF45DP` | the strategies (diagonal, diagonalized, full matrix) of each solver: coefficients, stages, caching |
| `ETD` | psi functions and contour points (etd.py) |
| `ComputeS` | `_compute_s` (solveras.py) |
| `Solvers` | the public classes put together: `CSSolver`, `ASSolver` with `new`, `step`, `evolve`, `reset`, `trial` |
| `Logging`, `Construct` | loghelper.py; constructors, shared default arguments, programs that construct and configure solvers |
| `Grids`, `Derivatives`, `Hankel`, `Fourier`, `Models` | grids.py, derivatives.py, transforms.py, numpy's FFT on one axis, models.py |
| `Heap` | the same strategies and solvers once more, with arrays as mutable objects that have addresses |
| `Settings` | assignment to the attributes of `etd_config` of an existing solver |
| `Operator` | writes into the array passed as `lin_op`; assignment to `solver.lin_op`, `solver.nl_func` |
| `Rounded`, `RoundedArith` | the bodies of the strategies as syntax trees, run with an arbitrary implementation of the array operations; NumPy's complex arithmetic with a rounding function |
| `FloatCoefs`, `FloatMatrix`, `FloatArith` | the computation of the coefficients with arbitrary operations on numbers, `expm` and `inv`; NumPy's complex operations with a rounding of real results |
| `FloatModels` | models.py, the Fourier derivatives and the wavenumbers with arbitrary operations on numbers and arbitrary transforms |
| `FloatGrids`, `FloatHankel` | Chebyshev grids, differentiation matrices, `dx_cheb`, Hankel grids and transforms with rounded operations, sums and inner products |
| `Dtypes` | arrays with their `dtype` (`int64`, `float64`, `complex128`) and any entries; `step` and `evolve` on them |
| `Arrays`, `Broadcast` | the programs of `Rounded` on arrays whose operations may raise; NumPy arrays with shapes: broadcasting, `dot`, `_compute_s`, solvers on them |
| `BroadcastModels`, `HankelNd` | the functions of models.py and transforms.py on arrays of any shape |
| `NonFinite` | the programs of `Rounded` on arrays of floats that may be infinite or `nan`, with overflow; `_compute_s` on them |
| `Times` | the loops of the base classes and `_compute_s` with times, step sizes and settings that may be infinite or `nan` |
| `SolverType` | util/solver_type.py and the `solver_type` properties; classes as their method resolution orders |
| `Binary64` | rounding to 53 bits, for the clock of `evolve` and for `np.arange` |

## 2. Modelling conventions

* **Exceptions and object state.** A method that can raise and mutates `self` is a function
  `PyM σ α = σ → Except PyErr α × σ`: the state *after* the call is kept also when the call raises, so statements
  about crash points are about what Python really leaves behind in the object.
* **Unbounded loops** (`while tc < tf`) get a fuel argument; a run that exhausts fuel is `none` ("still running"), never
  a default value. Termination/divergence theorems quantify over fuel. The `while True` loop of `BaseSolverAS.step` is
  defined by recursion on the remaining number of loops.
* **Numbers.** Time and step sizes are real numbers, with an explicit rounding function `rnd : ℝ → ℝ` applied to the accumulated
  time (`id` for exact arithmetic, `rnd64` for binary64, arbitrary where possible). Non-finite values matter in the controller, so the
  error factor `s` is extended by `nan` and infinities, and so are configuration values (over any ordered field). State vectors are
  `ι → ℂ` for an arbitrary finite index type, matrices are `Matrix ι ι ℂ`. Arithmetic on arrays is exact except in `Rounded` (C67), `FloatCoefs` and `FloatMatrix` (C82), `FloatModels` (C84), `FloatGrids` and `FloatHankel` (C85) and `NonFinite` (C80);
  numpy/scipy primitives (`exp`, `expm`, `inv`, `eig`, `fft`, Bessel functions) are modelled by their mathematical meaning (with their
  exceptions where the code can observe them). The Bessel zeros and functions are parameters of the Hankel model; `Bessel.IsTrue` (C86) says what they should be.
* **nl_func** is an arbitrary function `V → Except PyErr V` (deterministic; may raise on any argument). Counting its calls
  (C20) is done by running the model with a counting function.
* **Abstract base classes.** `BaseSolverAS`/`BaseSolverCS` are modelled once, parametrised by the subclass'
  `_reset`/`_update_stages`; every concrete strategy class is modelled separately and shown to satisfy the interface
  laws that the generic theorems need.
* **Division by zero** in vector arithmetic: the value `0/0` of a psi function at zero is Lean's `0`; C31 proves that in the
  documented configurations it is never used, and where it could be, that the result does not depend on it.

### Simplifications

* Arithmetic on vectors is exact in all model files but `Rounded`, `FloatCoefs`, `FloatMatrix`, `FloatModels`, `FloatGrids`, `FloatHankel` and `NonFinite`; underflow is modelled by roundings with an absolute error (C87, `Subnormal`), not in the clock, the error factor, the grids (C84, C85: `kx`, Chebyshev, Hankel) and the transforms. `dtype`s are modelled
  in `Dtypes` only (and `dx_rfft` distinguishes real and complex input): `int64`, `float64` and `complex128`, for `lin_op`, the arrays of the
  solvers, the arguments and values of `nl_func`; scalars are `float64`; single precision, `bool`, other integers and `object` are not
  modelled. The dtype of what `np.linalg.eig` returns is a parameter. Infinities, `nan` and overflow of arrays are in `NonFinite` only: `complex128` arrays of one axis,
  an arbitrary rounding of real results that may overflow; without signs of zero and without real arrays. There the step size and the time
  are real numbers; in `Times` they and the settings are any floats, and what a subclass does with a step size that is not finite is
  arbitrary. `np.dot` adds the products one after the other.
* In `Rounded` the operations `+ - *`, division by a literal and `dot` are arbitrary deterministic functions; so are the computation of
  the coefficients (as a whole) and of the error factor. C67 assumes bounds on their errors and shows them for NumPy's element-wise
  arithmetic and sequential dot products; for the coefficients the bound is an assumption there.
  C82 shows it (`FloatCoefs`, `FloatMatrix`: entry by entry, with `exp`, `abs`, `sum`, division and powers as operations of the
  arithmetic). For full matrices `expm` and `inv` are arbitrary functions whose errors are assumed bounded, that of `inv` relative to the
  condition number, and `inv` to succeed for invertible matrices up to a given size of matrix and inverse; `eig` is exact. `CArith.numpy` (`FloatArith`) is the arithmetic of `complex128`: `exp`, `sin`, `cos`, `hypot` of the C library are exact up to one rounding, no overflow; real `lin_op`s are covered by the statements about operations of accuracy `ρ` only.
* In `FloatModels` the transforms are arbitrary functions whose errors are assumed bounded relative to the size of the input; the algorithm
  of `numpy.fft` is not modelled. In C84 the square of the Chebyshev matrix and the nodes are given with bounded errors; C85 (`FloatGrids`)
  computes them. There `cos` is exact up to rounding, sums and inner products (BLAS) have an error proportional to `n ρ`
  times the sum of the absolute values, in any order of summation; `RoundsTo.numpy` shows this for rounded additions. In `FloatHankel` the functions of
  `scipy.special` have a given accuracy. A real state of Allen–Cahn is a complex one without imaginary parts.
* Arrays are values in all model files but `Heap`, where arrays have addresses, attributes of the strategy objects and the list of
  snapshots hold addresses, and `nl_func` acts on the heap. C63 proves that the two agree as long as `nl_func` does not write to arrays
  other than its own work buffers and does not return one of these. Coefficients and `lin_op` are values also there (writes into `lin_op` between calls: `Operator`; of its `dtype` only whether it is
  `complex128` is modelled). The ghost
  component `priv` of the heap says which arrays are work buffers of `nl_func`; `HArr.seen` carries the contents of an array to
  `_compute_s`. Configuration objects and loggers, which are shared, are modelled with references.
* `HankelTransform`: `rmax` is a real number.
* `mirror_grid` is modelled twice: for lists (`Grids`) and for arrays of any shape (`MirrorNd`); C88 ties them.
* `np.fft` functions on an axis are the sums they are documented to compute.
* All arrays have the shape `(N,)`, except in `Broadcast`, `BroadcastModels`, `HankelNd` (arithmetic exact), where they have any shape; C76, C78, C79 tie the two. There the scalar
  coefficients of IF45DP are arrays with equal entries. `_compute_s` on an empty array, which NumPy refuses, raises in `Broadcast` only.
* Log messages have no effect except that the progress message divides by `tf`.

## 3. Trusted base

* Lean 4.33.0 kernel; every theorem depends on the axioms `propext`, `Classical.choice`, `Quot.sound` at most (checked with
  `#print axioms` by the gate). No `sorry`, no added axioms, no `native_decide`. Finite rational computations (order conditions, C35)
  use `decide +kernel`, which is checked by the kernel and adds no axioms.
* Mathlib (proved from the same axioms).
* The reading of the Python source that the model embodies (citations in each definition), and the idealisations
  listed in section 2.

Not modelled: plotting/demos, docs, type annotations, log message texts, how floating point rounding acts inside
`expm`, `inv`, `eig`, `fft`, overflow in these, BLAS/LAPACK behaviour, threads.

## 4. Findings

Facts about the code that the proofs brought out (the properties state them):

* IF45DP's error estimate uses the weight 17/1920 where Dormand and Prince have 71/1920. The weights do not sum to zero, so the estimate
  is `-9/320 h N(u)` to first order instead of `O(h^5)` (C54, C34, C35). Its accepted
  step sizes are therefore proportional to the tolerance instead of to its fifth root (C61).
* On stiff problems the ETD solvers are accurate to second order uniformly in the stiffness (C69); the integrating factor solvers are not: their
  error can be a fixed fraction of `h` (C70).
* ETD5 and ETD35 have order 4, not 5, unless `L` commutes with the derivative of `N`: `h^5/34560` times a commutator remains (C35).
* `step` of the constant-step solvers and of IF34, ETD34, IF45DP uses the cached nonlinear term of the previous array whatever array is
  passed (C16); after a failed adaptive step all adaptive solvers do, and the diagonalized ones ignore the array passed (C17).
* A zero error estimate or a zero solution is never accepted, so no adaptive solver can solve a linear problem (C10).
* `_h_coeff` is recorded before the coefficients are computed: after a `LinAlgError` the same call succeeds silently with wrong
  coefficients (C19).
* The constant-step `evolve` overshoots `tf` (C01), makes 11 steps for `evolve(0, 1, 0.1)` in binary64 and may not terminate when the
  step is too small for the clock (C05); `tf = 0` in a run of 100 steps and `store_freq = 0` raise `ZeroDivisionError` (C04); the
  initial state is stored before the arguments are refused (C03).
* The adaptive `evolve` can end one double after `tf`, and it can run forever if steps below half an ulp of the time are accepted (the
  default `minh = 1e-16` is below half an ulp for times above 1) (C62).
* NaN passes every check of `SolverConfig`; `decr_f`, `safety_f`, `adapt_cutoff` may be zero or negative (C36).
* Default configuration objects are shared by all solvers of a class; rebinding `solver.etd_config` has no effect (C38). Loggers are
  shared by class; an invalid level leaves a logger without handler behind (C40).
* The full-matrix contour is centred at zero: outside the circle the computed coefficients tend to zero (C30).
* The diagonalized strategies compare an error in eigen-coordinates with a solution in the user's, and select components by the
  latter (C27).
* `construct_x_kx_rfft(98, 0, 1)` returns 99 points in binary64 (C42). The Chebyshev grid is ascending, not descending as documented
  (C43), and the matrix needs no scaling by `2/(b-a)`, contrary to the documentation of `dx_cheb` (C44).
* `dx_rfft` of order 1 twice is not order 2 when the Nyquist mode is present (C46).
* `mirror_grid` with a 2-D array and the default axis joins opposite rows (C50).
* KdV runs do not conserve the mean when the Nyquist mode is excited (C52): the linear operator multiplies that mode by `i k^3`, which is
  not the spectrum of any real derivative (C58).
* For a class that derives from both base classes, `SolverType.from_solver` says adaptive even when the inherited property says constant
  (C60).
* If `nl_func` returns the same output buffer every time, IF34, ETD34, ETD35 (not diagonalized) never complete a step, and IF4 silently
  computes something else (C64). The first stored snapshot is the caller's array itself, not a copy; with `nl_func = lambda u: u` the
  array returned by `step` is the one the object keeps (C63).
* If `nl_func` overwrites its argument, constant-step solvers silently overwrite the caller's array and return `nl_func` of the new solution in
  place of the solution (C90).
* New values assigned to `etd_config` are ignored until the step size changes (C65).
* The same goes for new contents of the array passed as `lin_op`; moreover a real array is shared with IF4, IF34, IF45DP but copied by the
  ETD solvers, and solvers made with `diagonalize=True` never look at it again. Assigning `solver.lin_op` or `solver.nl_func` has an effect
  on IF45DP only (C72).
* A column `u` of shape `(N, 1)` with one-dimensional `lin_op` silently becomes an array of shape `(N, N)`. With a matrix `lin_op` batches are
  columns, but with `diagonalize=True` the eigenvalues are applied along the last axis: wrong results for `(N, N)`, `ValueError` for other
  `(N, B)`. Adaptive solvers raise `ValueError` on empty arrays (C76).
* An `nl_func` that returns numbers works with one-dimensional `lin_op` except for IF34 (`IndexError`); with a matrix the solution silently
  becomes an array of shape `(N, N)` (C77).
* The nonlinear functions of `kdv_ops`, `burgers_ops` accept batches of rows; the one of `allen_cahn_ops` accepts no batches: every array with
  two axes ends in a `ValueError` (C78).
* `ht` and `iht` act on columns; on arrays with three or more axes they also move the transformed axis to the front, so that `iht(ht(f))` raises
  `ValueError` (or, if the lengths allow, transforms another axis). `ht` of a number is a matrix (C79).
* `kdv_multi_soliton` flattens a column and refuses all other arrays with more than one axis, which `kdv_soliton` accepts (C79).
* Constant-step solvers carry infinities and `nan` along silently. Adaptive solvers never accept them, as long as `adapt_cutoff` is not
  negative; the setter accepts negative values, with which infinite entries do not count (C80).
* `evolve` with a `nan` among the times returns its argument without a message; with `tf = inf` it does not return, or tries infinite step
  sizes until `MaxLoopsExceeded`. The setters of `SolverConfig` accept `nan` (no comparison holds for it), which switches off `minh` or the growth
  of step sizes, or makes every trial fail; so do `epsilon = inf` and `safety_f = -inf` (C81).

## 5. Properties and proofs

* **C01–C04 constant-step `evolve`.** The fuelled loop is computed in closed form by induction over the steps (`Lemmas/CS`, `CSEvolve`); the specification is the iteration of a one-step map in `Except` (`Spec/Run`). Exceptions of steps, division by zero in the progress message and in `step_count % store_freq`, non-termination for `h = 0` as "for every fuel still running".
* **C05 rounding of the clock.** The same loop for an arbitrary rounding; binary64 by exact computation with `rnd64` and by its relative error.
* **C06–C10 the controller.** `Spec/Adaptive` describes the sequence of trials of one step as a relation; the loop is shown to compute its unique outcome. C06 is proved for every subclass. `_compute_s` as modelled gives the tolerance (C09) and the rejection of zero errors (C10).
* **C11–C13 adaptive `evolve`.** Invariants of the loop; termination bound from the minimum length of accepted steps; the lists as a subsequence of a trajectory, also after an exception.
* **C14–C18 history.** Interface laws for every strategy: what the cached fields mean (`Lemmas/Lawful`, `WrapCS`, `WrapAS`), then induction over histories of calls, including calls that raise. Stale results are given by formulas, with witnesses.
* **C19 linear-algebra failures.** As above for the state in which the step size is recorded and the coefficients are not.
* **C20 evaluations.** Counting `nl_func`.
* **C21–C27, C54 schemes.** Every strategy is an exponential Runge–Kutta step (`Spec/ERK`) whose coefficients are named in `Spec/Methods`; classical tableaux in the interaction picture for the IF solvers. Limits in the number of contour points for the ETD solvers (`Lemmas/Limit`).
* **C28–C31 φ functions and contours.** Power series, integrals, aliasing of Taylor coefficients on roots of unity, matrices by Neumann series. `Props/ContourBounds` bounds the error by a geometric sequence in the number of points.
* **C32, C33, C55 independence of modes, conjugation, numbering.** Two runs in lock-step (`Spec/Relate`, `Lemmas/RelLoop`, `Lemmas/Relate`): whatever relation is respected by operator, `nl_func` and start is respected by results, snapshots and exceptions.
* **C34 classical order conditions.** Rooted trees (`Spec/Trees`), all conditions up to order 5 by enumeration with a proof that the enumeration is complete.
* **C35 order of accuracy.** B-series for exponential Runge–Kutta methods: trees `L^k f^(m)(...)` (`Spec/ETrees`); both the numerical step and the exact solution are expanded over trees uniformly on compact sets (`Lemmas/BSeries`, `BFlow`), for smooth (`C^∞`) `f`. The order conditions of the methods are checked by a finite computation on rational vectors which is proved to cover all trees (`BTable`, `BOrder`); `BLead` finds the leading error of ETD5. For the ETD solvers the bound holds for all sufficiently large numbers of contour points (which may depend on the step size) and, in `Props/Convergence`, with an explicit term `h 2^-N` for every number `N` of points.
* **C56, C57 convergence of runs.** Steps are Lipschitz in the state and in the coefficients (`Lemmas/Stability`), the coefficients are bounded and within `C 2^-N` of the exact ones (`Lemmas/CoefBounds`, `OneStep`); a discrete Gronwall inequality with variable steps gives the error of a trajectory, which C01, C02 and C13 connect with `evolve`.
* **C36, C37 configuration objects.** Setters over extended numbers, invariants over lists of assignments.
* **C38–C41 construction, shared defaults, loggers.** Programs are lists of operations on a world of references; invariants over all programs.
* **C42–C44 grids.** Closed forms; Chebyshev differentiation via Lagrange interpolation and barycentric weights.
* **C45–C47 spectral derivatives.** Discrete Fourier sums, orthogonality of characters; arrays of any dimension for linearity, composition and argument checks.
* **C48, C49 Hankel transform.** State machine over assignments; matrix algebra.
* **C50 mirror_grid.** Lists.
* **C51–C53 models.** Derivatives of the soliton; the mean of Burgers and KdV runs through every solver by an invariant of `evolve`; Allen–Cahn splitting using exactness on polynomials.
* **C58, C59 the operators as partial differential equations.** On every real trigonometric polynomial resolved by the grid the operators give the samples of the right-hand side; products of low modes have the exact Fourier coefficients (integrals). The nonlinear functions are smooth, so local solutions exist (Picard–Lindelöf) and C56, C57 apply to the models from every initial array.
* **C60 kinds of solvers.** Lookup along method resolution orders.
* **C61 progress of the controller.** Bounds for one step uniform in the number of contour points (`Lemmas/Estimate`) put every small trial above the acceptance threshold; the sizes of rejected trials decrease geometrically (`Lemmas/Controller`).
* **C62 the adaptive clock in binary64.** Monotonicity of rounding, exactness on binary64 numbers and Sterbenz' lemma (`Lemmas/Float64`); invariants of the run with rounded sizes.
* **C63, C64 arrays as objects.** The bodies of `n1_init` and `update_stages` are lists of assignments run over a heap (`Model/Heap`); each is tied to the strategy of the value model, and lists of assignments are simulated one by one (`Lemmas/Heap`, `HeapTie`). Two runs in lock-step for the loops (`HeapLoop`, `HeapSolvers`), induction over programs that use a solver and write to arrays. For C64 an invariant says that all attributes assigned from `nl_func` refer to the buffer (`HeapBuffer`).
* **C65 settings changed between calls.** The strategies keep a reference to `etd_config` and read it only in `update_coeffs`, which runs when the step size differs from `_h_coeff`. An assignment turns the solver `m` into `m.withEtd c` without changing the object state (`Model/Settings`). Invariant over histories: the coefficients at hand are those of the size and settings of the last trial. For adaptive steps the size of the trial has to be followed through the loop (`Lemmas/SizedLoop`); `ShrinksFrom` says that rounding does not bring a reduced size back to the proposed one (shown for exact arithmetic and binary64).
* **C66 intertwining, subspaces, functionals.** `P` intertwines exponentials (power series), φ approximations of diagonal operators (an entry `P k i ≠ 0` forces equal eigenvalues) and of full ones (inverses of `zI - hL` intertwine when both exist). For diagonalized operators the map in working coordinates is `S'⁻¹ P S`. Subspaces: closedness for the exponential, Lagrange interpolation for functions of a diagonal operator, dimension for inverses. Functionals: the subspace is the kernel, and a step differs from `exp(hL)u` by an element of it.
* **C67 rounding errors.** Each expression of `update_stages` is a syntax tree (`Model/Rounded`), evaluated with an arbitrary arithmetic. The objects obey the same interface laws as the exact ones (`RoundedLaw`), with exact arithmetic they are the exact ones (`RoundedTie`). By induction over the expressions, arithmetic that is exact up to `ε` on bounded arrays gives results within `C ε` (`RoundedError`, `RoundedStep`), with coefficients bounded for small steps uniformly in the number of contour points (`RoundedCoefs`). A Gronwall inequality with a fixed contribution of every step and a clock that is rounded too gives the runs (`RoundedGlobal`).
* **C68–C70 stiff problems.** `Spec/Stiff`: diagonal operators with real parts at most `ω`, regularity of a solution that does not mention the size of the operator. φ functions are bounded on half planes (`StiffPhi`), contour values are within `2 e^{3R} 2^-N` of them whatever the operator (`StiffMethods`), so all coefficients have bounds in `ω` and `R` only. C68: induction over the stages (`StiffStable`). C69: variation of constants compares a stage with the exact solution; the weights of ETD4 and ETD5 satisfy `∑ b = φ1` and `∑ c b = φ2` and each row `∑ a = c φ1(c ·)`, which gives local errors `C h (h^2 + 2^-N)` (`StiffStep`, `StiffRun`). C70: explicit computation near an equilibrium (`StiffReduce`).
* **C71 recorded lists.** Induction over call sequences; the loops only append pairs (`CSClass.Appends`, `SamePublic`), using C14 for the state at the start of `evolve`.
* **C72 operator changed between calls.** As C65, with everything the coefficients are computed from (`Held`: settings and contents of `lin_op`) in place of the settings. `heldWrite`, `heldRebind` say what an object reads after a write or an assignment; the theorems combine this with the invariant. For `nl_func` of IF45DP the invariant of C15 mentions the function only through its value at the array at hand.
* **C73 units and origin of time.** `Spec/Clock`: the problem with operator and nonlinear function divided by `a`, and clocks whose rounding commutes with `t ↦ a t + b` (`ClockMap`: exact clocks; binary64 with `a = 2^k`, `b = 0`). Coefficients of the slower problem at `a h` are those of the problem at `h`, except that the weights of the nonlinear terms carry the factor `a` (`ERK.Stretched`), so that one step and one trial agree; the loops of both runs are then followed in lock-step.
* **C74 units of the solution, phases, translations, reflections.** `v' = p * v` is a relation that diagonal coefficients preserve (all coefficients, if `p` is constant), so C32's lock-step argument applies; `computeS_times` shows that the error factor stays when solution and error are multiplied by numbers of the same absolute value. `Spec/Translate` names samples, spectra, `roll` and `mirror`; `advection` commutes with the phases of a translation and with `v ↦ -conj v`.
* **C75 stopping and resuming.** `loop_prefix` (Lemmas/Restart): a loop that returns is a prefix of every loop with a later end, with the same object state; `loop_shift`: a loop does not see where its counter starts nor the subclass state (by `LawfulCS`), apart from the stored lists, which agree when the counters agree modulo `store_freq`. Excluded: a Python-number `tf = 0` (the progress message divides by it, and the counter restarts), and `T < tf < T + h`, where `evolve` refuses to resume (an example shows it).
* **C76 shapes of arrays.** The programs of C67 run with partial operations on arrays (`Model/Arrays`); a relation between two kinds of arrays that is kept by the operations is kept by steps and trials (`ArraysRel`), and the loops follow (`BroadcastSeen`). Instances of the relation: an array and one line of it (`BroadcastRel`), an array and its flattening (`BroadcastFlat`), an array and its shape, where `Fits` orders shapes and broadcasting is the join (`Broadcast`, `BroadcastTags`), arrays with a wrong axis and nothing at all (`BroadcastFull`), columns of a diagonalized problem (`BroadcastEig`). `_compute_s` sees arrays only as lists of entries (`BroadcastNorm`). `Spec/Shapes` says what it means for an `nl_func` to act on a part of an array (`ActsOn`) and for one run to be a part of another (`SeenAs`).
* **C77 shapes that `nl_func` returns.** The same with other relations: two arrays of equal shape; an array and its shape, with operations on shapes (`BroadcastShape`); an array and its rank (number, vector, square matrix).
* **C78 batches for the model equations.** `irfft` and `rfft` along the last axis give for each row the functions of C53 (`Lemmas/BroadcastModels`), then C76 applies. For Allen–Cahn the shapes are computed through a step (C77); `evolve` raises what the first step raises (`FirstRaise`).
* **C79 helper functions on arrays of any shape.** `Y.dot(f)` by cases on the number of axes; entries are those of C49 on the fibres of the array.
* **C80 infinities and `nan`.** By induction over the expressions of the programs of C67: `Spread i n x` says that entry `i` of `x`, or every entry, is not finite; operations keep it (`Lemmas/NonFinite`), so steps and trials do, from every state of the object (`NonFiniteRun`). The factor of `_compute_s` is `nan` when an entry of the new array is not finite. `NonFiniteExact` relates the floats without overflow to the exact model; `NonFiniteLoose` computes the step of the counterexample.
* **C81 times, step sizes and settings that are infinite or `nan`.** The loops of both base classes for an arbitrary subclass, by induction over iterations and trials with an invariant on step sizes (`stepLoop_outcome`, `loop_never` in `Lemmas/Times`): infinite stays infinite, `nan` stays `nan`, finite stays finite. `TimesTie` shows by induction that on finite arguments the loops are those of `SolverCS`, `SolverAS`. "Never returns" means: after no number of iterations.
* **C82 rounding errors in the coefficients.** The programs for the coefficients run on expressions (`Fl`) evaluated in an arbitrary arithmetic. `FloatNear` has one lemma per operation: if the operands are near the exact values along a limit of arithmetics (`CoefRun.lim`: `N ρ → 0`, growing range), so is the result, with an error `O(ρ)`, division needing a denominator away from zero. The means over the contour lose a factor `N` (`FloatMean`), `|z| < modecutoff` may be decided wrongly, then `2^-N` bounds the difference of both branches by the known error of the trapezoidal rule (`FloatBranch`). For matrices, `FloatMatNear` has the corresponding lemmas for `expm` and `inv` (a perturbed matrix stays invertible when the exact inverses are bounded on the contour, by compactness), `FloatMatLoop` follows the accumulation over the contour, `FloatMatExact` shows that exact operations give the exact model, exceptions included. `FloatSolve` extracts explicit constants from the limit, C67 gives the runs. `FloatArith` bounds the error of Smith's division, of `exp` and of powers.
* **C83 dtypes.** The dtype of an expression is computed from those of its variables (`Exp.ty`); the dtypes after one step of each program are found by evaluating the program on dtypes, for all dtypes of coefficients, argument and monotone `nl_func` (a finite case split, `tys_eq`); `evolve_tail` carries a predicate on arrays through the loops. `C83_entries` shows that a real dtype means real entries: the coefficients that belong to a real dtype are real (`real_at`: `exp` and `expm` commute with conjugation). `C83_values` says that the entries do not depend on the dtypes.
* **C84 rounding errors of the model problems.** Forward error bounds, operation by operation (`FloatModels`, `FloatAdvection`, `FloatDeriv`), relative errors for the wavenumbers (`RelNear` in `FloatKx`). The bounds of C82 are proved for coefficients computed from a perturbed operator (`coefsOf_near`), so that runs with a computed operator (`C84_evolve`, `C84_stored`) and a computed nonlinear function (`C84_kdv_problem` etc.) are compared with the solution for the exact ones. `C84_kdv_numpy` chains `construct_x_kx_rfft`, `kdv_ops`, the constructor and `evolve`.
* **C85 rounding errors of Chebyshev grids and Hankel transforms.** Big-O calculus along unit roundoffs that tend to zero (`Lim` in `Lemmas/FloatGrids`: a computed value and its exact limit, which may depend on the data), one lemma per operation; `Lim.bound` turns it into constants `K`, `δ` that do not depend on the rounding or the data. `C85_allen_cahn_numpy` chains `construct_x_dx_cheb`, `allen_cahn_ops`, the constructor and `evolve`; `FloatAdaptive` does this and the chains of C84 for the adaptive solvers.
* **C87 underflow.** `|rnd x - x| ≤ u |x| + τ`. The estimates of `FloatArith` and `RoundedArith` again with `1 + |x|` in the place of `|x|` (`Lemmas/Underflow`); quotients need a bound on the inverse of the divisor, which `CArith.Within.div` assumes: the divisors of the coefficients are a distance from zero. With `N` contour points numbers have size `N`, so `τ` counts `N` times.
* **C88 mirror_grid on arrays of any shape.** Arrays are a shape and a function of the index list; `hstack`, `vstack`, `flipud`, `fliplr` as NumPy has them, with their errors.
* **C89 stability functions.** C21 with commuting linear maps: the interaction picture does not change `A`, so a step is a polynomial of `h A`. Stability limits are polynomial inequalities.
* **C90 in-place `nl_func`.** All constant-step programs consist of pairs `_k = e; _NLx = nl_func(_k)` where `e` does not read `_k`. A simulation relates the heap run to the run on values for all attributes except `_k`; the new array made for `_k` is the one overwritten (`Lemmas/HeapInPlace`). `evolve` by induction over its loop. Adaptive solvers (`C90_adaptive_*`): `Lemmas/HeapBlocks` shows the same for a list of such pairs of any length, `Lemmas/HeapInPlaceAS` that each program consists of them and what `nl_func` has done to the new value and the first stage at the end; `InState` (what the object holds between trials, accepted or not) is an invariant of trials, of the loop of `step` and of that of `evolve`. `Spec/InPlace` says what a distorted trial is (`Bent`); the control of the step size is the one of C03 (`StepSpec`, `AdaptiveRun`). Runs of `evolve` that raise are not described.
* **C91 strong damping.** `φ_k(z) → 0` as `Re z → -∞` from `φ_k(z) = 1/k! + z φ_{k+1}(z)` and the bound of C68; eventually no contour is used for these modes. The methods depend continuously on the coefficients that are used (`ERK.Near`, `ERK.run_near`). Lawson methods keep the weights between stages at equal times (`frozen`), hence the limits `h f(0)/6` and `11 h f(0)/84`. Exact solutions by comparison of `exp(-tL) y` with its bound.
* **C92 rapid modes.** `φ_k(z) → 0`, `k ≥ 1`, as `|z| → ∞` with `Re z` bounded above, so all weights of `f` vanish while the exponentials stay bounded; stage values stay bounded because `f` is bounded on compact sets (`ERK.Fade`, `ERK.run_fade`). Acceptance by C61's bound and C07. With some rapid modes (`RapidIn`) only the exponentials fail to converge, and these act on arrays in which the rapid modes tend to zero (`ERK.run_nearWeights`). The statement about acceptance excludes error estimates that vanish where they count (`Blind`), which the code rejects (C61).
* **C93 constant forcing.** All stage values are equal, so only the sums of the weights count; those of the error estimates of IF34, ETD34 and ETD35 vanish whatever the φ values are (IF45DP's do not, C54). With C10 every trial is rejected. For IF4 the sum of the weights is Simpson's rule; `shiftIF4` is its fixed point divided by the exact one, and `3 sinh y < y (cosh y + 2)` (three derivatives) gives that it exceeds 1. IF45DP's weights of the estimate add up to −9/320 (for zero `lin_op`), so its steps stay proportional to `epsilon` on a problem it solves exactly (`C93_if45dp_step`).
* **C94 states without nonlinear effect.** `Idle L nl u` (Spec/Idle.lean) asks for `nl_func(exp(t L) u) = 0` for all `t`; C10 and C24 are the case of `nl_func` that vanishes everywhere. The stage arguments of all methods are `exp(x L) u` plus combinations of earlier stage values, so by induction all values are zero whatever the φ values are, and C10 gives the rejections. For KdV and Burgers `ux` is zero for spectra with the zero mode only.
* **C95 growth of steps.** From C08 (suggestion at most four times the size used) and C13/C20 (the run behind the stored times and counters) by induction over the steps. The witness `demo_five_steps` computes a complete run of IF34 with the default `h_init`, which attains the bounds.
* **C96 confined problems.** `Confined W c L nl` (Spec/Confined.lean). `exp(x L) c - c` is in `W` by the power series without its first term (`W` is closed); the stage values are then in `W` and the stage arguments in `c + W` by induction, so that `nl_func` and any function that agrees with it on `c + W` have the same stages. The runs are compared by `evolve_rel`. The invariant subspaces of C66 are the case `c = 0`; `C96_frozen` combines this with C93.
* **C97 independence of the end.** The runs behind the two calls (C13) are compared step by step: `step` is a function of state and proposed size (C07, C15), and `tf` enters through the limit `min(h, tf - t)` only, which by C08 is inactive while four times the last step fits. `tf' = 0` is excluded because of the division by `tf` in the progress message (C04). With the default `h_init = (tf - t0)/100` the first proposed sizes differ, and nothing like this holds.
* **C98 repetition.** The factor `s` is monotone in `epsilon` and `safety_f` where it is acceptable (`computeS_looser`), and the suggestion is monotone in the factor if `incr_f >= 1`. A step with rejections ends with an accepted trial that does not depend on the rejected ones.
* **C99 replay with constant steps.** C23 compares trials; here the statement is about outcomes of the controller and about stored runs, through C09 (the accepted trial) and C13 (the run behind the stored lists).
* **C100 minimum step.** `minh` occurs only in the test after a rejection; the relation `RejectsTo` is monotone in it and the factor does not use it. The runs are compared as in C97; `tf = 0` is excluded because of the division in the progress message (C04).
* **C101 settings.** `s = safety_f (epsilon ‖u‖/‖err‖)^(1/q)` depends on `safety_f^q epsilon` only, also where it is infinite or nan; `step` and `evolve` use the configuration through `s`, `decr_f`, `incr_f` and `minh`, so that equality holds for the whole programs (`step_settings`, `loop_settings`), not only for their outcomes.
* **C86 Bessel functions.** `Spec/Bessel`: `J₀`, `J₁` by Bessel's integral. Derivatives under the integral sign, Bessel's equation by integrating `d/dθ (sin θ sin(x cos θ))`; zeros are simple because `x² (J₀² + J₁²)` increases; a zero in every interval of length `π` by comparing `√x J₀` with `sin (x - a)` (Sturm); enumeration by `sInf`, completeness because zeros are isolated. `ht` and `iht` are compared with the integrals in the documentation by Lommel's integrals (orthogonality of the modes).
