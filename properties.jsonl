{"id": "C01", "title": "Constant-step evolve iterates the one-step map exactly ceil((tf-t0)/h) times", "statement": "For a constant-step solver (IF4, ETD4, ETD5) and h>0, t0+h<=tf, evolve(u,t0,tf,h) returns the result of applying the solver's one-step map n times to u, where n is the least natural number with t0+n*h>=tf; the time reached is t0+n*h, it lies in [tf, tf+h), and it equals tf exactly when h divides tf-t0.", "quantifier": "all u, t0, tf, h>0 (exact arithmetic), every nl_func, every earlier history of the solver object", "why_tests_cant": "the number of loop iterations is unbounded and depends on real inputs; a test fixes a handful of (t0,tf,h)", "anchors": ["rkstiff/solvercs.py:BaseSolverCS.evolve", "rkstiff/solvercs.py:BaseSolverCS.step"]}
{"id": "C02", "title": "Constant-step storage: t and u hold exactly the initial state and every store_freq-th state", "statement": "After a constant-step evolve with store_data=True and store_freq=f>=1, solver.t and solver.u have equal length, entry j is (t0+j*f*h, state after j*f steps), entry 0 is (t0,u), and no other entries exist; with store_data=False both lists are empty. The final state is stored iff f divides the number of steps. solver.t is strictly increasing.", "quantifier": "all u, t0, tf, h>0, store_freq>=1, both values of store_data", "why_tests_cant": "holds for every number of steps and every store_freq, not just the sampled ones", "anchors": ["rkstiff/solvercs.py:BaseSolverCS.evolve"]}
{"id": "C03", "title": "Constant-step evolve argument contract", "statement": "evolve(u,t0,tf,h) raises ValueError iff t0+h>tf (provided nl_func itself does not raise it), and when it does solver.t/solver.u already contain the initial state if store_data; with h<0 and t0<tf it raises AssertionError before calling nl_func; with t0>=tf and t0+h<=tf it returns u unchanged without a step; with h=0 and t0<tf it never returns.", "quantifier": "all real t0, tf, h and all u", "why_tests_cant": "the case split covers the whole (t0,tf,h) space, including a non-termination claim which no finite run can show", "anchors": ["rkstiff/solvercs.py:BaseSolverCS.evolve", "rkstiff/solvercs.py:BaseSolverCS.step"]}
{"id": "C04", "title": "ZeroDivisionError of evolve is characterised exactly", "statement": "A constant-step evolve whose nl_func never raises ends in ZeroDivisionError iff (tf=0 and it makes at least 100 steps) or (store_data, store_freq=0 and it makes at least one step); in all other cases with h>0, t0+h<=tf it returns normally. An adaptive evolve can only raise ZeroDivisionError in the same situations.", "quantifier": "all t0, tf, h, store_freq, u, nl_func", "why_tests_cant": "the failing region is a measure-zero set (tf=0) that a test only meets when someone already knows about it", "anchors": ["rkstiff/solvercs.py:BaseSolverCS.evolve", "rkstiff/solveras.py:BaseSolverAS.evolve"]}
{"id": "C05", "title": "Rounding of the accumulated time can add a step", "statement": "With the solver time accumulated in IEEE binary64, the number of steps of evolve(t0=0,tf=1,h=0.1) is 11, not 10, and the final time exceeds tf. In general, whatever function rounds the additions, evolve stops at the first accumulated time >= tf, performing at least one step; if no accumulated time reaches tf (a step too small for the clock) it does not stop. In binary64 the number of steps differs by at most one from the exact number N whenever (N+1)*(max(|t0|,|tf|)+h)/2^53 <= h.", "quantifier": "all monotone rounding functions for the general part; the concrete binary64 run for the witness", "why_tests_cant": "the general part ranges over all rounding functions and all inputs; a test shows one run on one machine", "anchors": ["rkstiff/solvercs.py:BaseSolverCS.evolve"]}
{"id": "C06", "title": "Adaptive step always terminates within 51 stage evaluations", "statement": "For every state of the solver, every u and h, adaptive step either returns or raises; it never performs more than MAX_LOOPS+1 = 51 stage evaluations.", "quantifier": "all u, h, finite configurations, error estimators, nl_func behaviours and solver states", "why_tests_cant": "termination over all inputs cannot be tested", "anchors": ["rkstiff/solveras.py:BaseSolverAS.step"]}
{"id": "C07", "title": "Adaptive step outcome is decided by the first acceptable trial", "statement": "step(u,h) evaluates trials with step sizes h=h_0>h_1>..., each h_{j+1} obtained from h_j by the documented reduction of the error factor; it accepts the first trial whose factor s is finite and >=1 and returns that trial's solution, its step size, and the suggestion; it raises MinimumStepReached at the first rejected trial whose reduced size is below minh, and MaxLoopsExceeded iff 51 consecutive trials are rejected without that happening.", "quantifier": "all u, h, all sequences of error factors (including inf and nan)", "why_tests_cant": "ranges over all sequences of accept/reject decisions", "anchors": ["rkstiff/solveras.py:BaseSolverAS.step", "rkstiff/solveras.py:BaseSolverAS._reject_step_size", "rkstiff/solveras.py:BaseSolverAS._accept_step_size"]}
{"id": "C08", "title": "Step-size change is bounded", "statement": "If step(u,h) with h>0 returns (unew,h_used,h_suggest) then 0<h_used<=h, h_used<=h_suggest<=4*h_used, and h_suggest>h_used only when the error factor exceeded incr_f; every rejected trial multiplies the size by a factor in [min(1/4,decr_f), max(1/4,decr_f)], with exactly 1/4 when the factor is nan or inf.", "quantifier": "all configurations with 0<decr_f<1, incr_f>1, all u, h>0, all error factors", "why_tests_cant": "bounds over all error factors and configurations", "anchors": ["rkstiff/solveras.py:BaseSolverAS.step", "rkstiff/solveras.py:BaseSolverAS._reject_step_size", "rkstiff/solveras.py:BaseSolverAS._accept_step_size"]}
{"id": "C09", "title": "An accepted step meets the requested tolerance", "statement": "If an adaptive step is accepted then, over the components with |u_i| > adapt_cutoff*max|u|, the norm of the method's error estimate is positive and at most safety_f^q * epsilon * (norm of the new solution over the same components), in particular at most epsilon times it when safety_f<=1.", "quantifier": "all u, h, nl_func, lin_op, configurations with epsilon>0", "why_tests_cant": "a guarantee about every accepted step of every run", "anchors": ["rkstiff/solveras.py:BaseSolverAS._compute_s", "rkstiff/solveras.py:BaseSolverAS.step"]}
{"id": "C10", "title": "Adaptive solvers cannot accept a trial with zero error estimate or zero solution", "statement": "Whenever the error estimate of a trial vanishes on the considered components, or the trial solution is identically zero, the trial is rejected; consequently if nl_func is identically zero every adaptive solver (IF34, ETD34, ETD35, IF45DP) raises MinimumStepReached or MaxLoopsExceeded (or, for a full-matrix ETD solver whose coefficients cannot be computed for a tried step size, LinAlgError) for every u and every h>0, and adaptive evolve on a purely linear problem never succeeds for t0<tf.", "quantifier": "all linear operators, all u, all h>0, all configurations with minh>0", "why_tests_cant": "the existing tests use nonlinear problems; the claim is over all linear problems", "anchors": ["rkstiff/solveras.py:BaseSolverAS._compute_s", "rkstiff/if34.py:IF34", "rkstiff/etd34.py:ETD34", "rkstiff/etd35.py:ETD35", "rkstiff/if45dp.py:IF45DP"]}
{"id": "C11", "title": "Adaptive evolve lands exactly on tf", "statement": "If adaptive evolve(u,t0,tf,h_init) with t0<=tf and h_init>0 (or default) returns, then the time of every step lies in (t0,tf], times are strictly increasing, and the time of the last step is exactly tf; with tf<=t0 it returns u unchanged without a step.", "quantifier": "all u, t0, tf, h_init, nl_func, configurations (exact arithmetic)", "why_tests_cant": "invariant of an unbounded loop driven by data-dependent step sizes", "anchors": ["rkstiff/solveras.py:BaseSolverAS.evolve"]}
{"id": "C12", "title": "Adaptive evolve terminates", "statement": "For every h_init>0 (or default) adaptive evolve returns or raises after finitely many steps; the number of accepted steps is bounded by a function of (tf-t0), h_init and minh, because after the first step every accepted step except possibly the last is at least min(h_init,minh) long.", "quantifier": "all u, t0, tf, h_init>0, nl_func, configurations with minh>0", "why_tests_cant": "termination over all inputs cannot be tested", "anchors": ["rkstiff/solveras.py:BaseSolverAS.evolve", "rkstiff/solveras.py:BaseSolverAS.step"]}
{"id": "C13", "title": "Adaptive storage: t and u are the store_freq-subsequence of one consistent trajectory", "statement": "After adaptive evolve (returned or raised), there is a trajectory (t0,u0),(t1,u1),...,(tn,un) in which each (t_{k+1},u_{k+1}) results from an accepted step of the one-step map from (t_k,u_k), and solver.t/solver.u are exactly its entries with index divisible by store_freq (empty if store_data is False); the returned array is u_n.", "quantifier": "all u, t0, tf, h_init, store_freq>=1, nl_func including ones that raise at an arbitrary call", "why_tests_cant": "ranges over all executions including crash points", "anchors": ["rkstiff/solveras.py:BaseSolverAS.evolve"]}
{"id": "C14", "title": "evolve does not depend on the past of the solver object", "statement": "For each of IF4, ETD4, ETD5, IF34, ETD34, ETD35, IF45DP and each strategy (diagonal, diagonalized, full matrix), evolve called on a solver object after any sequence of previous step/evolve/reset calls, including calls that raised, has the same result, the same solver.t and the same solver.u as on a freshly constructed solver.", "quantifier": "all call histories, all arguments, all nl_func (possibly raising)", "why_tests_cant": "unbounded histories", "anchors": ["rkstiff/solveras.py:BaseSolverAS.reset", "rkstiff/solvercs.py:BaseSolverCS.reset", "rkstiff/if4.py:IF4._reset", "rkstiff/etd34.py:ETD34._reset"]}
{"id": "C15", "title": "Chained step calls equal independent single steps (caching is unobservable)", "statement": "When each step call is given the array returned by the previous one, the reuse of the last nonlinear evaluation and of cached coefficients does not change results: the k-th call returns what a freshly constructed solver would return for the same (u,h), even when h changes between calls.", "quantifier": "all numbers of calls, all sequences of step sizes, all nl_func", "why_tests_cant": "all sequences of step sizes; tests use a few", "anchors": ["rkstiff/if4.py:IF4._update_stages", "rkstiff/etd4.py:ETD4._update_stages", "rkstiff/etd5.py:ETD5._update_stages", "rkstiff/if34.py:IF34._update_stages", "rkstiff/etd34.py:ETD34._update_stages", "rkstiff/etd35.py:ETD35._update_stages", "rkstiff/if45dp.py:IF45DP._update_stages"]}
{"id": "C16", "title": "step is not a function of (u,h) when the caller switches state", "statement": "If after a successful step the caller passes a different array to step without reset, the constant-step solvers and IF34, ETD34, IF45DP use the nonlinear term evaluated at the previously returned array in place of nl_func(u) (exact formula given), so the result differs from that of a fresh solver in general; ETD35 recomputes and is unaffected.", "quantifier": "all u, u', h and nl_func for the formula; concrete witness for the difference", "why_tests_cant": "the formula is for all inputs; existing tests only chain calls", "anchors": ["rkstiff/if4.py:_IF4Diagonal.update_stages", "rkstiff/etd35.py:_Etd35Diagonal.update_stages", "rkstiff/if34.py:_If34Diagonal.update_stages"]}
{"id": "C17", "title": "A failed adaptive step leaves a stale state that a later step with another u uses", "statement": "After adaptive step(u,h) raised MinimumStepReached or MaxLoopsExceeded, step(u',h') without reset computes with the nonlinear term of u, for all four adaptive solvers; with the diagonalized strategy the new u' is ignored entirely. After reset (or via evolve) the result is that of a fresh solver.", "quantifier": "all u, u', h, h'", "why_tests_cant": "crash points followed by arbitrary continuation", "anchors": ["rkstiff/solveras.py:BaseSolverAS.step", "rkstiff/etd35.py:_Etd35Diagonalized.update_stages", "rkstiff/if34.py:_If34Diagonalized.update_stages"]}
{"id": "C18", "title": "An nl_func exception is retry-safe", "statement": "If nl_func raises at an arbitrary call inside step(u,h), the exception propagates, and calling step again with the same u and any h' on the same object gives the same result as on a fresh solver.", "quantifier": "all crash points (which of the stage evaluations raises), all u, h, h'", "why_tests_cant": "every crash point in every stage", "anchors": ["rkstiff/if4.py:IF4", "rkstiff/if34.py:IF34", "rkstiff/if45dp.py:IF45DP"]}
{"id": "C19", "title": "A linear-algebra exception in coefficient computation is not retry-safe", "statement": "If the coefficient computation for step size h raises (singular matrix on the contour in the full-matrix ETD solvers), the solver has already recorded h as computed: repeating step with the same h does not raise again and uses the previous (possibly all-zero) coefficients; changing h, reset or evolve recompute them.", "quantifier": "all solver states and step sizes for which the computation raises; concrete witness", "why_tests_cant": "needs an exception at one specific internal point", "anchors": ["rkstiff/etd4.py:ETD4._update_coeffs", "rkstiff/etd34.py:ETD34._update_coeffs", "rkstiff/etd35.py:ETD35._update_coeffs", "rkstiff/etd5.py:ETD5._update_coeffs"]}
{"id": "C20", "title": "Number of nl_func evaluations", "statement": "A constant-step run of n steps calls nl_func exactly 4n+1 (IF4, ETD4) or 6n+1 (ETD5) times; an adaptive run with a trials in total (accepted or rejected) calls it exactly 4a+1 (IF34, ETD34), 6a+1 (IF45DP) times, and ETD35 with a trials of which b were accepted before the last trial calls it 5a+b+1 times.", "quantifier": "all step sequences and numbers of steps", "why_tests_cant": "counts over unbounded executions", "anchors": ["rkstiff/if4.py", "rkstiff/etd4.py", "rkstiff/etd5.py", "rkstiff/if34.py", "rkstiff/etd34.py", "rkstiff/etd35.py", "rkstiff/if45dp.py"]}
{"id": "C21", "title": "Integrating-factor solvers are the Lawson transform of the named Runge-Kutta tableau", "statement": "One step of IF4 and the solution of IF34 equal the Lawson (integrating factor) method of the classical 4th-order Runge-Kutta tableau, i.e. the classical method applied to v(t)=exp(-tL)u(t) and transformed back, and the solution of IF45DP that of the Dormand-Prince 5(4) tableau. IF34's error estimate is the difference to an embedded solution whose weights use the re-evaluated last stage. (The error estimate of IF45DP is the subject of C54.)", "quantifier": "all diagonal lin_op, h, u, nl_func; for IF4/IF34 also all matrices", "why_tests_cant": "an identity over all inputs", "anchors": ["rkstiff/if4.py:_IF4Diagonal", "rkstiff/if34.py:_If34Diagonal", "rkstiff/if45dp.py:IF45DP._update_stages", "rkstiff/if45dp.py:IF45DP._update_coeffs"]}
{"id": "C22", "title": "ETD solvers are the named exponential Runge-Kutta schemes in terms of phi functions", "statement": "With exactly evaluated psi functions one step of ETD4 (and ETD34) equals Krogstad's ETDRK4-B scheme written with the phi functions, and ETD5/ETD35 equal the exponential Runge-Kutta scheme whose coefficients are the documented psi combinations at abscissae 0,1/4,1/4,1/2,3/4,1.", "quantifier": "all lin_op, h, u, nl_func", "why_tests_cant": "an identity over all inputs", "anchors": ["rkstiff/etd4.py:_Etd4Diagonal.update_coeffs", "rkstiff/etd34.py:_Etd34Diagonal", "rkstiff/etd5.py:_Etd5Diagonal", "rkstiff/etd35.py:_Etd35Diagonal"]}
{"id": "C23", "title": "Pairs of solvers compute the same step", "statement": "For equal lin_op, nl_func, ETD configuration, u and h the trial solution of the adaptive solver equals the step of its constant-step counterpart: IF34 with IF4, ETD34 with ETD4, ETD35 with ETD5, in the diagonal and in the full-matrix strategy, including the approximate coefficients.", "quantifier": "all lin_op, nl_func, configurations, u, h", "why_tests_cant": "an identity between two separately written pieces of code over all inputs", "anchors": ["rkstiff/if4.py", "rkstiff/if34.py", "rkstiff/etd4.py", "rkstiff/etd34.py", "rkstiff/etd5.py", "rkstiff/etd35.py"]}
{"id": "C24", "title": "Linear problems are solved exactly", "statement": "If nl_func is identically zero, one step of every constant-step solver in every strategy returns exp(h*lin_op) u, the trial solution of every adaptive solver in every strategy is exp(h*lin_op) u with error estimate zero (so that step itself raises, C10), and constant-step evolve over n steps returns exp(n*h*lin_op) u.", "quantifier": "all lin_op (vector or matrix), u, h, numbers of steps", "why_tests_cant": "all operators and sizes", "anchors": ["rkstiff/if4.py", "rkstiff/etd4.py", "rkstiff/etd5.py", "rkstiff/if34.py", "rkstiff/etd34.py", "rkstiff/etd35.py", "rkstiff/if45dp.py"]}
{"id": "C25", "title": "ETD solvers reproduce constant forcing exactly and preserve equilibria", "statement": "With exactly evaluated psi functions: if nl_func is a constant c then the ETD step returns the exact solution at time h of u' = L u + c; and if L u + nl_func(u) = 0 then every ETD step returns u for every h, all stages being equal to u.", "quantifier": "all diagonal and full lin_op, all u, c, h", "why_tests_cant": "all operators, all h", "anchors": ["rkstiff/etd4.py", "rkstiff/etd34.py", "rkstiff/etd5.py", "rkstiff/etd35.py"]}
{"id": "C26", "title": "Diagonal and full-matrix strategies agree on diagonal operators", "statement": "For a diagonal matrix, the full-matrix IF solvers return exactly the step (and error estimate) of the diagonal strategy applied to its diagonal; the ETD solvers do so when both use exactly evaluated psi functions.", "quantifier": "all diagonals, u, h, nl_func", "why_tests_cant": "identity over all inputs", "anchors": ["rkstiff/if4.py:_IF4NonDiagonal", "rkstiff/if34.py:_If34NonDiagonal", "rkstiff/etd34.py:_Etd34NonDiagonal"]}
{"id": "C27", "title": "The diagonalized strategy returns the full-matrix solution but its error estimate in eigen-coordinates", "statement": "If lin_op = S diag(lambda) S^-1, the diagonalized strategy of IF34/ETD34/ETD35 returns the same trial solution as the full-matrix strategy (exact coefficients), while its error estimate equals S^-1 applied to the full-matrix one; hence the two strategies may accept different steps.", "quantifier": "all S invertible, lambda, u, h, nl_func; witness for the difference", "why_tests_cant": "identity over all operators", "anchors": ["rkstiff/if34.py:_If34Diagonalized", "rkstiff/etd34.py:_Etd34Diagonalized", "rkstiff/etd35.py:_Etd35Diagonalized"]}
{"id": "C28", "title": "psi functions equal their integral definition", "statement": "For z != 0 psi1, psi2, psi3 equal r * integral_0^1 exp((1-theta) z) theta^(r-1) dtheta (r=1,2,3), and they are related by the phi-function recurrence and to the power series; the power series value at 0 is 1 for each.", "quantifier": "all complex z", "why_tests_cant": "all z, including the removable singularity", "anchors": ["rkstiff/etd.py:psi1", "rkstiff/etd.py:psi2", "rkstiff/etd.py:psi3"]}
{"id": "C29", "title": "Small-mode contour means approximate psi with an explicit error", "statement": "For modes below the cutoff the diagonal ETD coefficients are means of psi over contour_points points on a circle of radius contour_radius around z; the mean differs from psi(z) exactly by the aliased Taylor terms sum_{l>=1} (-1)^l R^(lN) psi^(lN)(z)/(lN)!, so it converges to psi(z) as contour_points grows, for every radius; for 0<cutoff<=R the error is at most exp(cutoff+R/q) q^N/(1-q) for every 0<q<1, and below 10^-33 with the default settings.", "quantifier": "all z, radii R>0, numbers of points N>=2", "why_tests_cant": "an analytic identity for all N and R", "anchors": ["rkstiff/etd4.py:_Etd4Diagonal.update_coeffs", "rkstiff/etd5.py:_Etd5Diagonal", "rkstiff/etd34.py:_Etd34Diagonal", "rkstiff/etd35.py:_Etd35Diagonal"]}
{"id": "C30", "title": "Full-matrix contour quadrature is valid only when the contour encloses the spectrum", "statement": "The full-matrix ETD strategies evaluate psi(hL) as (1/N) sum r_m psi(r_m) (r_m I - hL)^-1 with r_m on the circle of radius contour_radius around 0. For an eigenvalue z of hL the value differs from psi(z) by an explicit quantity that tends to 0 as N grows if |z|<R, and tends to psi(z) (i.e. the computed value tends to 0) if |z|>R. If the norm of c h L is at most R/2 all inverses exist and the error of the matrix is at most 6 exp(3R) 2^-N.", "quantifier": "all z, R, N", "why_tests_cant": "limits over all N; tests use fixed operators with small spectra", "anchors": ["rkstiff/etd4.py:_Etd4NonDiagonal", "rkstiff/etd34.py:_Etd34NonDiagonal", "rkstiff/etd5.py:_Etd5NonDiagonal", "rkstiff/etd35.py:_Etd35NonDiagonal"]}
{"id": "C31", "title": "Division by zero in the ETD coefficients", "statement": "If modecutoff<=contour_radius (true for the default configuration), no psi evaluation made by the diagonal ETD strategies has argument 0, for any lin_op and h; if modecutoff>contour_radius there are lin_op and h for which one is.", "quantifier": "all lin_op, h, contour_points, radii and cutoffs", "why_tests_cant": "all operators and configurations", "anchors": ["rkstiff/etd4.py:_Etd4Diagonal.update_coeffs", "rkstiff/etd.py:ETDConfig"]}
{"id": "C32", "title": "Every coefficient is recomputed for every mode", "statement": "After the coefficients are updated for step size h, the coefficients of each mode depend only on that mode's eigenvalue, h and the ETD configuration: not on the other modes, nor on the step sizes used before (no mode is skipped by the split into small and large modes).", "quantifier": "all lin_op vectors, all partitions into small/large modes, all previous states", "why_tests_cant": "all partitions and histories", "anchors": ["rkstiff/etd4.py:_Etd4Diagonal.update_coeffs", "rkstiff/etd34.py:_Etd34Diagonal", "rkstiff/etd5.py:_Etd5Diagonal", "rkstiff/etd35.py:_Etd35Diagonal.update_coeffs"]}
{"id": "C33", "title": "Real problems stay real / conjugation symmetry", "statement": "Solver steps commute with complex conjugation: if lin_op, u are replaced by their conjugates and nl_func by the conjugated function, the step result is the conjugate; in particular for real lin_op, real u and an nl_func mapping real arrays to real arrays the step is real, also with the contour-approximated coefficients.", "quantifier": "all lin_op, u, h, nl_func commuting with conjugation, all contour configurations", "why_tests_cant": "all inputs; relies on the symmetry of the contour points for every N", "anchors": ["rkstiff/etd4.py", "rkstiff/etd5.py", "rkstiff/if4.py", "rkstiff/etd.py"]}
{"id": "C34", "title": "Classical order conditions", "statement": "At zero linear operator every solver is a classical explicit Runge-Kutta method (IF4, IF34, IF45DP exactly; ETD4, ETD5, ETD34, ETD35 in the limit of many contour points). The method satisfies all order conditions up to order 4 (IF4, IF34, ETD4, ETD34) or 5 (ETD5, ETD35, IF45DP). The error weights annihilate all conditions up to order 3 for IF34, ETD34, ETD35 (error estimate O(h^4)). Those of IF45DP violate even the first condition; with 71/1920 in place of 17/1920 they would annihilate all up to order 4.", "quantifier": "all rooted trees up to the stated order", "why_tests_cant": "tests estimate a convergence slope on two problems", "anchors": ["rkstiff/if45dp.py:IF45DP._update_coeffs", "rkstiff/etd5.py", "rkstiff/etd35.py", "rkstiff/etd4.py"]}
{"id": "C35", "title": "Order of accuracy", "statement": "For smooth nl_func one step (for adaptive solvers: one trial) agrees with the exact flow of u'=Lu+N(u) up to O(h^(p+1)), uniformly over solutions in a compact set, as h->0 with L fixed: p=4 for IF4, IF34, ETD4, ETD34, ETD5 and ETD35 and p=5 for IF45DP (for the ETD solvers once there are enough contour points for the step size). Despite their name ETD5 and ETD35 have order 5 only if L commutes with the derivative of N: their local error is h^5/34560 times the commutator of N'(u) with L, applied to N''(v,v)+N'Lv+3N'N'v where v=Lu+N(u), plus O(h^6), and for L=diag(0,1), N(u)=(u1,u1) no bound C h^6 holds. The error estimates of IF34, ETD34, ETD35 are O(h^4); that of IF45DP is -9/320 h N(u) + O(h^2). Quantitatively the local error with N contour points is at most C(h^(p+1) + h 2^-N) with C independent of h and N.", "quantifier": "all smooth N, all solutions in a compact set, all fixed L, all sufficiently small h", "why_tests_cant": "asymptotic statement over all smooth nonlinearities", "anchors": ["rkstiff/if4.py", "rkstiff/etd4.py", "rkstiff/etd5.py", "rkstiff/if34.py", "rkstiff/etd34.py", "rkstiff/etd35.py", "rkstiff/if45dp.py"]}
{"id": "C36", "title": "SolverConfig keeps its validated ranges over every history of assignments", "statement": "For non-NaN values, a SolverConfig that was constructed and then mutated by any sequence of attribute assignments (failed ones raise ValueError and change nothing) always satisfies epsilon>0, incr_f>1, decr_f<1, safety_f<=1, adapt_cutoff<1, minh>0, and each attribute equals the last value successfully assigned; NaN is accepted by every setter.", "quantifier": "all sequences of assignments, all values", "why_tests_cant": "unbounded histories", "anchors": ["rkstiff/solveras.py:SolverConfig"]}
{"id": "C37", "title": "ETDConfig keeps its validated ranges over every history of assignments", "statement": "Likewise ETDConfig always satisfies 0<modecutoff<=1, contour_points an integer >=2, contour_radius>0; non-integers for contour_points raise TypeError before the range check; failed assignments change nothing.", "quantifier": "all sequences of assignments, all values", "why_tests_cant": "unbounded histories", "anchors": ["rkstiff/etd.py:ETDConfig"]}
{"id": "C38", "title": "Default configuration objects are shared between solvers of a class", "statement": "Two solvers of the same class constructed without an explicit config share one configuration object: an assignment through one solver's config is visible in the other and in every solver constructed later without a config, while solvers given an explicit config object are unaffected. Likewise for the ETDConfig from which coefficients are computed; replacing the attribute etd_config of a solver afterwards has no effect on them.", "quantifier": "all histories of constructions and assignments", "why_tests_cant": "unbounded histories of aliasing", "anchors": ["rkstiff/solveras.py:BaseSolverAS.__init__", "rkstiff/etd.py:ETDAS", "rkstiff/etd.py:ETDCS"]}
{"id": "C39", "title": "Constructor validation and strategy selection", "statement": "Constructing any solver succeeds only for a 1-D lin_op or a square 2-D lin_op (ValueError otherwise; IF45DP also rejects 2-D); the diagonal strategy is used iff lin_op is 1-D (even if diagonalize=True), a matrix is diagonalized iff diagonalize=True, where a failing conditioning check raises ValueError, and kept as full matrix otherwise.", "quantifier": "all shapes and flags", "why_tests_cant": "all shapes", "anchors": ["rkstiff/solver.py:BaseSolver.__init__", "rkstiff/if34.py:IF34", "rkstiff/etd34.py:ETD34", "rkstiff/etd35.py:ETD35", "rkstiff/if45dp.py:IF45DP.__init__"]}
{"id": "C40", "title": "Logger levels are per class, handlers are never duplicated", "statement": "For every history of solver constructions and set_loglevel calls: no logger ever gets a second handler, and every solver that exists has a logger with a handler; solvers of the same class share their logger, so the effective level of all of them is the one most recently requested for that class by a valid request (a construction, even one that then fails on the shape of lin_op, or set_loglevel); other classes are unaffected; an invalid level raises and leaves all levels unchanged.", "quantifier": "all histories of constructions and level changes", "why_tests_cant": "unbounded histories", "anchors": ["rkstiff/util/loghelper.py:setup_logger", "rkstiff/util/loghelper.py:get_solver_logger", "rkstiff/util/loghelper.py:set_log_level", "rkstiff/solver.py:BaseSolver.__init__"]}
{"id": "C41", "title": "Log level parsing", "statement": "A string is accepted as a log level iff its upper-casing is one of CRITICAL, FATAL, ERROR, WARNING, WARN, INFO, DEBUG, NOTSET, with the standard numeric values; integers are passed through; get_level_name inverts parsing for canonical names.", "quantifier": "all strings and integers", "why_tests_cant": "all strings", "anchors": ["rkstiff/util/loghelper.py:_parse_loglevel", "rkstiff/util/loghelper.py:get_level_name"]}
{"id": "C42", "title": "Periodic grids", "statement": "construct_x_kx_fft(n,a,b) and construct_x_kx_rfft(n,a,b) raise TypeError iff n is not an integer, ValueError iff n<=2 or n odd, and otherwise, in exact arithmetic and for a<b, give n points x_j = a + j(b-a)/n in [a,b) and the wavenumbers 2*pi*m/(b-a) with m = 0..n/2 (rfft) or 0..n/2-1,-n/2..-1 (fft). With rounded arithmetic the number of points is n or n+1, and in binary64 construct_x_kx_rfft(98,0,1) returns 99 points for 50 wavenumbers. a=b raises ZeroDivisionError.", "quantifier": "all even n>2, all a<b", "why_tests_cant": "all sizes and intervals", "anchors": ["rkstiff/grids.py:construct_x_kx_rfft", "rkstiff/grids.py:construct_x_kx_fft"]}
{"id": "C43", "title": "Chebyshev grid", "statement": "construct_x_cheb(n,a,b) with n>=2, a<b gives n+1 strictly increasing points in [a,b] with first a and last b, symmetric about the midpoint (the documentation's descending order notwithstanding).", "quantifier": "all n>=2, all a<b", "why_tests_cant": "all sizes and intervals", "anchors": ["rkstiff/grids.py:construct_x_cheb"]}
{"id": "C44", "title": "Chebyshev differentiation matrix is exact on polynomials", "statement": "With (x,D)=construct_x_dx_cheb(n,a,b), for every polynomial p of degree <=n, D @ p(x) = p'(x) exactly on [a,b] (no further scaling needed); in particular rows of D sum to zero, and dx_cheb(D,p(x),m) = p^(m)(x) for every m>=0.", "quantifier": "all n>=2, a<b, polynomials of degree <=n, derivative orders", "why_tests_cant": "all sizes and polynomials", "anchors": ["rkstiff/grids.py:construct_x_dx_cheb", "rkstiff/derivatives.py:dx_cheb"]}
{"id": "C45", "title": "dx_fft differentiates trigonometric polynomials exactly and composes", "statement": "With the grid of construct_x_kx_fft (exact arithmetic), dx_fft(kx,u,m) equals at the grid points the exact m-th derivative of the unique trigonometric interpolant of u with modes -n/2..n/2-1. For arrays of any dimension and any wavenumbers of matching shape it is linear in u and dx_fft(kx,dx_fft(kx,u,m1),m2)=dx_fft(kx,u,m1+m2).", "quantifier": "all n, a<b, complex u, orders m", "why_tests_cant": "all inputs", "anchors": ["rkstiff/derivatives.py:dx_fft"]}
{"id": "C46", "title": "dx_rfft differentiates resolved real signals exactly; the Nyquist mode breaks composition", "statement": "With the grid of construct_x_kx_rfft (exact arithmetic), dx_rfft(kx,u,m) is linear and equals at the grid points the exact m-th derivative of the real trigonometric interpolant of degree < n/2 plus a multiple of cos of degree n/2. dx_rfft of order m2 after order m1 equals dx_rfft of order m1+m2 iff m1 or m2 is even or the alternating sum of u is zero; dx_rfft agrees with dx_fft iff m is even or the alternating sum of u is zero.", "quantifier": "all even n>2, real u, orders m", "why_tests_cant": "all inputs", "anchors": ["rkstiff/derivatives.py:dx_rfft"]}
{"id": "C47", "title": "Argument checking of the derivative functions", "statement": "dx_rfft, dx_fft and dx_cheb raise TypeError exactly for a non-integer order (dx_rfft also for complex input once the order is known to be non-negative); ValueError for negative order and, at positive order, exactly on the stated shape mismatches (dx_fft also on an empty last axis); IndexError for 0-d input of the two Fourier functions at positive order; LinAlgError for dx_cheb at order > 1 with 2-D u and a non-square matrix with the right number of rows. dx_rfft of an empty array is an empty array; order 0 returns the input without any shape check; otherwise the result has the shape of the input.", "quantifier": "all shapes, orders and dtypes", "why_tests_cant": "all combinations of shapes and orders", "anchors": ["rkstiff/derivatives.py"]}
{"id": "C48", "title": "Hankel transform object is consistent under every history of assignments", "statement": "After any sequence of assignments to nr and rmax (invalid ones raise ValueError and change nothing) a HankelTransform behaves as one freshly constructed with the last valid values: same r, kr, ht, iht.", "quantifier": "all assignment histories", "why_tests_cant": "unbounded histories", "anchors": ["rkstiff/transforms.py:HankelTransform"]}
{"id": "C49", "title": "Hankel transform scaling and inversion", "statement": "ht and iht are linear, iht(ht f) = ht(iht f) = Y^2 f independent of rmax, so they invert each other iff Y^2=1; r lies strictly inside (0,rmax), increasing, kr_j = r_j*jN/rmax^2; ht for radius rmax is rmax^2 times that for radius 1.", "quantifier": "all nr, rmax>0, f (Bessel zeros abstracted to an increasing positive sequence)", "why_tests_cant": "all sizes and vectors", "anchors": ["rkstiff/transforms.py:HankelTransform"]}
{"id": "C50", "title": "mirror_grid", "statement": "mirror_grid(r) returns a grid of twice the length that is antisymmetric and whose second half is r, strictly increasing iff r is positive and increasing. mirror_grid(r,u,axis) with 1-D u and axis -1, or 2-D u and axis 0 or 1, turns samples of an even function on r into its samples on the mirrored grid. The default axis -1 with 2-D u joins row i to row n-1-i and so equals axis 1 only if u is invariant under reversing both axes; axis 0 with 1-D u gives a two-row array; other axes raise ValueError.", "quantifier": "all lengths, values, axes", "why_tests_cant": "all arrays", "anchors": ["rkstiff/grids.py:mirror_grid"]}
{"id": "C51", "title": "KdV soliton helper is an exact solution", "statement": "u(x,t)=kdv_soliton(x,ampl,x0,t) satisfies u_t + 6 u u_x + u_xxx = 0 for all x,t, travels with speed ampl^2, is positive with its maximum ampl^2/2 exactly at x0+ampl^2 t (ampl nonzero); kdv_multi_soliton is the sum of the single solitons and raises ValueError iff the lists differ in length.", "quantifier": "all amplitudes, positions, times", "why_tests_cant": "a PDE identity at every point", "anchors": ["rkstiff/models.py:kdv_soliton", "rkstiff/models.py:kdv_multi_soliton"]}
{"id": "C52", "title": "Mean of KdV and Burgers runs: conserved for Burgers, not for KdV", "statement": "With (lin_op,nl_func)=kdv_ops(kx) or burgers_ops(kx,mu) and kx[0]=0, the zero Fourier mode of nl_func(uf) is a multiple of kx[-1]*Re(uf[-1])*Im(uf[-1]), hence 0 for the spectrum of every real signal. For Burgers any number of steps of any solver with a diagonal operator, from a spectrum with real Nyquist entry, leaves the zero mode of the solution unchanged. For KdV this holds if kx[-1]=0; with kx[-1]>0 (as construct_x_kx_rfft returns it) there is on every grid a real signal and a step size for which one IF4 step changes the mean.", "quantifier": "all uf, grids, step sizes, numbers of steps, solvers", "why_tests_cant": "conservation over unbounded runs for all data", "anchors": ["rkstiff/models.py:kdv_ops", "rkstiff/models.py:burgers_ops"]}
{"id": "C53", "title": "Allen-Cahn operator splitting is consistent", "statement": "With (L,nl)=allen_cahn_ops(x,D,eps) and a Chebyshev grid on [a,b], L w + nl(w) equals the interior restriction of eps*D^2 v + v - v^3 with v the grid function that is w+x inside and equals x (that is a and b) at the two end points; so w is stationary for the split system iff eps*D^2 v + v - v^3 = 0 at all interior points.", "quantifier": "all grids, eps, w", "why_tests_cant": "all inputs", "anchors": ["rkstiff/models.py:allen_cahn_ops"]}
{"id": "C54", "title": "The error estimate of IF45DP is not that of the Dormand-Prince pair", "statement": "The error estimate of a trial of IF45DP differs from the difference of the two Dormand-Prince solutions by exactly -(9/320) h exp(hL/5) nl_func(U4) (one weight of the code is 17/1920 instead of 71/1920); for lin_op=0 and constant nl_func=c both embedded solutions agree but the estimate is -(9/320) h c, so it is only of first order in h.", "quantifier": "all diagonal lin_op, u, h, nl_func; witness for all constants c", "why_tests_cant": "The solution is right and the run stays within tolerance, only with far smaller steps than necessary; a test on a few problems sees nothing.", "anchors": ["rkstiff/if45dp.py: _IF45DP.update_coeffs, _IF45DP._update_stages"]}
{"id": "C55", "title": "Numbering of the modes is irrelevant", "statement": "Solving the same problem with its modes listed in another order (lin_op, nl_func and u relabelled alike; for diagonalize=True the eigen-decomposition relabelled alike) gives the relabelled result from step and evolve, with the same stored times, the same step sizes and the same exceptions.", "quantifier": "all bijections between index sets, all lin_op (1D, 2D, diagonalized), nl_func (possibly raising), u, h, configurations, call histories and run parameters", "why_tests_cant": "quantifies over all permutations and problems", "anchors": ["rkstiff/solveras.py:BaseSolverAS._compute_s", "rkstiff/solvercs.py:BaseSolverCS.step", "rkstiff/solveras.py:BaseSolverAS.step"]}
{"id": "C56", "title": "Convergence of constant-step runs", "statement": "For smooth nl_func and a solution Y of y'=Ly+N(y) on an interval around [t0,tf], evolve of IF4, ETD4 and ETD5 returns for all small h and all large enough numbers of contour points, and the returned array and all snapshots u[k] satisfy |u[k]-Y(t[k])| <= C(|u-Y(t0)| + h^4 + 2^-contour_points), where C does not depend on h, the number of points, the initial array or the state of the solver object; for IF4 the contour term is absent.", "quantifier": "all smooth N, all L, all solutions, all small h, all numbers of contour points from some number on, all initial arrays near Y(t0), all store settings and solver histories", "why_tests_cant": "a limit over all step sizes and smooth problems", "anchors": ["rkstiff/solvercs.py:BaseSolverCS.evolve", "rkstiff/if4.py", "rkstiff/etd4.py", "rkstiff/etd5.py"]}
{"id": "C57", "title": "Convergence of adaptive runs", "statement": "For smooth nl_func and a solution Y of y'=Ly+N(y) on an interval around [t0,tf], whatever steps the controller chooses: if all accepted steps of evolve are at most H (consecutive entries of solver.t of a run storing every step) and H is small, then all snapshots and the returned array are within C(|u-Y(t0)| + H^p + 2^-contour_points) of Y at their times, p=5 for IF45DP and 4 for IF34, ETD34 and ETD35 (diagonal, full or diagonalized); for IF34 and IF45DP the contour term is absent. Runs that end with an exception are included as far as they went.", "quantifier": "all smooth N, all L, all solutions, all controller settings with decr_f<1 and minh>0, all h_init, all numbers of contour points from some number on, all solver histories", "why_tests_cant": "a limit over all sequences of step sizes and smooth problems", "anchors": ["rkstiff/solveras.py:BaseSolverAS.evolve", "rkstiff/if34.py", "rkstiff/etd34.py", "rkstiff/etd35.py", "rkstiff/if45dp.py"]}
{"id": "C58", "title": "KdV and Burgers operators are the spectral form of their equations", "statement": "With (x,kx)=construct_x_kx_rfft(n,a,b) and u the real trigonometric interpolant of any data, nl_func(rfft(u(x))) of kdv_ops(kx) is rfft of the grid values of -6 u u_x and of burgers_ops of -u u_x; lin_op*rfft(u) of burgers_ops is rfft of mu*u_xx; lin_op*rfft(u) of kdv_ops is rfft of -u_xxx in all entries below the Nyquist mode, and the sum lin_op*uf+nl_func(uf) is the spectrum of -6 u u_x - u_xxx iff u has no Nyquist component. For u of degree d<n/2, entry m of nl_func is n times the exact Fourier coefficient (an integral) for all m<n-2d: no aliasing there.", "quantifier": "all even n>=4, a!=b, data u, degrees d, modes m", "why_tests_cant": "all signals, grids and modes", "anchors": ["rkstiff/models.py:kdv_ops", "rkstiff/models.py:burgers_ops"]}
{"id": "C59", "title": "The model problems are smooth; solvers converge on them from every initial array", "statement": "nl_func of kdv_ops, burgers_ops (at least two wavenumbers) and allen_cahn_ops never raises and is infinitely often differentiable. A smooth problem has from every initial array a solution Y on some interval [t0,T], and runs of all seven solvers on [t0,tf], tf<=T, converge to Y(tf) with their order as the (largest) step tends to 0 and the number of contour points to infinity.", "quantifier": "all wavenumber arrays, grids, initial arrays, solvers", "why_tests_cant": "limits over all step sizes from all initial data", "anchors": ["rkstiff/models.py", "rkstiff/solvercs.py:BaseSolverCS.evolve", "rkstiff/solveras.py:BaseSolverAS.evolve"]}
{"id": "C60", "title": "SolverType.from_solver agrees with solver_type", "statement": "For instances of the seven solver classes and of all user subclasses that do not redefine the property, SolverType.from_solver(s) == s.solver_type, CONSTANT_STEP for IF4, ETD4, ETD5 and ADAPTIVE_STEP for IF34, ETD34, ETD35, IF45DP. It raises TypeError iff the class derives from neither BaseSolverCS nor BaseSolverAS. For a class deriving from both the two agree iff BaseSolverAS comes first in the method resolution order. str of the members is 'Constant Step' and 'Adaptive Step'.", "quantifier": "all class hierarchies (method resolution orders)", "why_tests_cant": "all user-defined subclasses", "anchors": ["rkstiff/util/solver_type.py:SolverType"]}
{"id": "C61", "title": "Adaptive solvers make progress: small enough trials are accepted", "statement": "For an nl_func that is Lipschitz on bounded sets and states with rho<=max|u|<=r there are constants c,eta>0 (independent of the configuration and of the number of contour points) such that every trial of size h<=b=min(eta, c*safety_f^q*epsilon) is accepted, unless its error estimate is exactly zero on the selected components. For IF34, ETD34, ETD35 and smooth nl_func h^4+h*2^-N<=c*safety_f^4*epsilon suffices. For IF45DP it does not: from states with nl_func(u) of size at least rho in a selected component a small trial is accepted only if h<=C*safety_f^5*epsilon. Hence step() returns whenever minh<=min(1/4,decr_f)*b and max(1/4,decr_f)^50*h<=b, and evolve returns after a number of steps that does not depend on minh, unless the run reaches a state outside the bounds or with a vanishing estimate.", "quantifier": "all adaptive solvers, operators, Lipschitz nl_funcs, configurations, states, call histories", "why_tests_cant": "existence of a uniform threshold below which no trial is rejected", "anchors": ["rkstiff/solveras.py:BaseSolverAS.step", "rkstiff/solveras.py:BaseSolverAS.evolve", "rkstiff/solveras.py:BaseSolverAS._compute_s", "rkstiff/if45dp.py"]}
{"id": "C62", "title": "The clock of adaptive evolve in binary64", "statement": "With binary64 times and step sizes the times of an adaptive evolve never decrease and only the last one reaches tf. It equals tf whenever the time before lies within a factor of two of tf; for t0>=0 it is tf or the next larger double (which does happen); in general it exceeds tf by at most about (tf-t0+|tf|)/2^53. If min(h_init,minh) >= tf/2^51 and t0>=0, evolve ends after at most 2(tf-t0)/min(h_init,minh)+3 steps; without such a bound it can run forever, because accepted steps below half an ulp do not move the clock.", "quantifier": "all binary64 t0, tf, h_init; all solvers, nl_funcs, configurations, histories", "why_tests_cant": "all combinations of binary64 times, ties of rounding included", "anchors": ["rkstiff/solveras.py:BaseSolverAS.evolve", "rkstiff/solveras.py:BaseSolverAS.step"]}
{"id": "C63", "title": "Arrays may be treated as values when nl_func is well behaved", "statement": "If nl_func writes to no array except work buffers of its own and returns none of these, then in every program that uses a solver (construct, step, evolve, reset, new arrays, in-place writes to arrays the solver does not need) the calls do exactly what they do on immutable values: same exceptions, same contents of results and snapshots. No call changes an array of the caller; step returns a new array; evolve returns a new array, or the argument itself if no step is made; stored snapshots are distinct arrays, the first being the caller's own u0 (not a copy). If nl_func returns new arrays, the array returned by step is not needed by the solver and may be overwritten by the caller; with nl_func = lambda u: u it is needed.", "quantifier": "all solvers, nl_funcs on mutable arrays, programs, call histories including failed calls", "why_tests_cant": "all interleavings of calls and in-place writes, all aliasing patterns", "anchors": ["rkstiff/solvercs.py:BaseSolverCS.evolve", "rkstiff/solveras.py:BaseSolverAS.evolve", "rkstiff/if4.py", "rkstiff/etd4.py", "rkstiff/etd5.py", "rkstiff/if34.py", "rkstiff/etd34.py", "rkstiff/etd35.py", "rkstiff/if45dp.py"]}
{"id": "C64", "title": "nl_func that returns the same buffer every time", "statement": "If nl_func returns the same array object on every call (a preallocated output buffer), then IF34, ETD34, ETD35 without diagonalization never complete a step: step always raises, and so does evolve over a nonempty interval, whatever the equation, the configuration and the history. IF4 does not fail but returns the combination of stages in which all four stage values are replaced by the last one.", "quantifier": "all such nl_funcs, operators, configurations, histories, heaps", "why_tests_cant": "all equations and configurations", "anchors": ["rkstiff/if34.py", "rkstiff/etd34.py", "rkstiff/etd35.py", "rkstiff/if4.py", "rkstiff/solveras.py:BaseSolverAS._compute_s"]}
{"id": "C65", "title": "When a change of etd_config takes effect", "statement": "Assigning to modecutoff, contour_points or contour_radius of the solver's etd_config after construction affects a later step only if coefficients are recomputed: a step whose size equals the size of the last trial made since construction/reset silently keeps the settings which that trial used; a step of any other size, the trials after a rejection, a step after reset, and every evolve use the present values. Constant-step: step returns exactly what a new solver with the settings in effect returns. Adaptive: the first trial uses the settings in effect, the trials of reduced size the present ones. The assignments leave the recorded times and states as they were.", "quantifier": "all solvers, histories of step/step that raised (not LinAlgError)/reset/evolve and assignments, settings, sizes, nl_funcs", "why_tests_cant": "all interleavings of calls and assignments", "anchors": ["rkstiff/etd.py:ETDConfig", "rkstiff/etd4.py", "rkstiff/etd5.py", "rkstiff/etd34.py", "rkstiff/etd35.py", "rkstiff/if4.py:IF4._update_coeffs", "rkstiff/if34.py:IF34._update_coeffs"]}
{"id": "C66", "title": "Linear maps between problems, invariant subspaces and conserved quantities", "statement": "If a matrix P satisfies P L = L' P and nl_func'(P v) = P nl_func(v), solvers of the same class give P times the same steps, constant-step runs (result, times, snapshots) and adaptive trials. Subspaces invariant under lin_op and nl_func are invariant under every step and run of every solver. A functional w with w L = lambda w and w . nl_func = 0 evolves exactly: w . u is multiplied by exp(lambda h) per step, is conserved in every run if lambda = 0, and equals exp(lambda (t-t0)) w . u0 at every stored time, whatever the contour and the steps chosen.", "quantifier": "all matrices, subspaces, functionals, solvers (diagonal, full, diagonalized), sizes, histories, nl_funcs, run parameters", "why_tests_cant": "infinitely many problems; a test sees equality only up to tolerances and cannot exclude small drifts", "anchors": ["rkstiff/if4.py", "rkstiff/etd4.py", "rkstiff/etd5.py", "rkstiff/if34.py", "rkstiff/etd34.py", "rkstiff/etd35.py", "rkstiff/if45dp.py", "rkstiff/etd.py"]}
{"id": "C67", "title": "Rounding errors of steps and runs", "statement": "If array operations, coefficients and nl_func are computed up to an error eps (relative to the operands, on bounded arrays), one step or trial of every solver differs from the exact one by at most C eps. If in addition the clock is rounded with relative error eps, evolve of every constant-step solver still returns, ends in [tf, tf + 2h), and the returned array and every snapshot are within C(initial error + h^4 + 2^-N + eps/h) of the exact solution at the recorded time; along every adaptive run the error is within C(initial error + H^p + 2^-N + n eps), n the number of steps, whatever the controller decides and however the error factor is computed. C does not depend on the step sizes, the number of contour points, the arithmetic or the history. NumPy's complex arithmetic with any relative rounding unit rho satisfies the hypothesis with eps = K rho. With exact arithmetic the model is that of the other properties.", "quantifier": "all solvers (diagonal, full, diagonalized), smooth nl_funcs, operators, arithmetics, roundings, sizes, contour settings and numbers of points, run parameters, object states", "why_tests_cant": "all arithmetics and problems; asymptotic statement in step size and rounding unit", "anchors": ["rkstiff/if4.py", "rkstiff/etd4.py", "rkstiff/etd5.py", "rkstiff/if34.py", "rkstiff/etd34.py", "rkstiff/etd35.py", "rkstiff/if45dp.py", "rkstiff/solvercs.py:BaseSolverCS.evolve", "rkstiff/solveras.py:BaseSolverAS.evolve"]}
{"id": "C68", "title": "Stability independent of stiffness", "statement": "For every bound omega on the real parts of a diagonal lin_op, bound R on the contour radius and Lipschitz constant K of nl_func there is one C such that a step of IF4, ETD4, ETD5 or a trial of IF34, ETD34, ETD35, IF45DP with h <= 1, started from arrays u, v with nl_funcs that differ by at most delta, gives arrays that differ by at most (1 + C h)|v - u| + C h delta; runs of the constant-step solvers store the same times and differ by at most exp(C(tf - t0 + h))(|v - u| + delta). C does not depend on the size of lin_op, the number of modes, the contour points or the step size.", "quantifier": "all dimensions, all diagonal operators with real parts at most omega, all nl_funcs with Lipschitz constant K and perturbations, arrays, step sizes, contour settings, run parameters, object states", "why_tests_cant": "one constant for all operators of any size and dimension", "anchors": ["rkstiff/if4.py", "rkstiff/etd4.py", "rkstiff/etd5.py", "rkstiff/if34.py", "rkstiff/etd34.py", "rkstiff/etd35.py", "rkstiff/if45dp.py", "rkstiff/etd.py", "rkstiff/solvercs.py:BaseSolverCS.evolve"]}
{"id": "C69", "title": "Convergence of the ETD solvers on stiff problems", "statement": "For ETD4, ETD5, ETD34, ETD35 with a diagonal lin_op with real parts at most omega, the error of a run against the exact solution Y is at most C(initial error + h^2 + 2^-N), h the (largest accepted) step, N the number of contour points, where C and the thresholds for h, N and the initial error depend only on omega, the contour radius, the length of the interval, the Lipschitz constant of nl_func near Y and bounds on nl_func(Y(t)) and its time derivative: not on the size of lin_op, the number of modes, or derivatives of Y.", "quantifier": "all dimensions, all diagonal operators with real parts at most omega, all problems with the stated regularity, initial arrays, step sizes, contour settings, controller settings, run parameters, object states", "why_tests_cant": "one constant for all operators of any size and dimension; asymptotic in step size and contour points", "anchors": ["rkstiff/if4.py", "rkstiff/etd4.py", "rkstiff/etd5.py", "rkstiff/if34.py", "rkstiff/etd34.py", "rkstiff/etd35.py", "rkstiff/if45dp.py", "rkstiff/etd.py", "rkstiff/solvercs.py:BaseSolverCS.evolve", "rkstiff/solveras.py:BaseSolverAS.evolve"]}
{"id": "C70", "title": "Order reduction of the integrating factor solvers", "statement": "The integrating factor solvers do not share C69: for y' = -mu y + 1 with mu = 108/h, started in its equilibrium, a run of IF4 with step h over any interval ends with error at least h/12, and so does a trial of IF34 and IF45DP. Hence for every C and eta there is a problem with the regularity of C69 and h < eta for which IF4's error at t = 1 exceeds C h^2.", "quantifier": "all step sizes, intervals, constants C and thresholds eta, run parameters, object states", "why_tests_cant": "for all constants; a test sees single problems", "anchors": ["rkstiff/if4.py", "rkstiff/if34.py", "rkstiff/if45dp.py", "rkstiff/solvercs.py:BaseSolverCS.evolve"]}
{"id": "C71", "title": "What solver.t and solver.u hold", "statement": "After any sequence of calls on a solver object, raising ones included, t and u have the same length. They are empty if step alone was called since construction or since reset; after an evolve followed by steps they are what that evolve leaves on a new object, whatever happened before; their first entries are then t0 and the initial state (none without store_data), also if that evolve raised.", "quantifier": "all solvers, operators, nonlinear functions (raising ones included), sequences of calls and arguments, rounding of the clock", "why_tests_cant": "for all call sequences", "anchors": ["rkstiff/solver.py:BaseSolver.reset", "rkstiff/solvercs.py:BaseSolverCS.step", "rkstiff/solvercs.py:BaseSolverCS.evolve", "rkstiff/solveras.py:BaseSolverAS.step", "rkstiff/solveras.py:BaseSolverAS.evolve"]}
{"id": "C72", "title": "When changes of lin_op and nl_func of an existing solver take effect", "statement": "The array passed as lin_op may be written to by the caller after construction. evolve of IF4, IF34 and IF45DP then gives what a new solver gives that is made from the array as it is now; ETD4, ETD5, ETD34 and ETD35 do so only if its dtype is complex128 and otherwise go on with the original contents; solvers made with diagonalize=True always go on with the original contents. A step of the size of the last step (or trial) uses the contents with which that one was computed, a step of any other size the contents that evolve would use. Assigning solver.lin_op or solver.nl_func of an adaptive solver affects IF45DP only: evolve then gives what a new solver gives; the first stage of the next step still uses a value of the old nl_func. Writing into the array leaves the recorded times and states as they were.", "quantifier": "all solvers, operators, settings, nonlinear functions and arguments; all histories of calls and changes", "why_tests_cant": "for all histories of calls and changes and all contents of the array", "anchors": ["rkstiff/if4.py:_IF4Diagonal", "rkstiff/etd4.py:_Etd4Diagonal", "rkstiff/etd5.py:_Etd5Diagonal", "rkstiff/if34.py:_If34Diagonalized", "rkstiff/etd34.py:_Etd34Diagonal", "rkstiff/etd35.py:_Etd35Diagonal", "rkstiff/if45dp.py:IF45DP._update_coeffs", "rkstiff/if45dp.py:IF45DP._update_stages"]}
{"id": "C73", "title": "Units and origin of time", "statement": "If time is measured in another unit and from another origin, t' = a t + b with a > 0, then the solver for lin_op/a and nl_func/a with steps a*h (adaptive: minh and h_init multiplied by a) makes the same run as the original solver: evolve returns the same array or raises the same exception, stores the same snapshots, and every time t becomes a*t + b; step returns the same array and the adaptive sizes multiplied by a. This needs a clock whose rounding goes along with the change: exact times for any a and b, binary64 times for powers of two and b = 0. The exception is the progress message, which divides by tf: shifting tf to or away from 0 can make a long run raise ZeroDivisionError.", "quantifier": "all solvers, operators, nonlinear functions (also raising ones), settings, arguments, states and factors a > 0, origins b", "why_tests_cant": "for all problems, runs of any length and all changes of unit and origin", "anchors": ["rkstiff/solveras.py:BaseSolverAS.step", "rkstiff/solveras.py:BaseSolverAS.evolve", "rkstiff/solvercs.py:BaseSolverCS.step", "rkstiff/solvercs.py:BaseSolverCS.evolve"]}
{"id": "C74", "title": "Units of the solution, phases of its modes, translations and reflections of the grid", "statement": "If all arrays are multiplied by a number c (c != 0 for adaptive solvers) and nl_func is converted accordingly, every step and run is multiplied by c, with the same times, sizes, rejections and exceptions and the same settings, for every solver and strategy. With a diagonal lin_op the modes may be multiplied by different numbers (of the same absolute value, for adaptive solvers). Consequently, for kdv_ops and burgers_ops: moving the initial samples around the periodic grid moves the samples of every snapshot and of the result and leaves the times alone; for burgers_ops replacing f(x) by -f(-x) replaces u(x) by -u(-x), so odd samples stay odd.", "quantifier": "all solvers, operators, nonlinear functions that are converted, arguments, states, factors; all grid sizes, samples and displacements", "why_tests_cant": "for all problems and runs of any length, including the choice of all steps", "anchors": ["rkstiff/solveras.py:BaseSolverAS._compute_s", "rkstiff/solveras.py:BaseSolverAS.evolve", "rkstiff/solvercs.py:BaseSolverCS.evolve", "rkstiff/models.py:kdv_ops", "rkstiff/models.py:burgers_ops"]}
{"id": "C75", "title": "Stopping and resuming a constant-step run", "statement": "If evolve(u, t0, t1, h) of a constant-step solver returns v at time T, then for every tf >= t1 that leaves room for a step (T + h <= tf) evolve(v, T, tf, h), on the same or any other object with the same operator, ends exactly like the single run evolve(u, t0, tf, h): the same array or the same exception, at the same time. If store_freq divides the number of steps of the first run, the two recordings joined (without repeating the first entry of the second) are the recording of the single run, and T and v are the last entries of the first. If T >= tf already, the single run is the first run. If the first run raises, the single run raises the same exception with the same recording.", "quantifier": "all constant-step solvers, operators, nonlinear functions (raising ones too), times, step sizes, frequencies, roundings of the clock, object histories", "why_tests_cant": "for every place where a run is interrupted, every rounding and every exception", "anchors": ["rkstiff/solvercs.py:BaseSolverCS.evolve", "rkstiff/solvercs.py:BaseSolverCS.step", "rkstiff/solvercs.py:BaseSolverCS.reset"]}
{"id": "C76", "title": "Shapes of arrays", "statement": "A one-dimensional lin_op of length N acts along the last axis of u: for u of shape (..., N) evolve gives, at every entry, what it gives for the flattened array with the entries of lin_op repeated for every row, with the same step sizes, times and exceptions; if nl_func acts on rows, constant-step runs and adaptive trials act on each row separately. Arrays of shape (N,) are treated as in all other properties. A lin_op of length 1 acts on arrays of any shape as a number. A matrix lin_op acts on the columns of an array of shape (N, B). With diagonalize=True, however, the eigenvalues are applied along the last axis: column b of an (N, N) array is evolved as if all eigenvalues were the b-th one, and shapes (N, B) with B different from 1 and N raise ValueError. The result of a step with one-dimensional lin_op has the shape that lin_op and u broadcast to, so a column (N, 1) silently becomes (N, N). Lengths that do not fit raise ValueError. Adaptive solvers raise ValueError on empty arrays.", "quantifier": "all seven solver classes, all shapes with any number of axes and any lengths, all operators, all nl_func that keep shapes, all step sizes, runs of any length", "why_tests_cant": "every shape, every nonlinear function and every length of run", "anchors": ["rkstiff/solvercs.py:BaseSolverCS.step", "rkstiff/solvercs.py:BaseSolverCS.evolve", "rkstiff/solveras.py:BaseSolverAS._compute_s", "rkstiff/if4.py", "rkstiff/etd4.py", "rkstiff/etd5.py", "rkstiff/if34.py", "rkstiff/etd34.py", "rkstiff/etd35.py", "rkstiff/if45dp.py"]}
{"id": "C77", "title": "Shapes that nl_func returns; stacks of batches", "statement": "The shape of the result of step or of an adaptive trial, or the exception, depends only on the shape of u and the shapes that nl_func returns, never on values. If nl_func returns numbers (arrays without axes): with one-dimensional lin_op all solvers but IF34 return arrays of shape (N,), and a fixed number gives the same run (results, times, step sizes, exceptions) as the array filled with it; IF34 without diagonalization raises IndexError, because its error estimate is then a number; with a matrix lin_op (for the others, and for all with diagonalize=True) the result silently has the shape (N, N). With a matrix lin_op an array of shape (A, N, B), A different from N, raises ValueError, although each of the A batches would be accepted.", "quantifier": "all solvers, operators, shapes, step sizes and values; all nl_func whose result shapes are as stated; runs of any length for fixed numbers", "why_tests_cant": "independence of values is a statement about all arrays of a shape", "anchors": ["rkstiff/solvercs.py:BaseSolverCS.step", "rkstiff/solveras.py:BaseSolverAS._compute_s", "rkstiff/if34.py:_If34Diagonal.update_stages", "rkstiff/if34.py:_If34NonDiagonal", "rkstiff/etd34.py", "rkstiff/etd35.py", "rkstiff/if45dp.py:IF45DP._update_stages"]}
{"id": "C78", "title": "Batches for the model equations", "statement": "With the operators of kdv_ops and burgers_ops (spectral, one-dimensional), an array of shape (..., M+1) is evolved by constant-step solvers row by row, exactly as each row would be evolved alone, with the same times and exceptions; a trial of an adaptive solver is the trial of each row. nl_func returns an array of the same shape if the last axis has the length of kx; a number raises IndexError, any other last axis (also 1) raises ValueError. With the operators of allen_cahn_ops arrays of shape (k,) are treated as in the other properties, but every array with two axes raises ValueError in every solver, diagonalized or not. Whenever the first step (for adaptive solvers: trial) raises, evolve raises the same exception and has recorded the initial state only, whatever the object was used for before.", "quantifier": "all solver classes, all grids with at least two wavenumbers (two interior points), all batch shapes, arrays, step sizes, lengths of runs and object histories", "why_tests_cant": "every batch shape and every array", "anchors": ["rkstiff/models.py:kdv_ops", "rkstiff/models.py:burgers_ops", "rkstiff/models.py:allen_cahn_ops", "rkstiff/solvercs.py:BaseSolverCS.evolve", "rkstiff/solveras.py:BaseSolverAS.evolve"]}
{"id": "C79", "title": "Helper functions on arrays of any shape", "statement": "HankelTransform.ht and iht on an array of shape (nr, m) transform every column as they transform a one-dimensional array. On an array of shape (..., nr, m) they transform the last axis but one and move it to the front, so that for shape (a, nr, m) with a different from nr, iht(ht(f)) raises ValueError. They raise ValueError exactly if the only axis, or the last but one, does not have length nr, and no other exception; a number becomes an nr by nr matrix, whose j-th column is the transform of that number at point j and zero elsewhere. kdv_multi_soliton raises ValueError if the lists differ in length, else TypeError for a number, else ValueError if x has not len(x) entries; on arrays of shape (n,) or (n, 1) it returns an array of shape (n,) with the sum of the values of kdv_soliton.", "quantifier": "all nr >= 4, rmax > 0, all arrays of all shapes, all lists of parameters", "why_tests_cant": "every shape and every array", "anchors": ["rkstiff/transforms.py:HankelTransform.ht", "rkstiff/transforms.py:HankelTransform.iht", "rkstiff/models.py:kdv_soliton", "rkstiff/models.py:kdv_multi_soliton"]}
{"id": "C80", "title": "Infinities and nan", "statement": "An entry of the argument of step of a constant-step solver that is infinite or nan is not finite in the result, and with a matrix lin_op no entry of the result is; in evolve such an entry stays so in all later recorded arrays and in the returned one. An adaptive solver with adapt_cutoff >= 0 rejects every trial whose new array has an entry that is not finite, or whose error estimate has one among the entries that count: what step returns, and everything evolve records after the initial array, is finite. From an array with an entry that is not finite it makes no step: step and evolve raise MinimumStepReached or MaxLoopsExceeded, or what the computation of the coefficients or nl_func raise, and evolve has recorded the initial array only. With a negative adapt_cutoff (which the setter accepts) step can accept an array with an infinite entry. Where nothing overflows and nothing is rounded, this floating-point model agrees with the model of the other properties.", "quantifier": "all solvers, operators, coefficients (finite or not), nl_func, arrays of floats, every rounding of real results that may overflow, all previous states of the object", "why_tests_cant": "every pattern of infinities and nan, every overflow inside a stage, every history of the object", "anchors": ["rkstiff/solvercs.py:BaseSolverCS.step", "rkstiff/solvercs.py:BaseSolverCS.evolve", "rkstiff/solveras.py:BaseSolverAS.step", "rkstiff/solveras.py:BaseSolverAS.evolve", "rkstiff/solveras.py:BaseSolverAS._compute_s", "rkstiff/solveras.py:SolverConfig.adapt_cutoff"]}
{"id": "C81", "title": "Times, step sizes and settings that are infinite or nan", "statement": "evolve of every solver returns its argument, having recorded at most the initial array, when t0 or tf is nan. With constant steps h = nan raises AssertionError if t0 < tf, h = inf raises ValueError for finite times, and makes one step of infinite size if tf = inf; with tf = inf or t0 = -inf and a finite h evolve never returns (after t0 = -inf all recorded times are -inf). With adaptive steps h_init = nan or -inf raises AssertionError, h_init = inf is replaced by tf - t0; tf = inf without h_init makes trials of infinite size only and raises MaxLoopsExceeded after 51 of them or what a trial raises, or returns after one step at time inf; tf = inf with a finite h_init never returns. The setters of SolverConfig accept nan: with minh = nan MinimumStepReached is not raised by step itself, with incr_f = nan or inf step sizes do not grow, with decr_f = nan, after a rejected trial with a finite factor, trials of size nan follow, and if these are rejected step raises MaxLoopsExceeded after 51 trials. With epsilon or safety_f infinite or nan, or adapt_cutoff = nan, step accepts no trial and raises. On finite arguments this model agrees with the one of the other properties.", "quantifier": "all subclasses of the two base classes (all adaptive solvers for the settings), arrays, previous states of the object, roundings", "why_tests_cant": "runs that never return; every subclass, solution and error estimate; every history of the object", "anchors": ["rkstiff/solvercs.py:BaseSolverCS.evolve", "rkstiff/solvercs.py:BaseSolverCS.step", "rkstiff/solveras.py:BaseSolverAS.evolve", "rkstiff/solveras.py:BaseSolverAS.step", "rkstiff/solveras.py:BaseSolverAS._compute_s", "rkstiff/solveras.py:BaseSolverAS._reject_step_size", "rkstiff/solveras.py:BaseSolverAS._accept_step_size", "rkstiff/solveras.py:SolverConfig"]}
{"id": "C82", "title": "Rounding errors in the coefficients", "statement": "The coefficients of the ETD solvers, computed with operations on numbers of relative accuracy rho and with expm and np.linalg.inv of accuracy rho (relative to the condition number for the inverse), differ from the exact ones (those computed with exact operations) by at most K (N rho + 2^-N), N = contour_points, for all step sizes up to a bound, with K independent of N, rho and h; for the integrating factor solvers by at most K rho. This includes modes that rounding puts on the other side of modecutoff. The assumption on the settings is 0 < modecutoff < contour_radius for one-dimensional operators and the diagonalized strategies, and for matrices that the contour encloses the eigenvalues of h lin_op; then the inverses exist also after rounding. As a consequence the results of evolve with all operations on arrays and coefficients rounded stay within C (|u - Y(t0)| + h^4 + (N rho + 2^-N)/h) of the solution Y with constant steps and C (|u - Y(t0)| + H^p + n (N rho + 2^-N)) with adaptive steps of size at most H, n their number; so do the recorded arrays. NumPy's complex arithmetic (Smith's division, power by multiplication, np.sum in any order) with real operations rounded to relative error u has accuracy 120 u. With exact operations, evolve is that of the exact model, errors of np.linalg.inv included.", "quantifier": "all operators (1-d, diagonalized, matrices), step sizes up to a bound, numbers of contour points, roundings, orders of summation, solutions and right-hand sides", "why_tests_cant": "all roundings, step sizes and numbers of contour points at once; cancellation in the psi functions near modecutoff depends on each mode", "anchors": ["rkstiff/etd.py:psi1", "rkstiff/etd.py:psi2", "rkstiff/etd.py:psi3", "rkstiff/etd4.py:_Etd4Diagonal.update_coeffs", "rkstiff/etd4.py:_Etd4NonDiagonal.update_coeffs", "rkstiff/etd5.py", "rkstiff/etd34.py", "rkstiff/etd35.py", "rkstiff/if4.py", "rkstiff/if34.py", "rkstiff/if45dp.py", "rkstiff/solvercs.py:BaseSolverCS.evolve", "rkstiff/solveras.py:BaseSolverAS.evolve"]}
{"id": "C83", "title": "Dtypes of results", "statement": "The initial array is recorded as it is, and all arrays that evolve records afterwards and the one it returns (unless there is no step) have one dtype: the largest, in the order int64, float64, complex128, of the dtypes of the coefficients, of the initial array and of the values of nl_func at float64 arrays. Hence with an ETD solver everything after the initial array is complex128 even if lin_op, u and nl_func are real; with an integrating factor solver it is complex128 if lin_op (with diagonalize: its eigenvalues), the initial array or the values of nl_func are complex, and float64 if all of them are real, also for integers. A single step of a constant-step solver returns at least the dtype of the coefficients and that of its argument, whatever the object was used for before. Real dtypes mean real entries, and the entries do not depend on the dtypes.", "quantifier": "all solvers, operators, dtypes, nl_func with any effect on dtypes that respects their order, arithmetics, clocks, times, step sizes and states of the solver object", "why_tests_cant": "a case for each combination of dtypes, strategy and history of the object", "anchors": ["rkstiff/if4.py", "rkstiff/if34.py", "rkstiff/if45dp.py", "rkstiff/etd4.py", "rkstiff/etd5.py", "rkstiff/etd34.py", "rkstiff/etd35.py", "rkstiff/solvercs.py:BaseSolverCS.evolve", "rkstiff/solveras.py:BaseSolverAS.evolve"]}
{"id": "C84", "title": "Rounding errors of grids, derivatives and model problems", "statement": "With operations on numbers of relative accuracy rho and transforms of accuracy rho: construct_x_kx_rfft and construct_x_kx_fft return for every even n > 2 and every interval the documented number of wavenumbers, each with a relative error of at most 10 rho (IEEE operations); dx_rfft and dx_fft raise exactly what they raise in exact arithmetic, return arrays of the same shape, and for an order n > 0 differ from the exact derivative by at most (2 n + 26) (2 (1 + kmax))^n (1 + N max|u|) rho along every line; the operators and nonlinear functions of kdv_ops, burgers_ops and allen_cahn_ops differ from the exact ones by explicit constants times rho, also with computed wavenumbers and grids. evolve with a linear operator and a nonlinear function that are computed in this way returns and records arrays within C (|u - Y(t0)| + h^4 + (N rho + 2^-N)/h) of the solution Y of the exact equations with constant steps, and C (|u - Y(t0)| + H^p + n (N rho + 2^-N)) with n adaptive steps of size at most H. In particular the chain construct_x_kx_rfft, kdv_ops or burgers_ops, constructor, evolve in NumPy's arithmetic does so for every even number of points and every interval. With the adaptive solvers every recorded array of this chain is within C (|u - Y(t0)| + H^p + n (N rho + 2^-N)) of the solution.", "quantifier": "all grids, intervals, shapes, orders, spectra, viscosities, operations and transforms of accuracy rho, solvers, step sizes, numbers of contour points", "why_tests_cant": "all roundings, grids and data at once, and bounds on the distance from the solution of the exact equations, which no computation has", "anchors": ["rkstiff/grids.py:construct_x_kx_rfft", "rkstiff/grids.py:construct_x_kx_fft", "rkstiff/derivatives.py:dx_rfft", "rkstiff/derivatives.py:dx_fft", "rkstiff/models.py:kdv_ops", "rkstiff/models.py:burgers_ops", "rkstiff/models.py:allen_cahn_ops", "rkstiff/solvercs.py:BaseSolverCS.evolve", "rkstiff/solveras.py:BaseSolverAS.evolve"]}
{"id": "C85", "title": "Rounding errors of Chebyshev grids and Hankel transforms", "statement": "With operations of relative accuracy rho and sums and inner products of accuracy proportional to n rho: construct_x_dx_cheb returns points and a matrix, and d_cheb_matrix.dot(d_cheb_matrix) a square of it, that differ from the exact ones by at most K rho for every rho below a bound that depends only on the grid; dx_cheb with this matrix applied to columns of samples of polynomials of degree at most n differs from their m-th derivatives at the points by at most K rho, for every order m, uniformly for all polynomials of a given size; HankelTransform(nr, rmax) has points, frequencies, zeros, matrix and scale factor within K rho of the exact ones if the functions of scipy.special have accuracy rho, and ht, iht and iht of ht of real and complex arrays differ from the exact ones by at most K rho, uniformly for all arrays of a given size. All of them raise the same exceptions for the same arguments as in exact arithmetic. The chain construct_x_dx_cheb, allen_cahn_ops, constructor, evolve returns and records arrays within C (|u - Y(t0)| + h^4 + (N rho + 2^-N)/h) of the solution of the exact equations with constant steps, and C (|u - Y(t0)| + H^p + n (N rho + 2^-N)) with adaptive ones.", "quantifier": "all grids, intervals, radii, orders, arrays of a given size, roundings, orders of summation and computed Bessel functions of accuracy rho", "why_tests_cant": "all roundings and data at once, and errors relative to exact values that no computation has", "anchors": ["rkstiff/grids.py:construct_x_dx_cheb", "rkstiff/grids.py:construct_x_cheb", "rkstiff/grids.py:construct_r_kr_hankel", "rkstiff/derivatives.py:dx_cheb", "rkstiff/transforms.py:HankelTransform", "rkstiff/models.py:allen_cahn_ops", "rkstiff/solvercs.py:BaseSolverCS.evolve", "rkstiff/solveras.py:BaseSolverAS.evolve"]}
{"id": "C86", "title": "Hankel transforms compute the documented integrals", "statement": "J0 has infinitely many positive zeros, all simple, so HankelTransform never divides by zero, and what scipy.special documents (J0, J1, increasing positive zeros) determines the object. kr lists in increasing order exactly the k with 0 < k < jN/rmax and J0(k rmax) = 0, with gaps less than pi/rmax; r increases inside (0, rmax) with gaps less than pi rmax/jN. iht is exact for functions f(r) = sum c_m J0(kr_m r): from the values of the integral of f(r) J0(k r) r over [0, rmax] at kr it returns f at r. ht is exact for functions whose spectrum is G(k) = sum c_m J0(r_m k) on [0, jN/rmax] and zero beyond: from the values of the integral of G(k) J0(k r) k at r it returns G at kr. Every real array is of either form in exactly one way. ht of f(r) = sum c_m J0(kr_m r) at r is the Hankel transform plus (Y^2 - 1) applied to it. In floating point, from computed Bessel functions of accuracy rho, all this holds up to K rho.", "quantifier": "all nr, rmax, coefficients, arrays, roundings", "why_tests_cant": "integrals and zeros are not computable exactly; all sizes and coefficients", "anchors": ["rkstiff/transforms.py:HankelTransform", "rkstiff/grids.py:construct_r_kr_hankel"]}
{"id": "C87", "title": "Rounding errors with underflow", "statement": "Let every real operation round with an error of at most u |x| + tau, as binary64 with gradual underflow (u = 2^-53, tau = 2^-1075) or with flushing to zero (tau = 2^-1022) does; a relative bound alone does not hold then. Operations on arrays and complex numbers have accuracy K (u + tau); quotients of complex numbers by Smith's method too, with K proportional to a bound on the divisor and its inverse. evolve with constant steps, with coefficients, stages and nonlinear function computed so and N contour points, returns and records arrays within C (|v - Y(t0)| + h^4 + (N (u + N tau) + 2^-N)/h) of the solution, also for the operators of kdv_ops and burgers_ops; with adaptive steps within C (|v - Y(t0)| + H^p + n (N (u + N tau) + 2^-N)). With gradual underflow sums of floating-point numbers, such as those of the clock, keep the relative accuracy 2^-53.", "quantifier": "all roundings, operators, smooth nonlinear functions, steps, settings, numbers of contour points and orders of summation", "why_tests_cant": "all roundings at once; underflow happens for few data", "anchors": ["rkstiff/etd4.py:_Etd4Diagonal.update_coeffs", "rkstiff/solvercs.py:BaseSolverCS.evolve", "rkstiff/solveras.py:BaseSolverAS.evolve", "rkstiff/models.py:kdv_ops", "rkstiff/models.py:burgers_ops"]}
{"id": "C88", "title": "mirror_grid on arrays of any shape", "statement": "mirror_grid(r) of a one-dimensional r has twice as many points, is antisymmetric and ends with r, whatever u and axis are. With axis 0 (u with two or more axes) or axis 1 unew has twice the length along that axis, is symmetric along it and its second half is u; all other axes are kept. With axis 0 a one-dimensional u gives the two rows u reversed and u. The default axis -1 mirrors a one-dimensional u; if u (or r) has two or more axes it is reversed along the first axis and joined along the second, which is symmetric only if u[a-1-i, b-1-j] = u[i, j]. The only exception is ValueError, raised just for r or u without axes, for axis 1 and one-dimensional u, and, if u is given, for an axis other than -1, 0, 1.", "quantifier": "all shapes, values and axes", "why_tests_cant": "all shapes and values; symmetric test data hide the default axis", "anchors": ["rkstiff/grids.py:mirror_grid"]}
{"id": "C89", "title": "Integrating-factor solvers on u' = L u + A u", "statement": "For nl_func(u) = A u with A commuting with L, a step of IF4 or IF34 is exp(hL) times the Taylor polynomial of exp(hA) of degree 4, of IF45DP exp(hL)(1 + ... + (hA)^5/120 + (hA)^6/600). The error estimate of IF34 is exp(hL)(w^4/72 - w^5/144), w = hA; that of IF45DP starts with -9/320 w. A run of IF4 with a diagonal operator multiplies mode i by (exp(h L_i) R(h lam_i))^n; with Re L_i <= 0 and lam_i = i y no mode grows if h|y| <= 2 sqrt 2, and with Re L_i = 0 and h|y| > 2 sqrt 2 it grows by a factor rho > 1 in every step. For decay lam = -x/h the limit is x^3 - 4x^2 + 12x <= 24 (x about 2.785); IF45DP's factor on oscillations is at most 1 iff y^6 - 25y^4 + 225y^2 <= 200 (|y| just below 1). For nl_func(u) = lam u whether IF34 or IF45DP accepts a trial depends only on h lam, epsilon and safety_f, not on u, L or adapt_cutoff.", "quantifier": "all operators, commuting matrices, states, step sizes, numbers of steps, tolerances", "why_tests_cant": "growth shows only after many steps; sharp limits; all operators", "anchors": ["rkstiff/if4.py:IF4", "rkstiff/if34.py:IF34", "rkstiff/if45dp.py:IF45DP"]}
{"id": "C90", "title": "nl_func that overwrites its argument silently distorts the solvers", "statement": "If nl_func overwrites its argument with g(u) and returns that array, step of IF4, ETD4, ETD5 raises nothing. The first step of a new object overwrites the caller's array w with z = g(w), performs the step of the method from z with z as first stage value, and returns an array holding g(v) where v is the result of that step. Every further step from the returned array z makes g(step from z with first stage z). No other array of the caller is changed. For constant-step solvers the same holds for a run of evolve that returns; its first snapshot, the caller's array, then holds g(w). Adaptive solvers: the first step also overwrites the caller's array w with g(w), starts from there with this array as first stage, and the step size control works on the distorted trials. IF34, ETD34, IF45DP return g(v) instead of the result v of the trial and go on from g(v) with itself as first stage; ETD35 returns v, but the next step overwrites that array with g(v), so that snapshots already stored change. IF34 and ETD34 with diagonalize=True distort the first step only: all later steps are those of a proper nl_func. step ends as this control ends, in an array or an exception; for evolve, runs that return an array.", "quantifier": "all solvers and operators, all functions g, all heaps, all sequences of step sizes, all intervals, all settings of the step control", "why_tests_cant": "aliasing effect for every function, operator and sequence of steps", "anchors": ["rkstiff/if4.py:IF4", "rkstiff/etd4.py:ETD4", "rkstiff/etd5.py:ETD5", "rkstiff/solvercs.py:BaseSolverCS.step", "rkstiff/solvercs.py:BaseSolverCS.evolve", "rkstiff/solveras.py:BaseSolverAS.step", "rkstiff/solveras.py:BaseSolverAS.evolve"]}
{"id": "C91", "title": "Strongly damped modes", "statement": "Diagonal lin_op, continuous nl_func f, fixed h > 0; the real parts of some modes of lin_op go to -infinity, the other modes stay fixed. A step of ETD4 or ETD5, a trial of ETD34 or ETD35 (array and error estimate) and a run of ETD4 or ETD5 converge, for all contour settings, to arrays in which the damped modes are zero; if these modes are zero in the initial array, the limit is what the same solver computes for the problem without these modes. When all modes are damped, a step or run of IF4 and a trial of IF34 converge to h f(0)/6, and a trial of IF45DP to 11 h f(0)/84, whatever the initial array; IF34's error estimate to h (f(0) - f(h f(0)/6))/6, IF45DP's to 22 h f(0)/525 - h f(11 h f(0)/84)/40. In exact solutions along which f is bounded the damped modes tend to zero.", "quantifier": "all solvers with diagonal operators, all continuous nl_func, all initial arrays, all step sizes and intervals, all sequences of operators, all sets of damped modes", "why_tests_cant": "limit over an unbounded family of operators, for every nonlinear function", "anchors": ["rkstiff/etd4.py:_Etd4Diagonal", "rkstiff/etd5.py:_Etd5Diagonal", "rkstiff/etd34.py:_Etd34Diagonal", "rkstiff/etd35.py:_Etd35Diagonal", "rkstiff/if4.py:_IF4Diagonal", "rkstiff/if34.py:_If34Diagonal", "rkstiff/if45dp.py:IF45DP"]}
{"id": "C92", "title": "Rapid modes", "statement": "Diagonal lin_op, continuous nl_func f, fixed h > 0; the moduli of all modes of lin_op go to infinity while their real parts stay bounded above (as for oscillations of higher and higher frequency). The result of a step of ETD4 or ETD5, of a trial of ETD34 or ETD35, and of a run of ETD4 or ETD5 approaches the solution of y' = L y: the effect of f is lost, and ETD34's and ETD35's error estimates tend to zero. For undamped oscillations (real parts zero) and a nonzero initial array, the first trial of ETD34 and ETD35 is eventually accepted at the size proposed, for every epsilon > 0, unless its error estimate vanishes where it counts. For f(u) = mu u the error of a step of ETD4 or ETD5 then tends to |exp(h mu) - 1| times the largest entry of the initial array, while IF4's is |T(h mu) - exp(h mu)| times it at every frequency, T the Taylor polynomial of degree 4. If only some modes become rapid while the others stay fixed, and the rapid modes are zero in the initial array, then step, trial (array and error estimate) and run converge to those of the problem without these modes.", "quantifier": "all ETD solvers with diagonal operators, all continuous nl_func, all initial arrays, all step sizes and intervals, all contour settings, all configurations with epsilon > 0, safety_f > 0, adapt_cutoff < 1, all sequences of operators", "why_tests_cant": "limit over an unbounded family of operators, for every nonlinear function", "anchors": ["rkstiff/etd4.py:_Etd4Diagonal", "rkstiff/etd5.py:_Etd5Diagonal", "rkstiff/etd34.py:_Etd34Diagonal", "rkstiff/etd35.py:_Etd35Diagonal", "rkstiff/if4.py:_IF4Diagonal", "rkstiff/solveras.py:BaseSolverAS.step"]}
{"id": "C93", "title": "Constant forcing: adaptive solvers fail, IF4 misses equilibria", "statement": "If nl_func returns the same array g for every argument, step of IF34, ETD34 and ETD35 raises MinimumStepReached or MaxLoopsExceeded (or LinAlgError, for a full-matrix ETD solver whose coefficients cannot be computed), for every operator, u and h, since the error estimate is zero; evolve never succeeds for t0 < tf, and then solver.t holds t0 only (nothing without store_data). A step of IF4 with diagonal lin_op adds h (exp(h L) + 4 exp(h L/2) + 1) g / 6 to exp(h L) u, and runs over t0 + k h, k to infinity, tend in every mode with Re L < 0 to -g/L times z (exp z + 4 exp(z/2) + 1) / (6 (exp z - 1)), z = h L, not to the equilibrium -g/L; for real L < 0 the factor is real, greater than 1, and at least h |L| / 6. IF45DP with zero lin_op finds u + h g exactly, but its estimate is 9 h g / 320: step returns only sizes h with 9 h ‖g‖ / 320 <= safety_f^5 epsilon ‖u + h g‖ (norms over the components that count).", "quantifier": "all operators (diagonal for IF4), all constant nl_func, all initial arrays, all step sizes, configurations and object states", "why_tests_cant": "for all operators and step sizes, and a limit of runs of unbounded length", "anchors": ["rkstiff/solveras.py:BaseSolverAS.step", "rkstiff/if34.py:IF34", "rkstiff/etd34.py:ETD34", "rkstiff/etd35.py:ETD35", "rkstiff/if45dp.py:IF45DP", "rkstiff/if4.py:IF4", "rkstiff/solvercs.py:BaseSolverCS.evolve"]}
{"id": "C94", "title": "States on which nl_func has no effect", "statement": "If nl_func returns zero everywhere on exp(t L) u, though not elsewhere, then a step of ETD4, ETD5 and IF4 from u is exactly exp(h L) u and a run of n steps exactly exp(n h L) u (whenever the coefficients can be computed), while step of every adaptive solver (IF34, ETD34, ETD35, IF45DP, all strategies) raises MinimumStepReached or MaxLoopsExceeded (or LinAlgError, for a full-matrix ETD solver whose coefficients cannot be computed), and adaptive evolve from u never succeeds for t0 < tf; solver.t then holds t0 only (nothing without store_data). Spectra of constant functions are such states for kdv_ops and burgers_ops: the adaptive solvers cannot follow a constant solution of these equations.", "quantifier": "all operators and strategies, all nl_func and u with nl_func(exp(t L) u) = 0 for all t, all step sizes, configurations, and object states; all grids with kx[0] = 0 for the model equations", "why_tests_cant": "for all problems with such states and all step sizes; the existing tests start from non-constant data", "anchors": ["rkstiff/solveras.py:BaseSolverAS.step", "rkstiff/solveras.py:BaseSolverAS._compute_s", "rkstiff/solvercs.py:BaseSolverCS.evolve", "rkstiff/models.py:kdv_ops", "rkstiff/models.py:burgers_ops"]}
{"id": "C95", "title": "How fast the steps of adaptive runs grow", "statement": "Whether adaptive evolve succeeds or raises, with store_data and store_freq = 1 the stored times satisfy t[k+2] - t[k+1] <= 4 (t[k+1] - t[k]) and t[k] - t0 <= h_init (4^k - 1) / 3, where h_init defaults to (tf - t0)/100. Hence a run that returns takes N steps with 3 (tf - t0) <= (4^N - 1) h_init and calls nl_func at least 4N+1 (IF34, ETD34), 6N+1 (IF45DP) or 6N (ETD35) times. With the default h_init every successful run stores at least 6 times (5 steps), however loose the tolerance is, and this is attained: IF34 on u' = u over [0, 1] with epsilon = 1 stores exactly 0, 0.01, 0.05, 0.21, 0.85, 1.", "quantifier": "all adaptive solvers and strategies, all nl_func, u, t0 < tf, h_init > 0 or default, configurations with decr_f < 1 and minh > 0, and object states; exact arithmetic of times", "why_tests_cant": "bounds for all runs of any length on all problems", "anchors": ["rkstiff/solveras.py:BaseSolverAS.evolve", "rkstiff/solveras.py:BaseSolverAS.step", "rkstiff/solveras.py:BaseSolverAS._accept_step_size"]}
{"id": "C96", "title": "Problems confined to an affine set", "statement": "Let W be a linear subspace and c an array such that L maps W into W and c into W, and nl_func on c + W, where it returns, has values in W. Then from u in c + W every successful step of every solver and every state that evolve returns or stores is in c + W, and outcome, step sizes, t and u are the same for any nl_func' that agrees with nl_func on c + W: values outside of it do not matter, although the stages evaluate nl_func at points that are not states of the solution. Consequences: components of u without dynamics (parameters carried along) keep their values exactly; IF34, ETD34 and ETD35 cannot solve a problem whose nl_func is constant on c + W (p' = 0, x' = -x + p**2): evolve raises and stores the initial state only.", "quantifier": "all solvers and strategies, all W, c, L, nl_func (which may raise), u in c + W, step sizes, configurations, storage options and object states; exact arithmetic", "why_tests_cant": "all subspaces, all nonlinear functions and all runs", "anchors": ["rkstiff/solvercs.py:BaseSolverCS.evolve", "rkstiff/solveras.py:BaseSolverAS.evolve", "rkstiff/solveras.py:BaseSolverAS.step", "rkstiff/if34.py:IF34", "rkstiff/etd35.py:ETD35"]}
{"id": "C97", "title": "The beginning of an adaptive run does not depend on its end", "statement": "Two adaptive evolve calls from the same u and t0 with the same explicit h_init to different ends tf and tf', storing every step: the stored times and states agree up to index k, whether the runs end in success or with an exception, as long as t[j+1] + 4 (t[j+1] - t[j]) <= min(tf, tf') for j + 2 <= k. In particular all states stored in the first fifth of the shorter interval, and the one after them, are the same, and the second run cannot fail or end before reaching them.", "quantifier": "all adaptive solvers and strategies, all nl_func, u, t0, tf, tf' != 0, h_init > 0 with t0 + h_init within both intervals, configurations with decr_f < 1 and minh > 0, histories of both objects; exact arithmetic of times", "why_tests_cant": "pairs of runs of any length with any controller decisions on all problems", "anchors": ["rkstiff/solveras.py:BaseSolverAS.evolve", "rkstiff/solveras.py:BaseSolverAS.step"]}
{"id": "C98", "title": "Adaptive steps can be repeated; looser tolerances accept them, too", "statement": "If an adaptive step(u, h) returns (v, h_used, h_suggest), then step(u, h_used) on a new solver returns v and uses h_used again without rejections, also under a configuration with larger or equal epsilon and safety_f, the same adapt_cutoff, smaller or equal incr_f >= 1 and any decr_f and minh; its suggestion is then at least h_suggest. Consequently everything that adaptive evolve has stored can be replayed: step(u[k], t[k+1] - t[k]) returns u[k+1] and uses t[k+1] - t[k], whether or not the run succeeded.", "quantifier": "all adaptive solvers and strategies, all nl_func, u, h > 0, numbers of rejections, runs, pairs of configurations as described; exact arithmetic", "why_tests_cant": "all problems, all pairs of configurations and runs of any length", "anchors": ["rkstiff/solveras.py:BaseSolverAS.step", "rkstiff/solveras.py:BaseSolverAS.evolve", "rkstiff/solveras.py:BaseSolverAS._compute_s"]}
{"id": "C99", "title": "Adaptive runs can be replayed by the constant-step solvers", "statement": "If an adaptive step(u, h) of IF34, ETD34 or ETD35 returns (v, h_used, h_suggest), after whatever rejections, then step(u, h_used) of IF4, ETD4 or ETD5 with the same lin_op, nl_func and ETD configuration returns v (provided nl_func does not raise on v, where ETD5 evaluates it already). Everything that adaptive evolve has stored, whether or not it succeeded, is reproduced by these solvers with the differences of the stored times as step sizes.", "quantifier": "the three pairs of solvers, diagonal and full strategies (IF34 also diagonalized), all nl_func, u, h > 0, configurations, numbers of rejections and runs; exact arithmetic", "why_tests_cant": "an identity between separately written pieces of code over all runs of the controller", "anchors": ["rkstiff/solveras.py:BaseSolverAS.step", "rkstiff/solveras.py:BaseSolverAS.evolve", "rkstiff/if4.py", "rkstiff/etd4.py", "rkstiff/etd5.py", "rkstiff/solvercs.py:BaseSolverCS.step"]}
{"id": "C100", "title": "minh only decides whether adaptive runs fail", "statement": "Lowering minh does not change a successful adaptive step (state, size used, suggestion) nor a successful adaptive evolve (result, stored times and states). Two successful runs whose configurations differ in minh only are the same; in other words, raising minh can turn a success into an exception but never into another result.", "quantifier": "all adaptive solvers and strategies, all nl_func, u, t0, tf != 0, h_init, configurations, values of minh, storage options with store_freq != 0, and histories of both objects; exact arithmetic of times (any rounding for single steps)", "why_tests_cant": "pairs of runs of any length on all problems", "anchors": ["rkstiff/solveras.py:BaseSolverAS.step", "rkstiff/solveras.py:BaseSolverAS._reject_step_size", "rkstiff/solveras.py:BaseSolverAS.evolve"]}
{"id": "C101", "title": "Which settings matter for what", "statement": "epsilon and safety_f are a single parameter: for every c > 0 a solver with epsilon * c**q and safety_f / c (q = 5 for IF45DP, 4 for the others) behaves exactly like one with epsilon and safety_f, in step and evolve, including exceptions, stored lists and the state left in the object. incr_f affects the suggested size only: step returns the same state and uses the same size, or raises the same exception. decr_f and minh have no effect on a step that uses the proposed size.", "quantifier": "all adaptive solvers and strategies, all nl_func, u, h, settings, c > 0, runs and states of the object; any rounding of times and step sizes, exact error factors", "why_tests_cant": "all pairs of configurations on all problems", "anchors": ["rkstiff/solveras.py:BaseSolverAS._compute_s", "rkstiff/solveras.py:BaseSolverAS._accept_step_size", "rkstiff/solveras.py:BaseSolverAS._reject_step_size", "rkstiff/solveras.py:BaseSolverAS.step", "rkstiff/solveras.py:BaseSolverAS.evolve"]}
