{"id": "C01", "title": "Dimension coordinates are uniform and consistent", "statement": "For a Dimension(lower, upper, n): `nodes` has n+1 entries, starts at lower, ends at upper, is strictly increasing with constant spacing delta; `centers` has n entries and centers[i] is the midpoint of nodes[i] and nodes[i+1]; n*delta = upper-lower.", "quantifier": "every lower < upper and every n > 0", "why_tests_cant": "coordinates must be right for every interval and every resolution; tests sample a handful", "anchors": ["src/pyclaw/geometry.py:Dimension.delta", "src/pyclaw/geometry.py:Dimension.nodes", "src/pyclaw/geometry.py:Dimension.centers"]}
{"id": "C02", "title": "Ghost-cell coordinates extend the interior grid", "statement": "`centers_with_ghost(g)` / `nodes_with_ghost(g)` have n+2g / n+1+2g entries, their middle part is exactly `centers` / `nodes`, and the whole array has the same constant spacing delta, i.e. entry k is lower + (k-g+1/2)*delta resp. lower + (k-g)*delta.", "quantifier": "every valid Dimension and every g >= 0", "why_tests_cant": "quantifies over all resolutions and ghost widths", "anchors": ["src/pyclaw/geometry.py:Dimension.centers_with_ghost", "src/pyclaw/geometry.py:Dimension.nodes_with_ghost"]}
{"id": "C03", "title": "Dimension setters validate", "statement": "Assigning lower, upper or num_cells either is accepted and leaves a Dimension with num_cells>0 and upper>lower, or raises AssertionError. (The stronger claim that a rejected assignment leaves the object unchanged is false of the code: the new value is stored before the check.)", "quantifier": "every history of assignments, including ones that raise and are caught", "why_tests_cant": "a failed assignment in the middle of an arbitrary history is a crash point, not an input", "anchors": ["src/pyclaw/geometry.py:Dimension.lower", "src/pyclaw/geometry.py:Dimension.upper", "src/pyclaw/geometry.py:Dimension.num_cells", "src/pyclaw/geometry.py:Dimension._check_validity"]}
{"id": "C04", "title": "Dimension coordinate caches are never stale", "statement": "After any interleaving of setter calls and coordinate reads, reading `nodes` or `centers` returns the coordinates computed from the current lower, upper and num_cells.", "quantifier": "every finite history of reads and writes on one Dimension", "why_tests_cant": "cache coherence is a property of histories", "anchors": ["src/pyclaw/geometry.py:Dimension.nodes", "src/pyclaw/geometry.py:Dimension.centers", "src/pyclaw/geometry.py:Dimension.lower"]}
{"id": "C05", "title": "Grid coordinate caches follow the dimensions", "statement": "After any history of dimension setter calls, mapc2p assignments, add_dimension calls and coordinate reads, `grid.c_centers`/`p_centers`/`c_nodes`/`p_nodes` return the (mapped) tensor grid of the current dimensions. (False of the code in general: reading dim.centers between the assignment and grid.c_centers leaves the grid cache stale; true for every history where the grid array is the first coordinate read after each change, and p arrays before c arrays.)", "quantifier": "every finite history of operations on a Grid and its Dimensions", "why_tests_cant": "only an unlucky order of reads exposes the stale cache", "anchors": ["src/pyclaw/geometry.py:Grid._compute_c_centers", "src/pyclaw/geometry.py:Grid._compute_p_centers", "src/pyclaw/geometry.py:Grid.mapc2p", "src/pyclaw/geometry.py:Grid.add_dimension"]}
{"id": "C06", "title": "Gauges are placed in the cell that contains them", "statement": "`add_gauges(coords)` records exactly the gauges lying in the half-open box [lower,upper), in order; for each recorded gauge the stored index is in range and the indexed cell [nodes[i],nodes[i+1]) contains the gauge coordinate in each dimension; gauges outside are dropped.", "quantifier": "every grid of any dimension, every list of gauge coordinates", "why_tests_cant": "boundary positions of gauges are a continuum", "anchors": ["src/pyclaw/geometry.py:Grid.add_gauges"]}
{"id": "C07", "title": "Dimension names are unique", "statement": "Grid.add_dimension / Patch.add_dimension reject a Dimension whose name is already present (raising, leaving the list unchanged) and otherwise append it, so after any sequence of calls names are pairwise distinct and every accepted dimension is retrievable by its position and name.", "quantifier": "every sequence of add_dimension calls", "why_tests_cant": "history property", "anchors": ["src/pyclaw/geometry.py:Grid.add_dimension", "src/pyclaw/geometry.py:Patch.add_dimension"]}
{"id": "C08", "title": "Domain built from bounds", "statement": "Domain(lower, upper, n) with 1-3 bounds builds one patch whose dimensions are named x,y,z in order and have exactly the given bounds and cell counts; an invalid bound raises. (With four or more bounds the extra dimensions are silently dropped.)", "quantifier": "all lists of bounds", "why_tests_cant": "quantifies over list lengths and contents", "anchors": ["src/pyclaw/geometry.py:Domain.__init__", "src/pyclaw/geometry.py:Patch.__init__"]}
{"id": "C09", "title": "q and ghosted q convert without loss", "statement": "Copying a state's q into the ghosted work array and extracting it again returns q unchanged, for 1, 2 and 3 dimensions and every ghost width >= 1; the copy writes no ghost cell. (With num_ghost = 0 the slice 0:-0 is empty, so the conversion fails.)", "quantifier": "every array shape, content and ghost width", "why_tests_cant": "index arithmetic must hold for all sizes", "anchors": ["src/pyclaw/state.py:State.get_qbc_from_q", "src/pyclaw/state.py:State.set_q_from_qbc", "src/pyclaw/state.py:State.get_auxbc_from_aux", "src/pyclaw/state.py:State.set_aux_from_auxbc"]}
{"id": "C10", "title": "Deep copies are independent", "statement": "deepcopy(state) has equal q, aux, t and problem_data, shares no array with the original, and no later in-place write to either is visible through the other. (index_capa, p, F, keep_gauges and gauge_data are not carried over: claiming the copy equals the original is false.)", "quantifier": "every state and every later sequence of in-place writes", "why_tests_cant": "aliasing shows only after particular later writes", "anchors": ["src/pyclaw/state.py:State.__deepcopy__", "src/pyclaw/solution.py:Solution.__deepcopy__"]}
{"id": "C11", "title": "mp and mF can be set only once", "statement": "In any sequence of assignments to state.mp (or mF), the first assignment of a positive value fixes the number of derived quantities; each later assignment raises and leaves it unchanged; assigning 0 leaves it unset.", "quantifier": "every sequence of assignments", "why_tests_cant": "history property", "anchors": ["src/pyclaw/state.py:State.mp", "src/pyclaw/state.py:State.mF", "src/pyclaw/state.py:State.new_array"]}
{"id": "C12", "title": "One solver does not corrupt another solution", "statement": "Evolving a second Solution with the same classic solver leaves the first Solution's q unchanged. (False of the code: after a classic step state.q is a view of solver.qbc, so the next solution's data overwrites it; true if each solution has its own solver.)", "quantifier": "every pair of solutions sharing a solver and every history of steps", "why_tests_cant": "depends on the aliasing graph created by an earlier run", "anchors": ["src/pyclaw/state.py:State.set_q_from_qbc", "src/pyclaw/solver.py:Solver._allocate_bc_arrays", "src/pyclaw/classic/solver.py:ClawSolver1D.step_hyperbolic"]}
{"id": "C13", "title": "Boundary filling never changes interior cells", "statement": "Applying boundary conditions fills only ghost cells: interior cells of the ghosted array equal state.q afterwards, for every built-in boundary condition and any number of dimensions (and state.q itself is unchanged).", "quantifier": "every array, every dimension count, every mix of extrap/periodic/wall and every num_cells >= num_ghost", "why_tests_cant": "all shapes and BC combinations", "anchors": ["src/pyclaw/solver.py:Solver._apply_bcs", "src/pyclaw/solver.py:Solver._bc_lower", "src/pyclaw/solver.py:Solver._bc_upper"]}
{"id": "C14", "title": "Extrapolation boundary", "statement": "With BC.extrap every ghost cell along that side equals the nearest interior cell of the same row.", "quantifier": "every array content, size >= 1 and ghost width", "why_tests_cant": "all sizes", "anchors": ["src/pyclaw/solver.py:Solver._bc_lower", "src/pyclaw/solver.py:Solver._bc_upper"]}
{"id": "C15", "title": "Periodic boundary", "statement": "With BC.periodic on both sides of a dimension, the ghosted array is the periodic extension of q: entry k equals q[(k-g) mod n] for every k. Holds for num_cells >= num_ghost; for fewer cells than ghost cells the code copies stale ghost data.", "quantifier": "every array content, all n >= g and (negatively) n < g", "why_tests_cant": "all sizes", "anchors": ["src/pyclaw/solver.py:Solver._bc_lower", "src/pyclaw/solver.py:Solver._bc_upper"]}
{"id": "C16", "title": "Wall boundary reflects with the normal velocity negated", "statement": "With BC.wall the j-th ghost cell outward equals the j-th interior cell inward from that side, with component reflect_index[dim] negated for q and nothing negated for aux.", "quantifier": "every array content, all n >= g, every reflect_index", "why_tests_cant": "all sizes", "anchors": ["src/pyclaw/solver.py:Solver._bc_lower", "src/pyclaw/solver.py:Solver._bc_upper"]}
{"id": "C17", "title": "Multi-dimensional boundary filling is a product of one-dimensional folds", "statement": "After applying boundary conditions in d dimensions, every entry of the ghosted array, including edges and corners, equals q at the index folded independently in each dimension, with the sign being the product of the per-dimension reflection signs; so the result does not depend on the order in which dimensions are processed.", "quantifier": "every dimension count d, sizes, ghost width, and per-side mix of extrap/periodic/wall", "why_tests_cant": "corner cells of all mixes of BCs in all dimensions", "anchors": ["src/pyclaw/solver.py:Solver._apply_bcs"]}
{"id": "C18", "title": "Unset or unknown boundary conditions raise", "statement": "If the boundary condition of q (or of aux when aux is present) is None on some side of the domain, applying boundary conditions raises an Exception; an unknown code raises NotImplementedError; with built-in codes everywhere nothing is raised.", "quantifier": "every assignment of BC codes to sides", "why_tests_cant": "all combinations", "anchors": ["src/pyclaw/solver.py:Solver._apply_bcs", "src/pyclaw/solver.py:Solver._bc_lower", "src/pyclaw/solver.py:Solver._bc_upper"]}
{"id": "C19", "title": "evolve_to_time(tend) ends exactly at tend or reports failure", "statement": "With variable dt and tend > t, if every attempted step is accepted, evolve_to_time either returns with solution.t exactly tend or raises 'Maximum number of timesteps'. (With rejected steps the code can exhaust max_steps and return silently with t < tend.)", "quantifier": "every sequence of CFL values produced by the numerical step, every dt, dt_max, max_steps", "why_tests_cant": "the CFL history is data dependent and unbounded", "anchors": ["src/pyclaw/solver.py:Solver.evolve_to_time", "src/pyclaw/solver.py:Solver.get_dt"]}
{"id": "C20", "title": "Time never overshoots and never goes backwards", "statement": "During evolve_to_time(tend) with variable dt each accepted step advances solution.t by a positive dt and t never exceeds tend; rejected steps leave t unchanged.", "quantifier": "every CFL history", "why_tests_cant": "as above", "anchors": ["src/pyclaw/solver.py:Solver.evolve_to_time", "src/pyclaw/solver.py:Solver.get_dt"]}
{"id": "C21", "title": "Rejected steps leave the solution untouched", "statement": "After a rejected step with variable dt, solution.q and solution.t equal their values before the step, whatever the numerical step did to q.", "quantifier": "every step function and state", "why_tests_cant": "arbitrary user Riemann solver/source code", "anchors": ["src/pyclaw/solver.py:Solver.evolve_to_time", "src/pyclaw/solver.py:Solver.accept_reject_step"]}
{"id": "C22", "title": "Every accepted step satisfied the CFL limit", "statement": "Every step accepted by evolve_to_time had Courant number <= cfl_max, and status['cflmax'] is the maximum Courant number over all steps accepted since solver creation (with fixed dt also the one that aborted the run).", "quantifier": "every CFL history over any number of calls", "why_tests_cant": "history property", "anchors": ["src/pyclaw/solver.py:Solver.accept_reject_step", "src/pyclaw/solver.py:Solver.evolve_to_time", "src/pyclaw/cfl.py:CFL"]}
{"id": "C23", "title": "status['numsteps'] counts accepted steps", "statement": "status['numsteps'] equals the total number of accepted steps over all evolve_to_time calls, including calls that raised (an accepted step whose gauge output fails is not counted).", "quantifier": "every history of calls", "why_tests_cant": "history property", "anchors": ["src/pyclaw/solver.py:Solver.evolve_to_time"]}
{"id": "C24", "title": "Fixed time step: uniform times and exact step count", "statement": "With dt_variable=False and dt dividing tend-t (to the code's tolerance), a run without CFL violation takes int((tend-t+1e-10)/dt) steps and after step k the time is t0+k*dt; if dt does not divide the interval, or a step violates the CFL limit, an exception is raised. (False for large t: when 1e-14*t exceeds dt the landing adjustment replaces several steps by one.)", "quantifier": "every dt, interval and CFL history", "why_tests_cant": "continuum of dt values", "anchors": ["src/pyclaw/solver.py:Solver.evolve_to_time"]}
{"id": "C25", "title": "Evolving to a past or present time does nothing", "statement": "evolve_to_time(tend) with tend <= t takes no step and leaves q and t unchanged, and does not affect later calls. (The last part is false: solver.max_steps is left at 0, so with variable dt the next call to a later time raises after zero steps; with fixed dt and tend < t the call raises.)", "quantifier": "every solver state and every pair of target times", "why_tests_cant": "requires a two-call history", "anchors": ["src/pyclaw/solver.py:Solver.evolve_to_time"]}
{"id": "C26", "title": "max_steps bounds the work and exhaustion is reported", "statement": "evolve_to_time never attempts more than max_steps steps, and if it stops before tend it raises. (The second part is false when a step was rejected: the guard compares accepted steps with max_steps.)", "quantifier": "every CFL history and max_steps", "why_tests_cant": "needs adversarial accept/reject schedule", "anchors": ["src/pyclaw/solver.py:Solver.evolve_to_time"]}
{"id": "C27", "title": "Time step selection respects dt_max and the target CFL", "statement": "After a step with Courant number c>0, the next dt is at most dt_max and at most dt*cfl_desired/c up to the landing adjustment (which enlarges it by less than 1e-14*t); with c=0 it is at most dt_max. (The very first step uses dt_initial without regard to dt_max.)", "quantifier": "every dt, c, t, tend", "why_tests_cant": "continuum", "anchors": ["src/pyclaw/solver.py:Solver.get_dt", "src/pyclaw/solver.py:Solver.get_dt_new"]}
{"id": "C28", "title": "Single-step mode", "statement": "evolve_to_time(solution) without tend attempts exactly one step (if max_steps > 0), with the dt chosen by the CFL rule and not clipped.", "quantifier": "every solver state", "why_tests_cant": "all states", "anchors": ["src/pyclaw/solver.py:Solver.evolve_to_time", "src/pyclaw/controller.py:Controller.run"]}
{"id": "C29", "title": "Progress under rejection", "statement": "A rejected step with Courant number c > cfl_max makes the next attempted dt smaller by a factor of at most cfl_desired/cfl_max < 1 (if cfl_desired<cfl_max), so with a Courant number proportional to dt the retry is accepted, and with a bounded factor and enough max_steps the call reaches tend.", "quantifier": "every rejected step", "why_tests_cant": "all c", "anchors": ["src/pyclaw/solver.py:Solver.get_dt_new"]}
{"id": "C30", "title": "Output times", "statement": "output_style 1 visits num_output_times+1 equally spaced times from t to tfinal inclusive; style 2 visits exactly the given times after the first; style 3 takes nstepout steps between outputs.", "quantifier": "every t, tfinal, number of outputs, list of times", "why_tests_cant": "all parameters", "anchors": ["src/pyclaw/controller.py:Controller.run"]}
{"id": "C31", "title": "Frames are written once each with consecutive numbers", "statement": "A run with N output intervals writes frames start_frame .. start_frame+N, each exactly once, in increasing order, and each frame holds the solution at the corresponding output time; solution copies kept in `frames` are independent snapshots. The first frame has an aux file iff write_aux_init or write_aux_always is set, a later one iff write_aux_always is. With compute_p there is one p file per frame, with compute_F one line per frame in the functional file.", "quantifier": "every N, start_frame, and evolution", "why_tests_cant": "all run lengths", "anchors": ["src/pyclaw/controller.py:Controller.run", "src/pyclaw/util.py:FrameCounter"]}
{"id": "C32", "title": "A second run continues the numbering", "statement": "Running a controller a second time does not overwrite frames of the first run. (False of the code with keep_copy=False: _start_frame becomes len(frames)=0, and frame 0.. are overwritten; with keep_copy=True and a first run started at frame 0 the second run starts at the first unused number; a run started at a later frame, as a restart does, is partly overwritten.)", "quantifier": "every pair of runs", "why_tests_cant": "two-run history", "anchors": ["src/pyclaw/controller.py:Controller.run"]}
{"id": "C33", "title": "overwrite=False protects existing output", "statement": "With overwrite False and an existing output directory, run raises before any step is taken or any frame is written, and leaves the existing files alone. (Steps and frames: proved. Existing gauge files are however erased first, and with gauges even a new directory is refused, because the gauge files are created there before the check.)", "quantifier": "every file-system state", "why_tests_cant": "environment dependent", "anchors": ["src/pyclaw/controller.py:Controller.run"]}
{"id": "C34", "title": "Conservation in one dimension", "statement": "One classic step in 1D changes the total sum(capa*q)*dx by exactly dt times the net boundary fluctuation: for periodic data, with a Riemann solver satisfying the f-wave/flux-difference condition, the total of each conserved component is unchanged, for first and second order, any limiter, with or without capacity function.", "quantifier": "every number of cells, data, number of equations and waves, limiter, dt", "why_tests_cant": "for all data and sizes", "anchors": ["src/pyclaw/classic/solver.py:ClawSolver1D.step_hyperbolic", "src/pyclaw/classic/step1.f90:step1"]}
{"id": "C35", "title": "Constant states are preserved", "statement": "If q is uniform and the Riemann solver returns zero waves and fluctuations for equal states, one classic step (any order, limiter, dimension) leaves q unchanged and reports the CFL of the wave speeds.", "quantifier": "every grid, dt, Riemann solver with that property", "why_tests_cant": "all solvers", "anchors": ["src/pyclaw/classic/solver.py:ClawSolver1D.step_hyperbolic", "src/pyclaw/classic/step1.f90", "src/pyclaw/classic/flux2.f90"]}
{"id": "C36", "title": "Python and Fortran 1D kernels agree", "statement": "kernel_language='Python' and 'Fortran' produce identical q and cfl after a step for the same wave decomposition, for order 1 and 2 and each limiter with the same name. (False for superbee: the Python limiter evaluates max(0,min(1,2r)). False for f-waves of speed exactly 0, and the Python Courant number counts one more interface, between the ghost cells at the left boundary.)", "quantifier": "all data, sizes, dt, speeds", "why_tests_cant": "equality of two programs on all inputs", "anchors": ["src/pyclaw/classic/solver.py:ClawSolver1D.step_hyperbolic", "src/pyclaw/classic/step1.f90", "src/pyclaw/classic/limiter.f90", "src/pyclaw/classic/philim.f90", "src/pyclaw/limiters/tvd.py:limit"]}
{"id": "C37", "title": "Reported Courant number bounds every wave", "statement": "The CFL number returned by a 1D step is the maximum over interfaces and waves of |s|*dt/dx (with the capacity of the cell the wave enters), hence bounds each and is attained (or 0).", "quantifier": "all speeds, dt", "why_tests_cant": "all data", "anchors": ["src/pyclaw/classic/solver.py:ClawSolver1D.step_hyperbolic", "src/pyclaw/classic/step1.f90", "src/pyclaw/classic/flux2.f90"]}
{"id": "C38", "title": "Limiter values lie in Sweby's TVD region", "statement": "For the minmod, superbee, van Leer and MC limiters, 0 <= phi(r) <= min(2, 2r) for r>0, phi(r)=0 for r<=0, phi(1)=1, and phi(r)/r = phi(1/r), for both the Python and the Fortran versions. (For the Python superbee the symmetry and the documented formula fail.)", "quantifier": "every real r", "why_tests_cant": "continuum", "anchors": ["src/pyclaw/limiters/tvd.py:minmod_limiter", "src/pyclaw/limiters/tvd.py:superbee_limiter", "src/pyclaw/limiters/tvd.py:van_leer_limiter", "src/pyclaw/limiters/tvd.py:mc_limiter", "src/pyclaw/classic/philim.f90"]}
{"id": "C39", "title": "No new extrema for scalar advection", "statement": "For constant-coefficient scalar advection with CFL <= 1, one classic step (order 1, or order 2 with any TVD limiter) gives new cell values between the minimum and maximum of the old neighbouring values, and total variation over a period does not increase.", "quantifier": "all data, sizes, CFL in [0,1], limiter with Sweby bounds", "why_tests_cant": "all data", "anchors": ["src/pyclaw/classic/solver.py:ClawSolver1D.step_hyperbolic", "src/pyclaw/limiters/tvd.py:limit", "src/pyclaw/classic/step1.f90"]}
{"id": "C40", "title": "Two ghost cells suffice (locality)", "statement": "The new value of an interior cell depends only on old values in the cell and its two neighbours on each side, so ghost cells beyond two are never read by the 1D classic solver. (False for Python limiters 17, 18, 21, 22, 23, which reduce over the whole array.)", "quantifier": "all data, sizes", "why_tests_cant": "non-interference quantifies over pairs of inputs", "anchors": ["src/pyclaw/classic/solver.py:ClawSolver1D.step_hyperbolic", "src/pyclaw/classic/step1.f90"]}
{"id": "C41", "title": "Source term splitting", "statement": "With Strang splitting each accepted step applies the source for dt/2, the hyperbolic step for dt, and the source for dt/2; with Godunov splitting the hyperbolic step then the source for dt; with no source only the hyperbolic step. (False when the Courant number equals cfl_max exactly: the step is accepted but the final source application is skipped.)", "quantifier": "every source, step, CFL", "why_tests_cant": "boundary value of a continuous quantity", "anchors": ["src/pyclaw/classic/solver.py:ClawSolver.step", "src/pyclaw/solver.py:Solver.accept_reject_step"]}
{"id": "C42", "title": "Dimensional splitting conserves and sweeps each axis once", "statement": "One dimensionally split 2D step updates rows by the x-sweep and then columns by the y-sweep using the intermediate values; with periodic data the total is conserved; with data varying in x only the result equals the 1D step in each row.", "quantifier": "all data and sizes", "why_tests_cant": "all data", "anchors": ["src/pyclaw/classic/solver.py:ClawSolver2D.step_hyperbolic", "src/pyclaw/classic/step2ds.f90", "src/pyclaw/classic/flux2.f90"]}
{"id": "C43", "title": "Unsplit 2D step conserves with transverse corrections", "statement": "One unsplit 2D step, with any normal and transverse Riemann solvers satisfying the flux-difference condition, preserves the total of each component for periodic data, for transverse_waves 0, 1 and 2.", "quantifier": "all data, sizes, Riemann solvers", "why_tests_cant": "all data", "anchors": ["src/pyclaw/classic/solver.py:ClawSolver2D.step_hyperbolic", "src/pyclaw/classic/step2.f90", "src/pyclaw/classic/flux2.f90"]}
{"id": "C44", "title": "SharpClaw semi-discrete conservation", "statement": "The SharpClaw 1D right-hand side sums (weighted by capacity) to zero for periodic data when the Riemann solver and total-fluctuation solver satisfy the flux-difference conditions, for every reconstruction.", "quantifier": "all data, sizes, reconstructions", "why_tests_cant": "all data", "anchors": ["src/pyclaw/sharpclaw/solver.py:SharpClawSolver1D.dq_hyperbolic", "src/pyclaw/sharpclaw/flux1.f90"]}
{"id": "C45", "title": "WENO weights form a convex combination", "statement": "The WENO5 reconstruction weights are positive and sum to one for all data, so each reconstructed value is a convex combination of the three candidate stencil values; constants are reproduced exactly and quadratics are reproduced exactly by every candidate. The weights are those of Jiang and Shu: the ideal weight divided by the square of a small number plus the smoothness indicator of the candidate, normalized.", "quantifier": "all data", "why_tests_cant": "continuum of data", "anchors": ["src/pyclaw/limiters/recon.py:weno", "src/pyclaw/sharpclaw/weno.f90", "src/pyclaw/sharpclaw/reconstruct.f90:weno5"]}
{"id": "C46", "title": "WENO5 with linear weights is fifth order", "statement": "Replacing nonlinear weights by the ideal weights, the reconstruction reproduces interface values of all polynomials of degree 4 from their cell averages exactly.", "quantifier": "all degree-4 polynomials, all cell sizes", "why_tests_cant": "infinitely many polynomials", "anchors": ["src/pyclaw/sharpclaw/weno.f90", "src/pyclaw/limiters/recon.py"]}
{"id": "C47", "title": "Runge-Kutta integrators are consistent and conserve", "statement": "Euler, SSP33, SSP104 (and user RK with sum b=1) applied to q'=f(q) advance q'=const exactly; preserve every linear functional annihilated by f; and satisfy the order conditions up to their nominal order.", "quantifier": "every right-hand side, dt, state", "why_tests_cant": "all right-hand sides", "anchors": ["src/pyclaw/sharpclaw/solver.py:SharpClawSolver.step", "src/pyclaw/sharpclaw/solver.py:SharpClawSolver.ssp104", "src/pyclaw/sharpclaw/solver.py:SharpClawSolver.ssp22"]}
{"id": "C48", "title": "Strong stability preservation", "statement": "If a forward Euler step of size h never increases a convex functional, then SSP33 steps with dt<=h and SSP104 steps with dt<=6h never increase it.", "quantifier": "every convex functional, right-hand side, state", "why_tests_cant": "all functionals", "anchors": ["src/pyclaw/sharpclaw/solver.py:SharpClawSolver.step", "src/pyclaw/sharpclaw/solver.py:SharpClawSolver.ssp104"]}
{"id": "C49", "title": "Linear multistep history holds the last accepted steps", "statement": "In LMM time integrators the registers used at each step are exactly the solution values and right-hand sides at the previous accepted steps in order, with their step sizes, for every sequence of steps, including after rejection.", "quantifier": "every sequence of accepted/rejected steps", "why_tests_cant": "history property", "anchors": ["src/pyclaw/sharpclaw/solver.py:SharpClawSolver.step", "src/pyclaw/sharpclaw/solver.py:SharpClawSolver.update_saved_values"]}
{"id": "C50", "title": "SSP LMM step combines with convex weights", "statement": "SSPLMMk2/SSPLMMk3 updates are combinations whose solution weights sum to 1 and, under the step-size restriction enforced by the solver, are nonnegative; the methods satisfy the consistency and order conditions for every admissible step-size sequence.", "quantifier": "every admissible sequence of step sizes", "why_tests_cant": "continuum of step size ratios", "anchors": ["src/pyclaw/sharpclaw/solver.py:SharpClawSolver.step", "src/pyclaw/sharpclaw/solver.py:SharpClawSolver.get_dt_new", "src/pyclaw/sharpclaw/solver.py:SharpClawSolver.accept_reject_step"]}
{"id": "C51", "title": "Capacity function is honoured in every stage", "statement": "SharpClaw applies state.index_capa in every Runge-Kutta stage. (False in the Python kernel: stage registers are deep copies that lose index_capa.)", "quantifier": "every problem with a capacity function and every multi-stage method", "why_tests_cant": "only visible with capa + multi-stage + Python kernel", "anchors": ["src/pyclaw/sharpclaw/solver.py:SharpClawSolver._allocate_registers", "src/pyclaw/state.py:State.__deepcopy__", "src/pyclaw/sharpclaw/solver.py:SharpClawSolver1D.dq_hyperbolic"]}
{"id": "C52", "title": "SharpClaw setup chooses enough ghost cells", "statement": "After setup num_ghost >= (weno_order+1)/2 for WENO reconstruction so that no stencil reads outside the ghosted array; unknown integrator names raise; ", "quantifier": "every weno_order and option combination", "why_tests_cant": "all options", "anchors": ["src/pyclaw/sharpclaw/solver.py:SharpClawSolver.setup", "src/pyclaw/sharpclaw/solver.py:SharpClawSolver._allocate_registers"]}
{"id": "C53", "title": "ASCII frames round-trip", "statement": "Writing a solution in ASCII and reading it back yields the same number of states, patch geometry, time, num_eqn, num_aux, and q (and aux) values up to the decimal rounding of the format, for 1, 2 and 3 dimensions and any number of patches.", "quantifier": "every solution", "why_tests_cant": "all shapes and values", "anchors": ["src/pyclaw/fileio/ascii.py:write", "src/pyclaw/fileio/ascii.py:read", "src/pyclaw/fileio/ascii.py:write_array", "src/pyclaw/fileio/ascii.py:read_array", "src/pyclaw/fileio/ascii.py:read_patch_header", "src/pyclaw/fileio/ascii.py:read_t"]}
{"id": "C54", "title": "Binary frames decode in Fortran order without ghost cells", "statement": "Reading a binary frame assigns to state.q[m,i,j,..] the file entry at Fortran-order offset of (m,i+mbc,j+mbc,..) of the corresponding patch, for any number of patches read consecutively. (aux with num_ghost=0 is lost.)", "quantifier": "every shape, ghost width, number of patches", "why_tests_cant": "all shapes", "anchors": ["src/pyclaw/fileio/binary.py:read"]}
{"id": "C55", "title": "Reading is additive and ordered", "statement": "Reading a frame into an empty Solution yields the states in file order with t equal to the frame time; reading another frame into the same object appends rather than replaces.", "quantifier": "every sequence of reads", "why_tests_cant": "history", "anchors": ["src/pyclaw/solution.py:Solution.read", "src/pyclaw/fileio/ascii.py:read"]}
{"id": "C56", "title": "Gauge files round-trip", "statement": "Writing a 2D GaugeSolution and reading it back recovers id, location, level, t and q up to format rounding for every number of records >= 1. (gtype 'lagrangian' is lost; a gauge without records is read as binary.)", "quantifier": "every gauge record list", "why_tests_cant": "all lengths", "anchors": ["src/pyclaw/gauges.py:GaugeSolution.write", "src/pyclaw/gauges.py:GaugeSolution.read"]}
{"id": "C57", "title": "Gauge time series records each accepted step once", "statement": "A run writes one row with the initial values to the file of each gauge; after k accepted steps the file holds k more rows, row j containing the time after step j and the gauge values of q in the gauge's cell at that time; rejected steps write nothing. With keep_gauges the in-memory array equals the file.", "quantifier": "every step history", "why_tests_cant": "history", "anchors": ["src/pyclaw/solver.py:Solver.write_gauge_values"]}
{"id": "C58", "title": "Frame counter", "statement": "A FrameCounter after any sequence of set/increment operations returns the last set value plus the number of increments since.", "quantifier": "every operation sequence", "why_tests_cant": "history", "anchors": ["src/pyclaw/util.py:FrameCounter"]}
{"id": "C59", "title": "Command-line arguments split into keywords and options", "statement": "Parsing argv name=value pairs yields keyword arguments exactly for the arguments of the form key=value after the script name, in any order, with later duplicates winning.", "quantifier": "every argv", "why_tests_cant": "all argument lists", "anchors": ["src/pyclaw/util.py:_info_from_argv", "src/pyclaw/util.py:_method_info_from_argv"]}
{"id": "C60", "title": "Test variants cover the full combination set", "statement": "build_variant_arg_dicts returns each requested kernel-language/solver-type combination exactly once.", "quantifier": "every flag combination", "why_tests_cant": "finite but multiplicative", "anchors": ["src/pyclaw/util.py:build_variant_arg_dicts"]}
{"id": "C61", "title": "Attribute guard on Solver", "statement": "After construction, assigning an attribute the solver does not already have raises TypeError and does not create it; assigning an existing one succeeds; during construction any assignment succeeds.", "quantifier": "every sequence of attribute assignments", "why_tests_cant": "history", "anchors": ["src/pyclaw/solver.py:Solver.__setattr__"]}
{"id": "C62", "title": "Solver validity check is complete", "statement": "is_valid returns (True, None) iff every boundary condition is set, custom ones have a function, and num_waves, num_eqn, fwave are set; otherwise it returns False with a reason naming a missing item.", "quantifier": "every configuration", "why_tests_cant": "all combinations", "anchors": ["src/pyclaw/solver.py:Solver.is_valid"]}
{"id": "C63", "title": "Parallel partition covers the domain", "statement": "The per-process grids of a PetClaw Patch tile the global patch: local cell counts sum to the global count, the local bounds are contiguous, the same delta, and exactly the outermost processes are flagged as being on the boundary.", "quantifier": "every partition into index ranges", "why_tests_cant": "all process counts", "anchors": ["src/petclaw/geometry.py:Patch"]}
{"id": "C64", "title": "Parallel runs agree with serial runs", "statement": "For any partition, a parallel explicit step with ghost exchange and a global CFL reduction gives each process exactly the restriction of the serial result, the same Courant number, and therefore the same step-size sequence.", "quantifier": "every partition, data, number of steps", "why_tests_cant": "all process counts and schedules", "anchors": ["src/petclaw/state.py:State.get_qbc_from_q", "src/petclaw/cfl.py:CFL", "src/pyclaw/solver.py:Solver._apply_bcs"]}
{"id": "C65", "title": "VTK overlap mask", "statement": "A coarse cell is marked hidden in the VTK output iff it is covered by a patch one level finer, for aligned refinement.", "quantifier": "every pair of aligned patches", "why_tests_cant": "all positions", "anchors": ["src/pyclaw/fileio/claw_vtk.py:_set_overlapped_status"]}
{"id": "C66", "title": "The CFL-dependent limiters are TVD", "statement": "The Python limiters 9 (Klein), 11 (Arora-Roe), 15 and 16 (CFL superbee) and 19 (Hyperbee) lie in the TVD region of the local Courant number nu: zero at extrema, 0 <= phi, (1-nu) phi <= 2 and nu phi <= 2 r, so they do not create new extrema. (False for 7, 8, 12, 13, 14 at negative r; 17 is identically 0; 20, SuperPower, exceeds 2r/nu for small r and nu < 1/2; 21 and 22 return one number, possibly negative, for all interfaces.)", "quantifier": "every ratio r and every Courant number in (0,1)", "why_tests_cant": "all real arguments", "anchors": ["src/pyclaw/limiters/tvd.py:limiter_functions"]}
{"id": "C67", "title": "Generated test variants run their own configuration", "statement": "Each test yielded by gen_variants, when called, runs the application with the variant it was yielded for. (False if the tests are collected first: the closures share the loop variable, so all run the last variant.)", "quantifier": "every list of variants and every interleaving of obtaining and calling tests", "why_tests_cant": "interleavings", "anchors": ["src/pyclaw/util.py:gen_variants"]}
{"id": "C68", "title": "SharpClaw preserves uniform states", "statement": "The SharpClaw right-hand side of a uniform state is exactly zero for any aux values and capacities, when the Riemann solver gives no waves between equal states, for every reconstruction.", "quantifier": "all states, sizes, aux arrays, reconstructions", "why_tests_cant": "a test checks a few states with one reconstruction", "anchors": ["src/pyclaw/sharpclaw/solver.py:SharpClawSolver1D.dq_hyperbolic", "src/pyclaw/sharpclaw/flux1.f90", "src/pyclaw/sharpclaw/reconstruct.f90", "src/pyclaw/limiters/recon.py"]}
{"id": "C69", "title": "A SharpClaw step conserves", "statement": "With periodic boundaries one step of every SharpClaw Runge-Kutta method (any tableau) keeps the capacity-weighted total of every component.", "quantifier": "all data, sizes, tableaux, reconstructions, step sizes", "why_tests_cant": "runs check one method and one initial condition up to rounding", "anchors": ["src/pyclaw/sharpclaw/solver.py:SharpClawSolver.step", "src/pyclaw/sharpclaw/solver.py:SharpClawSolver1D.dq_hyperbolic", "src/pyclaw/sharpclaw/flux1.f90"]}
{"id": "C70", "title": "The SharpClaw kernels agree", "statement": "With the same options and data the Python and Fortran SharpClaw kernels compute the same right-hand side. (False: epsweno is scaled differently, and WENO by waves treats small jumps differently.)", "quantifier": "all data, sizes, options supported by both kernels", "why_tests_cant": "regression tests compare a few runs with tolerances", "anchors": ["src/pyclaw/sharpclaw/solver.py:SharpClawSolver1D.dq_hyperbolic", "src/pyclaw/sharpclaw/flux1.f90", "src/pyclaw/limiters/recon.py", "src/pyclaw/sharpclaw/reconstruct.f90"]}
{"id": "C71", "title": "The dimensionally split 3D step is three one-dimensional sweeps and conserves", "statement": "With dimensional_split=True a step of ClawSolver3D applies the one-dimensional step of the 1D solver to every row in x, then to every row in y of the result, then in z; for triply periodic data it preserves the sum of volume times q of every component.", "quantifier": "every Riemann solver with a flux, every grid, order, limiter, capacity function and periodic q and aux", "why_tests_cant": "regression tests compare a few runs with stored data; a wrong ghost row changes them by little", "anchors": ["src/pyclaw/classic/solver.py:ClawSolver3D.step_hyperbolic", "src/pyclaw/classic/step3ds.f90", "src/pyclaw/classic/flux3.f90"]}
{"id": "C72", "title": "The unsplit 3D step conserves and is determined by its data", "statement": "With dimensional_split=False a step of ClawSolver3D adds, to each cell, the three one-dimensional updates and differences of transverse correction fluxes; it preserves the sum of volume times q for triply periodic data whatever the transverse solvers return; its result depends on q, aux and the parameters only; and data that vary in x only are advanced as in 1D.", "quantifier": "every normal, transverse and double transverse solver, order, transverse_waves, limiter, grid, capacity function, q and aux", "why_tests_cant": "27 cells and 12 transverse parts interact; tests run two or three problems with one setting", "anchors": ["src/pyclaw/classic/solver.py:ClawSolver3D.step_hyperbolic", "src/pyclaw/classic/step3.f90", "src/pyclaw/classic/flux3.f90"]}
{"id": "C73", "title": "The recorded format decides how a frame is read", "statement": "If the time file of a frame records its format, reading the frame uses that format whatever file_format the caller passes; a frame written in ASCII is always read as ASCII. If no format is recorded the argument decides, and without an argument the read raises.", "quantifier": "all time files, all arguments", "why_tests_cant": "the decision depends on the contents of a file; a wrong choice silently misreads data", "anchors": ["src/pyclaw/solution.py:Solution.read", "src/pyclaw/solution.py:get_read_func", "src/pyclaw/fileio/ascii.py:read_t"]}
{"id": "C74", "title": "A VTK frame shows every patch once", "statement": "Writing a solution in VTK format produces a frame with exactly one block per state, on the level of its patch (counting from 0), with the cell widths of that patch, all components of q and the mask of hidden cells; blocks of a level are numbered from 0; the solution is not changed. (False: the mask stays in q, and levels listed out of order are exchanged.)", "quantifier": "all lists of states with two-dimensional patches", "why_tests_cant": "depends on the order and number of patches; an AMR hierarchy has many", "anchors": ["src/pyclaw/fileio/claw_vtk.py:write", "src/pyclaw/fileio/claw_vtk.py:_set_overlapped_status"]}
{"id": "C75", "title": "Unsplit first-order advection is corner transport upwind", "statement": "For constant-coefficient advection, first order, with transverse propagation switched on (transverse_waves > 0 in 2D, 11 in 3D), a step of the unsplit classic solver equals one-dimensional upwind steps applied in each direction in turn; so new values lie between the bounds of the neighbouring old values whenever the Courant number of each direction separately is at most 1.", "quantifier": "every velocity vector, grid, step size, data and cell, in two and three dimensions; any content of uninitialised work arrays", "why_tests_cant": "corner couplings enter with weights 1/2 and 1/6 from several sweeps; tests with diffuse data do not see a wrong weight", "anchors": ["src/pyclaw/classic/step2.f90", "src/pyclaw/classic/flux2.f90", "src/pyclaw/classic/step3.f90", "src/pyclaw/classic/flux3.f90", "src/pyclaw/classic/solver.py:ClawSolver2D.step_hyperbolic", "src/pyclaw/classic/solver.py:ClawSolver3D.step_hyperbolic"]}
{"id": "C76", "title": "The second-order correction makes smooth data second-order accurate", "statement": "With order=2 a step of the classic solvers for a linear system advances exactly: quadratic data if no limiter is used (1D, and unsplit 2D for systems whose matrices need not commute); data linear in x with every limiter of the Fortran kernel and the Python limiters 1-11, 15 and 16; and, for unsplit advection in 2D and 3D, the polynomials each value of transverse_waves is designed for (e.g. x^2 y with 2, x y z with 11, x^2 y z with 22). (False for the Python limiters 12, 13, 14 and 17 at small Courant numbers, which are not 1 for constant slope.)", "quantifier": "all linear systems with any number of waves (wave and f-wave form), all grids, step sizes, cells and coefficients", "why_tests_cant": "convergence tests measure an order on a few grids; a wrong weight of a correction shows only in one monomial", "anchors": ["src/pyclaw/classic/step1.f90", "src/pyclaw/classic/flux2.f90", "src/pyclaw/classic/flux3.f90", "src/pyclaw/classic/solver.py:ClawSolver1D.step_hyperbolic", "src/pyclaw/limiters/tvd.py:limit", "src/pyclaw/classic/limiter.f90"]}
{"id": "C77", "title": "A SharpClaw run consists of steps of the chosen method within the Courant limit", "statement": "With a Runge-Kutta integrator and variable steps, over any sequence of evolve_to_time calls: every accepted step is a step of the integrator's tableau with the current step size, starts where the last accepted step ended and has a Courant number of at most cfl_max; a rejected step leaves solution and time as they were; the next step size is cfl_desired/cfl times the last one, cut to the target; a call ends exactly at its target or uses up max_steps, and it reaches the target if max_steps is large enough; the counters describe exactly the accepted steps. (False: dt_max is not respected, data assigned after a rejected single step are advanced with the old slope, and with fixed steps the solver is unusable after giving up once.)", "quantifier": "all right-hand sides, data, targets, tableaux, sequences of calls and Courant numbers met in the stages", "why_tests_cant": "rejections depend on the data; the slope and the Courant number cached across a rejection matter only for histories tests do not contain", "anchors": ["src/pyclaw/sharpclaw/solver.py:SharpClawSolver.step", "src/pyclaw/sharpclaw/solver.py:SharpClawSolver.get_dt_new", "src/pyclaw/sharpclaw/solver.py:SharpClawSolver.accept_reject_step", "src/pyclaw/solver.py:Solver.evolve_to_time"]}
{"id": "C78", "title": "Second-order SharpClaw reconstructions create no new extrema", "statement": "With lim_type=1 and the limiters 1-4 the reconstructed values at the two edges of a cell have the cell average as mean, lie between the averages of the neighbouring cells, equal the average at an extremum and reproduce linear data (component-wise, char_decomp=0). With char_decomp=1 each wave is reduced by a factor between 0 and 2 that compares it with the same wave at the upwind interface, with char_decomp=2 the same holds for each characteristic field. (False for limiter 5, and at the last interface of the grid for char_decomp=1, where nothing is reconstructed.)", "quantifier": "all data, systems, limiters, grids and interfaces", "why_tests_cant": "a wrong sign or neighbour in a limiter shows only where slopes change sign", "anchors": ["src/pyclaw/sharpclaw/reconstruct.f90:tvd2", "src/pyclaw/sharpclaw/reconstruct.f90:tvd2_wave", "src/pyclaw/sharpclaw/reconstruct.f90:tvd2_char"]}
{"id": "C79", "title": "Characteristic reconstructions are fifth-order WENO in every characteristic field", "statement": "With lim_type=2 and char_decomp 1 or 2 the values reconstructed at the two sides of an interface, projected on any characteristic field of the interface, are convex combinations with positive weights of the three quadratic reconstructions of the characteristic variable; quadratic data are reproduced. (char_decomp=1: linear systems with constant eigenvectors, waves above the threshold 1e-14; f-waves with nonzero speeds. False for char_decomp=3, which takes rows of the eigenvector matrix for columns.)", "quantifier": "all systems, eigenvectors (also varying between interfaces for char_decomp=2), data, grids and interfaces", "why_tests_cant": "exchanged indices of an eigenvector matrix show only for systems whose matrix is not symmetric; accuracy is measured for few systems", "anchors": ["src/pyclaw/sharpclaw/reconstruct.f90:weno5_char", "src/pyclaw/sharpclaw/reconstruct.f90:weno5_trans", "src/pyclaw/sharpclaw/reconstruct.f90:weno5_wave", "src/pyclaw/sharpclaw/reconstruct.f90:weno5_fwave"]}
{"id": "C80", "title": "First-order SharpClaw with forward Euler is the classic first-order method", "statement": "With the Python kernel, lim_type=-1 and time_integrator='Euler' a SharpClaw step in one dimension gives exactly the cell values and the Courant number of a step of the classic solver with order=1.", "quantifier": "all Riemann solvers without waves between equal states, systems, data, aux values, capacity functions, step sizes and char_decomp values", "why_tests_cant": "agreement of two solvers on a few problems does not show it for all Riemann solvers and capacity functions", "anchors": ["src/pyclaw/sharpclaw/solver.py:SharpClawSolver1D.dq_hyperbolic", "src/pyclaw/classic/solver.py:ClawSolver1D.step_hyperbolic"]}
{"id": "C81", "title": "A run on a periodic grid conserves the total of every component", "statement": "On a grid with periodic boundaries on all sides (q and aux), without source terms and with a before_step that changes nothing, whatever sequence of evolve_to_time calls is made and whatever settings are changed in between, including steps rejected and repeated, calls that give up and calls that raise: the sum over all cells of cell volume times capacity times q is, for every component, exactly the same at the end as at the start, and aux is unchanged. Holds for the 1D Python and Fortran kernels, split and unsplit 2D, unsplit 3D. (False for dimensionally split 3D with order=2 and limiters.)", "quantifier": "all Riemann solvers whose fluctuations add up to the flux difference, all systems, positive capacity functions, data, grids, limiters, transverse solvers, targets, settings and sequences of calls", "why_tests_cant": "a leak of the size of one flux at one interface, or of one repeated step, is lost in discretisation error in a test that compares with a known solution", "anchors": ["src/pyclaw/solver.py:Solver.evolve_to_time", "src/pyclaw/solver.py:Solver.apply_bcs", "src/pyclaw/classic/solver.py:ClawSolver.step", "src/pyclaw/classic/solver.py:ClawSolver1D.step_hyperbolic", "src/pyclaw/classic/solver.py:ClawSolver2D.step_hyperbolic", "src/pyclaw/classic/solver.py:ClawSolver3D.step_hyperbolic"]}
{"id": "C82", "title": "A run keeps a uniform state", "statement": "Without source terms and with a before_step that changes nothing, a state with the same value of q in all cells still has it after any sequence of evolve_to_time calls, with any combination of periodic, outflow and wall boundaries (at a wall the reflected component must be 0) and any aux values. (False for unsplit 3D with order=1 and double transverse propagation, which uses uninitialised memory.)", "quantifier": "all Riemann solvers that send out no waves between equal states, all systems, capacity functions, grids, limiters, targets, settings and sequences of calls", "why_tests_cant": "a ghost cell set wrongly or a work array not cleared shows only for some sequences of steps", "anchors": ["src/pyclaw/solver.py:Solver.evolve_to_time", "src/pyclaw/solver.py:Solver.apply_bcs", "src/pyclaw/classic/solver.py:ClawSolver.step"]}
{"id": "C83", "title": "A run of an advection problem never leaves the bounds of its initial data", "statement": "With variable time steps and cfl_max at most 1, for advection with constant speeds and periodic or outflow boundaries, all values of q stay between the smallest and the largest initial value over any sequence of evolve_to_time calls: 1D and dimensionally split 2D and 3D with order=1 or with one of the limiters minmod, superbee, van Leer, MC; unsplit 2D and 3D with order=1 and full transverse propagation. In 1D with periodic boundaries the total variation never grows.", "quantifier": "all speeds, data, grids, roundings of step sizes that keep the sign, targets, settings with these limits and sequences of calls", "why_tests_cant": "the bound rests on the Courant number of the step actually taken, after rejections; tests sample a few step sequences", "anchors": ["src/pyclaw/solver.py:Solver.evolve_to_time", "src/pyclaw/solver.py:Solver.get_dt_new", "src/pyclaw/solver.py:Solver.accept_reject_step", "src/pyclaw/classic/solver.py:ClawSolver.step", "src/pyclaw/limiters/tvd.py:limit"]}
{"id": "C84", "title": "Advection at Courant number one is exact over a whole call", "statement": "With fixed steps that divide the way to the target into N steps, constant speeds that are along every axis 0 or carry exactly one cell width per step, periodic boundaries and cfl_max at least 1, evolve_to_time(tend) returns normally at tend after exactly N steps, and q is the initial data moved around the grid by N cells along every axis with nonzero speed. Holds in 1D and dimensionally split 2D and 3D with any order and limiter, and in unsplit 2D and 3D with order=1 and full transverse propagation.", "quantifier": "all speeds of either sign, data, grids, limiters, numbers of steps and target times (exact arithmetic; steps longer than the tolerances 1e-10 and 1e-14*tend of the code)", "why_tests_cant": "one step too many or too few, a step taken with another size than the one recorded, a shift along the wrong axis or a ghost cell filled wrongly looks like a small discretisation error in a test with smooth data", "anchors": ["src/pyclaw/solver.py:Solver.evolve_to_time", "src/pyclaw/solver.py:Solver.apply_bcs", "src/pyclaw/classic/solver.py:ClawSolver1D.step_hyperbolic", "src/pyclaw/classic/solver.py:ClawSolver2D.step_hyperbolic", "src/pyclaw/classic/solver.py:ClawSolver3D.step_hyperbolic"]}
{"id": "C85", "title": "WENO reconstruction of every order is Jiang and Shu's", "statement": "With lim_type=2, char_decomp=0 and weno_order = 2k-1 from 5 to 17 the reconstructed values at the two edges of a cell are the averages of the values of k polynomials of degree less than k, each with the given cell averages on k neighbouring cells, with weights gamma_r/(eps+beta_r)^2, where beta_r is the smoothness indicator of Jiang and Shu and the gamma_r are positive, add up to 1 and make the combination exact for degree up to 2k-2. So the values are exact for polynomials of degree less than k, for degree up to 2k-2 where the indicators agree, lie among the values of the k polynomials, swap under reflection, and read only cells within the ghost cells that are set up. Every literal of weno.f90 agrees with the exact fraction within one unit of its last digit. Any other weno_order stops the program.", "quantifier": "all orders the code offers, cell averages, cells, positive eps and polynomials", "why_tests_cant": "the seven kernels contain more than two thousand literals; a wrong digit lowers the order or breaks symmetry only for data that a convergence test does not contain", "anchors": ["src/pyclaw/sharpclaw/weno.f90:weno5", "src/pyclaw/sharpclaw/weno.f90:weno17", "src/pyclaw/sharpclaw/reconstruct.f90:weno_comp"]}
{"id": "C86", "title": "The validity check says what it documents, and a solution can be run again", "statement": "state.is_valid() raises exactly for a mapped grid without usable capacity function; otherwise it returns true exactly if q (and aux, if there is any) is stored in Fortran order without gaps: element (m,i,j,k) at position m+num_eqn*(i+mx*(j+my*k)). solution.is_valid() is true exactly if all states are valid. A newly made state is valid and the controller accepts it. After a run with a classic solver the solution is still valid, so controller.run() can be called again. (The last sentence is false in 2D and 3D: q is then a view of the ghosted array.)", "quantifier": "all grids, shapes, strides, numbers of fields, ghost cells and sequences of accepted and rejected steps", "why_tests_cant": "whether an array is contiguous depends on its history (view of a ghosted array, copy, new array), not on its values; the tests run a controller once", "anchors": ["src/pyclaw/state.py:State.is_valid", "src/pyclaw/solution.py:Solution.is_valid", "src/pyclaw/controller.py:Controller.check_validity", "src/pyclaw/classic/solver.py:ClawSolver2D.step_hyperbolic", "src/pyclaw/state.py:State.set_q_from_qbc"]}
{"id": "C87", "title": "A solution shows the attributes of its states", "statement": "Whatever was read and assigned before: reading t, num_eqn, q, aux, problem_data, ... of a solution gives that attribute of its first state as it is now, any other name raises AttributeError, and assigning t changes t of all states and nothing else. A deep copy consists of copies of the states in the same order. Solution(states or numbers, geometry) has the states and the geometry asked for. (False: assigning q, aux or problem_data to a solution changes no state and hides theirs; start_frame cannot be changed; a single Patch or Dimension as geometry raises; Solution([num_eqn,num_aux],domain) cannot be used.)", "quantifier": "all sequences of assignments and changes of states, all numbers of states, all argument forms of the constructor", "why_tests_cant": "what is read depends on what was assigned through the solution before; a test that assigns and reads back sees the assigned value although no state has it", "anchors": ["src/pyclaw/solution.py:Solution.__getattr__", "src/pyclaw/solution.py:Solution.__setattr__", "src/pyclaw/solution.py:Solution.__init__", "src/pyclaw/solution.py:Solution.__deepcopy__"]}
{"id": "C88", "title": "A frame written in HDF5 is read back exactly", "statement": "A solution with states on patches with different numbers, written with file_format hdf5 and read into a new solution, has the same states: patch number, level, dimensions with names, bounds, cells and units, time, numbers of fields and every value of q (and of aux, if written and read), in the same order. Other frames are not touched; reading appends to what the solution had. (The order is false for patch numbers of different length, 10 comes before 2; patches that all have the default number 1 cannot be written; derived quantities are read back only if there are as many as equations.)", "quantifier": "all numbers of states and dimensions up to 3, names, bounds, cells, levels, patch numbers, fields and values", "why_tests_cant": "order depends on the text of all patch numbers together, and a permuted array or swapped extent shows only for unequal extents in all dimensions", "anchors": ["src/pyclaw/fileio/hdf5.py:write", "src/pyclaw/fileio/hdf5.py:read", "src/pyclaw/solution.py:Solution.write", "src/pyclaw/solution.py:Solution.read"]}
{"id": "C89", "title": "A SharpClaw run keeps what its right-hand side keeps", "statement": "If a set of arrays given by linear equations (a fixed total, fixed values in some cells, independence of one index, ...) has the property that at every array in it the right-hand side points along the set, and the before_step hooks do not leave it, then a solution that starts in it is in it before and after every attempted step and at the end, in every sequence of evolve_to_time calls, with fixed or variable steps, through accepted, rejected and discarded steps and exceptions, for every time integrator: Euler, SSP22, SSP33, SSP104, RK with any coefficients, LMM with coefficients alpha that add up to 1, SSPLMMk2 and SSPLMMk3 with positive Courant numbers. So runs on periodic grids keep the totals and runs from uniform data keep them uniform.", "quantifier": "all right-hand sides, hooks, linear invariants, integrators with their coefficients, step size settings, sequences of calls, stage Courant numbers and data", "why_tests_cant": "the multistep methods combine saved solutions of many earlier steps with coefficients computed from the saved step sizes; whether they add up to 1 after rejections, restarts and discarded steps depends on the whole history", "anchors": ["src/pyclaw/sharpclaw/solver.py:SharpClawSolver.step", "src/pyclaw/sharpclaw/solver.py:SharpClawSolver.update_saved_values", "src/pyclaw/sharpclaw/solver.py:SharpClawSolver.get_dt_new", "src/pyclaw/sharpclaw/solver.py:SharpClawSolver._allocate_registers", "src/pyclaw/solver.py:Solver.evolve_to_time"]}
{"id": "C90", "title": "A run on a periodic grid does not depend on where the grid begins", "statement": "Move the initial data (q and aux) of a run with the classic solvers on a periodic grid by whole cells, with wrap around: the run then attempts the same steps with the same results, raises at the same points, and its data are the moved data, after any sequence of evolve_to_time calls and changes of settings. (False for the split 2D kernel along the first axis: its Courant number reads ghost columns that the first sweep has left as they were, so the chosen step sizes depend on the position; the values after a step of given size are right.)", "quantifier": "all Riemann and transverse solvers, limiters, orders, capacity functions, data, translations, grids, settings and sequences of calls", "why_tests_cant": "the symmetry involves every cell next to the boundary for all data; a wrong index in the ghost cells, the sweeps or the Courant number shows only if a feature crosses that place", "anchors": ["src/pyclaw/classic/solver.py:ClawSolver1D.step_hyperbolic", "src/pyclaw/classic/step1.f90", "src/pyclaw/classic/step2.f90", "src/pyclaw/classic/step2ds.f90", "src/pyclaw/classic/step3.f90", "src/pyclaw/solver.py:Solver._apply_bcs", "src/pyclaw/solver.py:Solver.evolve_to_time"]}
{"id": "C91", "title": "Left and right are alike", "statement": "Take a one-dimensional run with the classic solvers and its mirror image: data from right to left (with the signs that the equations ask for, e.g. of velocities), the conditions of the two ends exchanged, the Riemann solver and the limiters of the wave families in the mirror. The second run attempts the same steps, raises at the same points, and its data are the mirrored data, after any sequence of evolve_to_time calls and changes of settings. So symmetric data stay symmetric. (False in Fortran with f-waves of speed 0 and second order: dsign(1,0) is 1. In Python an interface outside the grid, on the left only, enters the Courant number.)", "quantifier": "all Riemann solvers and their mirror images, signs, limiters, orders, capacity functions, data, boundary conditions on both ends, grids, settings and sequences of calls", "why_tests_cant": "an asymmetry shows only for data that reach the place where it sits (an end of the grid, a sonic point, one wave family), and a loss of symmetry is usually below the tolerance of a regression test", "anchors": ["src/pyclaw/classic/solver.py:ClawSolver1D.step_hyperbolic", "src/pyclaw/classic/step1.f90", "src/pyclaw/limiters/tvd.py:limit", "src/pyclaw/classic/limiter.f90", "src/pyclaw/solver.py:Solver._apply_bcs"]}
{"id": "C92", "title": "A reflecting wall acts like a mirror", "statement": "A run on a grid with a wall at the upper end of an axis gives, in every cell and at every time, what a run without that wall gives on the grid continued by its image: twice as many cells along that axis, the same data followed by the mirrored data with the normal velocity reversed, and the condition of the lower end on both ends. This is so in one, two and three dimensions, with the classic solvers and with SharpClaw. Both runs attempt the same steps. This holds for Riemann solvers that are their own image in the wall. (For a wall at the lower end use C91, C94, C107 and C108.)", "quantifier": "all such Riemann solvers, limiters, orders, capacity functions, data, conditions of the lower end (open or wall) and of the other axes, grids, time integrators, settings and sequences of calls", "why_tests_cant": "the wall condition is two lines of index arithmetic and a sign whose effect on all later values is meant by the user; tests compare with stored output", "anchors": ["src/pyclaw/solver.py:Solver._qbc_upper", "src/pyclaw/solver.py:Solver._auxbc_upper", "src/pyclaw/classic/solver.py:ClawSolver1D.step_hyperbolic", "src/pyclaw/classic/step1.f90"]}
{"id": "C93", "title": "Coordinates with ghost cells continue the grid", "statement": "After every history of changes to the extents of the dimensions, to the mapping, added dimensions and evaluations of coordinates, in any order, c_centers_with_ghost(n) and c_nodes_with_ghost(n) of a grid are the tensor product coordinates of the current extents continued by n cells of the same size on every side, p_centers_with_ghost(n) and p_nodes_with_ghost(n) are the current mapping of them, and in the interior they agree with the coordinates of the current extents without ghost cells. c_center(ind) is the centre of the cell ind. (The last is false in 2D and 3D with NumPy from 1.23 on; c_centers itself can be out of date after c_centers_with_ghost, see C05.)", "quantifier": "all grids, extents, mappings, numbers of ghost cells and histories", "why_tests_cant": "whether an array is current depends on the history of cached values of grid and dimensions", "anchors": ["src/pyclaw/geometry.py:Grid.c_centers_with_ghost", "src/pyclaw/geometry.py:Grid.c_nodes_with_ghost", "src/pyclaw/geometry.py:Grid.p_centers_with_ghost", "src/pyclaw/geometry.py:Grid.p_nodes_with_ghost", "src/pyclaw/geometry.py:Grid.c_center"]}
{"id": "C94", "title": "The four sides and the two axes of the plane are alike", "statement": "Take a two-dimensional run with the classic unsplit solver and its image under exchange of left and right, of down and up, or of the two axes: data, boundary conditions, Riemann and transverse solvers, limiters and (for the axes) the components of the state changed accordingly. The second run attempts the same steps, raises at the same points, and its data are the image of the data of the first, after any sequence of evolve_to_time calls and changes of settings. So data that are symmetric about a middle line or the diagonal of a square stay symmetric. (False for the axes with dimensional splitting, where the sweeps along x come first, and in a mirror with f-waves of speed 0.)", "quantifier": "all Riemann and transverse solvers and their images, signs and permutations of components, limiters, orders, capacity functions, data, boundary conditions on the four sides, grids, settings and sequences of calls", "why_tests_cant": "the code of the two directions is written out twice, and a wrong sign, index or missing transverse part in one copy shows only for data that vary in both directions at that place", "anchors": ["src/pyclaw/classic/step2.f90", "src/pyclaw/classic/flux2.f90", "src/pyclaw/classic/step2ds.f90", "src/pyclaw/classic/solver.py:ClawSolver2D.step_hyperbolic", "src/pyclaw/solver.py:Solver._apply_bcs"]}
{"id": "C95", "title": "SharpClaw runs in parallel agree with serial runs", "statement": "A SharpClaw run distributed over any number of processes, each with at least num_ghost cells along each axis, takes the same steps with the same step sizes, Courant numbers, rejections and exceptions as the run on one process, and every process holds its part of the serial solution (and of all stored stages and steps), after any sequence of evolve_to_time calls and with any time integrator. (False with the wave-based TVD reconstruction, lim_type=1 and char_decomp=1, which leaves out the last interface of the grid of each process, and of the Courant number that the Python kernel computes.)", "quantifier": "all Riemann and total fluctuation solvers, reconstructions, time integrators, step size controls, source terms and before_step functions that act on each cell, boundary conditions, data, distributions of cells, and sequences of calls, in one, two and three dimensions", "why_tests_cant": "depends on the distribution of the cells, on every stage and on reductions of Courant numbers over all processes; a stencil that reaches one cell too far shows only at internal boundaries", "anchors": ["src/pyclaw/sharpclaw/solver.py:SharpClawSolver.step", "src/pyclaw/sharpclaw/solver.py:SharpClawSolver.dq", "src/pyclaw/sharpclaw/flux1.f90", "src/pyclaw/sharpclaw/flux2.f90", "src/pyclaw/sharpclaw/flux3.f90", "src/pyclaw/sharpclaw/reconstruct.f90", "src/petclaw/cfl.py:CFL.update_global_max", "src/petclaw/state.py:State.get_qbc_from_q"]}
{"id": "C96", "title": "A SharpClaw run on a periodic grid does not depend on where the grid begins", "statement": "Two SharpClaw runs on the same periodic grid whose data (q and aux) differ by a translation by any number of cells along each axis, with wrap around, take the same steps with the same Courant numbers, rejections and exceptions, and their solutions at every moment, the stored stages and steps included, differ by the same translation. (False with the wave-based TVD reconstruction, and of the Courant number that the Python kernel computes.)", "quantifier": "all translations, Riemann and total fluctuation solvers, reconstructions, time integrators, step size controls, source terms and before_step functions that do not depend on the position, data, grids, and sequences of calls, in one, two and three dimensions", "why_tests_cant": "an index that is off near one end of the grid changes the result only if the data vary there", "anchors": ["src/pyclaw/sharpclaw/solver.py:SharpClawSolver.step", "src/pyclaw/sharpclaw/solver.py:SharpClawSolver.dq", "src/pyclaw/sharpclaw/flux1.f90", "src/pyclaw/sharpclaw/flux2.f90", "src/pyclaw/sharpclaw/flux3.f90", "src/pyclaw/sharpclaw/reconstruct.f90", "src/pyclaw/solver.py:Solver._apply_bcs"]}
{"id": "C97", "title": "A frame in PETSc files comes back whatever the numbers of processes that write and read it", "statement": "A solution of a parallel run written with petclaw's PETSc format and read again, possibly by another number of processes that cut the grids otherwise, is the same solution: levels, names, bounds and numbers of cells of all patches, time, problem_data and mapc2p, and every value of q at every cell of the whole grid; and every value of aux if it is written and read. Frames do not disturb each other. The numbers in the header (read_t) are those of the solution. get_q_global and get_aux_global give the array of the whole grid. With write_p the derived quantities take the place of q.", "quantifier": "all solutions with any number of patches in any number of dimensions, all ways of cutting the grids among processes for writing and for reading, all prefixes and frame numbers, all contents of the directory", "why_tests_cant": "the layouts of the writing and of the reading processes vary independently and are chosen by PETSc from the number of processes; tests run with one or a few of them", "anchors": ["src/petclaw/fileio/petsc.py: write, read, read_t, set_filenames, set_up_viewers", "src/petclaw/state.py: get_q_global, get_aux_global, _create_DA", "src/petclaw/solution.py: get_read_func, get_write_func"]}
{"id": "C98", "title": "clobber=False never overwrites a frame and never hinders a new one, in whatever order the processes act", "statement": "When a parallel run writes a frame in PETSc format with clobber=False: if a file of that frame exists, no file changes and all processes raise an error; if none exists, the frame is written and no process raises. With clobber=True no process raises and all files of the frame get their new contents.", "quantifier": "all numbers of processes, all interleavings of the checks of the processes with the writing of process 0, all contents of the directory", "why_tests_cant": "the failure depends on the order in which processes check for files and write them; a test sees one order", "anchors": ["src/petclaw/fileio/petsc.py: write"]}
{"id": "C99", "title": "A parallel run ends in every order in which the processes act, always with the result of the serial run", "statement": "When evolve_to_time is called on all processes of a parallel run, and each process runs at its own speed, waiting for the others only in the ghost-cell exchanges and the reduction of the Courant numbers: all processes return or raise (none waits for ever), after a number of actions that does not depend on the order; they return or raise what the serial run does, and hold the same time, settings, counters and solution, cut into their parts.", "quantifier": "all interleavings of the processes, all process grids, decompositions, boundary conditions, kernels, initial data, settings and tend", "why_tests_cant": "the number of interleavings grows exponentially with processes and steps, and a test sees one; mismatched collective calls show up only as an occasional hang", "anchors": ["src/petclaw/state.py: get_qbc_from_q, get_auxbc_from_aux", "src/petclaw/cfl.py: CFL", "src/pyclaw/solver.py: evolve_to_time, _apply_bcs", "src/pyclaw/classic/solver.py: ClawSolver.step"]}
{"id": "C100", "title": "Writing and reading in ASCII and ForestClaw format does not depend on what the process did before", "statement": "Solution.write with file_format 'ascii' or 'forestclaw', followed by a read of the frame, gives the solution back with all attributes of the format (for ForestClaw also block_number and mpi_rank of each patch), whatever formats the process has used before and between, and also when another process reads.", "quantifier": "all sequences of writes and reads in the two formats, all solutions that the formats support, all frames and previous files", "why_tests_cant": "the outcome depends on the order in which formats are used in one process; tests run each format in isolation (the test of the repository also swallows every exception)", "anchors": ["src/forestclaw/fileio/__init__.py", "src/forestclaw/fileio/ascii.py: write_patch_header, read_patch_header", "src/forestclaw/geometry.py: Patch", "src/pyclaw/solution.py: read, write, get_read_func, get_write_func"]}
{"id": "C101", "title": "The results do not depend on the units", "statement": "A problem stated in other units of length, time and of the solution (grid, times and step sizes, data, Riemann solver converted accordingly) is solved in the same steps, accepted and rejected, with the same Courant numbers, and the results are the converted ones. (False of fixed steps, because of an absolute tolerance, of limiters in systems if the components get different units, and of SharpClaw's WENO reconstructions if the unit of the solution changes.)", "quantifier": "all positive factors, all Riemann solvers, capacity functions, limiters, boundary conditions, data and sequences of calls of evolve_to_time, waves and f-waves", "why_tests_cant": "a constant that should have a unit shows only for problems of a certain size; tests use numbers near 1", "anchors": ["src/pyclaw/solver.py: evolve_to_time, get_dt, get_dt_new", "src/pyclaw/classic/solver.py: ClawSolver1D.step_hyperbolic", "src/pyclaw/classic/step1.f90", "src/pyclaw/classic/step2.f90", "src/pyclaw/classic/step2ds.f90", "src/pyclaw/classic/step3.f90", "src/pyclaw/classic/flux3.f90", "src/pyclaw/classic/step3ds.f90", "src/pyclaw/limiters/tvd.py: limit", "src/pyclaw/classic/limiter.f90", "src/pyclaw/sharpclaw/solver.py: step, dq, dq_hyperbolic, get_dt_new", "src/pyclaw/sharpclaw/flux1.f90", "src/pyclaw/sharpclaw/flux2.f90", "src/pyclaw/sharpclaw/flux3.f90", "src/pyclaw/sharpclaw/reconstruct.f90", "src/pyclaw/sharpclaw/weno.f90"]}
{"id": "C102", "title": "Between walls nothing is lost", "statement": "On a domain on which every axis is periodic or has reflecting walls on both sides (aux values continued in the same way), with a conservative Riemann solver that treats a problem and its mirror image alike: the total over all cells (weighted with the capacity function) of every component that no wall reflects is the same after any sequence of calls of evolve_to_time. Components that a wall reflects (the momentum normal to it) may change.", "quantifier": "all grid sizes, data, time steps, limiters, orders, Riemann solvers that are conservative and their own mirror image, capacity functions and sequences of calls, including calls that fail", "why_tests_cant": "conservation at a wall is a property of ghost cells, limiters and Riemann solver together; tests with symmetric or smooth data near the walls do not see a leak", "anchors": ["src/pyclaw/solver.py: _bc_lower, _bc_upper, evolve_to_time", "src/pyclaw/classic/solver.py: ClawSolver1D.step_hyperbolic, ClawSolver2D.step_hyperbolic", "src/pyclaw/classic/step1.f90", "src/pyclaw/classic/step2.f90", "src/pyclaw/classic/step2ds.f90", "src/pyclaw/sharpclaw/solver.py: dq_hyperbolic", "src/pyclaw/sharpclaw/flux1.f90", "src/pyclaw/sharpclaw/flux2.f90", "src/pyclaw/sharpclaw/flux3.f90"]}
{"id": "C103", "title": "Solutions of linear problems can be superposed", "statement": "For a linear problem (speeds that do not depend on the solution, waves, fluctuations, transverse fluctuations, source terms and before_step linear in q) solved by the classic method in one, two or three dimensions, split or unsplit, of first order or with the limiters switched off (except the unsplit method in three dimensions when it reads uninitialised memory, see C72): evolve_to_time started from a combination of two states takes the same time steps as when it is started from each of them, with the same Courant numbers, rejections and exceptions, and the result is the same combination of their results. (With limiters this is false even for linear problems.)", "quantifier": "all factors, initial states, Riemann solvers, linear source terms and before_step functions, capacity functions, built-in boundary conditions, grid sizes, fixed and variable time steps and sequences of calls", "why_tests_cant": "linearity is a relation between three runs over all data; a threshold, an offset or a state-dependent step size breaks it only for some data", "anchors": ["src/pyclaw/classic/solver.py: ClawSolver.step, ClawSolver1D.step_hyperbolic, ClawSolver2D.step_hyperbolic", "src/pyclaw/solver.py: evolve_to_time, _apply_bcs", "src/pyclaw/classic/step1.f90", "src/pyclaw/classic/step2.f90", "src/pyclaw/classic/step2ds.f90", "src/pyclaw/classic/flux2.f90", "src/pyclaw/classic/step3.f90", "src/pyclaw/classic/step3ds.f90", "src/pyclaw/classic/flux3.f90"]}
{"id": "C104", "title": "The functions that check results accept only results within the tolerance", "statement": "check_diff returns None exactly if the values are finite and the norm of the difference (times the volume of a cell) is below the absolute tolerance, or below the relative tolerance times the norm of the expected values; test_app passes exactly if the application runs and the verifier returns None, and otherwise reports the failure; check_solutions_are_same raises unless the two solutions have the same times, patches and, within 1e-6, values. (False of expected values that are all zero with a relative tolerance, of verifiers that return three items as documented, and of solutions that contain a patch twice.)", "quantifier": "all arrays, also with NaN and infinities, cell sizes, tolerances, verifiers and pairs of solutions", "why_tests_cant": "these functions are what the tests rely on: a result that they wrongly accept is not seen by any test", "anchors": ["src/pyclaw/util.py: check_diff, test_app, check_solutions_are_same"]}
{"id": "C105", "title": "Old gauge files are converted without loss, and the comparison finds differences", "statement": "convert_gauges turns an old file with the records of all gauges into one file for each gauge, from which GaugeSolution reads the levels, times and values of that gauge in the old order to 16 digits; compare_old_gauges returns True exactly if all records of the gauge agree within the tolerances. (False: only the first gauge is converted, files with one record raise IndexError, and levels and times are not compared.)", "quantifier": "all old files, orders of the ids, contents of the output directory and tolerances", "why_tests_cant": "the result depends on all digits of all values and on the interleaving of the gauges in the file; the repository has no test of the conversion", "anchors": ["src/pyclaw/gauges.py: convert_gauges, compare_gauges, compare_old_gauges, GaugeSolution.write, GaugeSolution.read"]}
{"id": "C106", "title": "The Courant number that a parallel solver sees is the one of the whole domain", "statement": "On every process get_cached_max returns the largest of the value of the last set_global_max and of all values that any process has passed to update_global_max since; so it is what the CFL object of the serial run returns. set_local_max followed by get_global_max gives the largest local value. (False of get_global_max after update_global_max, and of get_cached_max after set_local_max: serial and parallel objects differ.)", "quantifier": "all numbers of processes, values and sequences of calls, with any history before", "why_tests_cant": "whether a stale or local value is returned depends on the sequence of calls and on which process has the largest value", "anchors": ["src/pyclaw/cfl.py: CFL", "src/petclaw/cfl.py: CFL"]}
{"id": "C107", "title": "The six sides and the three axes of a box are alike", "statement": "In three dimensions with dimensional splitting off, the image of a problem has the image of the solution. Mirroring the problem across any one of the three axes, with the normal velocity changing sign and the boundary conditions of the two ends exchanged, or putting the axes in any other order, with the velocities, the cell sizes and the boundary conditions moving along, and with the solvers of the image, gives the mirrored or permuted values in every cell after every run, the same time, the same steps and the same Courant numbers.", "quantifier": "all grids, boundary conditions, Riemann, transverse and double transverse solvers with images, limiters, orders, settings of transverse_waves and sequences of calls of evolve_to_time", "why_tests_cant": "tests use one orientation of one problem; the sweep along each axis has its own order of the transverse directions, and a slip in one of the 24 transverse corrections shows in one orientation only", "anchors": ["src/pyclaw/classic/step3.f90: step3", "src/pyclaw/classic/flux3.f90: flux3", "src/pyclaw/classic/solver.py: ClawSolver3D.step_hyperbolic"]}
{"id": "C108", "title": "In SharpClaw the two ends of each axis are alike, and so are the axes", "statement": "The image of a SharpClaw problem has the image of the solution. Mirroring the problem across any axis (boundary conditions of the two ends exchanged, normal velocities with the opposite sign, Riemann solver, total fluctuation solver, dq_src and before_step of the mirrored problem), or putting the axes in another order, with velocities, limiters, cell sizes and boundary conditions moving along, gives the mirrored or permuted values in every cell after every run with every time integrator, the same time, the same steps and the same Courant numbers. (False of two TVD reconstructions: limiter 5 prefers a side, and the wave-based one leaves out the last interface.)", "quantifier": "all grids in one, two and three dimensions, boundary conditions, Riemann solvers with images, reconstructions, time integrators and sequences of calls of evolve_to_time", "why_tests_cant": "tests use one orientation of one problem; a coefficient of a left state that differs from the one of the right state in one of eight reconstructions shows in one orientation only", "anchors": ["src/pyclaw/sharpclaw/reconstruct.f90: tvd2, weno5, weno5_wave, weno_comp", "src/pyclaw/sharpclaw/weno.f90", "src/pyclaw/sharpclaw/flux1.f90: flux1", "src/pyclaw/sharpclaw/flux2.f90: flux2", "src/pyclaw/sharpclaw/flux3.f90: flux3", "src/pyclaw/sharpclaw/solver.py: SharpClawSolver.dq, dq_hyperbolic, step"]}
{"id": "C109", "title": "status['dtmin'] and status['dtmax'] are the smallest and largest step taken", "statement": "After any calls of evolve_to_time the entries dtmin and dtmax of the returned status are the smallest and the largest time step taken. (False as documented: the first step, the steps shortened to end at the final time, steps after a Courant number 0 and all fixed steps are not recorded, and rejected steps are recorded. What holds with variable steps: they are the extremes of the steps that the Courant numbers suggested, and all other steps are between them.)", "quantifier": "all sequences of calls, all Courant numbers and all step sizes", "why_tests_cant": "the numbers are plausible in every run; which steps they leave out depends on the history", "anchors": ["src/pyclaw/solver.py: get_dt, get_dt_new, evolve_to_time"]}
{"id": "C110", "title": "The attributes of a classic solver decide what its steps do", "statement": "Each step of a run uses the Riemann solver, the order, the limiter of each wave, the splitting, the transverse option, the capacity function and the physical parameters that the attributes of the solver and the state of the run say; and a solver whose attributes do not fit each other raises before the first step. (True of the first run of each solver whatever the process did before, and after setup as long as only the attributes that are read at each step change. False after assignments to order, limiters, transverse_waves or dimensional_split between two runs, for a second state with other problem_data, and if another solver with the same Riemann solver was set up in between.)", "quantifier": "all programs of assignments, calls of setup and runs of any number of solvers in one process, all Riemann solvers and parameters", "why_tests_cant": "which of the attributes a run uses depends on the history of the process; tests make a new solver for each run", "anchors": ["src/pyclaw/classic/solver.py: setup, _set_mthlim, _set_method, _set_fortran_parameters, step_hyperbolic", "src/pyclaw/state.py: set_cparam", "src/pyclaw/solver.py: evolve_to_time", "src/pyclaw/controller.py: run"]}
{"id": "C111", "title": "After compile_library the module is made of the current sources, and nothing is compiled twice", "statement": "When pyclaw.util.compile_library returns, the module consists of exactly the source files that the names in source_list stand for (a path if it exists, otherwise the file in local_path, otherwise the one in library_path), as they are now, compiled with the flags given, whatever was edited and compiled before. A second call with nothing changed runs no compiler, and after one source is written only that source is compiled again.", "quantifier": "all lists of sources, interface functions, directories and flags, all contents of the files, and all histories of writing sources and calling compile_library", "why_tests_cant": "Staleness needs a particular order of edits, calls and modification times; tests call the function once in a fresh directory, if at all.", "anchors": ["src/pyclaw/util.py: compile_library"]}
{"id": "C112", "title": "A serialized function is executed by the first process only, and the others wait for it", "statement": "When all processes of a parallel run call inplace_build, or any function decorated with run_serialized, only the first process executes the function, once for each call and in the order of the calls; no process returns from a call before the first process has ended the function in that call; and all processes return from all calls. In a serial run the function is executed as if it was not decorated. (False of the last part if the function raises an exception, or if a process makes fewer calls than another: then processes wait forever.)", "quantifier": "all numbers of processes and of calls, all functions, all schedules of the processes", "why_tests_cant": "the order in which processes arrive at the barrier is chosen by the machine; a test sees one schedule, usually with one process", "anchors": ["src/pyclaw/util.py: run_serialized, inplace_build"]}
{"id": "C113", "title": "Uniform data with a source term follow the ordinary differential equation", "statement": "A SharpClaw run with built-in boundary conditions whose cells all hold the same values, without a velocity towards a wall, with the same aux values in all cells and with dq_src and before_step functions that do not depend on the position, computes in every cell, at every moment and in every stored stage and step, exactly what the chosen time integrator computes for the ordinary differential equation q' = dq_src of one cell, with the same steps, rejections and exceptions. The hyperbolic part adds nothing and the source is evaluated with the q, t and dt of the stage.", "quantifier": "all sizes of the grid in one, two and three dimensions, combinations of periodic, extrapolation and wall boundaries, values, aux values, source terms, time integrators, step size controls, Riemann solvers that give no fluctuations between equal states, reconstructions and sequences of calls", "why_tests_cant": "a source evaluated with the wrong stage, time or step changes the result by less than a test of a converged solution allows; the statement is exact and for every source term", "anchors": ["src/pyclaw/sharpclaw/solver.py:SharpClawSolver.dq", "src/pyclaw/sharpclaw/solver.py:SharpClawSolver.step", "src/pyclaw/sharpclaw/flux1.f90", "src/pyclaw/sharpclaw/flux2.f90", "src/pyclaw/sharpclaw/flux3.f90", "src/pyclaw/sharpclaw/reconstruct.f90"]}
