# A Lean 4 model of clawpack/pyclaw

## 1. What this is

`lean/Verif` is a shallow model of the PyClaw sources in `/repo`, one Lean definition per
Python/Fortran function that matters for a property, and theorems about those definitions.
The code was never run: the link between model and code is the comment above every definition,
which gives the file and the lines and says what was simplified.

Layout

| directory | contents |
|---|---|
| `lean/Verif/Model/*.lean`  | the model: definitions only, each citing `/repo` |
| `lean/Verif/Spec/*.lean`   | small specifications used in theorem statements (no model code) |
| `lean/Verif/Lemmas/*.lean` | helper lemmas |
| `lean/Verif/Props/*.lean`  | the property theorems, one file per group, with non-vacuity examples |

## 2. Trusted base

* Lean 4.33 kernel.
* Axioms: at most `propext`, `Classical.choice`, `Quot.sound` (checked by `#print axioms`; the gate
  audits every theorem). No axioms of our own, no `sorry`, no `native_decide`, no `bv_decide`.
* The reading of the Python/Fortran sources recorded in the model comments.
* NumPy basics: elementwise arithmetic, slice assignment (with overlap handled as if the right hand
  side were copied first), `reshape(order='F')`, views.
* Numbers. Floating point is **not** modelled except where said otherwise. Real-valued quantities
  live in an arbitrary linearly ordered field `K` (so every theorem holds for ℚ and ℝ). Theorems
  that depend on exact equality of floats (e.g. landing exactly on `tend`) are in addition proved
  for an arbitrary rounding function `rnd` applied after every operation (`StepEnv.rnd` in
  `Model/Evolve.lean`) where stated.
* Riemann solvers, source terms, `before_step` callbacks, custom boundary functions, PETSc's halo
  exchange, MPI reductions, the file system, h5py and VTK libraries are parameters of the model.

## 3. Conventions

* Exceptions are values: `Except PyErr α`.
* Mutable objects are records returned by each operation; where an exception leaves a partially
  modified object, the model returns both the error and the modified object.
* Arrays are functions on integer/natural indices with an explicit extent, or lists when length and
  Python slice semantics matter. In-place loops are folds, in the order of the source.
* When the unchanged code violates a property, the file contains a theorem named `…_violated…` that
  exhibits the failure, and a `…_partial` theorem for the part that holds.

## 4. Plan per property

* **C01 Dimension coordinates are uniform and consistent** — Model `Dimension.delta/nodes/centers` as lists built by the loops; closed forms by list lemmas, field arithmetic.
* **C02 Ghost-cell coordinates extend the interior grid** — Model `centers_with_ghost` / `nodes_with_ghost` (`np.linspace`, `np.hstack`) as list appends; index-wise closed form.
* **C03 Dimension setters validate** — Model setters returning (object, error?) with store-before-check; invariant over op lists; negation of rollback by witness.
* **C04 Dimension coordinate caches are never stale** — Dimension object with cache fields; invariant `cache = none ∨ cache = fresh` by induction over op lists.
* **C05 Grid coordinate caches follow the dimensions** — Grid with four caches over a list of Dimension objects; negation by a 3-operation witness; partial invariant for disciplined histories.
* **C06 Gauges are placed in the cell that contains them** — Model `add_gauges` over any dimension count with floor division; membership iff and containment.
* **C07 Dimension names are unique** — Model of `add_dimension` as list append with duplicate check; invariant over op lists.
* **C08 Domain built from bounds** — Model of `Domain.__init__` 3-argument form with zip truncation; exact result and negation for 4 bounds.
* **C09 q and ghosted q convert without loss** — n-dimensional arrays as functions on index vectors; Python slice `g:-g` modelled with its g=0 meaning; round trip by extensionality.
* **C10 Deep copies are independent** — Heap of arrays with references; deepcopy allocates; frame property by induction over writes; negation for index_capa.
* **C11 mp and mF can be set only once** — State machine of optional array; invariant over op lists.
* **C12 One solver does not corrupt another solution** — Heap model of state.q being a view of solver.qbc; negation by two-solution witness; partial for separate solvers.
* **C13 Boundary filling never changes interior cells** — Loop-level model of `_bc_lower/_bc_upper` per axis in d dimensions; refinement to index folding.
* **C14 Extrapolation boundary** — Corollary of the fold refinement.
* **C15 Periodic boundary** — Corollary; plus negation for n<g.
* **C16 Wall boundary reflects with the normal velocity negated** — Corollary.
* **C17 Multi-dimensional boundary filling is a product of one-dimensional folds** — Induction over the axes of the loop-level model.
* **C18 Unset or unknown boundary conditions raise** — Error branches of the same model; iff characterisation.
* **C19 evolve_to_time(tend) ends exactly at tend or reports failure** — Loop model of `evolve_to_time` with the numerical step as parameter (an arbitrary function of solver, solution); induction over attempts; negation with a rejecting step.
* **C20 Time never overshoots and never goes backwards** — Same loop, invariant.
* **C21 Rejected steps leave the solution untouched** — Same loop, one-attempt lemma lifted to the loop.
* **C22 Every accepted step satisfied the CFL limit** — Same loop with ghost log of accepted CFLs.
* **C23 status['numsteps'] counts accepted steps** — Same.
* **C24 Fixed time step: uniform times and exact step count** — Fixed-dt branch with integer truncation.
* **C25 Evolving to a past or present time does nothing** — No-op theorem + two-call negation.
* **C26 max_steps bounds the work and exhaustion is reported** — Attempt count bound + negation.
* **C27 Time step selection respects dt_max and the target CFL** — `get_dt` case analysis.
* **C28 Single-step mode** — One-step branch.
* **C29 Progress under rejection** — Arithmetic on `get_dt_new`.
* **C30 Output times** — Model of `Controller.run` output time lists.
* **C31 Frames are written once each with consecutive numbers** — Controller loop with a log of written frames.
* **C32 A second run continues the numbering** — Two-run model.
* **C33 overwrite=False protects existing output** — Guard branch.
* **C34 Conservation in one dimension** — 1D kernel over arbitrary module-valued cells; telescoping sums over the periodic grid.
* **C35 Constant states are preserved** — Kernel evaluation with zero waves.
* **C36 Python and Fortran 1D kernels agree** — Both kernels modelled separately; equality by extensionality; negation for superbee.
* **C37 Reported Courant number bounds every wave** — Max fold lemmas.
* **C38 Limiter values lie in Sweby's TVD region** — Case analysis over an ordered field.
* **C39 No new extrema for scalar advection** — Harten-form argument on the kernel specialised to scalar advection.
* **C40 Two ghost cells suffice (locality)** — Congruence theorem: equal inputs on the stencil give equal outputs.
* **C41 Source term splitting** — Model of ClawSolver.step with operations as parameters; negation at equality.
* **C42 Dimensional splitting conserves and sweeps each axis once** — 2D sweeps as rows/columns of the 1D flux routine (`C42_sweeps` refers to the 1D kernel `fStep1`); telescoping.
* **C43 Unsplit 2D step conserves with transverse corrections** — step2 accumulation order modelled as folds; closed form of a cell (`C43_update`), telescoping in both directions; no condition on the transverse solvers is needed.
* **C44 SharpClaw semi-discrete conservation** — dq kernel; telescoping.
* **C45 WENO weights form a convex combination** — Explicit WENO5 formulas over an ordered field; positivity. The specification of the weights (`IsWeno5`) takes the indicators from the derivatives of the candidates, so that wrong constants in the formulas of the code are excluded (`C45_weights_*`).
* **C46 WENO5 with linear weights is fifth order** — Polynomial identities by ring.
* **C47 Runge-Kutta integrators are consistent and conserve** — Integrators over an arbitrary module; Butcher form and order conditions by exact arithmetic.
* **C48 Strong stability preservation** — Convex functional on a module.
* **C49 Linear multistep history holds the last accepted steps** — Register list state machine; invariant against the ghost history.
* **C50 SSP LMM step combines with convex weights** — Coefficient identities over a field.
* **C51 Capacity function is honoured in every stage** — deepcopy model used by register allocation; negation by witness.
* **C52 SharpClaw setup chooses enough ghost cells** — Model of `setup`; invariants of every successful run; congruence of the kernels in the ghosted array shows that nothing outside is read.
* **C53 ASCII frames round-trip** — Character-level model of the text format, including `%e` with rounding, `float()`, `split()` and `readline()`. For each printer a lemma says that the matching parser consumes exactly its text and returns the value rounded to nine digits; these compose along the loops.
* **C54 Binary frames decode in Fortran order without ghost cells** — The specification writes a file by nested loops; `np.reshape(…, order='F')` is offset arithmetic. Induction over the axes and over the patches. The bytes of a float are not modelled: decoding a file to a list of numbers is an arbitrary function.
* **C55 Reading is additive and ordered** — Case analysis of `read` on arbitrary files; induction over a sequence of reads.
* **C56 Gauge files round-trip** — Character-level model of the text files; `"%s"` and the number format are functions whose text parses back to (nearly) the number; induction over records and columns. False for gauges without records, for Lagrangian gauges, and in one and three dimensions.
* **C57 Gauge time series records each accepted step once** — The time loop of C19 with the gauge output in place of its hook; invariant of the loop that each file's new rows are the image of the list of solutions after accepted steps. False in three dimensions and for the second run of a controller.
* **C58 Frame counter** — Op list.
* **C59 Command-line arguments split into keywords and options** — List-of-arguments parser.
* **C60 Test variants cover the full combination set** — Enumeration as list comprehension; nodup/membership.
* **C61 Attribute guard on Solver** — Attribute store machine.
* **C62 Solver validity check is complete** — Boolean model; iff.
* **C63 Parallel partition covers the domain** — Ranges as partitions of [0,n): the local dimension built from `getRanges` is cut out of the global one, every cell has exactly one owner, and centres agree. Arithmetic of the constructor plus induction over the cuts.
* **C64 Parallel runs agree with serial runs** — Local update with halo equals restriction of global update (`LocalKernel`), lifted by induction over the loop to `evolve_to_time`: same result or exception, step sizes and status on every process, no hang (`C64_run`).
* **C65 VTK overlap mask** — Index arithmetic with Python's rounding, over aligned patches; the fold over finer patches by induction. The converse holds only if no finer patch begins left of or below (witness of violation).
* **C66 The CFL-dependent limiters are TVD** — Case analysis over an ordered field; Hyperbee (real powers) over ℝ, by three forms of Bernoulli's inequality.
* **C67 Generated test variants run their own configuration** — Generator machine with a shared variable; interleavings as op lists.
* **C68 SharpClaw preserves uniform states** — Reconstruction of constants, then the flux formula.
* **C69 A SharpClaw step conserves** — C44 composed with the linear-invariant theorem of C47.
* **C70 The SharpClaw kernels agree** — Cell-by-cell comparison of the two reconstructions; negations by witness.
* **C71 3D split step** — The double loop over rows in closed form; the 1D theorem per row and a telescoping sum; negation by witness (stale outer ghost row).
* **C72 3D unsplit step** — The 27-point scatter of `step3` in closed form as differences of transverse fluxes, telescoped in each direction; the content of the uninitialised work array is a parameter.
* **C73 The recorded format decides how a frame is read** — Case analysis of `Solution.read` on the parsed `fort.t`, combined with the text model of C53.
* **C74 A VTK frame shows every patch once** — The dictionary of level counts by induction over prefixes; a list sorted by level splits into its levels; the loop over levels is then a concatenation of the levels. Witnesses for the two violations.
* **C75 Unsplit first-order advection is corner transport upwind** — C43_update and C72_update specialised to constant velocities, then polynomial identities in the positive and negative parts; the maximum principle follows from the one-dimensional upwind formula. Independent of the model's own transverse parts, so it fixes their weights.
* **C76 The second-order correction makes smooth data second-order accurate** — in 1D the update is rewritten as the Lax–Wendroff formula for any solver that decomposes the jump into eigenvectors of a linear map, and the formula is exact on quadratics; limiters by their value at equal slopes. In 2D the transverse terms of a linear system add half of each mixed product. For advection in 2D and 3D the step is written in one-dimensional difference operators, one closed form for every `transverse_waves`, and exactness on monomials follows from the operators that vanish on them. Data and solution are polynomials of a separate specification.
* **C77 A SharpClaw run consists of steps of the chosen method within the Courant limit** — the loop of `evolve_to_time` around the SharpClaw step keeps a log of attempts (a ghost variable). An invariant relates the cached slope and Courant number to the current data; induction over attempts, calls and sessions. Termination by a measure that counts retries and the remaining distance. Witnesses for the violations. Fixed steps: refused before anything happens if they do not divide the interval; if they do, N steps of the method end at the target (`Props/SharpFixed.lean`). With computed Courant numbers (`Model/SharpStages.lean`) every stage of an accepted step is within the limit: the evaluations made by the integrator are exactly the stages of its tableau (`points_evaluated`).
* **C78 Second-order SharpClaw reconstructions create no new extrema** — the reconstructions in closed form, then the Sweby bounds of the limiters (proved for C37). Witness for limiter 5.
* **C79 Characteristic reconstructions are fifth-order WENO in every characteristic field** — projection on a row of the left eigenvector matrix turns each kernel into the scalar kernel of C45 (for waves with a rescaled small number), whose values are convex combinations, with the weights of Jiang and Shu (`C79_weights_*`). Witness for `weno5_trans`.
* **C80 First-order SharpClaw with forward Euler is the classic first-order method** — both kernels unfolded; the Riemann problem inside a cell joins equal states; `C80_grid` is the same for grids with boundary conditions. Found by a seeded bug that no property excluded (§7).
* **C81 A run on a periodic grid conserves totals** — `run_keeps`: a predicate of `q` that a homogeneous step keeps holds after `runSteps` of any session (rejections restore `q`, exceptions before the kernel leave it); `periodic_fill` turns the ghost filling into periodic ghosted arrays, the one-step theorems (C36, C71) do the rest; sums over grids are re-indexed.
* **C82 A run keeps a uniform state** — `closed_fill`: with admissible boundary conditions every ghost value is an interior value, perhaps with the sign of the reflected component changed; then the one-step theorems (C35).
* **C83 A run of an advection problem keeps the bounds of its data** — the Courant number a kernel returns bounds |u|dt/dx (C37); accepted steps have a Courant number of at most `cfl_max` with variable steps (C23), so C39 and C75 apply to every accepted step; `get_dt_new` never yields a negative step.
* **C84 Advection at Courant number one is exact over a whole call** — with fixed steps the clip of the last step changes nothing, so every attempt has the size `dt`; its Courant number is at most 1, so it is accepted; the correction fluxes vanish because of their factor 1-|s|dt/dx, so C37, C42, C71 and C75 give the moved data. Induction over the N steps, with the ghost cells of the periodic fill (C17) as the cells on the other side.
* **C85 WENO reconstruction of every order is Jiang and Shu's** — the literals of the seven kernels of weno.f90 are transcribed into tables (each literal as printed and as the fraction it abbreviates). Specification: mean values of polynomials over cells, the polynomial pieces, the smoothness indicator as a sum of integrals of squared derivatives, and linear weights that reproduce degree 2k-2. Three decidable conditions on a table (offsets within the stencil and exactness on the monomials; weights positive, adding up to 1 and exact up to degree 2k-2; indicators right on all pairs of monomials) are checked by the kernel in rational arithmetic and proved to imply the specification for all data over any ordered field. The pieces exist by Lagrange interpolation of the primitive; the indicators are nonnegative by a sum of squares in Legendre polynomials.
* **C86 The validity check, and running again** — arrays are shapes with strides. The contiguity flag as numpy computes it (axes of extent 1 do not count) is proved to be equivalent to the specification: the element with index (m,i,j,k) lies at its Fortran rank. `is_valid` branch by branch; the views that `step_hyperbolic` leaves in `state.q` are followed through a run. Disagreement: §6.55.
* **C87 A solution shows the attributes of its states** — `__getattr__`, `__setattr__` and the instance dictionary as a partial map; states are a parameter (`StateOps`). Induction over sequences of assignments. The constructor is a function of a sum type with one case per documented form. Disagreements: §6.56–57.
* **C88 A frame written in HDF5 is read back exactly** — the file is a list of named groups with attributes and data sets; `ravel`, `reshape` in Fortran order; `groups` sorted by name as text. Specification: `SameHState`. Disagreements: §6.58.
* **C89 A SharpClaw run keeps what its right-hand side keeps** — `StateIn`: solution and registers in the affine subspace, saved slopes in its direction, preserved by every part of an attempt; `PosInv`: step size and span of the saved step sizes positive, so that the SSP multistep coefficients are defined and add up to 1; both lifted over attempts, calls and sessions. Corollaries from C44 (totals) and C68 (uniform states).
* **C90 A run on a periodic grid does not depend on where the grid begins** — `run_sim`: two environments whose steps keep a relation of data keep it over attempts, calls and sessions; `kernel_sim`: it suffices to look at one kernel call on ghosted fields. `Stencil.periodic`: a kernel with a stencil acts on the periodic extension of the data. `C90_split2_violated` for the Courant number of the split kernel.
  Split kernel in three dimensions (`Props/TranslationSplit3.lean`): without a limiter one ring of updated ghost rows is enough, so the values are those of the periodic extension.
* **C91 Left and right are alike** — `lineStep` is what both 1D kernels do on a line of cells (`LineKernel`, `fortran1_line`, `python1_line`); `mirror_line`, `mirror_number`: a step and its Courant numbers in the mirror; `mirror_fill`: the ghost cells in the mirror; then `kernel_sim` and `run_sim`. `C91_fwave_violated` for f-waves of speed 0.
* **C92 A reflecting wall acts like a mirror** — the run on the continued grid is the second run of `kernel_sim`: left half by locality (`lineStep_local`), right half by `mirror_line`; `unfold_fill` for the ghost cells of both grids. In more dimensions (`Props/Unfold`): `unfoldAxis_run` does the same with `HasStencil` in place of locality and the image theorems of C94 and C107 (`mirrorX_step`, `mirror_image3`); `step3` keeps a work array between calls, the two runs may hold different contents in it (`unsplit3_agree`). SharpClaw: `unfold_linked` and the session lemma of C108; the Python kernel in `Props/SharpPyUnfold.lean` and, with the Courant number for all its reconstructions, `Props/SharpPyUnfoldRun.lean`. Not for dimensional splitting, whose second sweep reads what the first wrote in ghost rows.
  With splitting (`Props/UnfoldSplit.lean`): rows only, as the sweeps along `x` know where the columns end. In space (`Props/UnfoldSplit3.lean`): planes only, and no limiter.
* **C93 Coordinates with ghost cells continue the grid** — `Model/GridGhost.lean`; `Dim.Good` (caches of a dimension are current) is kept by every operation (`Grid.runH_good`), the rest is the arithmetic progression of C02 along each axis (`Grid.tensor_coords`).
* **C94 The four sides and the two axes of the plane are alike** — one step of `step2` commutes with each of the three symmetries (`mirrorX_step`, `mirrorY_step`, `transpose_step` in `Lemmas/Square.lean`: closed form of a cell plus symmetry of the fluctuations, limited waves and transverse parts of one interface); the Courant number is a maximum over the same set; ghost cells by C91's argument per axis; runs by the generic simulation `image_run`. With dimensional splitting the mirrors hold by the one-dimensional mirror of each row (`mirrorX_split`, `mirrorY_split` in `Lemmas/SplitMirror.lean`).
* **C95 SharpClaw runs in parallel agree with serial runs** — `pair_session` (`Lemmas/SharpPair.lean`): if the right-hand sides and callbacks of two problems keep a linear subspace of pairs of arrays and return the same Courant numbers, two sessions stay in step, with every integrator (all arithmetic on arrays is linear; proved by projecting a run on the subspace, `map_session`). The subspace is here 'every process holds its part'; `dq` keeps it because `flux1/2/3` have a stencil no wider than the ghost cells (`fRecon_near`, `flux1_near`, `WideStencil.localKernel`). Courant numbers of the stages are computed (`Model/SharpStages.lean`), not arbitrary as in C77 and C89; `sharpSessionC_of` carries the theorems for arbitrary ones over. `C95_tvd_wave_violated` by evaluation.
* **C96 A SharpClaw run on a periodic grid does not depend on where the grid begins** — the same with the subspace 'the second array is the first one translated', and `WideStencil.periodic`. `C96_tvd_wave_violated` by evaluation.
* **C97 A frame in PETSc files comes back whatever the numbers of processes that write and read it** — a layout is a list of bounds for each axis; global vectors are the boxes of the processes one after the other, `view` puts them in natural order and `load` takes them apart (contract of PETSc). `fromNatural ∘ toNatural` keeps the value at each global cell for every pair of layouts, by the bijection between (process, local cell) and global cells; the rest is the sequence of pickles and vectors in the files, by induction over the states. Witnesses of the failures are universally quantified.
* **C98 clobber=False never overwrites a frame and never hinders a new one** — a transition system of p processes (check of the files one by one, writing of the metadata by process 0, collective opening of the viewer); invariants over reachable states, and an explicit schedule for the race.
* **C99 a parallel run ends in every order in which the processes act** — a transition system with one action per process and collective call (`SpmdStep`), for any program; the program is `evolve_to_time` cut at its calls. Lockstep runs are unrolled by induction on the loop (`Lock`), and a general theorem about programs whose processes make the same calls (`any_order`) says that every order gives the same. Exceptions on one process only: an explicit schedule that hangs.
* **C100 ASCII and ForestClaw format do not depend on the history of the process** — the process is the binding of the two header functions of the module `pyclaw.fileio.ascii` (which importing `forestclaw.fileio` replaces) and the files; calls change both. Round trips as in C53, by invariants over the calls; the mixed cases fail in general, not for an example: a header of the other kind is two lines too short or too long.
* **C101 The results do not depend on the units** — `Spec/Units.lean` says when two states are the same in different units of time (`SameRun`) and
  when one Riemann solver is another in different units (`InUnits`); the proof is a simulation through `attempt`, the loop and sessions, with the
  one-dimensional kernels in the form `LineKernel` of C91. Rounding has to commute with the factor of time (exact arithmetic, or binary rounding and
  a power of 2). False of fixed steps and of limited systems with separate units. In the plane (`Props/Units2.lean`), with different units of
  length for the two axes, both for the unsplit and the split scheme; the same in three dimensions (`Props/Units3.lean`), where what a row
  sends in a direction across it has the unit of speed of that direction, single and double splittings alike. SharpClaw
  (`Spec/SharpUnits.lean`, `Props/SharpUnits.lean`): the unit of time is a simulation through the integrators, step-size control and sessions
  (`Lemmas/SharpClock.lean`), the other units are the image theorem of C108 with the identity as map of cells; sources and `before_step` of the
  user are part of it. Python kernel: `Props/SharpPyUnits.lean`. False of its fixed steps and of WENO when the unit of the solution changes. Missing: boundary functions of the user.
* **C102 Between walls nothing is lost** — `Spec/Walls.lean` says which domains are closed (`Enclosed`), which components no wall reflects
  (`Unreflected`) and which pairs of Riemann solvers in the plane are their own image in a wall (`OwnImage2`). Proof: a field between walls
  together with its mirror image is a periodic field on twice as many cells. A kernel that keeps mirror images (C91, C94) keeps this one,
  and its total is twice the total between the walls, so conservation on periodic domains (C34, C42, C43) gives conservation between
  walls; induction over the axes that have walls (`walls_conserve`), then over the steps of the session (`walls_run`). Proved for both
  one-dimensional kernels (`C102_fortran1_partial`, `C102_python1_partial`) and for the two schemes in the plane
  (`C102_unsplit2_partial`, `C102_split2_partial`), for the unsplit scheme in three dimensions (`C102_unsplit3_partial`)
  and, where a step conserves at all, the split one (`C102_split3_partial`). For SharpClaw the right-hand side
  between walls adds up to nothing (`Lemmas/SharpWalls.lean`), so by C89 every time integrator keeps the totals (`C102_sharp1_partial`,
  `C102_sharp2_partial`, `C102_sharp3_partial`, `C102_sharp_python_partial`). False if the aux values are not continued like the solution (`C102_aux_violated`).
* **C103 Solutions of linear problems can be superposed** — `Spec/Superposition.lean` says what a linear problem is (`LinearRiemann`,
  `LinearSplitting`, `LinearRun`) and what it means that three runs are in step and the third holds the combination (`Superposed`). The
  simulation of `Lemmas/Simulation.lean` is repeated for three runs (`Lemmas/Three.lean`), the ghost cells are linear in the interior
  (`lin_fill`), and each kernel is linear on the whole line or plane (`Lemmas/Superpose.lean`); source terms and `before_step` are allowed.
  `C103_fortran1`, `C103_python1`, `C103_unsplit2`, `C103_split2`, and in three dimensions `C103_unsplit3`, `C103_split3`
  (`Lemmas/Superpose3.lean`, `Props/Superposition3.lean`, not when uninitialised memory is read); `C103_limiters_needed` shows that the hypothesis on limiters cannot be dropped.
* **C104 The functions that check results accept only results within the tolerance** — `Model/Verify.lean`, numbers are reals or "not finite".
  `C104_abstol`, `C104_reltol` characterise `check_diff` against `Spec/Verify.lean` (distance, size); `C104_test_app`; solutions by
  `C104_same_solution_partial`: distinct indices and equal lengths make the patches a permutation. Three `_violated` theorems.
* **C105 Old gauge files are converted without loss, and the comparison finds differences** — `Model/GaugeConvert.lean`; the round trip of C56 gives
  `C105_first_gauge_partial`; `C105_compare` characterises the comparison, `C105_converted_passes` joins the two. Three `_violated` theorems.
* **C106 The Courant number that a parallel solver sees is the one of the whole domain** — `Model/CflObj.lean` has the serial object and one parallel object per
  process; induction on the sequence of calls (`C106_cached_is_max`, `C106_parallel_is_serial`). Two `_violated` theorems for mixtures of calls.
* **C107 The six sides and the three axes of a box are alike** — `Spec/Symmetry.lean` says what the image of the Riemann, transverse and double
  transverse solvers is (`MirrorImage3`, `TurnedTransverse3`, `exchanged`): for the sweep along an axis, direction 2 is the next axis and direction 3
  the one after it, so that an exchange of two axes turns directions 2 and 3 around in every sweep. One step commutes with a cyclic shift of the axes,
  with the exchange of `y` and `z`, and with a mirror across `x`; the mirrors across `y` and `z` follow (`Lemmas/Turn3.lean`, `Lemmas/Cube.lean`:
  every part that an interface sends to one of its eighteen cells is the part of the image interface). Ghost cells and runs as in C91 and C94, for
  any permutation of the axes (`permute_run`). Dimensional splitting keeps the mirrors (`C107_split_mirror_partial`) and, as in the plane, not the axes
  (`C107_exchange_split_violated`).
* **C108 In SharpClaw the two ends of each axis are alike, and so are the axes** — `Spec/SharpMirror.lean` says what images of total fluctuation solvers,
  `dq_src` and `before_step` are; the rest of the vocabulary is that of C94 and C107. The tables of the generated WENO kernels are symmetric (checked by
  the kernel for all seven tables), `weno5`, `weno5_wave` and `tvd2` by algebra; a mirror is a reversal of the row followed by a change of components
  (`Lemmas/SharpMirror.lean`). From rows to sweeps, to ghosted grids and, by `pair_session`, to whole runs (`Lemmas/SharpImage.lean`,
  `Props/SharpMirror.lean`). Python kernel: the increments (`Props/SharpPyMirror.lean`),
  and whole runs without reconstruction, where the interface too many is a copy of another (`Props/SharpPyFirstMirror.lean`).
* **C109 `dtmin` and `dtmax`** — `Spec/Status.lean` defines the steps that the recorded Courant numbers suggest; an invariant over sessions
  (`Props/Status.lean`) says that the two entries are their minimum and maximum, and that the other steps are between them. Four witnesses show
  that the documented meaning is false.
* **C110 Attributes of a classic solver** — `Model/ClassicSetup.lean` has a process with any number of solver objects, the `cparam` memory of each Riemann
  module and a log of the kernel calls; programs are lists of assignments, set-ups and runs. `Spec.CallFollows` says what a call must be given. An invariant
  (`ReadyFor`) holds after set-up and is kept by harmless actions; another one says what is frozen at set-up. Witnesses for the five ways in which it is false.
* **C111 `compile_library`** — `Model/CompileLibrary.lean` has the files (sources, objects, the module) with contents and modification times, the search
  for sources, the tests of times, and the commands that are run. The specification says what a name stands for and what an up-to-date module is. An
  invariant ties every object to its source and the module to its parts; it is kept by edits and calls (`buildInv_acts`), and gives the theorem for
  histories. Violations are concrete histories.
* **C112 `run_serialized`** — `Model/Serialized.lean` has any number of processes with a list of things to do each (begin and end of the function, entering
  and leaving the barrier, returning), as the three versions of `serial_fun` prescribe, and all interleavings. An invariant (`SInv`) relates what each process
  has done to its program and the barriers to each other. Absence of deadlock: the process with the fewest barriers can go on. Termination: a measure.
* **C113 uniform data with a source** — `Spec/SharpUniform.lean` defines the ordinary differential equation of one cell as an environment of the same time
  integrators (`cellODE`). The set of pairs (uniform array, its values) is a submodule, so `pair_session`, which carries any submodule through all integrators
  and all calls, reduces the claim to one evaluation of the right-hand side: the ghost cells of uniform data are uniform (`closed_fill`; at walls the mirrored component is zero), the reconstruction returns
  the same states on both sides of every interface (`fRecon_uniform`, as for C68), and what remains of the increment is the source.

## 5. What is modelled

| model file | code |
|---|---|
| `Model/Dimension.lean`, `Model/Grid.lean` | `geometry.py`: `Dimension`, `Grid` (coordinates, caches, gauges), `Domain` from bounds |
| `Model/GridGhost.lean` | `geometry.py`: coordinates with ghost cells, `c_center`, attributes taken from the dimensions |
| `Model/Heap.lean`, `Model/State.lean`, `Model/Aliasing.lean`, `Model/GhostCopy.lean` | `state.py`: `__deepcopy__`, `mp`/`mF`, `get_qbc_from_q`, `set_q_from_qbc`, memory sharing between `state.q` and `solver.qbc` |
| `Model/BC.lean` | `solver.py`: `apply_bcs`, `_bc_lower`, `_bc_upper` in any number of dimensions, custom functions as parameters |
| `Model/Evolve.lean` | `solver.py`: `get_dt`, `get_dt_new`, `evolve_to_time`, `accept_reject_step`; the numerical step, `before_step` and gauge output are parameters |
| `Model/Controller.lean` | `controller.py`: `run`, `output_times`, the three output styles, `keep_copy`, `p`/`F` output, the overwrite guard, `geometry.py: setup_gauge_files`; `Solution.write` appends to a ghost list of files |
| `Model/Limiters.lean` | `limiters/tvd.py` (all limiters except 19–22, which are parameters here), `limit`; `classic/philim.f90`, `classic/limiter.f90` |
| `Model/LimitersRest.lean` | `limiters/tvd.py:339-419` (Hyperbee, SuperPower, Cada–Torrilhon; the power `r**x` is a parameter, ℝ in the theorems) |
| `Model/Classic1.lean` | `classic/solver.py`: 1D `step_hyperbolic` Python kernel; `classic/step1.f90`; the Riemann solver is a parameter |
| `Model/Classic2.lean` | `classic/flux2.f90`, `step2ds.f90`, `step2.f90`, the two branches of 2D `step_hyperbolic` on ghosted arrays; normal and transverse Riemann solvers are parameters |
| `Model/Sweeps2.lean` | the loops of `step2.f90` over rows and columns and the second half of `step2ds.f90` (`ids = 2`) written out with their own indices; proved equal to the shorter definitions in `Classic2` (`C43_text`, `C43_split_text`), which treat a column as a row of the transposed grid |
| `Model/Classic3.lean` | `classic/flux3.f90`, `step3ds.f90`, `step3.f90`, the two branches of 3D `step_hyperbolic` on ghosted arrays; normal, transverse and double transverse solvers and the initial content of `work` are parameters |
| `Model/Text.lean` | `%i`, `%e`, `int()`, `float()`, `str.split()`, `readline()` on lists of characters; `util.read_data_line`. Floats are rational numbers, infinities or NaN |
| `Model/Ascii.lean` | `fileio/ascii.py` completely: `write`, `write_patch_header`, `write_array`, `read`, `read_t`, `read_patch_header`, `read_array`; the directory is a map from file kind and frame to contents |
| `Model/Forest.lean` | `forestclaw/fileio/__init__.py`, `forestclaw/fileio/ascii.py`, `forestclaw/geometry.py`; `Solution.write`, `Solution.read` and the choice of their functions for the formats `ascii` and `forestclaw`; without auxiliary files |
| `Model/Binary.lean` | `fileio/binary.py` `read`; `Solution.read` up to the call of the reader (`solution.py` 330-392). `np.fromfile` is a parameter |
| `Model/Gauges.lean` | `gauges.py` `GaugeSolution.write`, `read` and `np.loadtxt` for the text produced; float decoders are parameters |
| `Model/GaugeConvert.lean` | `gauges.py:356-449` `convert_gauges`, `compare_old_gauges` and the test at the start of `compare_gauges`; what `compare_gauges` does for names of two characters is a parameter |
| `Model/CflObj.lean` | `pyclaw/cfl.py`, `petclaw/cfl.py`; `PETSc.Vec.max` is a contract |
| `Model/ClassicSetup.lean` | `classic/solver.py` 163-234 (`setup` and what it calls), `state.py` `set_cparam`, the test of `_is_set_up`, and the arguments of the kernels in `step_hyperbolic` | work arrays, warnings, lists of limiters shared between two solvers, names in `problem_data` that are not in `cparam` |
| `Model/Serialized.lean` | `util.py` 33-62 (`run_serialized`), as `inplace_build` uses it; the function is a parameter, `Barrier` is left when all processes have entered it |
| `Model/CompileLibrary.lean` | `util.py` 324-515 (`compile_library`) | names without a dot, variables in paths, `FC`, `f2py_flags`, the log; compiler and `f2py` are a predicate on texts |
| `Model/Verify.lean` | `util.py:203-320` `test_app`, `check_diff`, `check_solutions_are_same` |
| `Model/GaugeRecord.lean` | `solver.py` `write_gauge_values`; `geometry.py` `setup_gauge_files`; closing of the files in `Controller.run` |
| `Model/Petclaw.lean` | `petclaw/geometry.py` `Patch.__init__` (local grid from the ranges of the distributed array) |
| `Model/Vtk.lean` | `fileio/claw_vtk.py` `_set_overlapped_status`, `write` up to the calls of the VTK library |
| `Model/Parallel.lean` | `petclaw/state.py` ghost exchange, `petclaw/cfl.py`, `solver.py` `evolve_to_time` on all processes; serial `step_hyperbolic` around a kernel; PETSc and MPI are two definitions (`exchange`, `reduceCfl`) |
| `Model/Spmd.lean` | the same run with processes that act one at a time: `solver.py` `evolve_to_time`, `classic/solver.py` `step`, `step_hyperbolic` cut at the collective calls of `petclaw/state.py` and `petclaw/cfl.py`; a call is answered when all processes have made it |
| `Model/ParallelKernels.lean` | the kernel calls in `classic/solver.py` `step_hyperbolic` (1D Fortran and Python, split and unsplit 2D and 3D) as kernels on the ghosted arrays of one process |
| `Model/ClassicStep.lean` | `classic/solver.py`: `ClawSolver.step` (source splitting); source and hyperbolic step are parameters |
| `Model/Util.lean` | `util.py`: `FrameCounter`, `_info_from_argv`, `_method_info_from_argv`, `build_variant_arg_dicts`, `gen_variants`; `solver.py`: `__setattr__`, `is_valid` |
| `Model/WenoTables.lean` | `sharpclaw/weno.f90`: `weno5`, `weno7`, ..., `weno17` (generated from the text of the file); `sharpclaw/reconstruct.f90: weno_comp` |
| `Model/Weno.lean` | `limiters/recon.py: weno`; `sharpclaw/weno.f90: weno5`; `sharpclaw/reconstruct.f90: weno5`, per component and cell |
| `Model/SharpRK.lean` | `sharpclaw/solver.py`: Runge–Kutta branches of `step`, `ssp22`, `ssp104`; `dq` and the stage hook are parameters |
| `Model/SharpEvolve.lean` | `sharpclaw/solver.py`: `step` (all branches incl. the multistep ones), `update_saved_values`, `check_3rd_ord_cond`, `get_dt_new`, `accept_reject_step`, `dq` bookkeeping, with the loop body of `solver.py: evolve_to_time` |
| `Model/SharpSetup.lean` | `sharpclaw/solver.py`: `setup` (ghost cells, Courant numbers, registers, limiters, `clawparams.index_capa`), `_allocate_registers`, `_set_mthlim`, the capacity function used by `dq_hyperbolic` | loading of Fortran modules, work arrays, `set_cparam` |
| `Model/SharpFlux.lean` | `sharpclaw/solver.py`: 1D `dq_hyperbolic` Python kernel; `limiters/recon.py: weno5_wave`; `sharpclaw/flux1.f90`, `flux2.f90`, `flux3.f90`; `reconstruct.f90`: `tvd2`, `tvd2_wave`, `weno5`, `weno5_wave` |
| `Model/SharpStages.lean` | `sharpclaw/solver.py: step`: the calls of `dq` in the stages of all integrators with their Courant numbers; `cfl.py` |
| `Model/SharpGrid.lean` | `sharpclaw/solver.py: dq`, `dq_hyperbolic` in one to three dimensions around the Fortran kernels, on one process and on several; Courant numbers of `flux2.f90`, `flux3.f90` |
| `Model/SharpGridPy.lean` | `sharpclaw/solver.py: dq_hyperbolic` with the Python kernel, as a kernel on the ghosted arrays of a grid |
| `Model/PetscIO.lean` | `petclaw/fileio/petsc.py: write`, `read`, `read_t`, `set_filenames`, `set_up_viewers` (binary, ascii, vtk); `petclaw/state.py: get_q_global`, `get_aux_global`, the global vectors. Not modelled: the HDF5 and netCDF viewers; PETSc and pickle are contracts |
| `Model/PetscSchedule.lean` | `petclaw/fileio/petsc.py: write` as seen by the file system: interleavings of the checks and writes of the processes |
| `Model/SharpTime.lean` | `solver.py: evolve_to_time` around the SharpClaw step, with a log of the attempted steps; sequences of calls |
| `Model/SharpRecon.lean` | `sharpclaw/reconstruct.f90`: `tvd2_char`, `weno5_char`, `weno5_trans`, `weno5_fwave` |
| `Model/Validity.lean` | `state.py` `is_valid`, `solution.py` `is_valid`, `controller.py` `check_validity`; the strides of `state.q` through a run of the classic solvers (`solver.py`, `classic/solver.py`, `state.py` `set_q_from_qbc`) |
| `Model/Solution.lean` | `solution.py`: `__init__`, `__getattr__`, `__setattr__`, `__deepcopy__`, `__copy__`; states are a parameter |
| `Model/Hdf5.lean` | `fileio/hdf5.py` `write`, `read` for one process; the library is a map from frames to lists of groups |

Not modelled (so far): the Riemann solvers, the AMR interface, plotting, logging, `netcdf` file
contents (`netcdf.py` cannot run, §6.59), PETSc internals, floating-point rounding outside the time loop.

## 6. Disagreements between code and properties

Each is a theorem named `…_violated` unless noted.

1. `Dimension` setters store the value before validating it (C03), and with `num_cells = 0` cache junk (C04).
2. `Grid` caches are invalidated only if the grid array is the first coordinate read (C05).
3. `Domain` drops bounds after the third (C08, stated in the theorem).
4. `State.__deepcopy__` loses `index_capa`, `keep_gauges`, `gauge_data` (C10).
5. `state.q` is a view of the solver's ghosted array, so sharing a classic solver corrupts solutions (C12).
6. Periodic/wall boundaries with fewer cells than ghost cells copy stale ghost values (C15, C16 `_few_cells_stale`).
7. `evolve_to_time` returns silently before `tend` when rejections use up `max_steps` (C19, C26).
8. After `evolve_to_time(tend <= t)` `max_steps` stays 0; with fixed `dt` and `tend < t` it raises (C25).
9. The first step ignores `dt_max` (C27).
10. At large `t` the fixed-`dt` landing clause merges steps (C24).
11. An accepted step whose gauge output raises is not counted in `numsteps` (part of C23's statement).
12. A second `run` overwrites frames unless `keep_copy` and the first run started at frame 0 (C32).
13. With gauges, `run` erases old gauge files before the overwrite guard, which then refuses even a new
    directory (C33).
14. Style 3 makes `num_output_times - start_frame` outputs, not `num_output_times` (stated in C30_style3).
15. With a single output time the local `status` of `run` is never bound, so `run` ends in
    `UnboundLocalError` (modelled; excluded from C30/C31 by their success hypotheses).
16. The Python superbee limiter is `max(0, min(1, 2r))` (C38), so the kernels disagree (C36).
17. The kernels disagree for f-waves of speed 0 (`np.sign(0) = 0`, `dsign(1,0) = 1`) and the Python Courant
    number counts an interface between ghost cells (C36).
18. Python limiters 17, 18, 21, 22, 23 return one number for the whole array (C40); 17 is always 0; 7, 8, 12,
    13, 14 are not TVD (C66).
19. With source terms, a step whose Courant number equals `cfl_max` is accepted but its last source
    application is skipped (C41).
20. `_method_info_from_argv` raises `AttributeError` for numbers and for `True` (C59).
21. `gen_variants` yields closures over the loop variable (C67).
22. `SSP22` has an SSP coefficient and a branch in `step` but `_allocate_registers` rejects it, so it cannot be
    selected; it is used only to start the multistep methods.
23. In the general Runge–Kutta branch `before_step` is applied to the stage before the earlier stages are added
    (modelled in `rkStages`).
24. The two Fortran fifth-order WENO kernels use smoothness indicators that differ by a factor 12, so they agree
    only after rescaling `epsweno` (`shuValue_right`, `shuValue_left`).
25. `SSPLMMk3` with `check_lmm_cond`: when the repeated step is itself rejected, the loop restores the discarded
    solution but not the history, so the next step mixes two solutions (C49).
26. `SSPLMMk3` is strong-stability preserving only with `check_lmm_cond` (which is off by default): its inequality
    `H² ≤ 8 µ²` follows from the check (`span_le`) and is not enforced otherwise.
27. The SharpClaw `get_dt_new` ignores `dt_max`, and the landing clause may lengthen a step by a rounding error
    beyond the restriction (hypothesis `Unstretched` of the C50 run theorems).
28. With fixed `dt` and `check_lmm_cond` a repeated step sets `t = tstart + (n+1) dt`, one step too far (C49_times
    is therefore stated for variable steps).
29. `tvd2_wave` does not process the last interface of the grid, so periodic problems are not conserved (C44).
30. `flux1.f90` assigns `dt/(dx*aux(index_capa,:))` to an allocatable array of another shape; under Fortran 2003
    rules it is reallocated with lower bound 1, which shifts the capacities by the ghost cells (C44).
31. `tvd2` divides by the difference of neighbouring cells without a guard: 0/0 on uniform data (not expressible in
    exact arithmetic; excluded from C68).
32. `lim_type = 2` means different smoothness scalings in the two kernels, and `weno5_wave` drops to first order in
    Python but to the central average in Fortran where the jump is below 1e-7 (C70).
33. `weno_comp` is called with the largest dimension of the grid, so that on non-square grids it reads beyond the
    slice (values unused); `weno5_wave` in Fortran reads one cell beyond both ends (values unused).
34. The registers of a Runge–Kutta method are deep copies of the state and lose `index_capa`; the Python kernel of
    SharpClaw therefore ignores the capacity function in all stages but the first (C51).
35. `setup` adapts `num_ghost` only for `lim_type = 2`; the fifth-order `lim_type = 3` runs with whatever the user set
    (C52). `SSP22` has an entry in `_sspcoeff` and a branch in `step` but `_allocate_registers` rejects it; `Euler`,
    `SSP33`, `RK`, `LMM` need an explicit `cfl_max`, otherwise `setup` raises `KeyError`.
36. The Courant number of the 2D steps counts ghost cells: rows and columns 0 and m+1 in the unsplit method, all ghost
    rows and columns in the split method (`C37_unsplit2_cfl`, `C37_split2_cfl`). With data in corner ghost cells that
    are not set by a boundary condition this can reject a step; the boundary conditions of the package set them.
37. `step3ds` sweeps one ghost row (0 … m+1) of each transverse direction where `step2ds` sweeps all (1-g … m+g). With
    order 2 and a limiter, which are the defaults of `ClawSolver3D`, the limiter of the later sweeps compares with a
    ghost row the earlier sweep did not update, at the lower boundary only: the split 3D step does not conserve periodic
    data (`C71_split3_conserves_violated`).
38. `flux3` with `order = 1` and `transverse_waves = 22` (the default value) jumps over the computation of `cqxx` and then
    applies the transverse solver to it: the content of the `np.empty` work array enters the result
    (`C72_determined_violated`), and uniform states next to varying aux values are not preserved
    (`C35_unsplit3_uniform_violated`). Conservation still holds (`C72_conserves`), since the same numbers enter all rows.
39. `ascii.write(..., write_p=True)` puts `num_eqn` of q into `fort.t` (the pickle gets `mp`), while the lines of `fort.q` have
    `mp` values. Such frames cannot be read when `mp < num_eqn` (`C53_derived_frames_violated`).
40. `ascii.read` with `read_aux=True` (the default of `Solution.read`) uses any `fort.a` file of the frame, or of frame 0, that
    is in the directory, also one left by an earlier run when the present run did not write auxiliary data
    (`C53_stale_aux_violated`).
41. `ascii.read` appends the states it reads but then reads the aux file for *all* states of the solution, old ones first:
    a second read into the same solution overwrites the auxiliary data of the old states and raises
    (`C55_second_read_violated`). Also `solution.domain` is replaced by the patches of the last frame only (`C55_time`).
42. `binary.read` cuts the ghost cells of `aux` with `[:, mbc:-mbc]` also when `mbc = 0` (for `q` it tests for 0): the auxiliary
    arrays of frames without ghost cells come out empty (`C54_aux_without_ghosts_violated`). A second read into the same
    solution with `read_aux` fails like in item 41.
43. `GaugeSolution.write`/`read`: a gauge without records is not restored (the reader takes the data section to be in a file of
    its own or keeps its old data); the Lagrangian flag is not written; a gauge with a one-dimensional location raises
    `IndexError` after the file has been created, and the third coordinate of a location is lost.
44. `write_gauge_values` has no branch for three dimensions: `q` is unbound and any gauge makes the run fail with `NameError`
    (`C57_three_dimensions_violated`). `setup_gauge_files` appends to the list of file objects and `Controller.run` closes them
    without emptying the list, so a second run on the same grid writes to closed files and raises (`C57_second_run_violated`).
45. `claw_vtk._set_overlapped_status` takes the width of a finer patch from its clipped left end: a finer patch that begins left
    of (or below) a patch hides too many of its cells, even cells nothing covers (`C65_patch_to_the_left_violated`).
46. `claw_vtk.write` leaves the mask in `state.q`, so writing a frame changes the solution (`C74_writing_changes_the_solution_violated`)
    and the next frame has one field more (`C74_second_frame_violated`). The levels are visited in the order in which they first
    appear while the sorted states are consumed from the front, so a finer level listed first exchanges the levels
    (`C74_level_order_violated`). With the default `options=None` it raises `AttributeError` at once (not modelled).
47. The Python step with a limiter that takes a maximum or minimum over the array (17, 18, 23) gives other values in parallel than in
    serial, because each process has its own array (`C64_python_global_limiter_violated` for 18 and 23).
48. Dimensional splitting in two dimensions: the sweeps in `y` include ghost columns that the sweeps in `x` did not update. At the
    boundary between processes these columns enter the Courant number with their old values, so that a parallel run may use
    other step sizes than a serial run (`C64_split2_cfl_violated`; the new values for a given step agree, `C64_split2_partial`). For the same reason a wall on
    the first axis is no mirror (`C92_split2_violated`). In three dimensions a wall on the third axis is none either if there is a limiter (`C92_split3_violated`).
49. Dimensional splitting in three dimensions sweeps one ghost row only; with a limiter the values next to the boundary between
    processes differ from the serial ones (`C64_split3_violated`; same cause as the loss of conservation in `C71_split3_conserves_violated`).
50. The Python limiters 12, 13, 14 and 17 are not 1 for constant slope at small Courant numbers, so linear data are not advanced
    exactly (`C76_theta_limiters_violated`); 17 (listed as "beta=2/3 limiter") calls the beta limiter with theta 0 and gives 0. The limiters 5, 6, 10
    skip the correction where the jump is 0 (`C76_zero_jump_violated`).
51. SharpClaw with fixed steps: after "CFL too large, giving up!" the Courant number of that step is kept and the right-hand side is
    not evaluated again, so every further single step raises, whatever data are assigned (`C77_stuck_after_giving_up`). With
    variable steps a rejected single step returns normally; data assigned after it are advanced with the slope of the old data
    (`C77_new_data_violated`). `dt_max` can be exceeded (`C77_dtMax_violated`, same cause as item 27).
52. Limiter 5 (Čada–Torrilhon) of the TVD reconstructions is 1/3 for r = -1: new extrema (`C78_limiter5_violated`).
    `tvd2_wave` does not reconstruct at the last interface of the grid (`C78_tvd2_wave_last_violated`, cf. item 29).
53. `weno5_trans` (`char_decomp = 3`) multiplies with `evr(mw,m,i+m1)`, a row, where the eigenvector is the column `evr(m,mw,…)`
    (`C79_weno_trans_violated`). `evec.f90` is a dummy that stops the
    program; it declares ten arguments and the calls in `flux1` pass nine, so a user's routine has to follow the calls, not the dummy.
54. `weno5_wave` runs over the interfaces `2 … mx2` and reads `q(:,0)`, `q(:,mx2+1)` and `wave(:,:,0)`; `weno5_fwave` runs to `mx2+2` and
    divides by the speed, 0/0 for a wave at rest. The values used later are not affected (C44, C79), except those at zero speed.
55. In 2D and 3D every accepted step of a classic solver leaves `state.q` as a view of the interior of the ghosted array. It is not
    contiguous, so after a run `solution.is_valid()` is false, and a second `controller.run()` raises `Initial solution is not
    valid.` (`C86_second_run_violated`). In 1D the view is contiguous.
56. `solution.q = x` (also `aux`, `problem_data`, …) makes an attribute of the solution that hides the states' and changes none of
    them (`C87_detached_violated`). `solution.start_frame = n` is accepted and ignored (`C87_start_frame_violated`).
57. `Solution(n, patch)` and `Solution(n, dimension)`, both documented, raise `TypeError`; `Solution([num_eqn, num_aux], domain)` leaves a
    bare `State` where a list is expected, so the solution is unusable (`C87_construct_violated`). `copy.copy(solution)` always raises. A deep
    copy does not keep `start_frame` (`C87_deepcopy`).
58. `hdf5.py` reads the groups in the order of their names as text: patch 10 before patch 2 (`C88_order_violated`). All patches have
    number 1 by default and then `write` raises (`C88_equal_numbers_violated`). A frame of derived quantities can be read only if there are as many as
    equations (`C88_derived_violated`). Empty units are not written. The default prefix and path of `write` (`claw`, `./`) differ from
    those of `Solution.read` (`fort`, `./_output`).
59. `netcdf.py` assigns its options with `exec`, which defines no local variables in Python 3, so `write` ends with `NameError`; `read` uses
    `solution.patches`, which does not exist. Not modelled for that reason.
60. `step2ds` sweeps in `y` over the ghost columns too, with the values from before the sweep in `x`. They do not reach the result but they
    enter the Courant number: on a periodic grid it depends on where the grid begins (`C90_split2_violated`). The three sweeps of `step3ds` do the same
    (`C90_split3_cfl_violated`). They update one ring of ghost rows only, so with a limiter the values next to the boundary differ as well
    (`C90_split3_violated`, for the default scheme).
61. `step1.f90` multiplies f-waves by `dsign(1.d0, s)`, which is 1 for `s = 0`: the second-order correction of a resting f-wave moves to
    the right, also in the mirrored problem (`C91_fwave_violated`). The Python kernel has `np.sign`, which is 0 there.
62. `Grid.c_center` indexes an array with a list. Since NumPy 1.23 this selects along the first axis: in 2D and 3D the method raises
    `IndexError` or returns lines of coordinates, in 1D the centre is nested in one more list (`C93_c_center_violated`).
63. `Grid.c_centers_with_ghost` fills the caches of the dimensions, so that `c_centers` does not notice a change of the extents made
    before (`C05_stale_after_ghost_read_violated`).
64. Dimensional splitting sweeps along `x` first in every step (`ClawSolver2D.step_hyperbolic`; Godunov splitting without alternation): a run and the
    same run with the axes exchanged differ (`C94_transpose_split_violated`). This is a property of the method; a user who expects data symmetric about
    the diagonal to stay so must use the unsplit solver.
65. `tvd2_wave` (`lim_type = 1`, `char_decomp = 1`) leaves out the last interface of the grid (see 29). In a parallel run the last interface of each process
    is an interior one of the whole: results depend on the number of processes (`C95_tvd_wave_violated`), and on a periodic grid they depend on where the
    grid begins (`C96_tvd_wave_violated`).
66. `petclaw/fileio/petsc.py` records the level, names, bounds and cells of each patch only: `units`, `patch_index`, `index_capa` and boundary data are lost.
    Time, `problem_data` and `mapc2p` are those of the first state for all states.
67. A PETSc frame written without `aux` over a frame with `aux` shows the old auxiliary values when it is read with `read_aux=True`, the default
    (`C97_stale_violated`).
68. PETSc frames in the formats `ascii` and `vtk` are written, but nothing can read them: the `load` of PETSc takes binary and HDF5 viewers only, and
    `Solution.read` asks for `binary` in any case (`C97_text_violated`). In format `vtk` the metadata is no VTK header either.
69. `petsc.write` uses the prefix `claw` by default, `Solution.read` the prefix `fort` (`C97_default_prefix_violated`).
70. `petsc.write` with `clobber=False`: process 0 writes the metadata while others may still check for files. They then refuse to write a new frame, and
    process 0 waits for them for ever (`C98_race_violated`).
71. `petclaw.State`: `state.p = …` before `mp` is set calls `init_p_da`, which does not exist; the setter of `F` is named `fset`, so that `state.F = …`
    raises `AttributeError`. (Read only; not in the model.)
72. `fileio/netcdf.py: write` binds its options with `exec`, which does not create local variables in Python 3: the first use of `clobber` raises
    `NameError`. `read` uses the unbound name `pyclaw`. (Read only; not in the model.)
73. An exception on some processes of a parallel run (an unknown boundary condition, which only the processes at that boundary look at; an error in a
    user's callback) does not reach the others: they wait for ever in the next collective call (`C99_exception_hangs_violated`). The lockstep model of
    Model/Parallel.lean hands the error to all processes; C64 makes no use of that, since its runs have supported boundary conditions.
74. Using the format `forestclaw` once, for reading or writing anything, replaces the header functions of the plain ASCII format for the rest of the
    process (`forestclaw/fileio/__init__.py`). Afterwards writing a solution on ordinary patches raises `AttributeError`, leaving a destroyed frame
    (`C100_write_after_forest_violated`), and frames written before cannot be read (`C100_read_after_forest_violated`).
75. Frames in the format of ForestClaw are recorded as `ascii` in `fort.t`, and the record wins over the argument `file_format='forestclaw'` of
    `Solution.read`: another process reads them with the wrong headers (`C100_forest_new_process_violated`; with a block number above 0 the patches come
    out with as many cells as the block number says). The test in `forestclaw/fileio/test.py` has a bare `except`.
76. With fixed steps, `evolve_to_time` adds the absolute tolerance 1e-10 to the time before it counts the steps (solver.py:590). A call that needs
    fewer than 100000 steps of size at most 1e-10 is refused with "dt does not divide (tend-tstart)", although the steps meet the final time exactly
    (`C101_small_steps_refused`): small units of time cannot be used with `dt_variable = False`.
77. The limiters compare waves by the scalar product over all components, so the results for limited systems depend on the relative units
    of the components (`C101_limited_components_violated`). This is how Clawpack is designed; users see it as a dependence on scaling.
78. Walls are not tight when `aux_bc` differs from `bc`: with walls for the solution and extrapolated aux values (as in
    `examples/shallow_2d/sill.py`) the limiters of the two wave families at the wall look at interfaces that are not images of each other,
    and the second-order method creates or loses mass at the wall (`C102_aux_violated`).
79. SuperPower (20) is steeper than the TVD bound `2 r / nu` at small ratios for Courant numbers below 1/2 (`C66_superpower_violated`);
    the limiters of Cada and Torrilhon (21, 22) give one number, possibly negative, for all interfaces (`C66_cada_violated`); in 21 the
    upper bound 0.95 of the Courant number is overwritten before use, and `b[1,::2]` scales every second interface.
80. `check_diff` with `reltol` divides 0 by 0 if all expected values are zero and reports a failure (`C104_zero_violated`). `test_app` documents
    three items for the result of a verifier and reads four (`C104_three_items_violated`). `check_solutions_are_same` accepts a solution
    that contains one patch twice in place of another (`C104_same_solution_violated`).
81. `convert_gauges` calls `compare_gauges(path, output_path, gauge_id)`; the function takes `(paths, gauge_id, fields)` and raises `ValueError`
    unless the name of the old file has two characters. Only the first gauge is written (`C105_other_gauges_violated`); meant is
    probably `compare_old_gauges`, which compares neither times nor levels (`C105_times_not_compared_violated`). An old file with a single record
    raises `IndexError` (`C105_one_record_violated`).
82. The serial and the parallel `CFL` objects differ: in parallel `get_global_max` after `update_global_max` forgets what was reported, and `set_local_max` does
    not change what `get_cached_max` returns (`C106_get_after_update_violated`, `C106_cached_after_local_violated`). The solvers do not mix these calls.
83. `tvd2` uses the same product of limiter and backward difference for both sides of a cell. That is right for symmetric limiters only; limiter 5 (Čada
    and Torrilhon) is not symmetric, so it treats the two sides of a cell differently, and mirrored problems give other solutions
    (`C108_limiter_violated`).
84. For the same reason SharpClaw with limiter 5 loses or creates mass at a reflecting wall: the reconstructed states on the two sides of the
    wall are not images of each other (`C102_sharp_limiter_violated`).
85. The constant `1.e-36` of the WENO reconstructions is added to squares of differences of the solution, so it has the unit of the solution
    squared, and the weights depend on the unit in which the solution is given (`C101_sharp_weno_violated`).
86. `status['dtmin']` and `status['dtmax']` are documented as the smallest and the largest time step taken. `get_dt` updates them before it adjusts the
    step to the final time and before the step is accepted or rejected, and only if the step was chosen from a positive Courant number: with fixed
    steps they stay infinite, the first and the last step of a run are left out, and rejected steps count (`C109_first_step_violated`,
    `C109_last_step_violated`, `C109_rejected_violated`, `C109_fixed_violated`).
87. Attributes of a classic solver that are assigned after its first run are partly ignored: `setup` runs once (`_is_set_up`), and the Fortran kernels get
    `order`, the transverse option and `index_capa` from the array `_method` made there, the limiters from `_mthlim` (unless entries of a list are assigned), and
    the parameters from the common block `cparam` (`C110_frozen`). So a second run with `order = 1`, new `limiters` or a state with another `problem_data`
    gives the results of the old settings without a message; with `dimensional_split` switched on in between, `step2ds` propagates transverse waves with
    the normal solver in place of the transverse one (`C110_splitting_violated`). As `cparam` belongs to the module, two solvers with one Riemann
    solver overwrite each other's parameters (`C110_two_solvers_violated`).
88. `compile_library` can return with a module that is not made of the current sources: the status of the object compiler is not looked at, so a source that no
    longer compiles leaves its old object in the module (`C111_failed_compile_violated`); a source written in the same tick as the module counts as older
    (`C111_same_time_violated`); other flags (`C111_flags_violated`) and the removal of a file that hid one in the library (`C111_removed_violated`) are not
    noticed; `util.f` and `util.f90` share `util.o` (`C111_one_object_violated`). A path that does not exist raises `TypeError` in place of the search that
    the docstring promises, because `os.path.split` returns a pair (`C111_path_violated`). Under Python 3, where `f2py` writes `name.cpython-….so`, the module
    is never found and `f2py` runs at every call (`C111_suffix_violated`).
89. `run_serialized` has no `try … finally`: if the function raises an exception on the first process, as `inplace_build` does when the build fails, the first
    process never enters the barrier and all others wait forever (`C112_exception_violated`); the same if one process does not make the call, because it finds
    the module that the first process has just built (`C112_fewer_calls_violated`). The docstring says that it is safe to execute in parallel. The decorated
    function also drops the value of the function and returns `None` (not modelled).
90. The Python kernel of SharpClaw takes the Courant number over one interface too many, the one between the first two ghost cells on the left of the grid
    of the process (`LL = num_ghost - 1`, and `s[LL-1:UL-1]`), where `recon.weno` has not reconstructed: the states are cell averages. So on a periodic grid the
    Courant number, and with it the steps, depend on where the grid begins (`C96_python_violated`: 1.25 and 1.199 for three cells), and with several processes
    it is not the one of the serial run (`C95_python_violated`; the code has the comment "THIS WON'T WORK IN PARALLEL!"). In a mirror it changes
    too (`C108_python_violated`). The increments of the cells are not affected (`C96_python_partial`, `C95_python_partial`, `C108_python_partial`), and without reconstruction (`lim_type = -1`) nothing is (`C96_python_first_order`,
    `C95_python_first_order`), except that in a mirror the Courant number changes if aux values are not continued like the solution
    (`C108_python_first_order_partial`, `C108_python_first_order_violated`: 5 and 4 for three cells).

## 7. Reading `seeded/LOG.jsonl`

Each line is one wrong program. `theorems_failed` lists the declarations that stopped compiling first;
everything that imports them is then not rebuilt. So `failed_at` matters:

* `property theorem`: a theorem `Cnn_...` itself no longer proves.
* `supporting lemma only`: a helper lemma broke. Such a lemma often restates the edited definition and
  breaks under any edit, so this alone is **no** evidence that the property theorem is strong enough.
  `review` then says which clause of which theorem is false of the edited program. That judgement was made
  by reading the statement. It is not machine-checked.
* `nothing`: the edit survived; `note` says why.

Most lines of the log are of the second kind. The review found edits that no property theorem excluded
(aux flags and functional file of a run, now in `C31_frames` and `C31_functionals`), and edits whose claim
was logged wrongly because the property stays true of the edited program. Lines marked `not reviewed yet`
are open.
