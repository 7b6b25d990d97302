# Formal model of pySailingVLM in Lean 4

## Approach

Each Python function that carries semantics is translated, branch by branch, to a
Lean definition in `lean/Verif/Model/*.lean` (namespace `PySailing`). Every
definition cites the file and lines it models. Independent specifications
(Rodrigues' formula, the Biot-Savart integral, mirror reflection, quadrilateral
area, ...) live in `lean/Verif/Spec/*.lean` and never mention the model. Property
theorems live in `lean/Verif/Props/*.lean`, one file per group of properties, named
after the property ids. Helper lemmas live in `lean/Verif/Lemmas/*.lean`.

## Trusted base

* Lean 4.33.0's kernel and the Mathlib definitions used in statements.
* Axioms: only `propext`, `Classical.choice`, `Quot.sound` (checked with
  `#print axioms`; `vcheck` reports them). No own axioms, no `sorry`, no
  `native_decide`, no `bv_decide`.
* The faithfulness of the hand translation Python -> Lean, under the modelling
  decisions below.

## Modelling decisions (what is abstracted)

* **Numbers.** IEEE doubles are modelled by exact reals. C128 shows that
  the solver in exact reals is the limit of the solver with rounded operations, C131 shows it for the
  whole free wing, C132 for the whole calculation of sails, C134 for a run
  from the settings to the sheet `Integrals`; C118 and C125 replace the
  linear solver and all routines between lattice and circulations by arbitrary inexact ones. Elsewhere
  rounding is not modelled. Wherever the code would divide by zero, take a square root or
  logarithm outside its domain, the model has an explicit error value
  (`PyErr.nonFinite`) or the theorem has an explicit guard; Lean's `x/0 = 0` is never
  relied on in a property statement.
* **Exceptions.** `sys.exit`, `assert`, `ValueError`, `KeyError`, `IndexError`,
  `LinAlgError`, `UnboundLocalError`, `TypeError`, `AttributeError`, `ZeroDivisionError` are values of
  `PyErr`; functions that can raise return `Except PyErr a`. `assert_almost_equal`/`allclose` are
  modelled with their tolerances.
* **Arrays.** 1-D arrays are lists, meshes are lists of lists (rows); numpy
  `array_split`, `split`, `reshape`, `concatenate`, `linspace`, `interp`, negative indices are
  modelled with numpy's semantics. Arrays of a solved lattice are functions on `Fin K`.
  The loops compiled by numba are sequential in the pinned commit (no `prange` is active), so there is
  no schedule to quantify over.
* **Linear solve.** `np.linalg.solve(A, b)` is the unique solution when `det A != 0` and
  `LinAlgError` otherwise. In C118 it is an arbitrary function instead (`Model/AnySolver.lean`).
* **nan.** Before the no-flux check a `nan` ends in `ValueError` (`nanTrap`); after it, `nan` is a value
  that is written or drawn (`nanAsNone`).
* **Program runs.** `run` is the whole of `cli.main()` after the import of `variables.py`: the list of
  outputs in order and the way the program ends.

### Modelled, function by function

| file in /repo/pySailingVLM | model |
|---|---|
| `rotations/geometry_calc.py`, `rotations/csys_transformations.py` | `Model/Rotations`, `Model/Csys` |
| `thin_airfoil/vlm_airfoil.py`, `solver/mesher.py`, `solver/panels.py` | `Model/Mesh`, `Model/Arrow` (`VlmAirfoil.plot`) |
| `yacht_geometry/*` | `Model/Sail`, `Model/Hull` |
| `inlet/*` | `Model/Wind` |
| `solver/velocity.py` | `Model/Velocity` |
| `solver/coefs.py`, `solver/forces.py`, `solver/vlm.py` | `Model/Solver`, `Model/Coefs`, `Model/Results` (moments) |
| `runner/aircraft.py` | `Model/Aircraft`, `Model/Report` (`get_info`) |
| `results/inviscid_flow.py`, `results/save_utils.py`, `solver/additional_functions.py` | `Model/Results`, `Model/Drawing` (`plot_mesh`), `Model/Excel` (sheets, number formats, conditional formats) |
| `solver/interpolator.py` | `Model/Interpolator`, `Model/Spline` (scipy's spline by its characterisation) |
| `runner/container.py`, `runner/sail.py` | `Model/Runner`, `Model/Wind` |
| `solver/panels_plotter.py` | `Model/Plotter`, `Model/Drawing` (`display_panels_or_rings`), `Model/Arrow` (`Arrow3D`, with matplotlib's `proj_transform`) |
| `runner/cli.py` | `Model/Main` (calculation and outputs), `Model/Args` (command line, with the behaviour of `argparse` for the declared option), `Model/Cli` (import of `variables.py`, files, interruptions, exit status) |

### Not modelled

Rounding of intermediate results, except in the solver (between panels and winds on the one side and forces on the
other, C118, C125, C128), in the free wing (C131), in sails with their winds (C132) and in a run up to the sheet
`Integrals` (C134); rendering by matplotlib and holoviews; column widths and borders of
the Excel file; directories that cannot be written and other names of one directory (links, relative
paths); the text of the help and usage messages of the command line (its parsing is modelled, C103); printed text other than the
report of a wing (C130);
numba compilation. scipy's `Rotation.from_rotvec` is modelled by its documentation, and
`splev(splrep(s=0))` as the twice differentiable piecewise cubic with the knots FITPACK chooses
(`Spec.IsSpline`; existence and uniqueness are proved).  That scipy computes it is trusted.
The Excel file is modelled by the documentation of pandas and of the file format: `to_excel(float_format)`
writes the nearest decimal, `from_records` of a dictionary with an index sorts the keys, the first
conditional format that applies to a cell wins, text compares as larger than any number and a blank
cell as zero.

### Layout of the Lean project

`Spec/*` specifications that do not mention the model's helpers; `Model/*` the model; `Lemmas/*`
helper lemmas; `Props/*` the property theorems with their non-vacuity examples; `Demo/*` concrete
configurations (a lattice of one panel and its image, a complete command line run, a wing) that are
used as witnesses.

## Plan per property

| id | model | proof idea |
|----|-------|-----------|
| C01 | `rotationMatrix` (quaternion form) | half-angle identities turn the entries into Rodrigues' matrix; isometry and cross product from the spec |
| C02 | same | Rodrigues' operator is a one-parameter group |
| C03 | `rotateAboutLine` (the 7-fold matrix product) | conjugation by the two alignments sends the axis to z; direct algebra; partial: guard "axis not parallel to x", plus refutation for the parallel axis |
| C04 | `rotatePointsAroundLe` both branches | pointwise |
| C05 | `CsysT` | matrices are mutually inverse; partial under sign preservation, refutation otherwise |
| C06 | same | conjugation of the x rotation by the mirror is its inverse |
| C07 | `toCenterline` | rotation about z |
| C08 | same | refutation with a concrete leeway; partial: holds for zero leeway; exact error is 2*leeway; exact: right if and only if the vector is vertical or the sine of the leeway is 0 |
| C09 | `discreteSegment` | list lemmas |
| C10 | `camberLine`, `VlmAirfoil` | completing the square |
| C11 | slope, surfaces | `HasDerivAt` on both branches and at the joint |
| C12 | `makeAirfoilMesh` | list lemmas + C10 |
| C13, C14 | `panelsSpanwise` | flatMap over ranges indexing |
| C15 | `panelArea` | partial (trapezoids); refutation for a general quadrilateral |
| C16 | `sailGeometry` | line points fixed by C03, distances preserved |
| C17 | `sailGeometry` | partial (palindromic chordwise position of max camber); refutation otherwise; exact condition for a mirrored image (`C17_exact`) |
| C18 | `twistMode` | refutation: mode ignored; partial: unknown mode KeyError, real twist |
| C19 | `SailFactory` | trigonometry; arcsin branch -> partial and refutation |
| C20 | `SailSet` | list algebra |
| C21, C22 | winds | real analysis; partial + refutation for negative angles and for low heights |
| C23 | `windProfileOf` | refutations (misspelt name, silent fallback), partial |
| C24 | inlet | abs of z |
| C25 | `vortexLine` | explicit antiderivative, fundamental theorem of calculus, componentwise |
| C26 | kernels | bilinearity, linear isometries |
| C27 | `vortexInfiniteLine` | `Tendsto` |
| C28 | rings, horseshoes | sums of C26, C27 |
| C29 | scale | partial outside the core at both scales; refutation |
| C30 | `vlm` pipeline | unique solution of the linear system, linearity of the kernels |
| C31 | `noFlux` | loop induction |
| C32, C33 | `vlmVariables` | index arithmetic on blocks |
| C34, C35 | `forceWrapper` | index arithmetic, cross product algebra |
| C36-C38, C40 | `vlm` | equivariance of coefficients, uniqueness of solution |
| C39 | `vlm` with mirror involution | uniqueness of solution |
| C41 | `Aircraft` | refutation by the span symmetry |
| C42, C43 | pressure, `getC` | algebra, list sums |
| C44 | dataflow of `cli.main` | refutation |
| C45-C49, C51 | results | list sums, state machine |
| C50, C52 | girths, interpolation | order on reals |
| C53 | `Sail` validation | case analysis; partial + refutations |
| C54 | `arctan` | partial x > 0, refutation x < 0 |
| C55 | theory | algebra, limit |
| C56 | `displayWinds` | loop invariant, index arithmetic of `np.split` |
| C57 | `hullGeometry` | C06 for the deck points, isometry for the keel point |
| C58 | `calcForceWrapper` | telescoping sum |
| C59 | `csysInit` | Rodrigues' formula against the scipy matrices: equality, so within any tolerance |
| C60 | `wakeDefined` | equality case of Cauchy-Schwarz |
| C61 | `sailGeometry` | case analysis of the error branches |
| C62 | `windIntegral` | C21 at the reference height |
| C63 | `aircraft`, `vlmWithWinds` | both are the same composition; on an even flat grid a quarter chord behind a panel is the quarter point of the next one |
| C64 | `aircraft` | mesh lemmas |
| C65, C66 | `sailSetOf` | case analysis; C16, C52 and C81 |
| C67 | `displayCeClr` | algebra |
| C68 | `displayPanels` | zip lemmas; refutation for the mode of optimal circulation |
| C69 | `plotCp` on `zeroMesh` | index arithmetic on blocks |
| C70 | `axisLimits` | floor and ceiling; refutation for low rigs |
| C71 | `run`, `emit` | induction over the outputs |
| C72 | `run` | every output step returns; refutations for two accepted configurations |
| C73 | `run` | C45, C51 composed with C65 |
| C74 | `run` | C37, C38 composed through all stages |
| C75 | `run` | the selected branch never reads the data |
| C76 | `run` | C46 with the sign convention of the moment arms; refutation for the centre of effort |
| C77 | `run` | C16, C19, C52, C81 composed |
| C78 | the field of the solved lattice as a function of the point | directional derivatives of both kernels in the form `d ↦ (G·d) c + k × d`; `G ⟂ c`; the filament is zero near points inside its core |
| C79 | as C78 | the curl of a filament from `a` to `b` is the difference of two pole fields, which telescopes round rings and horseshoes |
| C80 | as C78 | explicit bounds for both kernels, summed over the lattice |
| C81 | `fitpackSpline` | uniqueness: a spline through zeros has a growing chain of end slopes, so vanishes; existence: dimension count with truncated powers |
| C82 | `interpolateGirths`, `sailSetOf` | C52 for polygons; refutation by a parabola for splines |
| C83 | `workbook` of the tables of `run` | which conditional formats reach a cell, first one wins; the keys of all tables; refutation for rows without a coordinate system |
| C84 | `workbook` | rounding to nearest; C73 with three rounding errors |
| C85 | `run` | the mirror image in the centre plane is an isometry: equivariance of every step from the sail sections to the sheets; partial: sails without camber; exact: otherwise the run on the other tack exits with status 1 (`C85_exact`) |
| C86 | `vlm` | scaling law of each kernel; the solution of the scaled system is the scaled solution (uniqueness); partial: points stay inside or outside the vortex cores; refutation: one panel of 1 m and of 1 cm |
| C87 | `aircraft` | the mirror image of the lattice in the plane of symmetry is the lattice with the spans numbered backwards; uniqueness of the circulations |
| C88 | `aircraft` | rotation about the span and reflection in the x-z plane map the panels of one wing to those of the other; general transformation law of the solver |
| C89 | `vlmWithWinds`, `aircraft` | zero circulations solve the system if and only if the right-hand side is zero; regular matrix |
| C90 | `callMain`, `writeAll`, `Interrupted` | every output has one target in the list of own files; induction over the outputs and over the interruption |
| C91 | `Ran`, `RunsElsewhere` | induction over the history with C90; the clash of names by composing two runs |
| C92 | `findVariables`, `loadVariables` | induction over the search path; state of the process (`sys.modules`) |
| C93 | `writeOutput`, `callMain` | C90 with the settings of the shipped case files |
| C94 | `Ending.status`, `callMain` | cases of the ways to end; C71 for rejected configurations |
| C95 | `run`, `saveResults`, `sailJib`, `sailMain` | C49 applied to the sails of the run; a workbook implies that no girth divides by zero |
| C96 | `prepareGeometry`, `sailGeometry`, `initialiseSectionPoints` | C77 for both meshes; the polygon and the spline through the same data are unique, so they agree at the common fractions |
| C97 | `vortexLine`, `vortexInfiniteLine`, `vlm` | norm of the cross product and of the Biot-Savart factor, inside and outside of the end points; sum over the panels |
| C98 | `run`, `windGetProfile`, `trueWindAt`, `windIntegral` | the run depends on the wind only through its values at heights; congruence through all stages |
| C99 | `vlm`, `sailSet`, `extractAboveWater` | permutation of the blocks as a transfer of the linear system (as for C39) |
| C100 | `vlmWithWinds`, `vlm`, `vortexLine`, `solveEq` | limits of the kernels, of determinant and adjugate (so of the inverse), and of all results computed from them |
| C101 | `plotMesh` | case analysis of the dimensions; partial: two dimensions, or x, y, z in this order; refutation for every other order of three dimensions and for the default colour of a second mesh |
| C102 | `displayPanelsOrRings` | unfolding against `displayPanels`; no picture without points |
| C103 | `parseCli`, `callProgram` | the classification of a word is shown equivalent to a grammar of option spellings and values; induction on the number of words |
| C104 | `hullGeometry`, `displayHull`, `run` | points of the lines computed from the airfoil; thickness shown not negative; partial: symmetric up to 3 percent; refutation at the stern |
| C105 | `run`, `displayScene` | the parts of the picture (C56, C67, C68) composed for a whole run |
| C106 | `sailGeometry` for data that include a foot at the water level (`SailArgs`) | the rows above the foot as in C04; the foot row is heeled by the opposite angle; exact condition for the points to be in place |
| C107 | the dataclasses of `runner/container.py` (`dataclassInit`), the dictionaries of a settings file, `runSettings` | case analysis on the lookup of a name; dictionaries whose values have another type than the annotated one are not modelled |
| C108 | the shipped settings files (`Verif.Model.Settings`) | the spline through constant data is constant by uniqueness; then C72 and C77 |
| C109 | `Aircraft` with a flat rectangular wing, nothing assumed about the solver | the influence matrix is an M-matrix: closed form of the ring kernel, row sums, and the exact solution of the two-dimensional flat-plate lattice (Lagrange interpolation) as a supersolution |
| C110 | runs with a flat upright rectangular main sail, nothing assumed about the solver | sail and image are one planar lattice (`Verif.Lemmas.FlatSail`), then as C109; C72 for the outputs; the shipped rectangle settings as instance |
| C111 | the lift array of a flat sail: side, direction and bound | rows of a strip telescope to the circulation at the trailing edge; sign and bound from C110 |
| C112 | two winds of the same direction on one flat sail | the influence matrix up to a factor is an M-matrix (off-diagonal entries not positive, positive row sums), so its inverse is monotone |
| C113 | a flat sail as part of a larger one | principal submatrix of the same M-matrix; the missing strips only add non-negative terms |
| C114 | a flat sail with its image against the doubled `Aircraft` wing | the two panel orders are related by a permutation and a translation; solver invariance under both (`Lemmas/HalfWing.lean`) |
| C115 | flat wing and flat sail with one panel along the chord | the wash at the bound vortices is a symmetric matrix with negative off-diagonal entries and nonnegative row sums, so the drag is a nonnegative quadratic form (`Lemmas/PlanarDrag.lean`); half of it above the water by C39 |
| C116 | load along the span of a flat wing, and of a flat sail standing on the water | equal strips: the influence of a strip depends on the distance only and gets weaker with it (convexity of the ring kernel, `Lemmas/KernelConvex.lean`); reflection argument and minimum principle (`Lemmas/StripRow.lean`) |
| C117 | two flat sails of different height made of the same strips | sail and image are a row of 2n strips; every strip of the shorter row is dominated by strips of the longer one, the strip at the water is the largest (C116) |
| C118 | `Vlm` with any function in place of `np.linalg.solve` | the no-flux check bounds the residual; for flat sails the influence matrix is an M-matrix and the flat plate bounds its inverse by chord/4 |
| C119 | two runs with winds in the same direction | same matrix, right-hand sides differ by eps sin(alpha); bound as in C118 |
| C120 | upright flat sails with a decreasing chord (triangles, roaches), with their mirror images; the runs with a main sail or a jib | the influence matrix is an M-matrix: kernel of a slanted vortex line in closed form, monotone along the line (`Lemmas/TaperKernel.lean`), row sums by comparison with the outline (`Lemmas/TaperLattice.lean`), panels of the code (`Lemmas/TaperBlocks.lean`, `TaperSail.lean`), interpolated chords are concave (`TaperShape.lean`) |
| C121 | lift of the strips of these sails | horizontal part of gamma V x l of each panel telescopes to that of the last row; signs and monotonicity from the inverse-positive matrix |
| C122 | upright flat sails of any planform with a leech of bounded slope, with their mirror images; runs with a main sail or a jib, both interpolations; the run of `examples/sweep_variables.py` | same M-matrix argument: row sums are positive for every planform; the off-diagonal signs need the wind close to the sail for the slope of the leech (`Taper.Fits`, `RearOk` in `Lemmas/TaperKernel.lean`); the rows of any interpolation are joined by a polygon (`Lemmas/SlopedShape.lean`) |
| C123 | the sails of C120 and C122; any routine for the linear system; two winds of the same direction | the row sums of the matrix of C120 are bounded below by `H/(X²+4H²)`, whatever the mesh (`TaperLattice.row_sum_ge`, from the two ends of the wake); a matrix with non-positive entries off the diagonal and such row sums has a bounded inverse (`Lemmas/TaperBound.lean`) |
| C124 | `vlm` for a `FlatSail` with the foot on the water, made of ever more strips of the same height; `aircraft` for ever more strips of the same width | the equations of a row of strips are a Toeplitz system in blocks; the shortfall of its row sums against those of the infinite row tends to 0 with the distance from the ends, so their mean does (Cesàro), and the mean circulation tends to that of the plate of infinite span (`Lemmas/TallRow.lean`: `farKernel_plate`, `tall_mean`); by C116 (more load below) every strip of the lower half is at least the mean |
| C125 | `circulationsBy` (`Model/Rounded.lean`): `Vlm.__post_init__` up to the no-flux check with every routine a parameter; `Spec/Rounded.lean` says what accurate routines and a stable lattice are | the exact flow of the computed circulations is at most `1e-12 + η₂ + η₃ + η₁ Σ|γ|` (`accurate_flow`), so stability bounds the distance to the exact ones; a regular matrix is stable, for flat sails with the row sums of C123; fixed-point argument for the bound in advance |
| C126 | `calculateSails` (`Spec/NearSail.lean`): `SailGeometry`, `SailSet`, `Vlm` in sequence; `NearSail`, `NearWind` say that settings tend to a limit | every node of the sail and of its image is a continuous function of the settings (`Lemmas/NearSail.lean`), so is the wind at a height off the water level; then C100. Rectangular lattices are off all switching surfaces (`Lemmas/OffSwitches.lean`) |
| C127 | `aircraft` (`Model/Aircraft.lean`); `NearWing`, `ConvWing` (`Spec/NearWing.lean`) say that arguments and attributes tend to a limit | nodes of the wing are continuous functions of the arguments, then C100 with one wind for all panels; coefficients by continuity of finite sums and quotients; rectangular wings are off all switching surfaces (`Lemmas/OffSwitches.lean`), solvable by C109 |
| C128 | `Model/Arith.lean`: the program from panels and winds to forces once more, every operation done by an arithmetic `A` in the order of the source; `Spec/Arith.lean` says what an arithmetic of accuracy `u` is, `Spec/Rounding.lean` what rounding every result (with overflow, underflow) is | with exact operations it is the program of `Model/Solver.lean`; each rounded operation tends to the exact one, hence (off the switches) every intermediate array does, also the solution of the linear system (backward stability, `det ≠ 0`); ε–u₀ form by contradiction along `u ≤ 1/(n+1)`; rounding to `p` binary digits is accurate `10 · 2^(-p)` |
| C129 | no new definitions: the solver of `Model/Solver.lean` and `calculateSails` of `Spec/NearSail.lean`. Two panels with the same control point and normal give equal rows of the matrix; repeated meshes keep the control points clear of the wakes, so the outcome is exactly `LinAlgError`; with orientation 0 the matrix is 0 |
| C130 | `Model/Report.lean`: the lines printed by `get_info`, with the text of `:.6f` as list of characters; `Spec/Report.lean` reads a decimal number back. Induction on the digits (`Nat.digits`) and on the number of decimals; rounding as `formatFloat` of `Model/Excel.lean` |
| C131 | `Model/ArithWing.lean`: `Aircraft.__init__` once more with every operation (also cosine, sine, square root, sums in any order) done by an arithmetic; `Spec/ArithWing.lean` says what accuracy `u` means for them | limits along a filter, step by step (`RefinedFull`), to the core of C128; contradiction along a sequence of arithmetics; exact operations give `Model/Aircraft.lean` by unfolding; the error of a left-to-right sum by induction |
| C132 | `Model/ArithSail.lean`: `SailGeometry`, `SailSet`, the wind profiles, `InletConditions` and `Vlm` once more with every operation (also logarithm, power, products of 4x4 matrices in any order) done by an arithmetic; `Spec/ArithSail.lean` says what accuracy `u` means for them | limits along a filter, step by step (`RefinedSail`: camber line, mesh, heel and leeway, twist, winds, panels), to the core of C128; contradiction along a sequence of arithmetics; exact operations give the exact model by unfolding; the error of a chain of matrix products by induction over the chain |
| C133 | `Spec/NearRun.lean` says that settings (`NearConfig`: numbers that may be absent, arrays) and workbooks (`NearWorkbook`: cells, integrals, wind sheet) tend to a limit; `run` is the whole program | interpolated curves are continuous in girths and values (`Lemmas/CurveConv.lean`, also for the FITPACK spline), so the sails built from nearby settings are near (`Lemmas/NearRun.lean`) and C126 gives the solver's arrays; every cell of the workbook is a continuous function of these (`Lemmas/NearBook.lean`), the highest point as a finite maximum; flat limits by C110 |
| C134 | `Model/ArithRun.lean`: everything before the first output of the program — default twists, interpolation of the section data, mounting points, the check of the rotation matrices, sails, solver, forces and moments, sheet `Integrals` — once more with every operation done by an arithmetic (arc sine, scipy's rotation matrices and splines are operations); `Spec/ArithRun.lean` says what accuracy `u` means for them | limits along a filter: interpolated curves (`Lemmas/ArithRunCurve.lean`), rig and sails (`Lemmas/ArithRunSail.lean`), C132 for the solver, sums and dictionaries uniformly in the keys (`Lemmas/ArithRunBook.lean`); contradiction along a sequence; exact operations give `Model/Main.lean` (`Lemmas/ArithRunExact.lean`); roundings are accurate (`Lemmas/RoundingRun.lean`); the shipped rectangle by C110 |
| C135 | no new definitions: solver and `run`. `Spec`: `leechDirection`, `sailNormal`, `acrossWind`, `WindAlong` | the force of a planar lattice is a quadratic form in the circulations (`Lemmas/PlanarSide.lean`): drag is the induced drag of C115 made strict, the velocity each horseshoe induces along the wind at the leading-edge vortices is bounded by its share of the wind as long as the wind is within 45° of the chord, so no strip is pushed to windward; sign of the circulations from C110, upper bound from C111; run level through `prepare_data` and the sheet `Integrals` |
| C136 | `Model/Plotter.lean`, `Model/Main.lean`: `nan` in the picture is the outcome `nonFinite` of `normalize` or of the division by the squared length of the force | no other step of the picture divides; the total force is read off the workbook row |
| C137 | `Model/Arrow.lean`: the object `Arrow3D` with the positions it holds, `do_3d_projection`, `draw`, and any sequence of calls | homogeneous coordinates are affine along the arrow; the place on the screen is a weighted mean of the images of the ends, the weights run through [0, 1]; induction over the calls |
| C138 | `airfoilPlot` | C10, point by point |
| C139 | `run` for `c` and for `inUnits u c` | geometry, wind, lattice, results and tables each commute with the change of units (C37, C38 and C86 for the lattice); partial: the absolute sizes do not distinguish the two lattices; refutation: areas below the threshold |
| C140 | `plotCp`, `coeffPlotData`, `plotSectionCoeff` in `run` for `c` and for `inUnits u c` | as C139; section coefficients by `getC_scaled` and `getC_size`; partial and refuted like C139 |
| C141 | `run` for `c` at rest and for `turnedScene angle c` | every function of the pipeline is equivariant under the turn about the vertical axis (`vlm_moved`, `sailSetOf_turn`, `inviscidFlow_turned`); the transform into the frame of the yacht turns by twice the angle, so partial and refuted there; the maps and plots stay the same and the picture turns (`C141_figures`, `C141_picture`; where the wind arrows start is not covered, it depends on the mean of angles in one turn) |
| C142 | `vlm`, `run` for a configuration with three winds | The wind enters the influence matrix only through the direction of the wakes (unit vectors), so winds from the same direction give the same matrix and the same solvability; right-hand side and added free stream are linear in the wind, the solution is unique (invertible matrix): circulations and velocities combine linearly, through `vlm`, `prepare` and `saveResults`. The roughness instance uses ln(h/z0) = ln(h/z1) + ln(z1/z0). Spec: `Spec/Superpose.lean`. |
| C143 | `run` of a configuration and of its other tack: `plotCp`, `coeffPlotData`, `displayScene` | The mirrored solution of C85 (`prepare_other`) is pushed through the figures: outlines come from the zero mesh (the sails before heel, leeway and twist), which without camber is the same on both tacks, pressure coefficients change sign, section lift and drag are quadratic in the sign; minimum and maximum of the colour scale are exchanged by the sign; arrows of the wind start at a point whose side is chosen from the apparent wind angle, hence the case of exactly 180°. Spec: `Spec/Tack.lean`. |
| C144 | `run` of settings tending to settings: `plotCp`, `coeffPlotData`, `plotSectionCoeff` (specification `Spec/NearFigures.lean`) | A small calculus (`Lemmas/PyConv.lean`): a computation that succeeds in the limit succeeds nearby with a value that tends; closed under sequencing, `mapM`, indexing, splitting and guarded division. With the convergence of the solver's arrays (C126, C133), of the points of the unrotated sails and of the panel areas it gives the figures step by step (`Lemmas/NearFigures.lean`). |
| C145 | `run` of settings tending to settings: `displayScene` with everything in it (specification `Spec/NearScene.lean`) | Convergence is carried through every function of the plotter by the calculus of `Lemmas/PyConv.lean` (`Lemmas/NearScene.lean`: maxima, rounding of the water size, slices, drawing loops, hull, force): `C145_picture`, concrete family `C145_demo`. The excluded limits are those where the code itself switches. |
| C146 | `run` of a configuration with a jib alone, and of the same with another `mast_LOA` (specification `Spec/JibMoved.lean`) | `make_jib` moves tack and head alike, the lattice moves by one vector without vertical part, the solver does not see it (`Lemmas/JibMoved.lean`, `Lemmas/JibMovedRun.lean`); the moments by linearity of the cross product. `C146_jib_along`, `C146_figures`; concrete run `demoJibAlone`. With a main sail as well the claim is false (the distance between the sails changes) and is not made. |
| C147 | `run` of two configurations that differ in the data of the rig only (specification `Spec/RigData.lean`: `SameButHull`) | The mounting points of `make_main_sail` and `make_jib` are the same, the checks and the sail set too, the hull differs in its lines only; the lists of effects are compared one by one (`run_sameSails`). `C147_main`, `C147_foretriangle`, for every configuration and every way a run may end. |
| C148 | `run` of two configurations, one with an additional section of a sail (specification `Spec/Stations.lean`) | A point on a segment does not change a polygon (`interp1_between`, induction on the sections below it), so the four interpolated arrays agree; the default twist is a straight line in the girth, so filling it in commutes with adding the section; the checks of `Sail.__post_init__` see arrays of equal lengths in both. `C148_main`, `C148_jib`. |
| C149 | `run` of configurations whose heel, leeway, rake or twist differ by full turns (specification `Spec/Turns.lean`) | The four matrices of the coordinate systems are the same (the quaternion changes sign, `rotationCore_turns`), so sail set, hull, solution and flow are the same but for the stored angle (`turned_prepare`); the workbook is compared column by column (`turned_save`). The twist is shifted through interpolation, repetition per point and rotation (`twistBlock_turns`). `C149_heel_leeway`, `C149_heel`, `C149_rake`, `C149_twist`. |
| C150 | `run` of configurations with different centres of lateral resistance (specification `Spec/Keel.lean`: `keelRows`, `withoutKeel`) | `prepare` differs in the place of the keel and the moment estimated from it only (`prepare_keel`); rows outside `keelRows` do not see it (`integral_keel`); the two arrows of the picture share everything but the start of the second. For the line of action: the rows of C73 determine the cross product. `C150_keel`, `C150_line`. |
| C151 | `run` with `fitpackSpline`, for sails whose data are straight lines over the girth (specification `Spec/Straight.lean`) | Both interpolations return the samples of the line (`C52_affine`, `C81_affine`), whatever the girths are; checks, sail set, solution and outputs then agree. `C151_straight`. |
| C152 | `run`, `inletConditions`, `displayWinds`, `saveResults` | true wind recovered from the apparent one; arrays that enter the solver, the forces and the plots unchanged; loop over the green arrows leaves the state alone |
| C153 | `run`, `inviscidFlow`, `flowSails`, `saveResults`, `displayCeClr` | two runs in lock-step; the loop over the sails keeps the rows of the forces; table columns compared after dropping those of the moments |
| C154 | `run`, `interpolatedSail`, `makeAirfoilMesh`, `vlmAirfoil` | camber line without camber does not depend on the place; linear interpolation keeps the accepted range; congruence through mesh, geometry and run |
| C155 | `run`, `windGetProfile`, `windPostInit` | the wind object and the check are the same; C98 |
| C156 | `run`, `WindObj.expFactor`, `WindObj.logFactor`, `windGetProfile` | the factor at the new height times the ratio is the factor at the old height, including the error cases; C98 |

Nothing on the list is inexpressible; aspects that are out of reach (floating-point
rounding) are listed under the modelling decisions.

## Findings: where the code does not have the property

For each of these the negation is proved with a concrete witness (`*_refuted*`), the part that holds is
proved as `*_partial`.

| id | finding |
|---|---|
| C03 | rotation about an axis parallel to x divides by zero |
| C05 | a point that the heel carries through the water plane is not restored |
| C08 | COG to COW rotates by +leeway instead of -leeway |
| C15 | panel areas add two overlapping triangles |
| C17 | the underwater sail uses the camber positions in unreversed order |
| C18 | `LLT_twist` is ignored (every mode is `real_twist`) |
| C19 | the jib always leans aft (arcsin) |
| C21 | logarithmic wind is negative below the roughness height |
| C22 | `get_app_alfa_infs_at_h` is wrong on the other tack |
| C23 | misspelt profile names mean logarithmic; exponential parameters are never checked |
| C29 | the vortex core is absolute, so scaling fails inside it |
| C41 | `Aircraft.CL` is taken from the spanwise force and is always 0 |
| C44 | the figure labelled lift shows drag and vice versa |
| C45 | two sails with the same name overwrite each other in the sheet |
| C47 | the centre of effort reproduces the moment only up to its part along F |
| C48 | M_total depends on the reference point |
| C53 | chords are not validated; missing sail objects end in `UnboundLocalError`; unknown `sails_def` passes |
| C54 | `AWA_fs` uses arctan, wrong for wind from astern |
| C68 | the SailOpt picture colours by pressure |
| C70 | axes do not contain the sails of low rigs |
| C72 | main sail without foretriangle base and reference heights below the water level end with `TypeError` |
| C76 | the centre of effort is drawn relative to the reference point |
| C82 | splines overshoot: cambers that are all positive can be interpolated by a negative one, and the program exits |
| C83 | in the sheet `IC_at_reference_height` rows that belong to no coordinate system are coloured like the next row that does |
| C85 | negative camber is rejected, so a cambered sail can be computed on one tack only |
| C86 | core radius and area threshold are absolute: with panels smaller than about 1.4 cm all bound legs of a panel are dropped at its own control point, without any message |
| C88 | the theoretical coefficients printed by `Aircraft.get_info` use `AoA_deg` alone; for a free stream that is not along the x axis they belong to another incidence than the computed ones |
| C91 | two runs of the shipped settings that start within one second have the same output directory: the second replaces the files of the first |
| C92 | the directory of `--dvars` is appended to `sys.path`: a `variables.py` in an earlier directory (the working directory with `python -m`) is used instead, without a message; a second `main()` in the same process ignores the option |
| C93 | the shipped settings take the working directory for the directory of the case: with `--dvars` elsewhere the run ends with `FileNotFoundError` after the workbook and before the figures, or archives the wrong file |
| C94 | a missing `variables.py`, an `ImportError` inside it and a rejected configuration all end with exit status 0 |
| C101 | `plot_mesh` with three dimensions not in the order 0, 1, 2 labels the axes in the requested order but plots x, y, z; a second mesh with the default `color2=None` is rejected by matplotlib |
| C104 | the deck outline is a cambered airfoil: the edges of the drawn deck meet 3 percent of the foretriangle base off the centreline at the stern |
| C106 | points at the water level are taken for points of the mirror image: the foot of a sail that starts at the water level is heeled to the wrong side |
| C107 | `LLT_twist` is a `ClassVar` of `Solver`: choosing a twist mode in the settings file is a `TypeError`. The array defaults of the dataclasses are accepted by Python 3.10 only; later versions refuse them when the module is imported (not modelled) |
| C139 | the area threshold `1e-14` is absolute: every run fails when its settings are written in a unit of length that is large enough (`C139_refuted`) |

## Tests of the theorems against wrong programs

`seeded/LOG.jsonl` has one line per edit of the model (in a scratch copy): definition, edit, claim
broken, theorems that fail to build, theorems tightened.
