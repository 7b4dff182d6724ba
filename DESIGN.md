# Formal model of SlipPY: design

Lean 4.33.0 with Mathlib (single-module imports). All sources are under `lean/Verif/`; `lean/Verif.lean` imports every module. The Python code in `/repo` is read as text and
never run.

## Layout

Each topic has its own folder `lean/Verif/<Topic>/`:

* `Model.lean`  – executable-style definitions that mirror the Python functions branch by branch. Every definition has a comment with the file and lines it models, and says where
  it is simplified.
* `Spec.lean`   – small specification vocabulary, written without the helpers of the model (in small topics it stands at the head of `Props.lean`).
* `Lemmas.lean` – helper lemmas (optional).
* `Props.lean`  – the property theorems, named `Cnn_…`. Each is followed by an `example` with concrete non-trivial data that meets its hypotheses. A false property gets a theorem
  with its negation and a concrete witness, and a `…_partial` theorem with what does hold and a note on what is missing.

Larger topics have several files of properties, or a model in two files.

## Conventions of the model

* Floating point numbers are real numbers, or those of an arbitrary ordered field. Rounding and overflow are outside of the model. Where `nan` or infinite values matter they are
  explicit: `Option` (with `none` for `nan`), the type `XR` of `Verif/XReal.lean` (real numbers with `inf`, `-inf`, `nan`, and exact arithmetic otherwise), or an outcome
  `notReal`. The contact solver (`Bccg`) and the load interpolation (`Interp`) are generic in the arithmetic, so the theorems on bounds and termination hold with rounding.
* Exceptions are values: `Except PyErr α`, the constructors of `PyErr` being the Python exception classes raised; messages are not modelled. Where a failing call may have
  changed something, the model returns the state as well.
* Arrays are functions on index types, functions of natural numbers of which those below the shape count, or lists. Mutation returns the new state; where aliasing matters
  (class-level attributes, arguments changed in place, references kept by other objects) the shared object is part of the state.
* Dictionaries with string keys are lists of items in the order of insertion (`Verif/PyDict.lean`).
* Division: a theorem never rests on `x / 0 = 0`. Either the divisor is non-zero by the hypotheses, or the division by zero is a separate outcome of the model.
* Warnings, printing and plotting are left out, unless a warning is the way in which a function reports failure; then it is a flag of the result.

## Trusted base

* The Lean kernel, and the axioms `propext`, `Classical.choice`, `Quot.sound`. There are no own axioms, no `sorry`, no `native_decide`, no `bv_decide`.
* The faithfulness of the reading of `/repo`: model definitions cite the lines they come from.
* The rules of Python and numpy that the models use: evaluation order, truth values, slices and index arrays (a repeated index in `a[i] += d` counts once), `arctan2` with signed
  zeros, comparisons with `nan`, `linspace`, `meshgrid`, boolean masks, broadcasting.
* External libraries are parameters of the model, arbitrary functions with the assumed behaviour written as a hypothesis of the theorem (and an example that meets it), or are
  replaced by the mathematical object they compute:
  * FFTW and `numpy.fft`: the discrete Fourier transform pair, from its definition; `fftconvolve`, `correlate`: the finite sums of their documentation.
  * LAPACK `dgtsv`: "returns a solution of the tridiagonal system"; `numpy.linalg.lstsq`: "returns a least squares solution if it returns".
  * `sympy.solve`: "returns all real solutions"; `brentq` and `scipy.optimize.root`: arbitrary functions, with the root property as a hypothesis where it is used.
  * Splines of scipy: arbitrary functions, "goes through the nodes" as a hypothesis where it is used.
  * `argsort`: any listing of the positions by increasing value.
  * Random numbers: arbitrary arrays of draws; for moments, uncorrelated or independent draws as hypotheses on an expectation functional, or Mathlib's Gaussian measure.
  * tinydb, JSON, zip, csv and mat files: what is put in comes out; tokenising belongs to the library.
  * numba compiles `_solve_row` without changing its meaning.

## What is modelled

By file of `/repo/slippy` (lines are cited at each definition):

| File | Modelled | Topic |
|---|---|---|
| `__init__.py` | `OverRideCuda` | Cuda |
| `contact/_material_utils.py` | conversion of elastic constants, `memoize_components` | Elastic, Memo |
| `contact/materials.py` | `Elastic` properties with their class-level state | Elastic |
| `contact/influence_matrix_utils.py` | `plan_convolve` (fftw), `elastic_influence_matrix`, `_solve_im_loading`, `_solve_im_displacement`, `bccg` | Conv, InfMat, Cg, Bccg (with the same contact in other units, and mirrored or moved), Contact (the contact problem that `bccg` is meant to solve), Bouss, Definite (the influence coefficients are positive definite) |
| `contact/_step_utils.py` | `make_interpolation_func`, `HeightOptimisationFunction` (its cache in HeightCache, its results and convolutions in HeightResults) | Interp, HeightCache, HeightResults |
| `contact/_model_utils.py` | `get_gap_from_model`, `non_dimentional_height` | Gap, Bouss, Exchange (the surfaces exchanged, and pairs of bodies with the same combined modulus) |
| `contact/steps.py`, `contact/models.py` | data checks, sub models, saving, order of steps | Steps, ModelSteps |
| `contact/static_step.py`, `quasi_static_step.py`, `lubrication_steps.py` | the load cases and movements handed to the solver; the CUDA switch in `solve`; `StaticStep.__init__` and the control in `StaticStep.solve` (root finder: any heights after the ends of the bracket) | Interp, Cuda, Static, LoadControl (the contact under a set load; states of quasi static steps with the same load), Again (steps and output requests in a second analysis) |
| `contact/outputs.py` | `OutputRequest`, `OutputSaver`, `OutputReader` with `search`, `_ArrayReader` | Outputs |
| `contact/lubricant.py`, `lubricant_models.py` | `Lubricant`, viscosity and density laws | Lubricant, Fluid |
| `contact/_lubrication_utils.py`, `unified_reynolds_solver.py` | tridiagonal solvers, the Reynolds solver and its construction | Tdma, Reynolds, ReynoldsNew (with Cavitation: what clipping negative pressures does, Mass: balance of the lubricant) |
| `contact/hertz.py` | parameter solvers, full solution, closures for pressure, displacement, stress, greatest shear stresses (`scipy.optimize.minimize` is a parameter) | Hertz, HertzFull |
| `contact/hertz.py`: `_k_root`, `_h`, `_i`, `_j`, `_displacement_elliptical` | all branches; `brentq` and `quad` exact, `ellipk` and `ellipe` are the integrals of the documentation of scipy (parameter m), no values for an auxiliary angle that is not a number | Ellipse |
| `contact/hertz.py`: `_sanitise_radii`, `_sanitise_material` | all branches; no arguments that are strings as a whole | HertzArgs |
| `contact/sub_models/epp_wear.py` | `WearElasticPerfectlyPlastic` | Epp |
| `contact/sub_models/friction_coulomb_model.py`, `tangential_pure_sliding.py`, `tangential_partial_slip.py` | `FrictionCoulombSimple`, `TangentialPureSliding`, `TangentialPartialSlip`, its memory of influence matrices and its convolution with elastic materials | Tangential, SlipMemo |
| `contact/materials.py`: `_IMMaterial`, `Rigid`; `_step_utils.py:solve_normal_loading` | `displacement_from_surface_loads`, `loads_from_surface_displacement`, first guess, split between two materials (influence matrices: any function; for the elastic theorems those of `Verif.InfMat`) | Materials |
| `contact/quasi_static_step.py`: `QuasiStaticStep` | `__init__`, `solve`, both controls (root finder: any heights after the ends of the bracket, returns any of them; sub models may change the surfaces arbitrarily) | Quasi |
| `contact/lubrication_steps.py`: `IterSemiSystem` | `__init__`, `solve` (Reynolds solver, lubricant and surfaces arbitrary), `update_interference` | LubStep |
| `surface/Surface_class.py`: `fill_holes` | all branches; the inpainting of scikit-image is an arbitrary function | Holes |
| `surface/alicona.py` | `alicona_read` (bytes of the file, images by path; conversions of text and bytes to numbers arbitrary) | Alicona |
| `contact/models.py`: `ContactModel.solve`, `data_check`; `contact/outputs.py`: `OutputSaver` as a context manager | files, open files, standard output; checks and steps print and may raise; no buffers | RunFiles |
| `contact/models.py`: `ContactModel` | output directory of `__init__` (file system as a set of paths), `add_output`, `_model_check` | ContactModel |
| `surface/read_tst_file.py` | all functions (bytes of the file; decoding of text and conversions to numbers arbitrary) | Tst |
| `contact/_step_utils.py`: `solve_normal_interference`, `get_next_file_num` | all branches (the material of the second branch and `argpartition` are arbitrary) | Interference |
| `contact/sub_models/contact_stiffness.py` | `ResultContactStiffness` | Stiffness |
| `contact/sub_models/*.py` | declared and used names of all sub models | SubNames |
| `surface/Surface_class.py` | geometry setters, wear, mask, arithmetic, resampling, interpolation, `_AnalyticalSurface`, combinations, operators between classes, `read_csv`, `read_mat` | SurfaceGeo, Wear, Mask, SurfArith, Analytic, Mixed, Csv |
| `surface/Surface_class.py`: `get_fft`, `get_acf`, `get_psd` | all branches, for profiles with two axes | Spectra |
| `surface/Surface_class.py`: `__eq__` of `_Surface` and `_AnalyticalSurface` | all branches; the text of `repr` only where it decides, arrays in `__dict__` only of the same shape | Equal |
| `surface/FFTBased.py`: `ProbFreqSurface`, `check_coords_are_simple` | all branches up to the first `linspace`, the rest arbitrary | ProbFreq |
| `surface/Surface_class.py`: `Surface.__init__`, `assurface`, `read_surface` | all branches; files by what their readers find | SurfaceGeo (New) |
| `contact/materials.py`: `_jac_im_getter`, `influence_matrix` of `Elastic` and `Rigid` | the Jacobian from the component on, the dictionary of components | Jacobian |
| `surface/Random.py`: `RandomFilterSurface.linear_transform`, `_initial_guess` | all branches for shapes of two positive integers; the minimiser is any function of objective, gradient and first guess; a first guess with `nan` is not followed further | Filter (Linear) |
| `surface/Random.py`: attributes of `RandomFilterSurface` | all calls as a state machine; what `set_moments` and `discretise` make of complex filters and quotients by zero are not followed further | FilterState |
| `surface/ACF_class.py`: `ACF.__init__`, `__call__`, `__array__` | which sources work, what is raised (spline and `np.asarray` arbitrary) | AcfNew |
| `contact/lubrication_steps.py`: `IterSemiSystem.data_check`, `provides` | the check and the names in the states | LubCheck |
| `surface/Random.py`: `RandomPerezSurface.__init__` | the choice of heights and `exact`, with the first lines of `discretise`; no lists of rows of different lengths | Perez (Init) |
| `surface/Surface_class.py`: `show` of `_Surface` and `_AnalyticalSurface` | property names, kinds, lists of plots, the data handed to matplotlib (which may refuse), the state afterwards | Show |
| `contact/materials.py`: `Elastic.speed_of_sound` | speeds and the stored density | Elastic (Sound) |
| `surface/Surface_class.py`: `subtract_polynomial`, `roughness`, `get_mat_vr`, `get_summit_curvature`, `find_summits` of surfaces | choice of the mask, what is handed on, the surface afterwards | Rough (Methods) |
| `__repr__` of surfaces and elastic materials | texts from texts of values, constructors of the surfaces of `Geometric.py` | Repr |
| `surface/roughness_funcs.py`: `_check_surface`, `low_pass_filter`; the method of the surface | all branches; `scipy.special.j1` is the Bessel function (Poisson's integral), `convolve2d` the sum of its documentation | LowPass |
| `contact/influence_matrix_utils.py`: `_plan_cuda_convolve` | together with the FFTW version, with the half spectrum, flat inputs and domains | Conv (Backends) |
| `surface/Geometric.py` | the shapes | Analytic |
| `surface/roughness_funcs.py` | `find_summits`, `roughness` (all 16 parameters; the functional ones for profiles with two rows and columns or a mask, `nan` only for the first nine), `get_mat_vr`, `get_summit_curvatures`, `subtract_polynomial` | Rough, mirrored and turned surfaces in Rough (Turned, TurnedBearing), surfaces levelled differently in Rough (Levelled), other units in Rough (Units) |
| `surface/ACF_class.py` | construction and evaluation | Acf |
| `surface/FFTBased.py` | `HurstFractalSurface`, `_conj_sym`, `DiscFreqSurface` | Fractal, DiscFreq |
| `surface/Random.py` | `RandomPerezSurface.discretise`, `RandomFilterSurface` (discretise, FIR, objective functions and gradients, moments) | Perez, Filter |
| `surface/_johnsonsl.py`, `johnsondists.py` | densities, distribution functions and quantiles at single numbers; what `rv_continuous` does with them is outside | JohnsonSL |
| `surface/_johnson_utils.py` | fits by quantiles, fits by moments, the iterations of the unbounded and the bounded fit and the sums of `get_moments` (`Iterations.lean`) | Johnson |

## What is not modelled

* Floating point rounding, except where the model is generic in the arithmetic; data types other than those mentioned in the model.
* The CUDA variants other than the planned convolution (the same text with cupy), titles, labels and the layout of plots, the gui-like helpers.
* In `lubrication_steps`: infinite and `nan` values (a set load of zero), grids that change during a step, lubricant sub models that overwrite entries of the step.
* The iterations inside of `sb_fit` and the skewed case of `su_fit`, numerical minimisation and root finding, `scipy` splines.
* The low pass filter before finding summits (an arbitrary function there), `get_height_of_mat_vr`, `vol_of_void_mat`.


## Properties: plan and result

The plan says how the property is modelled and proved; the result is the one in `MANIFEST.json`. `partial` means that a part is missing or, mostly, that the property is false of the code as it stands: then the negation is proved with a witness, together with what does hold.

* **C01** Any pair of elastic constants determines the same material.
  * Plan: `Elastic/Model.getProperties` mirrors the 15 branches over ℝ with exceptions as values. Spec: `Isotropic p` given by K,G>0 and the defining relations. Prove round trip for all pairs; Lam+v always raises TypeError and E+M takes the wrong root for v<0: negation theorems and a partial theorem.
  * Result (partial): Proved for all isotropic materials and all pairs except {Lam,v} and {E,M} with negative Poisson ratio. The full statement is false of the code: {Lam,v} always raises TypeError (l.279 calls a number), {E,M} takes the wrong root for every v<0; both negations proved.
* **C02** Malformed elastic property sets are always rejected.
  * Plan: Same model over association lists with string keys; prove rejection for all other key sets and invariance under swapping.
  * Result (proved): Rejection of wrong counts and unknown names, acceptance of every other pair, order independence.
* **C03** A newly built two-property elastic material ignores everything that was built before.
  * Plan: State machine `Elastic/Shared`: class-level dict and list shared by all instances, operations new/set/delete. Prove for every reachable state that construction from two properties yields exactly `getProperties` of the two.
  * Result (partial): False in full: after {E,v} and {G,K} materials every {E,v} construction raises TypeError (proved). Proved: in every state a construction that returns gives the right constants; programs using one pair of names never fail.
* **C04** Elastic materials do not influence each other.
  * Plan: Same state machine; the property is false: two concrete histories that agree on one material and differ in the value read. Partial theorem: with one material alive the property holds.
  * Result (partial): False in full (two proved counterexamples through the shared class attributes). Proved: reads of a material with two given properties are isolated from all operations on other materials.
* **C05** Memoised influence matrix components equal freshly computed ones.
  * Plan: `Memo/Model`: spec list, cache list of dictionaries, for an arbitrary pure function; invariant by induction over call lists. The non-static variant drops `self`: shown by counterexample.
  * Result (proved): For static functions, the variant used for the influence matrices. The method variant (static_method=False) always raises TypeError: proved negation.
* **C06** FFT convolution on a non-periodic axis is the exact finite superposition.
  * Plan: `Conv/Model`: pad, roll, cyclic convolution of length N (FFT pair), crop. Prove equality with the finite sum; the DFT pair is shown to compute the cyclic convolution from the definition of the DFT.
  * Result (proved): For the planned convolution (plan_convolve, fftw branch) including the transform, the padding, the roll by half the matrix span and the normalisation; next_fast_len is any function returning at least its argument.
* **C07** FFT convolution on a periodic axis is exactly periodic.
  * Plan: Same model, circular branch; shift equivariance and rejection of unequal sizes.
  * Result (proved): Cyclic superposition, shift equivariance, and rejection of unequal sizes.
* **C08** A unit load produces the influence coefficient of the true node offset.
  * Plan: Compose the index offsets of `elastic_influence_matrix` with C06 and with the 'same' crop of `fftconvolve`.
  * Result (proved): Offsets of the matrix filler and of both convolution routes agree for odd and even spans.
* **C09** Restricting a convolution to a sub-domain loses nothing.
  * Plan: Scatter/gather model of the domain option; linearity from C06.
  * Result (proved): Domain-restricted inner function is the superposition over the domain, exact for loads vanishing outside, linear.
* **C10** The influence matrix of a pair of bodies is the sum of the bodies' own matrices.
  * Plan: Closed forms as functions of materials; additive for zz, xy, xz, zy; counterexample for xx, yy with different Poisson ratios; half-given second material accepted: counterexample.
  * Result (partial): Proved for zz, xz, zx, xy, yx, yz, zy. False for xx and yy: the code uses only the first body's Poisson ratio (negation proved for every pair of different ratios). The rejection of half given second materials is false too (negation proved).
* **C11** Normal influence coefficients are symmetric.
  * Plan: Real logarithm identities on the closed form.
  * Result (proved): All offsets, spacings, materials; also lifted to the filled matrix with odd spans.
* **C12** Loads found from displacements reproduce the displacements.
  * Plan: CG loop over an arbitrary linear map; invariant residual = prescribed - computed.
  * Result (partial): Proved for operators positive definite on the prescribed entries, and in general whenever the loads returned are numbers. False in full: a vanishing denominator gives nan loads without the warning (proved). Exact arithmetic with nan/inf.
* **C13** The bound-constrained contact solver returns admissible pressures.
  * Plan: bccg loop over an arbitrary operator; invariant on the returned iterate.
  * Result (proved): For every arithmetic (the model is generic in the number operations, so floating point rounding is covered), any operator.
* **C14** Converged contact solutions satisfy the contact sign conditions.
  * Plan: bccg loop; postcondition on success, residual invariant for linear operators.
  * Result (proved): Exact arithmetic with nan/inf; any linear operator; any number of inner iterations; minimum pressure 0.
* **C15** The contact solver always stops and reports honestly.
  * Plan: bccg loop with fuel shown sufficient; failure flag characterised; starting at the exact solution gives 0/0: negation.
  * Result (partial): Termination and honest reporting proved for every arithmetic and operator. The last part is false: started from any solution of the contact problem the solver returns nan everywhere and reports failure; with a single node this happens from almost every start (proved). One node with a first step below the tolerance: C15_one_node_partial.
* **C16** Interval outputs fire exactly every n-th increment.
  * Plan: Counter state machine; closed form by induction on the number of calls.
  * Result (proved): For every real interval > 0 (rounded up), any history of steps and increments.
* **C17** Requested output times are all honoured.
  * Plan: Generator state machine with step changes; the constructor consumes one point: negation for absolute times; partial for the other kinds.
  * Result (partial): Proved for step_times and n_outputs_per_step. False for global_times: the first time is lost, and one more at the start of each step; a single global time never fires (proved). What remains true of global_times is proved.
* **C18** Whatever was saved can be read back.
  * Plan: Saver and reader over an abstract archive/dictionary; round trip by induction over records; strings beginning with the marker are misread: negation for those.
  * Result (proved): For numbers, strings that do not begin like an array code, and arrays; iteration for distinct non-negative times. Counterexamples proved for repeated times and for strings that begin like a code. tinydb/JSON and zip are assumed to return what was put in; codes are modelled to the character.
* **C19** Reader indexing by time and by field agree.
  * Plan: Reader model over lists of records.
  * Result (proved): Index by time and by field, absent fields, IndexError; repeated times: the two index orders differ (proved counterexample).
* **C20** A lubricant that passes its data check can always be evaluated.
  * Plan: `Lubricant` model with parameter names; soundness by induction over the insertion-ordered dictionary.
  * Result (partial): Proved for sub models with ordinary parameters (C20_checked_lubricant_evaluates_partial, with the order, the constructor and add_sub_model); false for required keyword-only or positional-only parameters and for a plain function with a parameter called self (C20_keyword_only_escapes, C20_positional_only_escapes, C20_self_parameter_escapes).
* **C21** Step-level data check is sound for sub models.
  * Plan: Step model with the aliased `provides` set; soundness; second check sees mutated set (negation of idempotence).
  * Result (partial): Soundness, the reported quantities and an exact characterisation of the problems are proved; repeated checks agree in error mode (C21_repeated_checks_partial) and may differ with warnings (C21_second_check_differs, C21_second_check_unsound). The ERROR_IF_MISSING settings are inverted (C21_default_settings_never_report, C21_suppressed_settings_report).
* **C22** Each increment is saved once, with everything requested.
  * Plan: Field-map model of `save_outputs`.
  * Result (partial): One record with every provided quantity that is asked for (C22_one_record_with_everything_requested_partial). False: a record with only the time is written when no request is active (C22_inactive_still_written); quantities that are not provided, including all surface attributes, are saved as the string 'surface_2_points' (C22_missing_saved_as_string).
* **C23** Model steps run in the order given, in a single pass.
  * Plan: List model of the ordered step dictionary.
  * Result (partial): Placement of steps with new names, uniqueness of names and the single pass are proved. False for a used name with a position (C23_collision_drops_new_step), a failed call makes the step unusable (C23_failed_add_locks_step), and a step can be put before the initial step unnoticed (C23_before_initial_fails). A named position means before, not after, the named step.
* **C24** Load cases interpolate between their end points.
  * Plan: Interpolation functions over ℝ.
  * Result (partial): Interpolation is proved exact at both ends and at every table entry. False in parts: with a single increment (the lubrication default) the value stays at its start; relative loading does not shift constants; relative with a varying rolling speed and a static relative load after the initial step raise KeyError. Only kind='linear' is modelled.
* **C25** The height-search cache stays ordered and truthful.
  * Plan: Cache state machine with sorted parallel lists; invariant by induction over operations.
  * Result (proved): For influence matrix materials and a non negative height at the maximum pressure. Extra theorems record that other materials, initial contact nodes and a zero target fail with an exception, and that the cache is stale after a change of the contact nodes.
* **C26** The undeformed gap has the prescribed interference.
  * Plan: Finite non-empty fields; minimum arithmetic.
  * Result (proved): Minimum, first touch and the pointwise difference (analytic, periodic, overlapping) for every off set the code supports, nearest interpolation in the discrete cases. Negations record that the sign of the off set differs between the periodic and the non periodic branch and that an off set of part of a grid spacing fails without periodicity.
* **C27** The cyclic tridiagonal solver solves the cyclic system.
  * Plan: Matrix identity (Sherman-Morrison) over a field for all n; mutation of the argument is part of the model: negation of 'nothing is mutated'.
  * Result (partial): For at least three unknowns the vector returned solves the cyclic system if the inner solves are exact (C27_solves_cyclic_system_partial); for diagonally dominant matrices it is the only solution, with any exact solver (C27_dominant); the correction is defined whenever the cyclic system is regular. False: every call changes the main diagonal of the caller although the documentation says that nothing is mutated. Also shown: the inner system may have no solution although the cyclic one has; exactly when integer arrays give a wrong result (C27_integer_right_hand_side, C27_integer_main_diagonal).
* **C28** Reynolds coefficients never use stale parameters.
  * Plan: Record with cached value; invariant by induction over setters.
  * Result (proved): All histories of the five setters and reads; missing parameters raise TypeError.
* **C29** Dimensional and non-dimensional forms are inverse.
  * Plan: Algebraic round trips.
  * Result (proved): Pressure, viscosity, density, gap and length. The code has no conversions for speed and load.
* **C30** Lubricant pressure is never negative.
  * Plan: Sweep model with arbitrary row solver; clipping invariant.
  * Result (proved): For any row solver, nan included (nan can only come from the row solver). Holds for the first solution and for later ones of the same shape; C30_stale_row_order shows that the row order is not remade after a change of shape.
* **C31** Viscosity and density laws are physical and dimension-consistent.
  * Plan: Real analysis (exp, rpow) on the closed forms.
  * Result (proved): For reference viscosities above exp(-9.67) in the Roelands law; below it the law falls, shown as a separate theorem.
* **C32** Hertz line contact: every way of specifying the problem gives the same contact.
  * Plan: Branch-by-branch model over ℝ; algebraic round trip.
  * Result (partial): Proved for every admissible choice of givens except the branch where both Poisson's ratios are missing; that branch is shown to be wrong (C32_both_poisson_missing), and a given load is shown to be ignored when the system is already closed (C32_given_load_is_ignored).
* **C33** Hertz point contact: every way of specifying the problem gives the same contact.
  * Plan: As C32 with cube roots (rpow).
  * Result (partial): Proved for every admissible choice of givens except the branch where both Poisson's ratios are missing, which is shown to be wrong (C33_both_poisson_missing). The numerical root finder is an oracle. C33_given_load_is_ignored records a finding.
* **C34** Missing Hertz material data is filled in consistently.
  * Plan: Branches that fill in material data; the branch with both Poisson ratios missing is wrong: negation.
  * Result (partial): Fill-in is consistent except when both Poisson's ratios are missing, which is shown to be wrong (C34_both_poisson_wrong). Exchange of the bodies is proved for both solvers.
* **C35** Hertz pressure distributions carry the applied load.
  * Plan: Bounds on sqrt; integral of the semicircle from Mathlib.
  * Result (proved): Line, spherical and elliptical contacts: zero outside, positive inside, bounded by the reported maximum, maximum at the centre, and the pressure integrates to the load (for the elliptical contact the root finder is assumed to return positive factors).
* **C36** Reported mean pressures agree with load over area.
  * Plan: Each shape branch; line and ellipse are wrong: negation; sphere proved.
  * Result (partial): True for spherical contacts (C36_sphere_partial). False for line contacts (reported mean is twice load over width and exceeds the maximum pressure) and for elliptical contacts (right only if the area happens to be 3/2).
* **C37** Principal relative curvatures of two bodies are computed for every orientation.
  * Plan: atan2 as Complex.arg; the internal-error branch is reachable: negation; sum of curvatures proved.
  * Result (partial): The relative curvatures are always right (C37_right_sum, C37_principal_curvatures), but the internal check refuses exactly the bodies that have the smaller curvature first in both bodies (C37_internal_error_iff) and two spheres at an angle. All other problems are solved, given that the root finder succeeds. The case of equal curvature differences at exactly ninety degrees depends on rounding and is excluded.
* **C38** Surface geometry stays consistent.
  * Plan: State machine of the four setters/deleters over an ordered field; invariant by induction.
  * Result (partial): Size, shape and profile agree after every history (proved). The extent agrees for all histories without exceptions in which shapes are whole numbers and extents have the proportions of the profile (exactly, or within the tolerance of the code). Refuted in general: C38_extent_can_disagree gives four histories, one of them an exception that leaves the attributes half changed. NaN spacing is not modelled.
* **C39** Wear is conserved.
  * Plan: State machine of wear calls; numpy fancy-index semantics (last write wins) modelled; invariant by induction.
  * Result (proved): For the stored profile and all histories, in exact arithmetic; invert_surface (never set in the package) is False.
* **C40** Wear is applied at the node where it happens, in full.
  * Plan: Same model; partial theorem for node-aligned positions; counterexamples for spacing 4 and duplicates.
  * Result (partial): Malformed input changes nothing (proved). The effect is right for positions at nodes and a spacing below 2, and for all positions if the spacing is exactly 1, without repeated nodes. Refuted in general: C40_fails (the index is x/gs + gs/2 instead of x/gs + 1/2, repeated nodes do not add up, indices wrap at 65536).
* **C41** Masks exclude exactly the requested points.
  * Plan: Mask model; list case always empty: negation; single value proved.
  * Result (partial): Proved for single values and arrays. Refuted for lists: a list never masks anything (C41_list_right_iff).
* **C42** Surface arithmetic acts point by point.
  * Plan: Array model with min shapes; subtraction of a number adds it: negation.
  * Result (partial): Proved for surfaces of equal and different spacing (spline as an oracle) and for sums and products with numbers. Refuted for the difference with a number, which adds (C42_subtract_number_adds).
* **C43** Rotating and shifting analytic surfaces composes.
  * Plan: Fold over operations; rotation matrices over ℝ.
  * Result (proved): For all sequences of rotate and shift calls. C43_shift_direction records that a shift moves the shape by the negative of its argument.
* **C44** Discretised analytic surfaces sample the height function at the grid nodes.
  * Plan: Index model of meshgrid and reshape.
  * Result (proved): In exact arithmetic (linspace).
* **C45** All interpolation modes agree at the grid nodes.
  * Plan: Interpolation model with spline contract at nodes; axis order and stale interpolator: negations; nearest mode proved.
  * Result (partial): Proved for nearest. Refuted for the spline modes: rows and columns are exchanged (C45_spline_exchanges) and replaced profiles are ignored (C45_stale). The spline is an oracle that goes through the nodes.
* **C46** Geometric shapes are bodies with a single highest point at the centre.
  * Plan: Closed forms; RoundSurface outside the ball returns 0: negation; partial inside.
  * Result (partial): Proved for pyramids; for round surfaces over the ellipse. Refuted outside of the ellipse, where the height is that of the top (C46_round_outside), and for flat surfaces with a slope (C46_flat). Lengths given as a list fail (C46_pyramid_lengths).
* **C47** Summits are exactly the strict local maxima.
  * Plan: Slicing model; iff theorem.
  * Result (partial): C47_summits (for 4 and 8 neighbours, with an arbitrary shape-keeping filter, for profiles of at least 2x2, with nan), C47_border, C47_no_neighbours and C47_eight_is_four are proved. False with a mask: C47_mask_overwrites shows that the points of the mask become nan in the caller's array, that the True points are hidden instead of used, and that mask nan finds no summit at all. C47_small: a profile with one row gives a result of two rows.
* **C48** Roughness parameters obey their defining laws.
  * Plan: Finite sums, Cauchy-Schwarz, power mean.
  * Result (partial): C48_sq_sa, C48_ssk_sku, C48_not_a_number (the zero profile gives nan) for values without nan, C48_scaling for whole calls with and without flattening and with masks. Lists of names: C48_list_partial without a mask, or with a mask for lists without sds, sz, ssc; C48_list_fails refutes the rest, since find_summits overwrites the shared array with nan.
* **C49** Developed area ratio is zero for flat surfaces and never negative.
  * Plan: Triangulated area model; flat surface gives a negative value: negation; lower bound of developed area proved.
  * Result (partial): False: C49_flat_is_negative gives the exact negative value for a flat surface (cells are compared with points). C49_least_for_flat_partial: every surface has at least the ratio of a flat one, and less than 1. Stated for calls without flattening.
* **C50** Polynomial subtraction removes exactly the polynomial.
  * Plan: Normal equations contract of lstsq.
  * Result (partial): C50_orthogonal, C50_polynomial, C50_polynomial_added, C50_mask_meaning, C50_excluded_do_not_matter are proved for every order and mask, with numpy.linalg.lstsq as an arbitrary function that returns a least squares solution if it returns one. False for profiles of integers: C50_integers_refused (TypeError).
* **C51** Autocorrelation is even with its largest value at zero lag.
  * Plan: Finite correlation sums; Cauchy-Schwarz.
  * Result (partial): The array estimate is symmetric, largest and equal to the variance at the centre, and the exponential model holds; the interpolated function is off by half a spacing for even sizes (C51_even_sizes_fail), right for odd sizes (C51_odd_sizes_partial).
* **C52** Fractal surface spectra are conjugate symmetric so heights are real.
  * Plan: Index model of `_conj_sym`; DFT of conjugate-symmetric data is real; requested shape: negation for odd or non-square.
  * Result (partial): Real, zero mean, conjugate symmetric for all sizes; the requested shape is obtained only for even square shapes: in general the profile is transposed and rounded up to even (C52_shape_fails, C52_square_partial).
* **C53** Height-exact random surfaces have exactly the prescribed heights.
  * Plan: argsort as a permutation; invariant of the loop.
  * Result (partial): The result is a rearrangement in every case; the caller's target array is changed in place at the first entry (C53_psd_changed), and convergence in the last allowed iteration counts as failure (C53_last_iteration).
* **C54** Filtered random surfaces are exact (cyclic) moving averages of the requested shape.
  * Plan: Index model of wrap padding and valid convolution.
  * Result (proved): Shape, moving average and cyclic shifts for all sizes with at least one point. fftconvolve is the convolution sum.
* **C55** Filter optimisation uses the exact gradient.
  * Plan: Derivative of a polynomial in finitely many variables.
  * Result (proved): Directional derivative in every direction for both variants; the two estimates of the autocorrelation agree.
* **C56** Johnson quantile fits reproduce the given quantiles.
  * Plan: Algebra of hyperbolic functions in each branch; normal branch wrong: negation.
  * Result (partial): Bounded and unbounded branches reproduce all four quantiles. Lognormal: three exactly and the lowest up to the tolerance for a longer upper tail; nan for a longer lower tail (C56_mirrored_lognormal_nan) and for the ratio e. The normal branch is wrong unless the spacing is one (C56_normal_fails).
* **C57** Reading a delimited file keeps every numeric row in order.
  * Plan: List model of the row filter with an arbitrary number parser.
  * Result (partial): Files without empty cells: exactly the rows of numbers, in order (C57_numeric_rows_partial), with word splitting and a round trip. The claim fails: an empty cell is dropped and shifts the columns, blank rows reject the file, and a file without numbers is accepted as an empty profile (C57_fails).
* **C58** Trigonometric surfaces are sums of their components.
  * Plan: Finite sums of complex exponentials.
  * Result (partial): Sum of waves, periodicity, independence of y and additivity are proved. Rejection of mismatched lists fails for the phases when some amplitude is a Python complex number: they are ignored (C58_fails).
* **C59** The CUDA override always restores the previous setting.
  * Plan: Override state machine; captured at construction: negation and partial.
  * Result (partial): Proved for blocks that create their object on entry, whatever they contain, and for objects created under the same value. Fails for an object created before a change of the switch, and for reuse (C59_fails); the lubrication step leaves the switch off after an exception (C59_lubrication_raises).
* **C60** Perfectly plastic wear removes exactly the inter-penetration.
  * Plan: Field model of the sub model; default proportion raises TypeError: negation.
  * Result (partial): Exact removal for contact nodes on distinct grid nodes; never adds material in any case; once per step without time. Fails for proportions adding to more than one, repeated positions and repeated new-step calls (C60_fails); the documented default of the second proportion raises TypeError (C60_construct).
* **C61** The inverse solver converges within as many iterations as prescribed nodes.
  * Plan: Finite dimensional argument on the conjugate gradient loop of C12: the residuals are orthogonal, so the loop ends within as many iterations as there are prescribed nodes (positive definite operator, exact arithmetic).
  * Result (proved): Exact arithmetic.
* **C62** Time interval outputs are written once per interval.
  * Plan: Counter state machine of `time_interval`; bound on the number of outputs in a step and exact count.
  * Result (partial): Bound and exact count proved. The documented times (multiples of the interval) are not the ones used: the first increment of each step always writes an output (proved).
* **C63** The output check predicts what can be saved.
  * Plan: Set model of `check_outputs` beside the model of `save_outputs`.
  * Result (proved): check_outputs and save_outputs agree: C63_checked_outputs_are_saved, C63_missing_output_reported.
* **C64** A converged Reynolds sweep solves the discretised Reynolds equation.
  * Plan: Algebra on the coefficients of one row of the sweep: a fixed point satisfies the discretised equation.
  * Result (proved): With exact row solves. C64_mass_is_not_conserved shows that the remainder (product of the increments of density and gap) is real: mass is not conserved exactly for varying density.
* **C65** The full Hertz solution does not depend on which body is named first.
  * Plan: Symmetry of the whole solution function under exchange of the bodies, through atan2 and the branches.
  * Result (proved): For ordinary materials (positive moduli, Poisson's ratios between -1 and 1).
* **C66** The auxiliary angle of an elliptical contact is that of the principal relative curvatures.
  * Plan: Closed form of the auxiliary angle compared with that of the principal curvatures.
  * Result (partial): False in general: exact condition in C66_auxiliary_angle_iff (a factor 2 is missing in the code). True for a ball or flat against any body (C66_auxiliary_angle_partial).
* **C67** Reported maximum von Mises stresses are stresses of the contact.
  * Plan: Compare the reported maximum with the stress fields along the axis: no depth attains it.
  * Result (partial): False: C67_point_not_attained (all depths, Poisson's ratios from 0 to 1/2) and C67_line_disagree (the two line solvers disagree; solve_hertz_line reports the stress at the centre of the surface).
* **C68** Displacements of a spherical contact close the gap inside the contact and only there.
  * Plan: Real analysis of the displacement closures: sum of both displacements and of the gap.
  * Result (proved): Exact inside, strict inequality outside, continuity everywhere.
* **C69** Surface and axis stresses of a spherical contact agree at the centre.
  * Plan: Limits of the surface closure at the centre and of the axis closure at the surface.
  * Result (partial): Radial and normal stress agree (partial theorems); the hoop stress has a sign error (C69_hoop_stress_at_centre).
* **C70** Stresses of a line contact balance the pressure and decay with depth.
  * Plan: Evaluate the line stress closure on the surface and on the axis.
  * Result (partial): False: zero normal stress on the surface (C70_surface_normal_stress) and unbounded growth with depth (C70_axis_normal_stress_grows).
* **C71** Sums of surfaces with different grid spacing use the present profiles.
  * Plan: State machine of the memoised interpolator in `resample`.
  * Result (partial): Refuted: C71_stale_profile. Holds for surfaces without memoised interpolator (C71_fresh_partial).
* **C72** Results of arithmetic with analytic surfaces are surfaces of their own.
  * Plan: Heap model of surface combinations: operands are references.
  * Result (partial): Heights at the time of the operation and movement of combinations proved. Refuted: results with numbers do not move, and operands stay connected.
* **C73** The ten point height is one number.
  * Plan: Array model of `sz`.
  * Result (partial): False: C73_never_a_number (the result is an array for every input), C73_entries_wrong (with concrete heights no entry is the ten point height).
* **C74** The material ratio is the part of the material above the height.
  * Plan: Array model of `get_mat_vr`.
  * Result (partial): False: C74_array (the result has an entry per point), C74_wrong (concrete heights). C74_below_all_partial: for heights below all points all entries are right.
* **C75** A mask leaves out the same points in every roughness function.
  * Plan: For each kind of mask the list of points each function uses.
  * Result (partial): False: C75_nan, C75_array, C75_number give for each kind of mask the points that each function uses.
* **C76** Autocorrelation functions are evaluated in one layout.
  * Plan: Index maps of the three ways to build an `ACF` object.
  * Result (partial): False: arrays and surfaces give the transpose of the layout of the models (C76_fails); symmetric cases agree.
* **C77** Fractal surfaces have the requested roughness.
  * Plan: Parseval's identity for the discrete Fourier transform and the mean square of the spectrum of `_conj_sym`.
  * Result (partial): False: the roughness is always below the requested one because corner entries of the spectrum are set to zero (C77_below_sigma); the exact mean square is proved.
* **C78** The stored spectrum of a fractal surface belongs to its transform.
  * Plan: DFT inverse pair applied to the stored spectrum.
  * Result (partial): True for the surface itself up to four zeroed entries; false for surfaces returned as new (C78_new_fails).
* **C79** The exact spectrum is exact.
  * Plan: Polar form of the spectrum after one iteration of the exact variant.
  * Result (partial): True for targets that are even functions of the frequency; false otherwise (C79_odd_fails): the magnitude is then the mean over opposite frequencies.
* **C80** FIR filters give the target variance.
  * Plan: Variance of a moving average of uncorrelated draws, as a finite sum.
  * Result (partial): False: the variance is the target times the number of coefficients (C80_variance_partial, C80_fails), because the transfer function is stored as coefficients.
* **C81** Filtered surfaces have the requested moments.
  * Plan: Third and fourth moments of a moving average, from the independence of the draws as a moment hypothesis.
  * Result (partial): Skewness right. Kurtosis wrong in both conventions (C81_excess_kurtosis_fails, C81_kurtosis_fails); asking for a normal surface with two equal coefficients raises ZeroDivisionError.
* **C82** Johnson distributions fitted by moments have the moments.
  * Plan: Gaussian integrals with Mathlib's `gaussianReal` (moment generating function) for the quantile functions.
  * Result (partial): Normal, unbounded (mean, deviation; all four for symmetric) and lognormal with positive skewness proved with integrals against the Gaussian measure. Lognormal with negative skewness gives nan; negative kurtosis without skewness raises. The iterations of su_fit and sb_fit are the subject of C136 and C137.
* **C83** Reading a mat file finds the named variables.
  * Plan: Dictionary model of `read_mat`, including the state after a failing call.
  * Result (partial): Named variables are found, missing names raise ValueError. The fallbacks of the docstring do not exist and a failing call may set the grid spacing (C83_fails).
* **C84** Stresses and displacements of a spherical contact obey Hooke's law.
  * Plan: Differentiate the radial displacement (one formula with a real power for both branches) and compare with the isotropic law.
  * Result (partial): The reported radial displacement has the wrong sign for the reported radial stress (negation); with the other sign the radial stress agrees everywhere and the hoop stress outside of the contact; inside the hoop stress differs by 4 v times the pressure (negation).
* **C85** Normal influence coefficients are displacements under a loaded cell.
  * Plan: Integrate the point load over the cell in closed form (inner and outer antiderivatives, singularity at the origin handled almost everywhere) and compare with the brackets of the code; strict concavity argument for the own cell of rectangular grids.
  * Result (partial): Holds on square grids for every offset, one and two bodies (C85_normal_partial, C85_pair_partial). False on rectangular grids: the logarithms use node numbers instead of lengths, and for every pair of different spacings the coefficient of the own cell is too large (C85_rectangular_wrong).
* **C86** Tangential and coupling influence coefficients.
  * Plan: The same for the Cerruti fields; the two components with the wrong sign and the failing reciprocity as theorems.
  * Result (partial): On square grids xx, yy, xz, zy are the displacements (C86_components_partial), xy and yx on all grids (C86_shear). zx and yz have the opposite sign (C86_opposite), so that reciprocity fails for every Poisson's ratio other than one half (C86_reciprocity_wrong; the fields themselves are reciprocal, C86_spec_reciprocal). Exchange of the axes: C86_exchange.
* **C87** Normal coefficients are positive and decay.
  * Plan: Positivity and monotonicity of the integrands of C85.
  * Result (proved): C87_positive on all grids, C87_decay along both axes on square grids.
* **C88** Non dimensional heights.
  * Plan: The logarithms are the cell integral of C85 with full instead of half widths.
  * Result (partial): The divisor is twice the displacement at the centre of the loaded square, because full instead of half widths are used (C88_twice_partial, C88_documented_wrong). The round trip, the square default and the load are as stated (C88_round_trip, C88_square, C88_load).
* **C89** Friction and pure sliding.
  * Plan: Direct: normalised vectors; the zero vector as a negation.
  * Result (partial): Proved for directions that are not zero; the zero vector and negative coefficients are accepted (negations proved).
* **C90** Partial slip.
  * Plan: The sub model calls the model of `bccg`; cases in which the clipped initial guess is a solution follow from C15.
  * Result (partial): Bookkeeping, limits, interpolation and arguments proved. Negations: no displacement or a negative one, gross sliding and extrapolation give wrong results.
* **C91** Contact stiffness: arguments and names.
  * Plan: Case distinction over the arguments; string lengths for the documented name.
  * Result (partial): Arguments and announced names proved; the documented names lack the border number and the mean line definition is accepted for tangential directions (negations proved).
* **C92** Contact stiffness: values.
  * Plan: Energy inequality for the punch problem on nested domains (reciprocity and positivity); C15 for exact starts and for a single node.
  * Result (partial): The inequalities are proved for exact solutions of the solver; repeated calls from an exact solution and single node contacts give nan (negations proved).
* **C93** Static step: control and convergence.
  * Plan: Invariant of the height function under calls (C25 model): results and failure flag belong to one tried height; the sign cases of the root finder; negations for the failing families.
  * Result (partial): True: arguments, given interferences, and convergence for loads that are not relative (C93_converged_partial). False: relative loads are compared with the increment, so a step ending exactly at its target is not converged and a decrease always is (C93_relative_wrong, C93_relative_unloading_wrong); a zero load returns the solution at three times the greatest gap (C93_zero_load_wrong); an interference of zero or without contact raises TypeError (C93_no_contact_wrong); unloading after contact raises AttributeError (C93_unloading_wrong); flat surfaces and materials without influence matrices fail (C93_flat_wrong, C93_other_materials_wrong).
* **C94** Displacements from loads.
  * Plan: Sum over the dictionary of components to a sum over directions; full span by C08's offsets; negations for dictionary, short sequence and default span.
  * Result (partial): False for dictionaries (always ValueError), for sequences of other lengths (shorter ones accepted) and, for elastic materials, for the default span (C94_default_span_wrong); the values are proved for tuples and sequences and any span, and for elastic materials for spans of at least twice the shape less one.
* **C95** Loads from displacements.
  * Plan: The operator of C12 is the linear map of the diagonal matrices; definiteness stated on load fields; negations with the forms of the argument and the absolute tolerance.
  * Result (partial): false for sequences with None, coupled directions and small displacements; within tolerance proved for positive definite matrices (partial, as C12), the rest in general
* **C96** Loads on two surfaces.
  * Plan: C94 for both surfaces; broadcasting of the zero of `Rigid`.
  * Result (partial): False for a reversed direction without loads (TypeError, C96_reverse_wrong); the rest is proved.
* **C97** Set interference: search for the contact nodes.
  * Plan: Loop as recursion on the iterations left, with an arbitrary material and an arbitrary choice of `argpartition`; the state at the exit.
  * Result (partial): Proved: bound on the calls, meaning of success and failure (C97_success; with a function C97_callable_partial), what one iteration does (C97_iteration), no contact. Not true: the limit on removed nodes (C97_removal_wrong: with a limit below one the slice [-0:] removes all nodes) and the documented callable (two arrays are a ValueError). C97_removal_partial covers limits of at least one.
* **C98** Set interference: influence matrix materials.
  * Plan: The convolution as linear map on the contact nodes, then C13, C14 and C15 for the solver and C08 for the convolution.
  * Result (partial): Proved: displacements, bounds of the loads, contact nodes, no overlap outside, one contact node with a start near the solution (C98_one_node_partial). Not true: adhesion (no tension is ever returned), the documented guess as array (AttributeError), a callable (TypeError), one contact node (nan, C98_one_node_wrong), the default guess (multiplied by the influence instead of divided, C98_default_guess_wrong). Missing: closure of the gap to within a tolerance on the nodes with load.
* **C99** Number of the next output file.
  * Plan: Induction on the folder.
  * Result (partial): Proved for files. Not true for folders with a number as name, which are ignored (C99_folder_wrong).
* **C100** Quasi static step: increments and unloading.
  * Plan: Induction on the increments for the times; the quantities from C24; unfolding for the cases that fail.
  * Result (partial): Times, markers and refused arguments proved. fast_ld is not implemented (C100_fast_wrong); unloading fails after a state with contact nodes and does nothing otherwise (C100_unloading_wrong, C100_unloading_ignored_wrong).
* **C101** Quasi static step: displacement control.
  * Plan: Two induction principles for the increments (all solvable, all solved) with an invariant on the heights in the cache.
  * Result (partial): Proved for interferences with contact, without time dependence if no interference is repeated. Others fail (C101_no_contact_wrong, C101_repeat_wrong); a second run uses the surfaces of the first (C101_second_wrong).
* **C102** Quasi static step: load control.
  * Plan: The invariant of C93 along the heights tried, then the induction principles of C101.
  * Result (partial): Loads, convergence and reach proved with time dependence; without it C102_no_time_partial. The interference may not be that of the loads (C102_height_wrong); without time dependence a load that was found in an earlier increment is reported with the loads of another height (C102_cached_wrong, C102_second_wrong). A load of zero gives the solution at the upper bound (C102_zero_load_wrong), other materials fail (C102_other_materials_wrong).
* **C103** Lubrication step: the states.
  * Plan: The step is the list of quantities (C24) followed by a pure chain of increments; an invariant of the iteration (the gap belongs to the pressure unless the pressure is zero).
  * Result (proved): C103_fits, C103_converged (with the change of units of pressures invertible and a tolerance of at most one), C103_not_converged, C103_limit, C103_iterations.
* **C104** Lubrication step: what is set.
  * Plan: The chain of C103; equality of the runs for two interferences by mapping the quantities.
  * Result (partial): True: times, which steps run, direction of the movement in load control. False: the set interference has no effect at all (C104_interference_wrong: the interference stays that of the previous state; C104_set_interference_wrong), and neither has the initial guess (C104_guess_wrong).
* **C105** Lubrication step: the gap of the last time step.
  * Plan: An invariant of the iteration for solvers that keep the gap of their first call.
  * Result (partial): False if the surfaces have moved or worn: the kept gap is that of the surfaces at their new place with the displacement and interference of the increment before (C105_kept, C105_moved_wrong). True if nothing has moved (C105_still_partial).
* **C106** Lubrication step: interference by Regula Falsi.
  * Plan: Evaluation of two calls, then induction on the calls.
  * Result (partial): False: the second and each later call raises IndexError, also for other steps, as the lists are attributes of the class.
* **C107** Filling holes.
  * Plan: Measure for the two loops (lines left, lines removed); an invariant for a frame of holes around a rectangle; evaluation of small patterns.
  * Result (partial): False in general, proved where it holds. Ends within 2 rows + 2 columns + 1 passes of each loop for every profile, C107_ends. A frame of holes around a rectangle whose border lines have few enough holes is removed and nothing else, C107_frame_partial; with a threshold of at least one hole less than a line the result is the smallest rectangle with all values, C107_bounds; with whole rows of holes and any threshold exactly these rows are removed, C107_rows_partial; which values are holes, C107_mask. Negations: a profile of holes only gives IndexError after its values were replaced by zeros, C107_all_holes_wrong; the threshold is compared with the proportion of holes instead of values, C107_threshold_wrong; smaller thresholds give IndexError, nothing left or bad borders for particular patterns, C107_small_threshold_wrong; mk_copy fills the holes of the surface itself with zeros, C107_copy_wrong; an inverted surface has minus the filled profile, C107_inverted_wrong. The inpainting is an arbitrary function.
* **C108** Reading al3d files: header and data.
  * Plan: A writer of headers as specification, round trip by induction on the tags; rounding lemma for the number of columns; the scalar made of a bytes object cannot be reshaped.
  * Result (partial): False for files with icon or texture, proved without. The tags are read for every written header, C108_header; the depth data of files without icon and texture, also with padding and with less than half a column of trailing bytes, C108_depth. Negations: a file with an icon is never read, C108_icon_wrong; nor one with a texture and more than one row, C108_texture_wrong (numpy makes a scalar of a bytes object, which cannot be reshaped; the conversion to a byte is arbitrary); with a texture the number of columns of the depth data is too large, C108_columns_wrong; with carriage returns the planes of a texture are not recognised, C108_carriage_wrong. Simplified: text is decoded byte by byte, offsets are whole numbers.
* **C109** Reading al3d files: images in the folder.
  * Plan: Structure of the name from its end (digits, bracket or blank), then the two lookups.
  * Result (partial): False for the documented names, proved for the names used. The number in brackets or after a blank is found, C109_number; the images with the number directly after the kind come first, then the ones without, C109_images_partial. Negations: 'texture (3).bmp' is not found, C109_documented_wrong; a number without bracket or blank is not found, C109_no_blank_wrong; without a folder the root folder is searched, C109_no_folder_wrong; names with two dots give ValueError, C109_dots_wrong.
* **C110** Adding output requests to steps.
  * Plan: Induction on the list of names over the ordered dictionary; the queries of a request that is in the list twice.
  * Result (partial): Named steps and all: proved, with unknown names (KeyError, earlier steps already changed). Wrong: a step called all cannot be chosen alone; a request for every second increment that is in a step twice is active in every increment.
* **C111** The output directory of a model.
  * Plan: World with directories and the global variable; cases of the constructor.
  * Result (partial): Proved for the model made last and as long as only models without a directory follow. Wrong: all models write to the directory of the last one; a directory below a missing one is not made (ValueError).
* **C112** Checking the surfaces of a model.
  * Plan: Cases; independent list of problems as specification.
  * Result (partial): Proved with errors, and with warnings if both surfaces are there. Wrong: with warnings a missing surface is an AttributeError.
* **C113** Reading tst files: lines.
  * Plan: A writer of lines as specification; lemmas on split, strip and removal of characters.
  * Result (partial): Round trip for all lines whose parts have none of the marks, lines of stars, lines without a mark. Wrong: # is taken out of values, and what follows a $ in a value is lost.
* **C114** Reading tst files: the whole file.
  * Plan: A writer of files; round trip section by section, induction on entries, channels, samples, steps and runs.
  * Result (partial): Round trip of whole files as written by a specification; the list of each channel if names are distinct. Wrong: channels of the same name are mixed in one list; a channel with a length other than eight bytes is an error.
* **C115** Reading tst files: ends for every file.
  * Plan: Every line that is read makes the rest shorter; the number of rounds is the length of the rest.
  * Result (proved): Ends for every sequence of bytes; data cut short are a struct.error.
* **C116** Hurst fractal surface: power law of the spectrum.
  * Plan: Closed form of the unwrapped wave vectors (C78) and the smallest absolute representative of an index; the constant factor is the same for all entries.
  * Result (proved): Sizes two are left out (the wave vectors are not unwrapped then). The new surface that return_new gives has the same entries in the other order (C78).
* **C117** Surface of given heights and spectrum: when the iteration stops and which estimate is used.
  * Plan: The sequence of estimates as a recursion; the loop ends at the first index with a verdict; a specification of the verdicts without the list of errors.
  * Result (partial): The iteration and its end are as stated (C117_first, C117_fails, C117_converged_partial). Which estimate is used is not: C117_best_wrong shows that with 'best' it is always the other one. C117_converged_partial does not say that the profile is the converged one.
* **C118** The CPU and the GPU version of the planned convolution agree.
  * Plan: Symmetry of the spectrum of real data makes the stored half enough; both padded lengths satisfy the condition of C06; nodes of a domain as a list in index order.
  * Result (proved): C118_agree, C118_superposition (either version), C118_calls (flat inputs), C118_domain and C118_nodes, C118_ignore_domain.
* **C119** Stored transforms belong to the present profile, and the power spectrum is real and not negative.
  * Plan: State machine of the stored attributes; nothing but get_acf() changes a stored autocorrelation; closed form of the spectrum of an impulse; reflection of the sum for odd sizes.
  * Result (partial): Proved: get_fft and get_acf (C119_fft, C119_fft_argument, C119_acf) and get_psd when no autocorrelation was stored or it has just been found (C119_psd_partial). Not true: after a new profile get_psd uses the old autocorrelation (C119_stale_wrong, C119_replaced_wrong); the stored spectrum is not real or negative (C119_sign_wrong), also at frequency zero (C119_mean_wrong). For odd sizes it is real up to the phase of the centre (C119_phase_partial).
* **C120** The low pass filter keeps level surfaces and does not move features.
  * Plan: The Bessel function by Poisson's integral, which gives its bound and its monotony; the response to an impulse as a closed form.
  * Result (partial): Proved: spacing, shape, linearity, the exact response, and what the method stores (C120_spacing, C120_linear, C120_response, C120_method). Not true: level surfaces are scaled (C120_level_wrong), and a peak in the middle becomes highest in the corner (C120_moved_wrong), since the kernel is one quarter of the filter with its centre outside.
* **C121** Equality of surfaces is an equivalence relation that compares heights and grid spacing.
  * Plan: Classes as a finite type; heights and spacings with nan as none; dictionaries compared entry by entry with identities of objects.
  * Result (partial): Proved for discrete surfaces: equal exactly for the same heights and spacing, symmetric and transitive (C121_heights_partial, C121_symmetric_partial, C121_transitive_partial). Not true: a Surface equals a discretised analytical surface but not the other way round (C121_symmetric_wrong); nan (C121_nan_wrong); surfaces not discretised: TypeError for RandomPerezSurface (C121_perez_wrong), two equal sums are never equal (C121_combination_wrong), ValueError for arrays of frequencies (C121_frequencies_wrong), different filter surfaces are equal (C121_filter_wrong).
* **C122** Surfaces with random frequencies can be discretised.
  * Plan: Every path through the check of the coordinates ends in an exception or a number of points that is not an integer.
  * Result (partial): Not true: height raises for all coordinates (C122_height_wrong), so that discretise always fails and leaves the surface marked as discrete (C122_discretise_wrong); on square grids it is the ValueError of the comparison of arrays (C122_square_wrong). The method discretise works for height functions with a result (C122_discretise_partial).
* **C123** New surfaces have the given grid spacing, extent, shape and profile.
  * Plan: The constructor as a sequence of the setters of C38; closed form of the result for each combination of arguments.
  * Result (partial): Proved: refused combinations (C123_refused), profile with spacing, extent or nothing (C123_profile_spacing, C123_profile, C123_profile_extent, C123_proportions), files (C123_file, C123_file_error, C123_read_surface), spacing with shape (C123_spacing_shape), extent with shape (C123_extent_shape_partial). Not true: a given spacing is changed if an extent is given too (C123_spacing_wrong, C123_short_wrong), extents of wrong proportions are accepted (C123_proportions_wrong), surfaces without profile are marked as discrete (C123_discrete_wrong), the documented keywords of read_surface are a TypeError (C123_keywords_wrong).
* **C124** The Jacobian of a material is the matrix of the convolution with its influence matrix.
  * Plan: Trimming, padding and rolling as functions of the index; integer arithmetic for the offsets; the roll of the flattened array in the two cases of the second offset.
  * Result (partial): Proved: all entries of the Jacobian (C124_plain, C124_periodic), the product for symmetric components (C124_product_partial), half of the entries of periodic surfaces (C124_periodic_partial), refused sizes (C124_periodic_refused), dictionaries for sequences of names and 'all' (C124_elastic). Not true: the sign of antisymmetric components (C124_sign_wrong), the other half of the periodic entries, which come from the wrong row (C124_periodic_wrong), a component given as text (C124_text_wrong), 'all' for rigid materials (C124_rigid_wrong). The decorated method always fails (C05).
* **C125** The functional parameters are numbers with the documented meaning.
  * Plan: Sorted list split at the index, counting below and above; shapes of the arrays decide the exceptions; linspace in closed form.
  * Result (partial): Without a mask stp, sci and svi raise an exception for every profile with two rows and columns, sbi for 20 or more columns; sbi uses the height from below; svi uses the points that the mask leaves out; stp compares unscaled heights and divides by the area; Sdelq, Smr and Svr are refused. Proved: the values of sbi and stp with a mask. Missing: the claim itself, which is false.
* **C126** The spatial parameters describe the texture whatever the scale, shape and direction of the profile.
  * Plan: Autocorrelation bounded by its centre (C51); induction along a path to the centre for the texture ratio; geometric sums of roots of unity for the transform of a wave; argmax as the first maximum in the order of the rows.
  * Result (partial): Proved: sal for square profiles of even size, range of str, exchange of the axes, the form of std. False: profiles that are not square (IndexError), the threshold is absolute, odd sizes are half a spacing off, the direction of mirrored waves.
* **C127** Filters found by linear transforms give the target autocorrelation.
  * Plan: Expectation of products of weighted sums of white noise by bilinearity, leaving the pairs of a fixed distance; one square of the objective bounds one lag; reflection of the rows for the other sign; small filters with an exact minimiser as witnesses.
  * Result (partial): Proved: the autocorrelation of filtered white noise is that of the filter (also periodic), hence within the root of the objective of the target, for functions and for square filters; symmetric filters for both signs of the lag; shape, spacing and failures; first guess. False: targets from arrays or surfaces with filters that are not square (C127_layout_wrong, C127_layout_symmetric_wrong), the other sign without symmetry (C127_other_sign_wrong), max_it (C127_max_it_wrong), first guess of symmetric filters (C127_first_guess_symmetric_wrong, C127_unimproved_wrong).
* **C128** Surfaces of given heights and spectrum: construction.
  * Plan: Case analysis of the constructor; the profile as a multiset by the equivalence of grid and list indices on top of C53.
  * Result (partial): Proved: flat lists and arrays of the right number of heights give surfaces with exactly these heights, distributions those drawn; what is refused. False: nested lists are refused (C128_nested_wrong), arrays of another size (C128_size_wrong) or with as many rows as points (C128_rows_wrong) and targets in lists (C128_psd_list_wrong) are accepted and fail later, the target of the caller is changed (C128_target_wrong).
* **C129** Displacements of elliptical contacts.
  * Plan: State of the memo as a sum type, induction over the calls; bounds of the elliptic integrals under the sign of the coefficients; comparison of ellipk at e and at e squared by monotonicity of the integrand.
  * Result (partial): Proved: calls do not depend on earlier calls, the domain is the open ellipse, axes of the bodies, the displacement falls along the longer axis. False: ellipk and ellipe get the eccentricity e instead of the parameter e^2, so the value at the centre exceeds the reported deflection of each body, and for b >= 0.911 a the displacement grows along the shorter axis.
* **C130** Elliptical contacts are found and close the gap.
  * Plan: Integrals of Hertz's theory and of the code related by substitution and by integration by parts; the condition of the gap as two equations, solved iff the auxiliary angle is that of the relative curvatures; signs at both ends of the bracket by estimates of the integrals; witnesses by the intermediate value theorem.
  * Result (partial): Proved: the bracket [1e-5, 1] has a change of sign if the auxiliary angle is a number, convex bodies always have one, and the solution closes the gap exactly if the cross term of the curvatures vanishes. False otherwise (wrong sign under the root, C66), and for bodies in grooves the auxiliary angle is not a number.
* **C131** Arguments of the full Hertz solution.
  * Plan: Case analysis of the kinds of arguments, two independent inductive relations for the numbers they stand for.
  * Result (partial): Proved: accepted radii and material properties are exactly those standing for two numbers (radii other than zero), and which errors refuse radii. False: zero moduli are never refused because the check asks for the name 'e' while the caller passes 'moduli'.
* **C132** Plots show the right data and leave the surface alone.
  * Plan: Relation between the surfaces before and after (only spectra filled), preserved by each branch, induction over lists of names; exact position of each height in the shifted and unshifted transform.
  * Result (partial): True parts: C132_filled (only missing spectra are filled), C132_restored (analytical surfaces are as before), C132_several_partial (up to nine plots as if one after another), C132_profile, C132_heights, C132_acf, C132_layout, C132_mesh_partial, C132_apsd_partial, C132_fft1d_partial (square surfaces). False parts: C132_assigned_wrong (a profile assigned to an analytical surface is lost), C132_fft1d_wrong, C132_fft1d_order_wrong, C132_fft1d_error_wrong, C132_apsd_wrong (never shown), C132_kind_wrong (unknown kinds accepted), C132_ten_wrong, C132_surface_wrong (heights over the wrong frequencies).
* **C133** Speeds of sound.
  * Plan: Signs and the quotient of the squared speeds in closed form from the conversions of C01; the densities as a map from materials, other entries untouched.
  * Result (partial): Speeds, constants and densities are right (C133_speeds, C133_density_remembered, C133_missing, C133_new_material). False: densities of zero and below are accepted (C133_density_wrong).
* **C134** Methods of surfaces honour the mask and keep the surface.
  * Plan: Composition of the models of the setter and of the functions; two surfaces that agree on the hidden points give the same fit; constant lists for the statistics.
  * Result (partial): True parts: C134_hidden, C134_given (given masks replace the own one), C134_spacing, C134_plain_partial (no mask, not inverted), C134_ratio_partial, C134_summits_partial. False parts: C134_fit_wrong (only the hidden points are fitted and changed), C134_nan_wrong, C134_statistics_wrong, C134_erased_wrong (hidden heights are overwritten), C134_inverted_wrong (flattening turns inverted surfaces upside down), C134_absolute_wrong.
* **C135** The text of an object is a call that makes it again.
  * Plan: The text as the text of an explicit list of arguments; the geometries that the constructor makes are determined by grid spacing and extent; concrete surfaces as witnesses, brackets counted by an additive function of strings.
  * Result (partial): True parts: C135_new_partial (new analytical surfaces that are shifted or have no extent), C135_surface_partial, C135_empty_partial. False parts: C135_unshifted_wrong, C135_shape_wrong, C135_material_wrong, C135_rotated_wrong, C135_filter_wrong, C135_surface_wrong, C135_hurst_wrong, C135_bracket_wrong.
* **C136** The iteration of the unbounded fit finds the moments asked for.
  * Plan: Exact moments of all unbounded distributions as sums of exponentials; the quadratic equation of a pass solved backwards; kurtosis strictly increasing in `w` by a polynomial with nonnegative coefficients; one complete run as witness.
  * Result (partial): Proved: C136_first (the first estimate is real and above one in the whole region), C136_end_partial (every run that ends has found a distribution with exactly the kurtosis asked for and the squared skewness within the tolerance; if the skewness is hit exactly, it is the one returned). False for the distribution returned: w is updated once more after the last test while m is kept, so the kurtosis is the one asked for only if the skewness is hit exactly (C136_kurtosis_wrong for all runs, C136_case_wrong a complete run). Missing: that the iteration ends.
* **C137** The iteration of the bounded fit uses the derivatives of the moments and ends near them.
  * Plan: Exact moments as integrals of the logistic function against the normal law; integration by parts (Stein) for the derivatives; the symmetric case as witness against the derivative of the skewness; uniform moments for a run that ends.
  * Result (partial): C137_kurtosis_derivatives_partial: both derivatives of the kurtosis are right. C137_skewness_derivative_wrong / C137_symmetric_derivative_wrong: the derivative of the skewness is right only on an exceptional set (a product where a difference is meant), never at gamma = 0. C137_end_partial: the residuals when the iteration ends, for any function in the place of get_moments. C137_first_partial: first estimate positive for skewnesses up to 300; C137_first_wrong: negative for enormous ones. Convergence is not proved.
* **C138** The moments of a bounded distribution are sums over equidistant points.
  * Plan: Invariants of both loops: the state after `n` passes is the sum over `n` points; positivity excludes an early end; Poisson's formula gives a run that returns; geometric comparison of the two sides for the points left out.
  * Result (partial): C138_sum, C138_order, C138_returns, C138_nonpositive, C138_failures hold as stated. C138_left_out_partial: points left out are negligible for gamma/delta ≤ 5 only; C138_left_out_wrong: for gamma/delta > 23.7 and delta ≥ 3 the mean misses more than 2 %. The error of the sum against the integral is not bounded in general.
* **C139** The lognormal distributions are distributions.
  * Plan: Derivative of the normal distribution function by the fundamental theorem; substitution of the normal score in the integrals of the densities.
  * Result (partial): True parts: C139_inverse, C139_increasing, C139_refused. False parts: C139_density_wrong (both densities differ from the derivative everywhere but at one point), C139_total_wrong and C139_not_one_wrong (they do not integrate to 1), C139_support_wrong (values above the declared end 1).
* **C140** Filter surfaces: the calls keep target, filter, distribution and moments consistent.
  * Plan: State machine over all attributes; case analysis of each call; the moments of filtered noise of C81 for a filter that is changed afterwards; the fit by quantiles depends only on ratios of differences.
  * Result (partial): True for a given target of type ACF, for the defaults and for discretise. False: a target of another type is ignored, failing calls leave a changed name, spacing or moments, a new filter leaves the distribution of the old one, and set_quantiles only keeps the shape of the distribution.
* **C141** The influence coefficients of the Reynolds solver are those of the elastic bodies.
  * Plan: Reduction to the integrals of C85; comparison of 1/r with 1/x for the ratio; the Hertzian pressure for the scales.
  * Result (partial): Proved: the coefficients are 2/π² times the integral of 1/r over unit cells, positive and falling, 3 ak10 < ak00 (C141_kernel, C141_order); sweep directions, missing speed (C141_directions, C141_steps); what the check asks for (C141_check). False: the rows use the coefficients without the factor of the non-dimensional spacing, so that they are the changes of the gap only if the spacing is 1 (C141_units_wrong; with the factor: C141_units_partial); the check forgets what was there (C141_check_wrong).
* **C142** Every row system of the Reynolds solver has exactly one solution.
  * Plan: Elimination without exchanges: an invariant for the pivots (negative, beyond the upper coefficient, at least the difference of the squeeze terms) from the order of the coefficients of C141; a vanishing pivot as witness for negative speeds.
  * Result (partial): Proved for positive speeds: exactly one solution for every right-hand side (C142_one_solution), zero at both ends (C142_ends), result of a sweep independent of the linear solver (C142_determined). False for negative speeds: for each spacing there is a negative speed parameter with a singular system (C142_backwards_wrong).
* **C143** Autocorrelation functions can be made of what the documentation says.
  * Plan: Case analysis of the sources; values from C51 and C76.
  * Result (partial): Proved: which names work (C143_names), exponential functions with three numbers (C143_exponential_partial), arrays and surfaces (C143_arrays), conversion to arrays (C143_array), ignored further arguments (C143_more_arguments). False: the documented example can be made but never evaluated (C143_documented_wrong); a missing spacing is reported differently for surfaces (C143_spacing_wrong); callable objects that are no functions are refused with IndexError (C143_callables_wrong).
* **C144** A lubrication step that passes its data check has what it needs and delivers what it declares.
  * Plan: Names of the states at each point of the loop as lists; the check of lubricants of C20 for the first evaluation.
  * Result (partial): Proved: when the check passes (C144_passes), the solver is given what it requires (C144_given), declared and delivered names agree (C144_delivers), first evaluation for lubricants whose own check accepts the first names (C144_first_evaluation_partial). False: with warnings instead of errors missing parts raise AttributeError (C144_warnings_wrong); solvers that require the pressure or gap are refused (C144_refused_wrong); lubricants that need the gap fail at first (C144_gap_wrong); a sub model called total_displacement_z is deleted (C144_deleted_wrong).
* **C145** Operators between measured surfaces, analytical surfaces and numbers.
  * Plan: Dispatch of operators by the names of the methods; the setters of C38 for the geometry that is taken over; sums of profiles from C42, points from C44.
  * Result (partial): Proved: an analytical plus a measured surface if the spacing of the analytical one is not larger than the measured surface (C145_sum_partial), discrete analytical surfaces in all orders (C145_discrete), numbers on the right (C145_numbers). False: coarse analytical surfaces (ZeroDivisionError, C145_coarse_wrong), the other order and both differences always raise (C145_order_wrong), division always raises TypeError because the method has the name of Python 2 (C145_division_wrong), numbers on the left (C145_left_wrong). Scalars and arrays of numpy are not modelled.
* **C146** Searching in results, and when their arrays are read.
  * Plan: Reuse of the relation between written and stored records of C18; structural induction over queries; two sessions on the same files for the late reading.
  * Result (partial): Proved: searches (C146_search, for fields with numbers and strings), arrays never match (C146_arrays), an array that has been read keeps its values (C146_read_once). False: an array that has not been read gives the values of a later run with the same name (C146_lazy_wrong).
* **C147** The partial slip model uses the influence matrices of its surfaces.
  * Plan: An invariant of the memory over all calls with the same surfaces; two calls with different surfaces as witness.
  * Result (partial): Proved for surfaces that stay the same and have equal spacings (C147_unchanged_partial), refused materials (C147_refused). False: after a change of materials or spacing with the same span the old matrices are used (C147_changed_wrong); the second material is evaluated with the spacing of the first surface (C147_spacing_wrong).
* **C148** The results of the height search belong to the last height and hold one contact solution.
  * Plan: An invariant that ties the fixed nodes and the mask of the plan to the history; superposition from C118 for the three convolutions; two calls for the stale results.
  * Result (partial): Proved: for every history, after a call for a height that is not in the cache and has contact nodes, the results are one contact solution at that height whose load is the one compared with the set load; cached calls, clearing and reading do not change them, reading twice gives the same, and a change of the load removes them. The claim is false for the last call in general: a call answered from the cache leaves the results of an earlier height (C148_cached_wrong); a call without contact nodes leaves the loads of an earlier height but plans the convolution for no nodes, so that reading raises ValueError (C148_no_contact_wrong) or, for a single loaded node, gives a total displacement of zero (C148_single_wrong); for other materials every call raises (C148_other_materials_wrong).
* **C149** The height search moves elastic bodies as half spaces under the pressures found.
  * Plan: Positions in the matrix from C118 for the offsets between nodes; Boussinesq's solution from C85 and its sign from C87; C148 for the displacements after a history.
  * Result (partial): C149_near_partial: at nodes with all loaded nodes within half the grid, and at all contact nodes of a contact no wider than half the grid, the displacements reported are those of the two half spaces. Negations: C149_far_wrong (zero displacement at nodes more than half the grid away from the loads, where both bodies settle), C149_solver_wrong (the same for the operator given to the solver). C149_periodic: on periodic axes the nearest images count. One periodic axis only: not stated. The rounding of floating point numbers is not modelled.
* **C150** A success of the contact solver means the contact pressures up to the tolerance.
  * Plan: The solution as the fixed point of a contraction in the Euclidean norm, and uniqueness from the work of the difference; the sign conditions of C14 for the distance; two nearly equally stiff nodes for which the first step is small as witness.
  * Result (partial): The contact problem has exactly one solution. The distance of a success from it is bounded by the residuals at the free nodes, but the tolerance does not bound these: for every tolerance there are two nodes with a success and both pressures off by 0.9 and more.
* **C151** The load found by the height search rises with the height and is reached.
  * Plan: Loads of two heights compared through the work of the difference of the pressures; the load is Lipschitz in the height, so the intermediate value theorem gives a root; an invariant that every cached load is the load of its height.
  * Result (proved): For a solver that solves the contact problem at every height (its quality is the matter of C13, C14 and C150) and nodes that are never fixed with change_load.
* **C152** A set load belongs to one contact, which the static step finds within its bracket.
  * Plan: Existence from the intermediate value theorem between no contact and a height at which all nodes are at the limit (or the load is larger than any bound); uniqueness from the work of the difference; C93 for the state of the step, C151 for the loads.
  * Result (proved): C152_carried, C152_one_contact, C152_one_height for the contact problem; C152_reach and C152_refused (for every bracket there are loads that the contact carries and the step refuses), C152_static for the state. The heights tried by the root finder are arbitrary.
* **C153** Normal pressures on elastic bodies do positive work, so displacements and contacts determine them.
  * Plan: The coefficient of a cell written as an integral of products of Gaussian functions of the two offsets (1/r as an integral of exp(-u^2 r^2)), each a Fourier integral with positive weight, so that the quadratic form is an integral of squares; strict positivity because finitely many waves with different frequencies are independent. Then C95 and C61 for the loads, C149 and C150 for the height search, C98 for a set interference.
  * Result (proved): Definiteness, reciprocity, one contact, loads from displacements of one or two materials, set interference, height search with contact nodes within half the grid (exact solver as hypothesis). Real arithmetic; the truncated matrices of the height search for wider contacts are not covered, C149.
* **C154** Tractions in any direction on elastic bodies do positive work, so displacements determine them.
  * Plan: The two brackets of the coefficients separately: each is an integral of a Gaussian over the cell in one direction times the difference of s exp(-u^2 s^2) over the cell in the other. Narrow Gaussians: the own cell outweighs all others. Wide Gaussians: the transform is s exp(-b s^2) sin(pi s), whose arches are compared from both sides of the whole numbers. So each bracket is positive semidefinite and by C153 positive multiples of the two together are definite. Then C95 and C61 for the loads in all directions.
  * Result (proved): Coefficients, work, reciprocity, loads for one and two materials; hypotheses: shear moduli positive, Poisson's ratios below one, span at least twice the grid.
* **C155** A converged Reynolds sweep is a solution with cavitation.
  * Plan: The residual of the Reynolds equation at a fixed point of the sweep is the row matrix applied to what was clipped off; diagonal dominance (C142) gives the sign at the lowest node. Counterexamples: a film of 4 by 3 nodes whose gap is computed from the values that the row system shall have.
  * Result (partial): False: each row system is solved without bounds and clipped afterwards, so that the equation beside a clipped node is solved with the negative value: C155_positive_wrong (a node with positive pressure at which the equation does not hold), C155_zero_wrong (no pressure at all in a film whose gap narrows at a node). Proved: the residual is exactly what the clipped parts contribute (C155_surplus_partial), it has the right sign at the lowest node of a broken film (C155_lowest_partial); where neither the node nor its neighbours are clipped the equation holds (C64).
* **C156** An elastic contact has no memory.
  * Plan: An invariant of the loop over the increments: the problem in the optimiser is that of the surfaces, and the loads read from it are those of the height of the last solution. Then the load as a function of the height from C151 and uniqueness of the contact under a load from C152.
  * Result (proved): Under the conditions of C151 (Ideal: positive definite influence matrices, exact contact solver); C153 gives the definiteness for the matrices of the code. The height meant is the one that the loads were solved at (solvedAt), which need not be the interference that is reported, see C102_height_wrong.
* **C157** A model can be solved again.
  * Plan: An invariant of the attributes that earlier calls can leave: quantities that are not updated are those of the constructor. With time dependence the optimiser and the gap are made anew, so that the loops agree. Without, the first height is in the cache (C101). For outputs a relation between requests that answer alike from now on, a count for the intervals (C16) and a potential for the iterator of global times.
  * Result (partial): True for quasi static steps with time dependence (C157_time_partial), lubrication steps (C157_lubrication) and requests for step times, numbers of outputs per step and time intervals (C157_outputs_partial). False: without time dependence a step with a set interference raises in the second call (C157_no_time_wrong); requests for every n-th increment go on counting (C157_interval exact, C157_interval_wrong); global times are used up (C157_global_wrong). In every call the states hold the loads of the contact at their heights (C157_true).
* **C158** Greatest shear stresses of Hertz contacts.
  * Plan: Point contacts: the function that is minimised against the difference of the stresses on the axis from the closure (C67): they differ by a constant, so the depth is right and the stress is not. Line contacts: the stresses below a strip as integrals of Flamant's solution, evaluated by antiderivatives with an arcsine, and a tangent bound for the square root.
  * Result (partial): The depth that hertz_full reports for point contacts is where the shear stress on the axis is greatest, and the stress that solve_hertz_line reports is right to one part in a thousand. False otherwise: the stress of hertz_full for point contacts is too great by half the Poisson's ratio times the greatest pressure, the one of solve_hertz_point exceeds the shear stress at all points of the axis (Poisson's ratio of at least 0), and the one of hertz_full for line contacts is at most half of the shear stress at the depth it reports.
* **C159** Files and console of an analysis.
  * Plan: Checks and steps as lists of acts that print or raise; an analysis is the acts in order, run with the log as standard output. The world after printing a list of lines in closed form, then the context managers in reverse order.
  * Result (proved): Also: a directory with the name of the file for arrays leaves the database open (C159_directory), because the exception is raised within __enter__.
* **C160** Tangential deformation of partial slip is that of the elastic bodies.
  * Plan: The matrix of the sub model after any calls is the sum of both elastic matrices (C147); the planned convolution is the superposition of the stored offsets (C118), which are those up to half the grid. Near loads give the displacements of the half spaces (C154), far loads are left out although all coefficients are positive.
  * Result (partial): False of the code: the influence matrices have the span of the grid (tangential_partial_slip.py l.104), so that loads more than half the grid away on one axis have no effect (C160_far_wrong: the deformation is then strictly smaller than that of the half spaces), and on grids with an even number of rows the matrix is not even reciprocal (C160_reciprocity_wrong). Proved: at nodes less than half the grid away from all contact nodes the deformation is that of the two half spaces (C160_deformation_partial); for compact contacts loads that deform the contact equally are equal (C160_unique_partial), and the problem of stick and slip has exactly one solution, that of the half spaces (C160_stick_slip_partial).
* **C161** Contact stiffness is that of the elastic bodies.
  * Plan: The planned convolution as in C160. For compact contacts the punch problem of the code is that of the half spaces, whose positive work (C154) gives uniqueness. With positive coefficients a load that is left out makes the displacement smaller and the gap larger.
  * Result (partial): False of the code: the influence matrices have the span of the (cropped) grid (contact_stiffness.py l.120), so that displacements more than half the grid away from a load are counted as gap and the mean line stiffness reported is strictly smaller than that of the half spaces under the same loads (C161_mean_lines_wrong). Proved: the plan succeeds (C161_plan), for contacts whose nodes are less than half the grid apart the problem solved by the code has exactly one solution and it is that of the half spaces (C161_far_points_partial), and loads that solve it up to a relative error give the far point stiffness up to a factor close to one (C161_tolerance_partial).
* **C162** Built-in sub models find what they require and deliver what they announce.
  * Plan: Every sub model as declared names and a function on the dictionary of results, missing entries are `KeyError`. The data check gives the requirements (as in C21); what is read beyond them is among the names of the contact steps and is never removed. By induction over the list, with the entry of convergence unchanged.
  * Result (partial): Coulomb friction and the contact stiffness are as declared (C162_honest_partial). False for pure sliding (reads the loads), partial slip (returns the whole state, and never returns under load control) and wear (reads loads, contact nodes and gap; returns the state unchanged without convergence): C162_sliding_wrong, C162_slip_wrong, C162_wear_wrong; in lubrication steps wear passes the data check and then raises KeyError (C162_lubrication_wrong). Proved otherwise: on static and quasi static steps every list of built-in sub models (no load controlled partial slip) that passes the data check solves (C162_steps_partial).
* **C163** The film neither gains nor loses lubricant.
  * Plan: Flows through the faces of cells from mobility, pressure difference and carried mass. The equation of a cell (C64) is the balance of its faces; sums over rows and columns telescope, around a ring they cancel. Over time by induction.
  * Result (partial): False for lubricants of varying density: the increments of density and gap are taken one-sided in both factors, so their product appears in every cell (C163_balance_partial); in a steady inlet (gap narrows, density rises) lubricant is created (C163_created_wrong). True for constant density (C163_constant_density_partial, C163_sections_partial for periodic films). Over time with the products as the only error (C163_time_partial). Exact row solves; unbroken film (beside broken film see C155).
* **C164** Similar contacts have similar solutions.
  * Plan: Two runs of the model of `bccg` side by side, in exact arithmetic with infinities and `nan`: every quantity of an iteration is homogeneous of a known degree (pressures, residuals, directions, step, update), the tests are tests of ratios except for those against 1e-14. Simulation by induction over the loop. The coefficients by their formulas. For the negation two independent springs, one of them pulled so that the threshold lies between the two systems of units.
  * Result (partial): Proved: the influence coefficients of every component scale with the ratio of the factors of length and modulus, for one and two elastic bodies; two calls of the solver that are the same contact in other units make the same iterations, with the same verdict, iteration count and bound nodes, and their pressures and residuals differ by the units only, provided no pressure or residual met on the way lies between the fixed threshold 1e-14 of the one and of the other system of units; with the coefficients this gives similar contacts of elastic bodies. False without that condition: the threshold has no unit, and a pair of calls that are the same contact in units differing by 1000 is given for which the one converges in one iteration (with a negative pressure) and the other fails with nan for every iteration limit. Exact arithmetic with infinities and nan, no rounding.
* **C165** Mirrored, turned and moved contacts have mirrored, turned and moved solutions.
  * Plan: Two runs of the model of `bccg` side by side with a bijection between their nodes; sums, counts and existence over the nodes do not depend on names. Simulation by induction over the loop. The law is invariant because the coefficients are even and exchange with the axes (C11), and on periodic grids because a convolution commutes with translations.
  * Result (proved): For every renaming of the nodes and every law, in exact arithmetic with infinities and nan: same iterations, verdict, count, pressures, residuals and bound nodes. For contacts of elastic bodies with the coefficients of elastic_influence_matrix: translations by whole cells, reflections, half turns, exchange of the axes; symmetric data give symmetric pressures. For periodic grids: cyclic translations with any kernel. Rounding, for which sums depend on the order of the nodes, is outside.
* **C166** The two surfaces of a contact can be exchanged.
  * Plan: The gap by the theorems of C26, which fix it up to a constant; two gaps that differ by a constant and have the same smallest value are equal. The interference by the commutativity of the sum of the matrices and of `min`. The search by simulation over the histories of the object. Surfaces of different size and analytic surfaces are counterexamples, because surface 1 has to be discrete and not larger than surface 2.
  * Result (partial): Proved for surfaces of the same grid and off sets of whole cells, with and without periodicity (C166_gap_partial, C166_gap_periodic_partial, the latter for less than 2^52 points per axis), for influence matrix materials whose matrices can be found and whose greatest loads are not nan (C166_interference_partial, C166_solve_partial), and for every history of the search object (C166_search). False for surfaces of different size (C166_size_wrong: the larger one is refused as surface 1 unless the surfaces are periodic) and for analytic surfaces (C166_analytic_wrong: accepted as surface 2 only). Not treated: materials that are not influence matrix materials, for which the code uses the method of the first one only.
* **C167** Only the combined modulus of the two bodies matters.
  * Plan: The normal coefficients of an elastic body are `(1 - v²) / E` times a kernel that depends on the grid only, those of a rigid body are zero; both routines use the matrices through their sum, apart from the displacements of the single bodies. The interference by substitution, the search by simulation over the histories of the object.
  * Result (proved): In the height search the solver and the cache entry for the greatest load are arbitrary functions of the sum of the matrices; real arithmetic. C167_shares is for a set interference and finite loads.
* **C168** Roughness does not depend on the direction in which the surface is measured.
  * Plan: The points used and the summits of the moved surface are a permutation of the moved points, and all parameters depend on a list of values up to its order. Summits by the description of C47, which is symmetric; curvature and cell area are symmetric in the neighbours. Flattening: polynomials with both powers up to the order are closed under the moves, and two least squares fits agree at the points used.
  * Result (proved): Nine parameters (sq, sa, ssk, sku, sv, sds, sz, ssc, sdr), without low pass filter. With flattening the two fits are assumed to succeed and the heights used to be numbers; least squares is an oracle with the contract of C50.
* **C169** The functional and spatial parameters do not depend on the direction in which the surface is measured.
  * Plan: With a mask the values used are a list, and those of the moved surface are a permutation of it (C168); sorting, sums, counts and extremes do not depend on the order. Without a mask the rows are sorted one by one and the index selects a row: two rows are a counterexample. For str two peaks on a diagonal of five rows and columns, whose autocorrelation is computed.
  * Result (partial): True for stp, sbi, sci and svi with a mask (arrays up to order), with and without flattening. False without a mask: sbi is made from one row, so reversing the rows changes it (C169_unmasked_wrong). False for str: with an odd number of points a diagonal texture and its mirror image have different ratios (C169_str_wrong). That str and sal are the same for exchanged axes of a square surface is in C126, that std is not mirrored also.
* **C170** Flattened roughness does not depend on how the surface was levelled.
  * Plan: The heights of two best fits agree at the points used (C168); adding a polynomial of the family to the heights adds the same one to the fit, so that the residuals agree. Without a mask the flattened surfaces are equal. With a mask only the points used agree: the parameters of these heights are equal, and a peak beside the mask that a tilt removes is a counterexample for the density of summits.
  * Result (partial): True without a mask (C170_unmasked), and with a mask for the parameters made from the heights used only (C170_masked_partial). False for the density of summits with a mask (C170_summits_wrong): only the points used are flattened, and the search for summits leaves them out.
* **C171** Roughness parameters change with the unit of length as their dimension demands.
  * Plan: Multiplying the list of heights by a positive number multiplies means, extremes and sorted lists; the comparisons that make a summit do not change; cell areas are multiplied by the square. Flattening: the best fit of the multiplied heights is the multiplied best fit at the points used (uniqueness as in C168). The density of summits is a number for each point and does not change, which is the counterexample.
  * Result (partial): True for all parameters modelled in Params but the density of summits (C171_raw_partial, C171_flattened_partial). False for the density of summits, which is a number for each point (C171_density_wrong).
* **C172** Hertz contacts do not depend on the units.
  * Plan: Each equation in other units is the equation in the first units times a positive power of the units, so that its set of solutions is scaled and so is its largest element; the closed formulas scale. The formula for two missing Poisson ratios subtracts one from one over a squared stress: a contact with ratios of a half has none in another unit. Not covered: one material parameter from the tensile stress, which is left to a numerical search from a fixed starting point.
  * Result (partial): True (C172_line_partial, C172_point_partial) unless both Poisson's ratios are to be found from an argument other than the tensile stress, where the code is not homogeneous (C172_ratios_wrong). Not covered: one material parameter from the tensile stress, which is left to a numerical search that starts at a fixed number.
* **C173** The full Hertz solution does not depend on the units.
  * Plan: The models of the Hertz topics; the arguments and the result in other units are a map on each; each branch condition and each formula is shown to commute with it. The mean pressure of an ellipse and the stresses inside a line contact are not homogeneous: negations.
  * Result (partial): Proved for the exceptions, shape, angles, radii, area, maximum pressure, deflection and the pressure at each point of all three kinds of contacts, the mean pressure of line and round contacts, the displacements and stresses of round contacts, the displacements of elliptical contacts, the greatest shear stresses with their depths and the von Mises stress of a line contact. False for the mean pressure of an elliptical contact, which is divided by the area twice (l.751), and for the stresses inside a line contact, where a root is missing.
* **C174** The axes of an elliptical contact do not depend on the root finder.
  * Plan: On the model of C130. The equation is a positive number times the integral of (1 - (1 + tan^2) sin^2) over the cube of the root. A single crossing argument: the ratio of two weights grows with the sine, so the integral is negative below each of its zeros. With the signs at the ends of C130 there is one root, and two exact root finders return it.
  * Result (proved): The equation for all cosines of the auxiliary angle, the results for all contacts that meet the condition of C130 on the curvatures, as all convex bodies do. A search that stops early is as close to the one root as its last bracket is wide. Other bodies may have no auxiliary angle at all (C130_groove_wrong). The integrals are taken to be exact; brentq is any function that returns a root in the interval if the sign changes.
* **C175** Hertz contacts grow with the load as the theory demands.
  * Plan: On the model of hertz_full, called with two loads. The branch does not depend on the load (case distinction); each formula is homogeneous in the load, with factors t^3 for points and t^2 for lines so that no roots of the factor appear. For the logarithm in the deflection of a line contact, the bounds 1 - 1/k < log k < k - 1.
  * Result (partial): Proved for all results that are modelled, with the displacements of round and elliptical contacts and the stresses of round contacts, but for two: the mean pressure of an elliptical contact falls when the load grows (it is divided by the area twice, l.751), and the deflection of a line contact grows with the load only up to 4 pi E R / e^2 and falls above. The stresses inside a line contact are not covered (they do not depend on lengths consistently, C173).
* **C176** Elliptical contacts become round contacts.
  * Plan: On the model of C130 and the unique root of C174, which is above every number below one for small cosines because the equation is negative there at the angle of a round contact. Continuity of the integrals gives the limits of the factors; the results are these factors times those of the round branch.
  * Result (partial): Proved for the two radii, the maximum pressure and the deflection, uniformly in the bodies, as the cosine of the auxiliary angle goes to zero; the area follows. False for the mean pressure (C176_mean_wrong), because that of an elliptical contact is divided by the area twice (C36). Missing: the fields inside the bodies. The displacement of an exactly round closure is nan (C129_round_wrong). Integrals and roots are taken to be exact.
* **C177** The shape of a contact ellipse is set by the ratio of the curvatures.
  * Plan: On the model of C130. The equation falls with the ratio of the curvatures at a fixed ratio of the axes, and is negative below each zero (C174), so the root moves. The upper bound from the integrands, the lower one from the derivative of sin cos / Δ. Bodies with equal axes against a body on a flat show the negation.
  * Result (partial): Proved that the contact with the greater cosine of the auxiliary angle has the longer ellipse, that equal cosines give equal shapes, and both bounds for all bodies whose auxiliary angle is right (C66 says which). False for other bodies: two pairs with the same ratio of the principal relative curvatures have contact ellipses of different shape, because the auxiliary angle lacks a factor of two. Integrals and roots are taken to be exact.

## Mutation testing

`seeded/LOG.jsonl` has one line per attempt: a model definition is edited in a scratch copy as a realistic bug would, the properties are rebuilt, and the claims whose proof no longer
goes through are recorded in `theorems_failed` (exactly those that rest on a proof that fails, found by replacing each failing proof by `sorry` in the scratch copy and asking Lean
which claims depend on it). `theorems_tightened` names the theorems that were added or strengthened because an edit survived. Some edits are repairs of a fault of the code; then the
theorem with the negation has to fail.

The first 197 lines were replayed later with a harness that finds the failing claims exactly: `theorems_failed` in these lines is that of the replay. For edits that
had survived, and led to a stronger theorem, the historical record is kept and `replayed_theorems_failed` says what fails now.
