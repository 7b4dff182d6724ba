{"id": "C01", "title": "Any pair of elastic constants determines the same material", "statement": "For a physically admissible isotropic material, giving any two of its six constants (K, E, v, Lam, M, G) and asking for all of them returns exactly the six constants of that same material, whichever pair was given.", "quantifier": "all admissible isotropic materials (real K>0, G>0) and all 15 unordered pairs of constants", "why_tests_cant": "A table of sample materials exercises a pair at a few numeric points; a wrong branch of a square root or a pair never tried (here Lam+v, and E+M with negative Poisson ratio) passes unnoticed. The claim is an algebraic identity over a continuum.", "anchors": ["slippy/contact/_material_utils.py:_get_properties"]}
{"id": "C02", "title": "Malformed elastic property sets are always rejected", "statement": "Asking for the elastic constants with any number of properties other than two, or with any key that is not one of the six names, raises ValueError and never returns numbers; the result never depends on the order in which the two properties were written.", "quantifier": "all dictionaries with string keys and real values, all key orders", "why_tests_cant": "The set of key combinations is infinite (arbitrary strings) and order independence is a relation between two runs.", "anchors": ["slippy/contact/_material_utils.py:_get_properties"]}
{"id": "C03", "title": "A newly built two-property elastic material ignores everything that was built before", "statement": "Building an elastic material from two valid constants gives a material whose constants are the ones determined by these two, no matter how many other elastic materials were created, changed or had properties deleted earlier in the session.", "quantifier": "all histories of constructor, setter and deleter calls on any number of materials, then any constructor call with two properties", "why_tests_cant": "The state involved is shared between all instances, so the claim ranges over unbounded histories of other objects; a unit test starts from one history.", "anchors": ["slippy/contact/materials.py:Elastic.__init__", "slippy/contact/materials.py:Elastic._set_props", "slippy/contact/materials.py:Elastic._del_props"]}
{"id": "C04", "title": "Elastic materials do not influence each other", "statement": "Reading or setting a property of one elastic material gives a result that depends only on what was done to that material, never on operations carried out on other materials.", "quantifier": "all interleavings of constructor/setter/deleter calls on any number of materials", "why_tests_cant": "A non-interference claim between instances: it compares all pairs of histories that agree on one object.", "anchors": ["slippy/contact/materials.py:Elastic._properties", "slippy/contact/materials.py:Elastic._last_set", "slippy/contact/materials.py:Elastic._set_props"]}
{"id": "C05", "title": "Memoised influence matrix components equal freshly computed ones", "statement": "A component requested through the memoised influence-matrix function is equal to the component the undecorated function would compute from the same arguments, whatever calls were made before, and the undecorated function is run at most once for each combination of component and remaining arguments.", "quantifier": "all pure functions, all sequences of calls with arbitrary components and arguments", "why_tests_cant": "Stale-cache bugs only show for particular call orders; the set of call sequences is infinite.", "anchors": ["slippy/contact/_material_utils.py:memoize_components", "slippy/contact/influence_matrix_utils.py:elastic_influence_matrix"]}
{"id": "C06", "title": "FFT convolution on a non-periodic axis is the exact finite superposition", "statement": "On a non-periodic axis the planned convolution gives, for every node, exactly the sum over all loaded nodes of load times the influence coefficient of the node offset (zero outside the stored influence matrix); no contribution ever wraps around from the padding.", "quantifier": "all load and influence matrix sizes (equal or different, odd or even), all real values, all admissible padded FFT lengths", "why_tests_cant": "Wrap-around and off-by-one centre errors appear only for particular size combinations and parities; tests use a few sizes.", "anchors": ["slippy/contact/influence_matrix_utils.py:plan_convolve", "slippy/contact/influence_matrix_utils.py:_plan_fftw_convolve"]}
{"id": "C07", "title": "FFT convolution on a periodic axis is exactly periodic", "statement": "On a periodic axis the result is the cyclic superposition with the same centring as the non-periodic case, and shifting the loads cyclically shifts the result by the same amount; sizes that differ are rejected.", "quantifier": "all sizes, loads, influence matrices and cyclic shifts", "why_tests_cant": "Relational (shift) property over all sizes and values.", "anchors": ["slippy/contact/influence_matrix_utils.py:plan_convolve", "slippy/contact/influence_matrix_utils.py:_plan_fftw_convolve"]}
{"id": "C08", "title": "A unit load produces the influence coefficient of the true node offset", "statement": "When the influence matrix produced for a given span is used by the planned convolution, or by the direct 'same' convolution route, a unit load at node j displaces node i by the coefficient belonging to the offset i-j, for odd and for even spans; hence both routes give the same displacements.", "quantifier": "all spans, all node pairs whose offset is inside the span, all coefficient functions", "why_tests_cant": "It joins three separately written index conventions (kernel index offsets, roll before FFT, 'same' cropping); parity mistakes survive tests with one parity or symmetric kernels.", "anchors": ["slippy/contact/influence_matrix_utils.py:elastic_influence_matrix", "slippy/contact/influence_matrix_utils.py:_plan_fftw_convolve", "slippy/contact/influence_matrix_utils.py:_solve_im_loading"]}
{"id": "C09", "title": "Restricting a convolution to a sub-domain loses nothing", "statement": "The planned convolution restricted to a sub-domain equals the full convolution of the loads extended by zero, read at the sub-domain's nodes; and it is linear in the loads.", "quantifier": "all domains, loads and influence matrices", "why_tests_cant": "An identity between two code paths for every mask.", "anchors": ["slippy/contact/influence_matrix_utils.py:plan_convolve"]}
{"id": "C10", "title": "The influence matrix of a pair of bodies is the sum of the bodies' own matrices", "statement": "Requesting the combined influence matrix of two materials equals the sum of the matrices requested for each material alone, for every component, and giving only half of the second material's data is rejected.", "quantifier": "all components, grid spacings, spans, shear moduli and Poisson ratios", "why_tests_cant": "Tests that use equal Poisson ratios cannot see a formula that uses only one of the two ratios.", "anchors": ["slippy/contact/influence_matrix_utils.py:elastic_influence_matrix"]}
{"id": "C11", "title": "Normal influence coefficients are symmetric", "statement": "The displacement coefficient for normal load and normal displacement is unchanged when the offset is reversed along x, along y, or when the axes are exchanged.", "quantifier": "all integer offsets, all spacings and materials", "why_tests_cant": "Continuum of parameters and all offsets; the closed form contains logarithms of expressions that change form under reversal.", "anchors": ["slippy/contact/influence_matrix_utils.py:elastic_influence_matrix"]}
{"id": "C12", "title": "Loads found from displacements reproduce the displacements", "statement": "When the iterative inverse solver (displacements to loads) returns without the non-convergence warning, the loads it returns produce, through the influence matrix, displacements within the requested tolerance of the prescribed ones at every prescribed node, and nodes without prescribed displacement keep the load they had in the initial guess.", "quantifier": "all linear influence operators, prescribed displacements, initial guesses, tolerances and iteration limits", "why_tests_cant": "The stopping test uses a recurrence, not the true residual; only an invariant over every iteration shows they are equal.", "anchors": ["slippy/contact/influence_matrix_utils.py:_solve_im_displacement"]}
{"id": "C13", "title": "The bound-constrained contact solver returns admissible pressures", "statement": "Whatever operator, right-hand side and starting guess are given, with the default one inner iteration, a finite pressure field returned by the bound-constrained conjugate gradient solver is never below zero or above the maximum pressure (up to the stated 1e-14), at every node.", "quantifier": "all operators (linear or not), right-hand sides, starting guesses, iteration limits and tolerances", "why_tests_cant": "An invariant of a loop with data-dependent active sets; tests see a few trajectories.", "anchors": ["slippy/contact/influence_matrix_utils.py:bccg", "slippy/contact/influence_matrix_utils.py:_fftw_bccg"]}
{"id": "C14", "title": "Converged contact solutions satisfy the contact sign conditions", "statement": "When the solver reports success, every node held at zero pressure has a non-negative residual gap (to 1e-14) and every node held at the maximum pressure a non-positive one: no node is kept on a bound that it should leave. The residual used is the true residual of the returned pressures when the operator is linear and no node changed state.", "quantifier": "all linear operators, right-hand sides, starting guesses", "why_tests_cant": "Needs an invariant linking the recursively updated residual with the true one over all iterations.", "anchors": ["slippy/contact/influence_matrix_utils.py:bccg", "slippy/contact/influence_matrix_utils.py:_fftw_bccg"]}
{"id": "C15", "title": "The contact solver always stops and reports honestly", "statement": "The solver stops after at most max_it+1 iterations for every input; it reports failure exactly when the iteration limit was passed or no node was left free; starting it from the exact solution returns that solution.", "quantifier": "all operators, inputs and limits", "why_tests_cant": "Termination and a statement about all starts, including exact ones that random tests never generate.", "anchors": ["slippy/contact/influence_matrix_utils.py:bccg", "slippy/contact/influence_matrix_utils.py:_fftw_bccg"]}
{"id": "C16", "title": "Interval outputs fire exactly every n-th increment", "statement": "An output request with an increment interval n is active on the 1st, (n+1)-th, (2n+1)-th ... increment of the analysis and on no other, over any number of steps.", "quantifier": "all n>=1, all numbers of increments and steps", "why_tests_cant": "Counting behaviour over unbounded call histories with step changes in between.", "anchors": ["slippy/contact/outputs.py:OutputRequest.is_active", "slippy/contact/outputs.py:OutputRequest.new_step"]}
{"id": "C17", "title": "Requested output times are all honoured", "statement": "An output request given as a list of times becomes active at the first increment that reaches each requested time, never earlier than that time, at most once for each requested time; and every requested time that the analysis passes (one per increment) produces an output.", "quantifier": "all increasing lists of requested times, all increasing increment times, all step boundaries", "why_tests_cant": "A property of every schedule of increments against every schedule of requests.", "anchors": ["slippy/contact/outputs.py:OutputRequest.__init__", "slippy/contact/outputs.py:OutputRequest.new_step", "slippy/contact/outputs.py:OutputRequest.is_active"]}
{"id": "C18", "title": "Whatever was saved can be read back", "statement": "Every sequence of records written by the output saver (numbers, ordinary strings and arrays of any shape, in any mixture) is read back by the output reader as the same sequence of records, each array being the one written under that name in that record.", "quantifier": "all sequences of records with any number of fields and arrays", "why_tests_cant": "Round trip over all histories: array numbering is shared by all records.", "anchors": ["slippy/contact/outputs.py:OutputSaver.write", "slippy/contact/outputs.py:OutputReader", "slippy/contact/outputs.py:_ArrayReader"]}
{"id": "C19", "title": "Reader indexing by time and by field agree", "statement": "Indexing the reader with a time returns the first record saved at that time; indexing with a field name returns for every recorded time the value of that field or None when it was not saved; any other index raises IndexError; records saved with negative time are invisible.", "quantifier": "all result files and all indices", "why_tests_cant": "Quantifies over all files and over all indices, including ones that are both absent and malformed.", "anchors": ["slippy/contact/outputs.py:OutputReader.__getitem__", "slippy/contact/outputs.py:OutputReader.__init__"]}
{"id": "C20", "title": "A lubricant that passes its data check can always be evaluated", "statement": "If a lubricant's data check accepts the quantities provided by the step, then evaluating its sub models with any state containing those quantities never fails for a missing argument and returns a value for every declared sub model in addition to the given state.", "quantifier": "all sets of sub models with arbitrary parameter lists, all insertion orders, all provided quantities", "why_tests_cant": "A soundness theorem between a static check and a dynamic evaluation over all programs (sets of sub models).", "anchors": ["slippy/contact/lubricant.py:Lubricant.add_sub_model", "slippy/contact/lubricant.py:Lubricant.data_check", "slippy/contact/lubricant.py:Lubricant.solve_sub_models"]}
{"id": "C21", "title": "Step-level data check is sound for sub models", "statement": "If the data check of a step records no problem, every sub model of the step finds all quantities it requires when the step is solved, and the quantities reported as available afterwards are exactly those provided by the step and its sub models; checking a step twice gives the same verdict.", "quantifier": "all lists of sub models with arbitrary requirements/provisions, any number of repeated checks", "why_tests_cant": "Soundness and idempotence of a checker over all configurations.", "anchors": ["slippy/contact/steps.py:_ModelStep._data_check", "slippy/contact/steps.py:_ModelStep.check_sub_models", "slippy/contact/steps.py:_ModelStep.solve_sub_models"]}
{"id": "C22", "title": "Each increment is saved once, with everything requested", "statement": "When at least one output request is active in an increment exactly one record is written; it contains the time and every field requested by any active request that the state provides (loads and displacements being split into their components); when none is active nothing is written.", "quantifier": "all sets of output requests, states and activity patterns", "why_tests_cant": "Combinatorial in requests and fields; over-writing between requests shows only for particular overlaps.", "anchors": ["slippy/contact/steps.py:_ModelStep.save_outputs"]}
{"id": "C23", "title": "Model steps run in the order given, in a single pass", "statement": "Adding steps with an explicit position or after a named step puts each step in the documented place without disturbing the order of the others; names stay unique; solving visits every step exactly once in that order passing the state returned by one to the next.", "quantifier": "all sequences of add_step calls with any position argument", "why_tests_cant": "List-surgery under arbitrary call histories.", "anchors": ["slippy/contact/models.py:_ContactModelABC.add_step", "slippy/contact/models.py:ContactModel.solve"]}
{"id": "C24", "title": "Load cases interpolate between their end points", "statement": "A step quantity given as two values starts exactly at the first and ends exactly at the second; a quantity given as a table passes through the table; relative quantities are offset by the state at the start of the step and other quantities are untouched.", "quantifier": "all end values, tables, times inside the step", "why_tests_cant": "Continuum of values and times.", "anchors": ["slippy/contact/_step_utils.py:make_interpolation_func", "slippy/contact/quasi_static_step.py"]}
{"id": "C25", "title": "The height-search cache stays ordered and truthful", "statement": "During the search for the approach that carries a given load, the list of tried heights is always sorted, has one stored load for each height, and a repeated height returns the stored load minus the target without a new contact solution; brackets taken from the cache really bracket the target load when they contain both signs.", "quantifier": "all sequences of trial heights, load changes and cache clearings", "why_tests_cant": "Data-structure invariant over all operation histories.", "anchors": ["slippy/contact/_step_utils.py:HeightOptimisationFunction"]}
{"id": "C26", "title": "The undeformed gap has the prescribed interference", "statement": "The gap handed to the contact solver is the difference of the two surfaces shifted so that its minimum is minus the prescribed interference, so the bodies first touch at interference zero and all other points are further apart.", "quantifier": "all pairs of profiles, offsets and interferences", "why_tests_cant": "Holds for every pair of profiles; extreme points are rare in tests.", "anchors": ["slippy/contact/_model_utils.py:get_gap_from_model"]}
{"id": "C27", "title": "The cyclic tridiagonal solver solves the cyclic system", "statement": "The vector returned solves the full cyclic tridiagonal system (corner entries included) whenever the two inner tridiagonal solves are exact and the correction is defined; the arguments passed by the caller are left unchanged as documented.", "quantifier": "all sizes n>=3, all real coefficients and right-hand sides", "why_tests_cant": "Matrix identity for all sizes; the mutation claim is about the caller's state after the call.", "anchors": ["slippy/contact/_lubrication_utils.py:cyclic_tdma"]}
{"id": "C28", "title": "Reynolds coefficients never use stale parameters", "statement": "After any sequence of changes to the solver's parameters (speed, load, radius, viscosity, pressure) and reads, the dimensionless speed parameter used is the one computed from the current parameters.", "quantifier": "all sequences of setter calls and reads", "why_tests_cant": "Cache invalidation over all histories.", "anchors": ["slippy/contact/unified_reynolds_solver.py:UnifiedReynoldsSolver"]}
{"id": "C29", "title": "Dimensional and non-dimensional forms are inverse", "statement": "Converting pressure, gap, viscosity, density, speed and load to dimensionless form and back (in either order) is the identity.", "quantifier": "all field values and all non-zero solver parameters", "why_tests_cant": "Identity over a continuum in every field.", "anchors": ["slippy/contact/unified_reynolds_solver.py:UnifiedReynoldsSolver"]}
{"id": "C30", "title": "Lubricant pressure is never negative", "statement": "The pressure field returned by a Reynolds solution lies between zero and the allowed maximum everywhere it is computed, and the boundary rows keep their prescribed values.", "quantifier": "all coefficient fields, initial fields and sweeps", "why_tests_cant": "Invariant of a sweep that uses already updated neighbours.", "anchors": ["slippy/contact/unified_reynolds_solver.py:UnifiedReynoldsSolver.solve"]}
{"id": "C31", "title": "Viscosity and density laws are physical and dimension-consistent", "statement": "Roelands and Barus viscosities equal the reference viscosity at ambient pressure and increase strictly with pressure; the Dowson-Higginson density is 1 (relative) at zero pressure, increasing and bounded by the limiting compression; the non-dimensional versions return the dimensional law divided by its reference at the corresponding dimensional pressure.", "quantifier": "all pressures >=0 and all admissible parameters", "why_tests_cant": "Monotonicity and identities over a continuum.", "anchors": ["slippy/contact/lubricant_models.py:roelands", "slippy/contact/lubricant_models.py:barus", "slippy/contact/lubricant_models.py:dowson_higginson", "slippy/contact/lubricant_models.py:nd_roelands", "slippy/contact/lubricant_models.py:nd_barus", "slippy/contact/lubricant_models.py:nd_dowson_higginson"]}
{"id": "C32", "title": "Hertz line contact: every way of specifying the problem gives the same contact", "statement": "Solving the line contact from a derived quantity (maximum pressure, maximum shear, contact width, total load with the other parameters) returns a contact whose derived quantities equal the given ones and satisfy the Hertz relations (p0 = 2P/(pi a), a^2 = 4PR/(pi E*)).", "quantifier": "all positive loads, radii and moduli, all admissible choices of given and missing quantities", "why_tests_cant": "Algebraic round trip over a continuum for each choice of unknown.", "anchors": ["slippy/contact/hertz.py:solve_hertz_line", "slippy/contact/hertz.py:_fill_hertz_solution_line"]}
{"id": "C33", "title": "Hertz point contact: every way of specifying the problem gives the same contact", "statement": "Solving the point contact from a derived quantity (maximum pressure, maximum shear, contact radius, total displacement) returns a contact whose derived quantities equal the given ones and satisfy the Hertz relations (a^3 = 3PR/(4E*), p0 = 3P/(2 pi a^2), delta = a^2/R).", "quantifier": "all positive loads, radii and moduli, all admissible choices of given and missing quantities", "why_tests_cant": "Algebraic round trip over a continuum for each choice of unknown.", "anchors": ["slippy/contact/hertz.py:solve_hertz_point", "slippy/contact/hertz.py:_fill_hertz_solution_point"]}
{"id": "C34", "title": "Missing Hertz material data is filled in consistently", "statement": "Whenever the solver fills in a missing Poisson ratio, Young's modulus or radius, the completed data reproduces the given effective modulus or radius; exchanging the two bodies changes nothing.", "quantifier": "all admissible combinations of given and missing material data", "why_tests_cant": "Each combination is a separate algebraic branch over a continuum.", "anchors": ["slippy/contact/hertz.py:solve_hertz_line", "slippy/contact/hertz.py:solve_hertz_point"]}
{"id": "C35", "title": "Hertz pressure distributions carry the applied load", "statement": "The pressure function returned for a Hertz contact is zero outside the contact, between zero and the maximum pressure inside, reaches the maximum at the centre, and for line contact integrates to the load per unit length.", "quantifier": "all contact sizes and loads, all points", "why_tests_cant": "Pointwise bounds over a continuum and an integral.", "anchors": ["slippy/contact/hertz.py:hertz_full", "slippy/contact/hertz.py:_pressure_line_contact", "slippy/contact/hertz.py:_pressure_spherical_contact"]}
{"id": "C36", "title": "Reported mean pressures agree with load over area", "statement": "In the full Hertz solution the reported mean pressure equals load divided by contact area (line: load per length over contact width; sphere and ellipse: load over area).", "quantifier": "all contact geometries and loads", "why_tests_cant": "A relation between reported results in every shape branch.", "anchors": ["slippy/contact/hertz.py:hertz_full"]}
{"id": "C37", "title": "Principal relative curvatures of two bodies are computed for every orientation", "statement": "For every pair of bodies with given principal radii and every angle between them, the two principal relative curvatures have the right sum and the full Hertz solution is produced (no internal-error exception).", "quantifier": "all radii (positive, negative, infinite) and all angles", "why_tests_cant": "Exceptional branch reached only for particular sign patterns of curvature.", "anchors": ["slippy/contact/hertz.py:hertz_full"]}
{"id": "C38", "title": "Surface geometry stays consistent", "statement": "After any sequence of assignments and deletions of grid spacing, extent, shape and profile, whenever all are set the extent equals the shape times the grid spacing in each direction and the size is the number of points in the shape; a profile always has the recorded shape.", "quantifier": "all histories of setter/deleter calls with arbitrary values", "why_tests_cant": "Invariant over all histories of interacting setters.", "anchors": ["slippy/surface/Surface_class.py:_Surface.grid_spacing", "slippy/surface/Surface_class.py:_Surface.extent", "slippy/surface/Surface_class.py:_Surface.shape", "slippy/surface/Surface_class.py:_Surface.profile"]}
{"id": "C39", "title": "Wear is conserved", "statement": "At any time the unworn profile minus the current profile equals the sum over all wear mechanisms of the recorded worn depth, at every node, and assigning a new profile resets the record.", "quantifier": "all sequences of wear calls (any names, positions, depths, including repeated positions) and profile assignments", "why_tests_cant": "Conservation law over all histories, including repeated positions inside one call.", "anchors": ["slippy/surface/Surface_class.py:_Surface.wear", "slippy/surface/Surface_class.py:_Surface.profile"]}
{"id": "C40", "title": "Wear is applied at the node where it happens, in full", "statement": "Each worn depth given with a position lowers the profile at the grid node nearest to that position by that depth; depths given several times for the same node add up; malformed input (length mismatch, NaN) changes nothing.", "quantifier": "all positions inside the surface, all grid spacings, all depths", "why_tests_cant": "Depends on the numeric value of grid spacing (tests use 1e-6 or 1) and on duplicates.", "anchors": ["slippy/surface/Surface_class.py:_Surface.wear"]}
{"id": "C41", "title": "Masks exclude exactly the requested points", "statement": "Setting a surface's mask to a value, or to a list of values, masks exactly the points whose height equals one of the values; setting it to an array masks exactly the True points.", "quantifier": "all profiles, all lists of values", "why_tests_cant": "Every profile and every list length; single-value tests miss the list case.", "anchors": ["slippy/surface/Surface_class.py:_Surface.mask"]}
{"id": "C42", "title": "Surface arithmetic acts point by point", "statement": "Adding or subtracting two surfaces with equal spacing gives point-wise sum or difference on the common part; adding then subtracting the same number is the identity; subtraction of a number lowers the profile by this number.", "quantifier": "all pairs of profiles of any shapes, all numbers", "why_tests_cant": "Identity for all shapes and values.", "anchors": ["slippy/surface/Surface_class.py:_Surface.__add__", "slippy/surface/Surface_class.py:_Surface.__sub__"]}
{"id": "C43", "title": "Rotating and shifting analytic surfaces composes", "statement": "Heights of an analytic surface after any sequence of rotations and shifts equal the heights of the base shape at the point moved by the accumulated shift and rotated by the accumulated angle; the result depends only on the totals, rotations preserve distances, a full default shift puts the shape's origin at the middle of the extent.", "quantifier": "all sequences of rotate/shift calls, all points, all base shapes", "why_tests_cant": "Histories of arbitrary length and all points.", "anchors": ["slippy/surface/Surface_class.py:_AnalyticalSurface.height", "slippy/surface/Surface_class.py:_AnalyticalSurface.rotate", "slippy/surface/Surface_class.py:_AnalyticalSurface.shift"]}
{"id": "C44", "title": "Discretised analytic surfaces sample the height function at the grid nodes", "statement": "Discretising an analytic surface gives at row i, column j the height at (i*spacing, j*spacing), the profile has the requested shape, and for combined surfaces the discretised sum equals the sum of the discretised surfaces.", "quantifier": "all height functions, shapes and spacings", "why_tests_cant": "All functions and all indices; axis swaps are invisible on symmetric shapes.", "anchors": ["slippy/surface/Surface_class.py:_AnalyticalSurface.discretise", "slippy/surface/Surface_class.py:_Surface.get_points_from_extent", "slippy/surface/Surface_class.py:SurfaceCombination"]}
{"id": "C45", "title": "All interpolation modes agree at the grid nodes", "statement": "Interpolating a discrete surface at its own grid nodes returns the stored height in every mode, for every profile, also after the profile was replaced.", "quantifier": "all profiles, nodes, modes and histories of profile assignment", "why_tests_cant": "Axis-order and stale-interpolator errors are invisible on symmetric profiles and single-use tests.", "anchors": ["slippy/surface/Surface_class.py:_Surface.interpolate"]}
{"id": "C46", "title": "Geometric shapes are bodies with a single highest point at the centre", "statement": "Round, pyramid and flat surfaces have height zero at their origin and non-positive height elsewhere; round and pyramid heights decrease away from the origin over the whole plane.", "quantifier": "all radii/lengths, all points of the plane", "why_tests_cant": "Continuum of points including those outside the ball.", "anchors": ["slippy/surface/Geometric.py:RoundSurface", "slippy/surface/Geometric.py:PyramidSurface", "slippy/surface/Geometric.py:FlatSurface"]}
{"id": "C47", "title": "Summits are exactly the strict local maxima", "statement": "The summit finder marks an interior point if and only if it is strictly higher than all four (or eight) neighbours; border points are never marked; no two neighbouring points are both summits; eight-neighbour summits are four-neighbour summits; the caller's profile is not changed.", "quantifier": "all profile shapes and values", "why_tests_cant": "Universal over profiles and neighbour configurations, incl. ties and borders.", "anchors": ["slippy/surface/roughness_funcs.py:find_summits"]}
{"id": "C48", "title": "Roughness parameters obey their defining laws", "statement": "Sq and Sa are non-negative, zero exactly on the zero profile, scale with the absolute value of a height factor, Sa <= Sq; Ssk is odd and Sku even and invariant under positive scaling, Sku >= 1 and Sku >= Ssk^2; asking for a list of parameters returns the same values as asking for each alone.", "quantifier": "all profiles of any size and all scale factors", "why_tests_cant": "Inequalities over all vectors of any length.", "anchors": ["slippy/surface/roughness_funcs.py:roughness"]}
{"id": "C49", "title": "Developed area ratio is zero for flat surfaces and never negative", "statement": "The developed interfacial area ratio Sdr is zero for a flat surface and non-negative for every surface.", "quantifier": "all profiles and spacings", "why_tests_cant": "Inequality over all profiles.", "anchors": ["slippy/surface/roughness_funcs.py:roughness"]}
{"id": "C50", "title": "Polynomial subtraction removes exactly the polynomial", "statement": "Subtracting a fitted polynomial leaves a residual orthogonal to all fitted terms; if the profile is a polynomial of the fitted order the residual is zero; points excluded by the mask do not influence the fit.", "quantifier": "all profiles, orders and masks", "why_tests_cant": "Least-squares characterisation over all profiles.", "anchors": ["slippy/surface/roughness_funcs.py:subtract_polynomial"]}
{"id": "C51", "title": "Autocorrelation is even with its largest value at zero lag", "statement": "The autocorrelation estimate of any profile is symmetric about its centre, the centre value is the mean square height and no other value exceeds it in magnitude; the exponential model is even, positive, and decreasing in distance from the origin.", "quantifier": "all profiles, lags and parameters", "why_tests_cant": "Cauchy-Schwarz type bound for all profiles.", "anchors": ["slippy/surface/ACF_class.py:ACF"]}
{"id": "C52", "title": "Fractal surface spectra are conjugate symmetric so heights are real", "statement": "For every (even) grid the random phases and amplitudes are arranged so that the spectrum is conjugate-symmetric, hence the inverse transform has zero imaginary part at every point, and the generated profile has the requested shape.", "quantifier": "all even grid sizes and random draws", "why_tests_cant": "Index symmetry for all sizes.", "anchors": ["slippy/surface/FFTBased.py:HurstFractalSurface", "slippy/surface/FFTBased.py:_conj_sym"]}
{"id": "C53", "title": "Height-exact random surfaces have exactly the prescribed heights", "statement": "With exact heights requested, the generated profile is a rearrangement of the prescribed heights at every iteration, ordered like the spectrum-matched estimate; the iteration stops within the allowed number of iterations; the caller's arrays are unchanged.", "quantifier": "all height sets, spectra, random starts and iteration limits", "why_tests_cant": "Multiset invariant of an iterative process over all inputs.", "anchors": ["slippy/surface/Random.py:RandomPerezSurface.discretise"]}
{"id": "C54", "title": "Filtered random surfaces are exact (cyclic) moving averages of the requested shape", "statement": "The generated profile has the requested shape; every height is the filter-weighted sum of the noise around it, and with periodic generation a cyclic shift of the noise cyclically shifts the profile.", "quantifier": "all filter sizes, output shapes, noise fields", "why_tests_cant": "Index arithmetic for all sizes, shift relation.", "anchors": ["slippy/surface/Random.py:RandomFilterSurface.discretise"]}
{"id": "C55", "title": "Filter optimisation uses the exact gradient", "statement": "The gradient given to the optimiser is the gradient of the objective given to the optimiser, for symmetric and non-symmetric filters.", "quantifier": "all filters, target autocorrelations and sizes", "why_tests_cant": "Derivative identity in every coordinate and every size.", "anchors": ["slippy/surface/Random.py:_min_fun", "slippy/surface/Random.py:_grad_min_fun", "slippy/surface/Random.py:_get_acf_estimate"]}
{"id": "C56", "title": "Johnson quantile fits reproduce the given quantiles", "statement": "Fitting by quantiles returns a distribution whose quantiles at the four normal probabilities equal the given ones.", "quantifier": "all strictly increasing quadruples of quantiles", "why_tests_cant": "Transcendental identity over a continuum in each branch; the normal branch is a measure-zero set that random tests never reach.", "anchors": ["slippy/surface/_johnson_utils.py:_fit_johnson_by_quantiles"]}
{"id": "C57", "title": "Reading a delimited file keeps every numeric row in order", "statement": "Reading a csv surface returns exactly the rows all of whose cells are numbers, in file order, and rejects files with none.", "quantifier": "all files", "why_tests_cant": "All files (sequences of rows of cells).", "anchors": ["slippy/surface/Surface_class.py:Surface.read_csv"]}
{"id": "C58", "title": "Trigonometric surfaces are sums of their components", "statement": "A surface built from frequencies and amplitudes has at every point the sum of its components, is periodic with any common period, independent of the second coordinate, and additive in the amplitude list; mismatched lists are rejected.", "quantifier": "all frequency/amplitude lists and points", "why_tests_cant": "All list lengths and points.", "anchors": ["slippy/surface/FFTBased.py:DiscFreqSurface"]}
{"id": "C59", "title": "The CUDA override always restores the previous setting", "statement": "After a with-block overriding CUDA usage the global switch has the value it had on entry to the block, also when blocks are nested, reused, or left by an exception.", "quantifier": "all nestings, reuse of one override object, global changes between creation and entry, exceptional exits", "why_tests_cant": "All well-bracketed histories; the interesting ones have a change between construction and entry.", "anchors": ["slippy/__init__.py:OverRideCuda"]}
{"id": "C60", "title": "Perfectly plastic wear removes exactly the inter-penetration", "statement": "The elastic perfectly plastic wear sub model removes, at the nodes that reached the maximum pressure, exactly the remaining inter-penetration, split between the two surfaces in the requested proportion, and never adds material.", "quantifier": "all gaps, pressures and proportions", "why_tests_cant": "All fields and proportions including the defaults.", "anchors": ["slippy/contact/sub_models/epp_wear.py:WearElasticPerfectlyPlastic.solve"]}
{"id": "C61", "title": "The inverse solver converges within as many iterations as prescribed nodes", "statement": "For an influence operator that is symmetric and positive definite on the prescribed nodes, finding loads from displacements never issues the non-convergence warning when the iteration limit is at least the number of prescribed nodes, and the loads returned then reproduce the prescribed displacements within the tolerance.", "quantifier": "all symmetric definite operators, prescribed sets, displacements, guesses, positive tolerances (exact arithmetic)", "why_tests_cant": "Needs the orthogonality of all residuals and conjugacy of all directions, an argument over arbitrarily many iterations and nodes.", "anchors": ["slippy/contact/influence_matrix_utils.py:_solve_im_displacement"]}
{"id": "C62", "title": "Time interval outputs are written once per interval", "statement": "A time_interval output request with interval dt writes, up to any time t of a step that starts at s, at most one output per multiple of dt since s, and none of the intervals is missed when no increment is longer than dt; the documented times are s+dt, s+2dt, ...", "quantifier": "all intervals > 0, step starts and increasing sequences of increment times, whatever happened in earlier steps", "why_tests_cant": "Depends on the whole sequence of increments and on the state left behind by earlier steps.", "anchors": ["slippy/contact/outputs.py:OutputRequest.is_active", "slippy/contact/outputs.py:OutputRequest.new_step"]}
{"id": "C63", "title": "The output check predicts what can be saved", "statement": "If the data check of a step's outputs reports neither a missing output nor a surface attribute it cannot check, then with any state that has the declared quantities the record written contains exactly the requested quantities with the values of the state; a requested quantity that will not be available is always reported or flagged as uncheckable.", "quantifier": "all output requests, declared quantities and states, any set iteration order", "why_tests_cant": "Interaction of two different expansions of names (check and save) over all combinations of requests.", "anchors": ["slippy/contact/steps.py:_ModelStep.check_outputs", "slippy/contact/steps.py:_ModelStep.save_outputs"]}
{"id": "C64", "title": "A converged Reynolds sweep solves the discretised Reynolds equation", "statement": "If a sweep of the Reynolds solver leaves the pressure field unchanged and the row system is solved exactly, then at every computed node which, with its neighbours along the row, is strictly between zero and the maximum pressure, the flow into the cell driven by the pressure gradient equals the wedge term plus the squeeze term of the discretised Reynolds equation, up to the product of the increments of density and gap; the elastic coefficients cancel.", "quantifier": "all field shapes, all fields, all coefficients, both sweep directions, with and without periodicity", "why_tests_cant": "The statement is about fixed points of an iteration over arbitrary fields; the semi-implicit elastic terms must cancel identically.", "anchors": ["slippy/contact/unified_reynolds_solver.py:UnifiedReynoldsSolver.solve", "slippy/contact/unified_reynolds_solver.py:_solve_row"]}
{"id": "C65", "title": "The full Hertz solution does not depend on which body is named first", "statement": "Exchanging the two bodies (radii, moduli and Poisson's ratios) of the full Hertz solution gives the same exception or the same contact: shape, relative radii, contact radii, area, pressures, deflection and pressure function agree, and the two angles are exchanged.", "quantifier": "all radii, materials, loads, angles and flags, any root finder", "why_tests_cant": "A relational property over two runs, over all inputs and all branches.", "anchors": ["slippy/contact/hertz.py:hertz_full"]}
{"id": "C66", "title": "The auxiliary angle of an elliptical contact is that of the principal relative curvatures", "statement": "In the elliptical branch of the full Hertz solution the cosine of the auxiliary angle is the ratio of the difference and the sum of the principal relative curvatures.", "quantifier": "all bodies and angles", "why_tests_cant": "An identity over all radii and angles; it happens to hold for a ball or a flat against any body.", "anchors": ["slippy/contact/hertz.py:hertz_full"]}
{"id": "C67", "title": "Reported maximum von Mises stresses are stresses of the contact", "statement": "The maximum von Mises stress reported for a point contact is attained on the axis of the contact, and the two solvers for line contacts report the same value.", "quantifier": "all contact sizes, pressures, depths and Poisson's ratios", "why_tests_cant": "Compares a fitted constant with a stress field at all depths.", "anchors": ["slippy/contact/hertz.py:_fill_hertz_solution_point", "slippy/contact/hertz.py:_fill_hertz_solution_line", "slippy/contact/hertz.py:hertz_full"]}
{"id": "C68", "title": "Displacements of a spherical contact close the gap inside the contact and only there", "statement": "For a spherical contact the sum of the normal surface displacements of both bodies equals the deflection minus the parabolic separation inside the contact, exceeds it outside, and is continuous everywhere; the two branches of the radial displacement agree at the edge.", "quantifier": "all materials, loads, radii and surface points", "why_tests_cant": "A statement over a continuum with a transcendental inequality outside of the contact.", "anchors": ["slippy/contact/hertz.py:_displacement_spherical_contact", "slippy/contact/hertz.py:hertz_full"]}
{"id": "C69", "title": "Surface and axis stresses of a spherical contact agree at the centre", "statement": "The stresses on the surface of a spherical contact approach the stresses on the axis at the centre, radial and hoop stress are equal there, and the normal stress is the pressure with the opposite sign.", "quantifier": "all contact radii, pressures and Poisson's ratios", "why_tests_cant": "Limits at a point where the formulas are singular.", "anchors": ["slippy/contact/hertz.py:_stress_surface_spherical", "slippy/contact/hertz.py:_stress_z_axis_spherical"]}
{"id": "C70", "title": "Stresses of a line contact balance the pressure and decay with depth", "statement": "The normal stress in a line contact equals the pressure with the opposite sign on the surface and falls to zero with depth.", "quantifier": "all contact widths, pressures and points", "why_tests_cant": "A statement about all depths.", "anchors": ["slippy/contact/hertz.py:_stress_line_contact", "slippy/contact/hertz.py:_pressure_line_contact"]}
{"id": "C71", "title": "Sums of surfaces with different grid spacing use the present profiles", "statement": "Adding or subtracting two surfaces with different grid spacing gives a result that is determined by the profiles the surfaces have at that moment, also if a surface was resampled before and its profile was replaced since.", "quantifier": "all pairs of surfaces, all histories of resampling and assignment of profiles", "why_tests_cant": "The wrong result needs a particular history: a resampling, then a new profile, then a sum with a finer surface; a test that builds fresh surfaces never meets it.", "anchors": ["slippy/surface/Surface_class.py:_Surface.__add__", "slippy/surface/Surface_class.py:_Surface.resample"]}
{"id": "C72", "title": "Results of arithmetic with analytic surfaces are surfaces of their own", "statement": "A sum, difference or multiple of analytic surfaces has the point-wise heights; rotating or shifting the result moves it like any other surface; later rotations and shifts of the operands do not change the result.", "quantifier": "all heights, all points, all sequences of rotations and shifts of result and operands", "why_tests_cant": "It is a statement about all later histories of several objects that share references; examples check the heights right after the operation.", "anchors": ["slippy/surface/Surface_class.py:_AnalyticalSurface.__add__", "slippy/surface/Surface_class.py:_AnalyticalSurface.__mul__", "slippy/surface/Surface_class.py:SurfaceCombination"]}
{"id": "C73", "title": "The ten point height is one number", "statement": "The parameter Sz is the mean absolute height of the five highest summits plus the mean absolute depth of the five lowest valleys, as one number.", "quantifier": "all profiles with at least five summits and five valleys", "why_tests_cant": "All profiles; a test on the number needs a profile for which the value is known and distinguishes a sum of arrays from a mean.", "anchors": ["slippy/surface/roughness_funcs.py:roughness"]}
{"id": "C74", "title": "The material ratio is the part of the material above the height", "statement": "The material ratio for a height is one number, the sum of the heights of the columns above the height divided by the sum of the heights above the lowest point.", "quantifier": "all profiles and heights", "why_tests_cant": "All profiles and cut off heights; at the ends of the range the wrong formula agrees.", "anchors": ["slippy/surface/roughness_funcs.py:get_mat_vr"]}
{"id": "C75", "title": "A mask leaves out the same points in every roughness function", "statement": "For every mask (nan, a number, an array) the fit of the polynomial, the statistics, the search for summits and the material ratio use the same set of points.", "quantifier": "all profiles and masks", "why_tests_cant": "A comparison of four functions over all profiles and all kinds of masks.", "anchors": ["slippy/surface/roughness_funcs.py:roughness", "slippy/surface/roughness_funcs.py:find_summits", "slippy/surface/roughness_funcs.py:get_mat_vr", "slippy/surface/roughness_funcs.py:subtract_polynomial"]}
{"id": "C76", "title": "Autocorrelation functions are evaluated in one layout", "statement": "Evaluating an autocorrelation function on two coordinate vectors gives an array whose columns belong to the first vector, whatever source the function was made from (a surface, an array, a model name).", "quantifier": "all sources and all coordinate vectors", "why_tests_cant": "The layouts agree for square symmetric cases; a difference shows only for a particular combination of source and shape.", "anchors": ["slippy/surface/ACF_class.py:ACF.__call__"]}
{"id": "C77", "title": "Fractal surfaces have the requested roughness", "statement": "The surface generated from a Hurst exponent has the root mean square roughness that was asked for.", "quantifier": "all roughness values, Hurst exponents, cut off frequencies, sizes and random phases", "why_tests_cant": "The phases are random; a test sees single samples and has to allow a tolerance.", "anchors": ["slippy/surface/FFTBased.py:HurstFractalSurface.discretise"]}
{"id": "C78", "title": "The stored spectrum of a fractal surface belongs to its transform", "statement": "The power spectrum stored with a generated surface is the one that the stored transform of the surface was made from, entry by entry, for the surface itself and for surfaces that are returned as new.", "quantifier": "all parameters, sizes and random phases", "why_tests_cant": "An identity of arrays for all sizes and both ways of calling.", "anchors": ["slippy/surface/FFTBased.py:HurstFractalSurface.discretise"]}
{"id": "C79", "title": "The exact spectrum is exact", "statement": "If the surface with the exact power spectrum is requested, the magnitude of its transform is the scaled target and its mean and root mean square are those of the prescribed heights.", "quantifier": "all targets, heights, numbers of iterations", "why_tests_cant": "The statement is about the Fourier transform of the result for all arrays; a symmetric example hides the asymmetric case.", "anchors": ["slippy/surface/Random.py:RandomPerezSurface.discretise"]}
{"id": "C80", "title": "FIR filters give the target variance", "statement": "White noise of unit variance filtered with the coefficients from the method for finite impulse response filters has the variance that the target autocorrelation has at zero lag.", "quantifier": "all target autocorrelations and filter sizes", "why_tests_cant": "An identity between sums over all frequencies, for every size.", "anchors": ["slippy/surface/Random.py:RandomFilterSurface.fir_filter"]}
{"id": "C81", "title": "Filtered surfaces have the requested moments", "statement": "If the noise has the skewness and kurtosis that are computed for it, the filtered surface has the skewness and kurtosis that were asked for.", "quantifier": "all filter coefficients, all target moments, all noise distributions", "why_tests_cant": "A moment identity for all filters and distributions; a test can only estimate the moments from a sample.", "anchors": ["slippy/surface/Random.py:RandomFilterSurface.set_moments"]}
{"id": "C82", "title": "Johnson distributions fitted by moments have the moments", "statement": "The fitted distribution has the mean, standard deviation, skewness and kurtosis it was fitted to, in every branch.", "quantifier": "all means, standard deviations, skewnesses and kurtosises", "why_tests_cant": "Integrals over the distribution, for a continuum of parameters, some branches being curves in the plane of skewness and kurtosis that random tests do not meet.", "anchors": ["slippy/surface/_johnson_utils.py:_fit_johnson_by_moments", "slippy/surface/_johnson_utils.py:sl_distribution_fit", "slippy/surface/_johnson_utils.py:_johnsonsl"]}
{"id": "C83", "title": "Reading a mat file finds the named variables", "statement": "Reading a .mat file sets the profile to the variable of the given name ('profile' without one), the grid spacing to the variable named for it, uses a variable called grid_spacing or a single variable if no names are given as the docstring says, raises ValueError for names not found, and a failing call changes nothing.", "quantifier": "all dictionaries of variables and all combinations of names", "why_tests_cant": "All dictionaries and name combinations, including the failing ones.", "anchors": ["slippy/surface/Surface_class.py:Surface.read_mat"]}
{"id": "C84", "title": "Stresses and displacements of a spherical contact obey Hooke's law", "statement": "The radial and the hoop stress that the stress closure gives on the surface of a spherical contact are those that Hooke's law gives for the radial displacement of the displacement closure and the normal stress.", "quantifier": "all moduli, Poisson ratios, contact radii, maximum pressures and all points of the surface", "why_tests_cant": "A differential relation between two closures at every point for a continuum of parameters.", "anchors": ["slippy/contact/hertz.py:_stress_surface_spherical", "slippy/contact/hertz.py:_displacement_spherical_contact"]}
{"id": "C85", "title": "Normal influence coefficients are displacements under a loaded cell", "statement": "The component 'zz' of elastic_influence_matrix at the offset (x, y) is the normal surface displacement at the node (x, y) of a half space with a unit pressure on the grid cell at the origin (the Boussinesq point load integrated over the cell); for two materials the sum of both displacements.", "quantifier": "for all offsets, grid spacings, shear moduli and Poisson's ratios", "why_tests_cant": "The singular double integral has to be compared with a closed formula for a continuum of spacings and every offset.", "anchors": ["slippy/contact/influence_matrix_utils.py:elastic_influence_matrix"]}
{"id": "C86", "title": "Tangential and coupling influence coefficients", "statement": "The remaining eight components of elastic_influence_matrix are the displacements along the first letter under a unit traction along the second letter on the cell at the origin (Boussinesq and Cerruti), and they are reciprocal: component ab at an offset equals component ba at the opposite offset.", "quantifier": "for all offsets, grid spacings and elastic constants", "why_tests_cant": "With the default simple=True the coupling components are never asked for, so a sign error in them does not show.", "anchors": ["slippy/contact/influence_matrix_utils.py:elastic_influence_matrix", "slippy/contact/materials.py:_IMMaterial.displacement_from_surface_loads"]}
{"id": "C87", "title": "Normal coefficients are positive and decay", "statement": "Every normal influence coefficient is positive, and on a square grid the coefficient falls strictly when the distance along either axis grows by one node.", "quantifier": "for all offsets, positive grid spacings, positive shear moduli and Poisson's ratios below one", "why_tests_cant": "It is a statement about infinitely many offsets of a sum of logarithms with cancellation.", "anchors": ["slippy/contact/influence_matrix_utils.py:elastic_influence_matrix"]}
{"id": "C88", "title": "Non dimensional heights", "statement": "non_dimentional_height divides by the displacement caused by the load on a single grid square (inverse multiplies by it); a missing or zero load counts as one; converting back gives the height.", "quantifier": "for all heights, elastic constants, loads and grid spacings", "why_tests_cant": "The documented divisor is an integral; a test would need an independent value of it for each spacing.", "anchors": ["slippy/contact/_model_utils.py:non_dimentional_height"]}
{"id": "C89", "title": "Friction and pure sliding", "statement": "With Coulomb friction and pure sliding along a direction the tangential load at each point has the size of the coefficient times the normal load and acts along the direction; the normal load is kept; unusable directions and coefficients are refused.", "quantifier": "for all directions, coefficients and load fields", "why_tests_cant": "It holds for a continuum of directions; unusable directions are accepted and show only as nan later on.", "anchors": ["slippy/contact/sub_models/friction_coulomb_model.py:FrictionCoulombSimple", "slippy/contact/sub_models/tangential_pure_sliding.py:TangentialPureSliding"]}
{"id": "C90", "title": "Partial slip", "statement": "The partial slip sub model returns tangential loads within the friction limits that displace the sticking nodes by the prescribed displacement, zero for no displacement, the limits under gross sliding, and the mirrored loads for the opposite displacement; it keeps the other loads and adds the deformation to the total displacement; tables are interpolated and the final value is kept.", "quantifier": "for all contact sets, limits, compliances, displacements and tables", "why_tests_cant": "The wrong cases come from starting the solver exactly at the solution, which depends on a relation between displacement, limits and compliance.", "anchors": ["slippy/contact/sub_models/tangential_partial_slip.py:TangentialPartialSlip"]}
{"id": "C91", "title": "Contact stiffness: arguments and names", "statement": "The contact stiffness sub model accepts exactly the documented arguments, and each call returns exactly the names announced in provides, which are those documented.", "quantifier": "for all arguments, contact sets and stored results", "why_tests_cant": "All combinations of definition, direction, border and loading, for all states.", "anchors": ["slippy/contact/sub_models/contact_stiffness.py:ResultContactStiffness"]}
{"id": "C92", "title": "Contact stiffness: values", "statement": "The far point stiffness when loading is not above that when unloading, the mean line stiffness is not below the far point stiffness (infinite in full contact, zero without contact), repeated calls with the same contact give the same number, and the stored result is updated only on success.", "quantifier": "for all reciprocal compliances of positive energy, all contact sets, loads and maximum loads", "why_tests_cant": "The inequalities are energy arguments over all compliances and contact sets; the failure of repeated calls needs an exactly converged stored result.", "anchors": ["slippy/contact/sub_models/contact_stiffness.py:ResultContactStiffness"]}
{"id": "C93", "title": "Static step: control and convergence", "statement": "A static step takes exactly one of a load and an interference (or neither if relative). With an interference it solves the contact at this interference, added to the previous one if relative; with a load it returns the solution at one of the heights tried and reports converged exactly if the load is within 5 % of the load asked for and the contact solver succeeded. Zero loads, interferences without contact, unloading and materials without influence matrices are handled.", "quantifier": "for all steps, previous states, contact solvers and heights tried by the root finder", "why_tests_cant": "The heights chosen by the root finder and the states of the cache are unbounded; the failing cases are each a family of steps.", "anchors": ["slippy/contact/static_step.py:StaticStep"]}
{"id": "C94", "title": "Displacements from loads", "statement": "displacement_from_surface_loads returns three fields of the shape of the loads: in each direction asked for, the sum over the loaded directions of the convolutions of the loads with the influence matrices (with simple only those in the direction of the load), linear in the loads; for elastic materials this is the sum over all nodes of load times influence coefficient of the offset. Loads may be given as tuple, dictionary or sequence of length three; loads of different shapes or a sequence of another length raise ValueError.", "quantifier": "for all influence matrix materials, loads, spans, directions and grid spacings", "why_tests_cant": "The sums run over all load fields; the default span loses only the far part of the influence, so a result on a small example still looks plausible.", "anchors": ["slippy/contact/materials.py:_IMMaterial.displacement_from_surface_loads", "slippy/contact/influence_matrix_utils.py:_solve_im_loading", "slippy/contact/materials.py:Elastic.influence_matrix"]}
{"id": "C95", "title": "Loads from displacements", "statement": "loads_from_surface_displacement returns loads in the directions with displacements, zero on the nodes whose displacement is not prescribed; the displacements returned are those of the loads, within the tolerance of the prescribed ones unless a warning is issued; with a second influence matrix material the parts add up to the total. Displacements may be given as tuple, dictionary or sequence of length three, in one or more directions, coupled or simple; wrong arguments raise ValueError and other materials NotImplementedError.", "quantifier": "for all materials with influence matrices, displacements with any nodes not prescribed, tolerances and iteration limits", "why_tests_cant": "The statement is about all displacement fields and matrices; the small displacements that are silently not solved depend on the unit of length.", "anchors": ["slippy/contact/materials.py:_IMMaterial.loads_from_surface_displacement", "slippy/contact/influence_matrix_utils.py:guess_loads_from_displacement"]}
{"id": "C96", "title": "Loads on two surfaces", "statement": "solve_normal_loading returns the displacements of both surfaces under the same loads, with the loads of the second surface reversed in the directions named, and their sum; a rigid surface does not move; directions without loads may be named.", "quantifier": "for all pairs of materials, loads, options and reversed directions", "why_tests_cant": "All combinations of loaded and reversed directions and of options, for all loads.", "anchors": ["slippy/contact/_step_utils.py:solve_normal_loading", "slippy/contact/materials.py:Rigid.displacement_from_surface_loads"]}
{"id": "C97", "title": "Set interference: search for the contact nodes", "statement": "With materials that are not both influence matrix materials, solve_normal_interference asks the material of surface 1 for the loads at most max_iter + 1 times. A result that is not marked as failed is the answer of the material for closing the gap exactly at the returned contact nodes, with no load below the adhesive pressure on them and overlap in at most node_thresh_percent as many other nodes; a failed one has nan loads. An iteration removes at most remove_percent of the contact nodes, those with the lowest loads; without contact nodes everything is zero; a callable adhesive pressure returns the nodes to remove and the nodes to add.", "quantifier": "for all materials, gaps, interferences, contact nodes, adhesive pressures, limits and choices of argpartition", "why_tests_cant": "The set of contact nodes goes through unboundedly many states; all nodes are dropped only if exactly one node was added in the iteration before and another one is in tension.", "anchors": ["slippy/contact/_step_utils.py:solve_normal_interference"]}
{"id": "C98", "title": "Set interference: influence matrix materials", "statement": "For two influence matrix materials solve_normal_interference returns loads on the given nodes only, between the adhesive pressure and the smaller greatest load, with the displacement of each surface and their sum; the contact nodes returned are those with load; at nodes the interference does not reach the surfaces do not overlap. A guess may be given as array, an adhesive pressure as callable, and one contact node is enough.", "quantifier": "for all influence matrices, gaps, interferences, nodes, greatest loads, adhesive pressures, tolerances and guesses", "why_tests_cant": "The statements are about all gaps and matrices; that adhesion has no effect shows only as an absence of tension.", "anchors": ["slippy/contact/_step_utils.py:solve_normal_interference"]}
{"id": "C99", "title": "Number of the next output file", "statement": "get_next_file_num returns the smallest positive number above the numbers of all files of the folder whose name is a number, so that no entry of the folder has that number.", "quantifier": "for all folders", "why_tests_cant": "All contents and orders of a folder.", "anchors": ["slippy/contact/_step_utils.py:get_next_file_num"]}
{"id": "C100", "title": "Quasi static step: increments and unloading", "statement": "A quasi static step of n increments gives n states that are 1/n of the period apart; the last one is one period after the state before the step, and only the first one is marked as a new step. Steps without increments, with two controls or with none are refused. fast_ld gives a faster solution; with unloading the contact nodes of an increment are constrained to those of the increment before.", "quantifier": "for all steps, previous states, surfaces and choices of the root finder", "why_tests_cant": "The number of increments and the states are unbounded.", "anchors": ["slippy/contact/quasi_static_step.py:QuasiStaticStep"]}
{"id": "C101", "title": "Quasi static step: displacement control", "statement": "With a set interference each state is the contact solution at the interference of its increment, for the surfaces of the increment (with time dependence) or of the start of the step (without), reported as converged exactly if the contact solver succeeded; interferences without contact and interferences that are repeated are handled, and the same step may be solved again after the surfaces have changed.", "quantifier": "for all interferences, numbers of increments, contact solvers and surfaces", "why_tests_cant": "The state of the cache depends on the whole history of increments; failures need a repeated interference or a second run.", "anchors": ["slippy/contact/quasi_static_step.py:QuasiStaticStep._solve_displacement_controlled"]}
{"id": "C102", "title": "Quasi static step: load control", "statement": "With a set load each state holds the loads of a contact solution at one of the heights tried, reported as converged exactly if the load is within 5 % of the load of its increment and the contact solver succeeded; the interference of the state is the one that the loads belong to. Positive loads within reach of the bracket can be applied, others are refused; a load of zero is the state without contact. Materials without influence matrices are handled.", "quantifier": "for all loads, contact solvers, surfaces, heights tried and roots returned by the root finder", "why_tests_cant": "The heights are chosen by the root finder; the interference differs from the height of the loads only if the root finder returns another height than the last one it tried.", "anchors": ["slippy/contact/quasi_static_step.py:QuasiStaticStep._solve_load_controlled"]}
{"id": "C103", "title": "Lubrication step: the states", "statement": "In each state of a lubrication step the entries fit together: the displacements are those of the pressure, the gap is the just touching gap plus the displacement minus the interference, the total load is the sum of the pressures. If a state is marked as converged, its pressure is one relaxed (and limited) iteration away from a pressure that Reynolds equation for its own gap changes by less than the tolerance, and in load control the load is within the tolerance of that of the increment. The pressure is never above the greatest load of the materials, and Reynolds equation is solved at most max_it_pressure + 2 times, exactly that often if not converged.", "quantifier": "for all Reynolds solvers, lubricant models, surfaces, previous states, step arguments and numbers of iterations", "why_tests_cant": "The iteration is unbounded and the solver, lubricant and surfaces are arbitrary functions.", "anchors": ["slippy/contact/lubrication_steps.py:IterSemiSystem.solve"]}
{"id": "C104", "title": "Lubrication step: what is set", "statement": "A lubrication step of n increments gives n states, 1/n of the period apart. It runs exactly if the relaxation factor is in (0, 1] and the quantities can be evaluated. In load control each iteration moves the surfaces together if the load is too small and apart if it is too large. In displacement control the states have the set interference; the initial guess is the start of the iteration.", "quantifier": "for all step arguments, Reynolds solvers, surfaces and previous states", "why_tests_cant": "That an argument has no effect is a statement about all pairs of its values.", "anchors": ["slippy/contact/lubrication_steps.py:IterSemiSystem"]}
{"id": "C105", "title": "Lubrication step: the gap of the last time step", "statement": "The Reynolds solver uses the gap of the last time step in the time derivative (values 'from the last time step not the last iteration').", "quantifier": "for all steps, surfaces, lubricants and equations solved", "why_tests_cant": "The gap differs only if the surfaces have moved or worn between increments, and only in the time derivative.", "anchors": ["slippy/contact/lubrication_steps.py:IterSemiSystem.solve", "slippy/contact/unified_reynolds_solver.py:UnifiedReynoldsSolver.solve"]}
{"id": "C106", "title": "Lubrication step: interference by Regula Falsi", "statement": "If the height is adjusted only when the pressure has converged, update_interference finds the next interference by the Regula Falsi method.", "quantifier": "for all interferences, load errors and gaps, and all numbers of calls", "why_tests_cant": "The branch is not reached with the settings of the class; its failure needs a second call.", "anchors": ["slippy/contact/lubrication_steps.py:IterSemiSystem.update_interference"]}
{"id": "C107", "title": "Filling holes", "statement": "fill_holes ends for every profile. It removes border rows and columns until they have at least the proportion b_thresh of real values, and no other ones; the remaining holes are filled by the inpainting from the remaining values. With mk_copy the surface itself is unchanged, otherwise its profile is the filled one.", "quantifier": "for all profiles, hole values, thresholds below one and inpainting functions", "why_tests_cant": "The loops move four borders that depend on each other; whether they end and where is a statement about all patterns of holes. Cases that go wrong need particular patterns.", "anchors": ["slippy/surface/Surface_class.py:Surface.fill_holes"]}
{"id": "C108", "title": "Reading al3d files: header and data", "statement": "alicona_read gives the tags of the header with the values that are in the file, the depth data with nan in place of invalid values (Rows x Cols numbers from rows that may be padded), and the icon and texture that are in the file.", "quantifier": "for all files, numbers of rows, columns and padding, conversions of text and numbers", "why_tests_cant": "The format is binary; a wrong offset or length shows only for files with certain parts and sizes, and there are no such files in the repository.", "anchors": ["slippy/surface/alicona.py:alicona_read"]}
{"id": "C109", "title": "Reading al3d files: images in the folder", "statement": "If the file has no icon or texture, alicona_read takes the images beside the file: if the name ends with (#) or # where # is a number those named with this number, otherwise (or if there are none) icon.bmp and texture.bmp.", "quantifier": "for all file names, folders and images in them", "why_tests_cant": "Depends on the form of the file name and on the folder it is given with.", "anchors": ["slippy/surface/alicona.py:alicona_read"]}
{"id": "C110", "title": "Adding output requests to steps", "statement": "add_output adds the request to the step or the list of steps given, by default to all the steps currently in the model. A request added so is asked once per increment.", "quantifier": "for all models, step names, lists of steps and requests, all orders of the set of names", "why_tests_cant": "What a request that is listed twice does shows only in later increments; the reserved names all and Initial clash only for certain step names.", "anchors": ["slippy/contact/models.py:ContactModel.add_output", "slippy/contact/outputs.py:OutputRequest.is_active"]}
{"id": "C111", "title": "The output directory of a model", "statement": "The log and output files of a model are written to its output_dir, which is made if it does not exist.", "quantifier": "for all directories, file systems and sequences of models made", "why_tests_cant": "The directory is global state of the package; that it is changed by another model needs two models with different directories.", "anchors": ["slippy/contact/models.py:ContactModel.__init__", "slippy/contact/models.py:ContactModel.log_file_name"]}
{"id": "C112", "title": "Checking the surfaces of a model", "statement": "The data check of a model finds whether the surfaces and their materials are set and the first is discrete: an error for a model with a problem if ERROR_IN_DATA_CHECK is set, otherwise a warning for each problem.", "quantifier": "for all pairs of surfaces and both settings", "why_tests_cant": "All combinations of missing parts with both settings of a global flag.", "anchors": ["slippy/contact/models.py:ContactModel._model_check"]}
{"id": "C113", "title": "Reading tst files: lines", "statement": "split_line gives the number, the name in lower case and the value of a line `# number # name $ value $`, as a whole number, a float or text depending on the number; lines of stars have no name.", "quantifier": "for all texts, blanks around the parts, encodings and conversions", "why_tests_cant": "Depends on the characters in names and values; there are no such files in the repository.", "anchors": ["slippy/surface/read_tst_file.py:split_line"]}
{"id": "C114", "title": "Reading tst files: the whole file", "statement": "read_tst_file gives the full data of the file including all metadata: the runs and their steps in order, and for each channel the list of the numbers recorded.", "quantifier": "for all files: any numbers of entries, channels, runs, steps and samples", "why_tests_cant": "A binary format with nested sections; there are no such files in the repository.", "anchors": ["slippy/surface/read_tst_file.py:read_tst_file", "slippy/surface/read_tst_file.py:read_run", "slippy/surface/read_tst_file.py:read_step", "slippy/surface/read_tst_file.py:read_data", "slippy/surface/read_tst_file.py:read_channel"]}
{"id": "C115", "title": "Reading tst files: ends for every file", "statement": "read_tst_file ends for every sequence of bytes, with data or an exception, although the loops over entries have no fixed number of rounds; data that are cut short are an error.", "quantifier": "for all sequences of bytes", "why_tests_cant": "Termination for all inputs, including damaged files, cannot be tested.", "anchors": ["slippy/surface/read_tst_file.py:read_tst_file", "slippy/surface/read_tst_file.py:read_channel", "slippy/surface/read_tst_file.py:read_data"]}
{"id": "C116", "title": "Hurst fractal surface: power law of the spectrum", "statement": "The stored power spectrum is the power law with exponent -2(H+1) above the roll off wave number, constant below it and zero at the wave number zero, and the stored transform has this spectrum entry by entry.", "quantifier": "for all even sizes of at least four, Hurst exponents, roll off wave numbers, spacings, sigma and draws", "why_tests_cant": "The wave numbers are made by unwrapping angles and are shifted between two orders; a test at some entries cannot tell an off by one for all sizes.", "anchors": ["slippy/surface/FFTBased.py:HurstFractalSurface.discretise"]}
{"id": "C117", "title": "Surface of given heights and spectrum: when the iteration stops and which estimate is used", "statement": "The iteration of RandomPerezSurface.discretise ends in the first iteration in which it is out of iterations, too slow, diverging or converged; without suppressed errors there is only a result if an estimate has converged, and with exact='best' the estimate that has converged is used.", "quantifier": "for all sizes, heights, spectra, error functions (with nan), accuracies and numbers of iterations", "why_tests_cant": "Needs runs that end in each of the ways, and the error of both estimates at the end.", "anchors": ["slippy/surface/Random.py:RandomPerezSurface.discretise"]}
{"id": "C118", "title": "The CPU and the GPU version of the planned convolution agree", "statement": "Whether slippy.CUDA is set or not, a planned convolution gives the same function (or the same exception) for the same arguments; called with a flat array it returns the flat result; with a domain it maps the loads of the nodes of the domain to the displacements of these nodes in the same order.", "quantifier": "for all shapes of loads and influence matrices, values, domains and periodicity arguments, and all admissible padded lengths", "why_tests_cant": "The two versions pad to different lengths and store different halves of the spectrum; a test needs a GPU and covers single sizes.", "anchors": ["slippy/contact/influence_matrix_utils.py:plan_convolve", "slippy/contact/influence_matrix_utils.py:_plan_cuda_convolve", "slippy/contact/influence_matrix_utils.py:_plan_fftw_convolve"]}
{"id": "C119", "title": "Stored transforms belong to the present profile, and the power spectrum is real and not negative", "statement": "get_fft, get_acf and get_psd store the Fourier transform, the autocorrelation and the power spectral density of the heights at the time of the call; the power spectral density is real and not negative.", "quantifier": "for all profiles, sizes and histories of calls", "why_tests_cant": "The history before the call matters, and the sign of an entry depends on the profile and on the parity of the sizes.", "anchors": ["slippy/surface/Surface_class.py:_Surface.get_fft", "slippy/surface/Surface_class.py:_Surface.get_acf", "slippy/surface/Surface_class.py:_Surface.get_psd"]}
{"id": "C120", "title": "The low pass filter keeps level surfaces and does not move features", "statement": "low_pass_filter uses the given grid spacing or that of the surface, returns a profile of the same shape that depends linearly on the heights, keeps level surfaces level at their height, and leaves features where they are.", "quantifier": "for all profiles, sizes, cut off frequencies and grid spacings", "why_tests_cant": "The response depends on size, cut off frequency and position; a smoothed picture looks plausible although it is shifted and scaled.", "anchors": ["slippy/surface/roughness_funcs.py:low_pass_filter", "slippy/surface/roughness_funcs.py:_check_surface", "slippy/surface/Surface_class.py:_Surface.low_pass_filter"]}
{"id": "C121", "title": "Equality of surfaces is an equivalence relation that compares heights and grid spacing", "statement": "s == t gives a truth value: True exactly if both surfaces have the same heights and the same grid spacing (for surfaces without heights: the same parameters); the order of the operands does not matter, every surface is equal to itself, and surfaces made twice with the same arguments are equal.", "quantifier": "for all pairs and triples of surfaces of all classes, discretised or not", "why_tests_cant": "The two methods dispatch on classes and states of both operands; a test compares a few pairs of surfaces of the same class.", "anchors": ["slippy/surface/Surface_class.py:_Surface.__eq__", "slippy/surface/Surface_class.py:_AnalyticalSurface.__eq__", "slippy/surface/Surface_class.py:SurfaceCombination.__init__", "slippy/surface/Random.py:RandomPerezSurface.__repr__", "slippy/surface/Random.py:RandomFilterSurface.__repr__", "slippy/surface/FFTBased.py:DiscFreqSurface.__init__"]}
{"id": "C122", "title": "Surfaces with random frequencies can be discretised", "statement": "A ProbFreqSurface with a grid spacing and an extent can be discretised: discretise sets a profile with the shape of the surface and marks the surface as discrete; if it fails the surface is as before.", "quantifier": "for all grid spacings, shapes and coordinates", "why_tests_cant": "The repository has no test that discretises this class, and a failure for one grid does not say that there is none that works.", "anchors": ["slippy/surface/FFTBased.py:ProbFreqSurface", "slippy/surface/FFTBased.py:check_coords_are_simple", "slippy/surface/Surface_class.py:_AnalyticalSurface.discretise"]}
{"id": "C123", "title": "New surfaces have the given grid spacing, extent, shape and profile", "statement": "Surface(...), assurface and read_surface give a surface with the given attributes (or those of the file), with the missing ones derived from them, refuse contradictory arguments with ValueError, accept the keywords of their documentation, and mark a surface as discrete only if it has a profile.", "quantifier": "for all combinations of arguments, shapes, extents, spacings and files", "why_tests_cant": "There are 32 combinations of arguments, and whether a spacing is kept depends on the ratio of two real numbers.", "anchors": ["slippy/surface/Surface_class.py:Surface.__init__", "slippy/surface/Surface_class.py:_Surface.__init__", "slippy/surface/Surface_class.py:assurface", "slippy/surface/Surface_class.py:read_surface"]}
{"id": "C124", "title": "The Jacobian of a material is the matrix of the convolution with its influence matrix", "statement": "influence_matrix gives the matrices of the named components for a text, a sequence of names or 'all'; the Jacobian made from a component is the matrix whose product with the loads is the convolution with the influence matrix, periodic or not.", "quantifier": "for all components, sizes of surface and influence matrix, and loads", "why_tests_cant": "The entries follow from trimming, padding and rolling arrays whose sizes have different parities; single sizes or symmetric components do not show an error.", "anchors": ["slippy/contact/materials.py:_IMMaterial._jac_im_getter", "slippy/contact/materials.py:Elastic.influence_matrix", "slippy/contact/materials.py:Rigid.influence_matrix"]}
{"id": "C125", "title": "The functional parameters are numbers with the documented meaning", "statement": "roughness gives a number for sbi, sci and svi and a bearing curve for stp, for every profile, with and without a mask: sbi is the root mean square height over the height exceeded by 5 % of the points, svi and sci are ratios of volumes of the points kept, the ratios of stp are shares of the points at relative heights; all names of the description are accepted.", "quantifier": "for all profiles, masks, grid spacings and flattenings", "why_tests_cant": "The branches depend on the number of columns, on the presence of a mask and on the scale of the heights; a test with one profile does not show which index or which points are used.", "anchors": ["slippy/surface/roughness_funcs.py:roughness"]}
{"id": "C126", "title": "The spatial parameters describe the texture whatever the scale, shape and direction of the profile", "statement": "str and sal are found for every profile from the shape of the autocorrelation alone: sal is the smallest distance at which it has decayed to 0.2 of its maximum and str is a ratio between 0 and 1; both do not depend on which axis is which; std is the direction of the dominating wave, mirrored profiles have mirrored directions.", "quantifier": "for all profiles, sizes and grid spacings", "why_tests_cant": "Errors of half a grid spacing for odd sizes, an absolute threshold and frequencies above half the size show only for certain sizes, scales and directions.", "anchors": ["slippy/surface/roughness_funcs.py:roughness", "slippy/surface/ACF_class.py:ACF"]}
{"id": "C127", "title": "Filters found by linear transforms give the target autocorrelation", "statement": "A surface made from white noise with the filter of linear_transform has, at every lag within the shape of the filter, the autocorrelation of the target up to the remaining value of the objective, for all kinds of targets, shapes and both signs of the lag; the first guess has the variance of the target; max_it limits the iterations.", "quantifier": "All targets, shapes of filters, grid spacings, symmetric or not, all minimisers, all white noise, all points and lags, periodic surfaces or not.", "why_tests_cant": "The autocorrelation of one realisation is only an estimate; filters of equal side lengths hide a mixed up layout; a limit of iterations that is never used shows only in slow cases.", "anchors": ["slippy/surface/Random.py:RandomFilterSurface.linear_transform", "slippy/surface/Random.py:_initial_guess"]}
{"id": "C128", "title": "Surfaces of given heights and spectrum: construction", "statement": "From every sequence of heights with as many numbers as the target spectrum a surface can be made whose profile, with exact heights, has these numbers; every other value is refused by the constructor; the arrays of the caller are not changed.", "quantifier": "All shapes of the target, all heights in lists, nested lists and arrays of any shape, distributions, all settings and error measures.", "why_tests_cant": "Whether a wrong argument is refused at once or only shows later depends on kinds and shapes of arguments that examples do not combine.", "anchors": ["slippy/surface/Random.py:RandomPerezSurface.__init__", "slippy/surface/Random.py:RandomPerezSurface.discretise"]}
{"id": "C129", "title": "Displacements of elliptical contacts", "statement": "The functions returned for elliptical contacts give the displacement of each body at every point of the contact ellipse and nan elsewhere, in the axes of the contact and of both bodies, whatever was asked before; the displacement is greatest at the centre, where it is the reported deflection of the body, and falls along both axes.", "quantifier": "All half axes a > b > 0, pressures, moduli, Poisson's ratios, angles, points and sequences of calls.", "why_tests_cant": "Whether an elliptic integral is given its modulus or its parameter changes numbers but no signs in slender contacts; only nearly round contacts show displacements that grow away from the centre.", "anchors": ["slippy/contact/hertz.py:_displacement_elliptical", "slippy/contact/hertz.py:hertz_full"]}
{"id": "C130", "title": "Elliptical contacts are found and close the gap", "statement": "For every pair of bodies with two positive relative curvatures the root of the equation for the half axes is bracketed, the solution is found, and half axes, largest pressure and approach make the displaced surfaces meet everywhere in the ellipse (Hertz's condition).", "quantifier": "All radii with positive relative curvatures, angles, loads, moduli, Poisson's ratios and exact root finders.", "why_tests_cant": "Examples with one body flat or round satisfy the condition; the error of the auxiliary angle needs two bodies with different radii, and the missing value needs deep grooves.", "anchors": ["slippy/contact/hertz.py:hertz_full", "slippy/contact/hertz.py:_k_root", "slippy/contact/hertz.py:_h", "slippy/contact/hertz.py:_i", "slippy/contact/hertz.py:_j"]}
{"id": "C131", "title": "Arguments of the full Hertz solution", "statement": "Radii and material properties are accepted exactly if they stand for two numbers, given as one number for both or as two; zero radii and zero moduli are refused with an error.", "quantifier": "All numbers, sequences of any length with numbers, strings and other objects, and arrays.", "why_tests_cant": "The refusal of zero moduli depends on a name that is compared in another function; only a test with exactly this value reaches it.", "anchors": ["slippy/contact/hertz.py:_sanitise_radii", "slippy/contact/hertz.py:_sanitise_material", "slippy/contact/hertz.py:hertz_full"]}
{"id": "C132", "title": "Plots show the right data and leave the surface alone", "statement": "Showing a surface, as one or several plots, fails with a plain refusal or draws the requested data over its own coordinates; unknown kinds of plots are refused; afterwards the surface is as before, except for spectra that were found on the way.", "quantifier": "All surfaces with profile, analytical surfaces with any height function, all property names, plot kinds, lists of them and all behaviours of the plotting library.", "why_tests_cant": "Plots are looked at by people; a test without a display at most sees that no exception was raised, and the loss of a profile or the shift of an axis by half the grid goes unseen.", "anchors": ["slippy/surface/Surface_class.py:_Surface.show", "slippy/surface/Surface_class.py:_AnalyticalSurface.show"]}
{"id": "C133", "title": "Speeds of sound", "statement": "The speeds of an elastic material are positive, the p wave is the faster one, together with the density they determine its constants; a density is kept with its material and only positive ones are accepted; without density the call is refused.", "quantifier": "All isotropic materials, all densities and all histories of other materials.", "why_tests_cant": "A test compares the speeds of one material; that the result determines the constants, that materials do not share densities and that zero and negative densities pass concerns all values and histories.", "anchors": ["slippy/contact/materials.py:Elastic.speed_of_sound"]}
{"id": "C134", "title": "Methods of surfaces honour the mask and keep the surface", "statement": "The analysis methods of a surface leave out exactly the points that its mask hides and leave the surface as it was; flattening fits a polynomial to the points that are not hidden and leaves the profile minus this polynomial; absolute volumes are found if the grid spacing is known.", "quantifier": "All profiles with missing heights, all masks, inverted surfaces, orders of polynomials, filters and parameters.", "why_tests_cant": "The methods only pass arguments on, so tests check the functions; that the meaning of the stored mask is the opposite of what the functions expect shows only when both are combined.", "anchors": ["slippy/surface/Surface_class.py:_Surface.subtract_polynomial", "slippy/surface/Surface_class.py:_Surface.roughness", "slippy/surface/Surface_class.py:_Surface.get_mat_vr", "slippy/surface/Surface_class.py:_Surface.get_summit_curvature", "slippy/surface/Surface_class.py:_Surface.find_summits"]}
{"id": "C135", "title": "The text of an object is a call that makes it again", "statement": "The text of a surface or material is a Python call of its class with known arguments, and evaluating it gives the same object.", "quantifier": "All arguments of the constructors of analytical surfaces, all later rotations, all texts of numbers, names and nested objects.", "why_tests_cant": "Texts are used in messages and notebooks; a test compares one text with itself, whether it describes the object needs all combinations of optional arguments.", "anchors": ["slippy/surface/Surface_class.py:_AnalyticalSurface._repr_helper", "slippy/surface/Surface_class.py:Surface.__repr__", "slippy/surface/Surface_class.py:SurfaceCombination.__repr__", "slippy/surface/Geometric.py:FlatSurface.__repr__", "slippy/surface/Geometric.py:RoundSurface.__repr__", "slippy/surface/Geometric.py:PyramidSurface.__repr__", "slippy/surface/Random.py:RandomFilterSurface.__repr__", "slippy/surface/FFTBased.py:HurstFractalSurface.__repr__", "slippy/contact/materials.py:Elastic.__repr__"]}
{"id": "C136", "title": "The iteration of the unbounded fit finds the moments asked for", "statement": "In the region of unbounded Johnson distributions the first estimate of the fit is real, and whenever the iteration ends the distribution has the mean, the standard deviation and the kurtosis asked for and a skewness whose square is within the tolerance.", "quantifier": "All means, positive standard deviations, skewnesses and kurtoses of the region and all numbers of passes.", "why_tests_cant": "Tests compare a few fits with tables to some digits; that the last change of a parameter is made without its partner, so that the kurtosis is missed in every run that does not hit the skewness exactly, is a statement about all runs and needs exact moments.", "anchors": ["slippy/surface/_johnson_utils.py:_fit_johnson_by_moments"]}
{"id": "C137", "title": "The iteration of the bounded fit uses the derivatives of the moments and ends near them", "statement": "In the region of bounded Johnson distributions the first estimate of delta is positive; the derivatives of skewness and kurtosis that a pass computes from six moments are the derivatives of the exact ones; and when the iteration ends skewness and kurtosis differ from those asked for by at most the last steps times the derivatives.", "quantifier": "All skewnesses and kurtoses of the region, all gammas and positive deltas, all functions that could be used for the moments and all numbers of passes.", "why_tests_cant": "Tests look at the distribution that a few fits return; a wrong derivative only slows an iteration down or makes it fail and fall back to another distribution, and which parameters are affected is a statement about exact integrals.", "anchors": ["slippy/surface/_johnson_utils.py:_fit_johnson_by_moments"]}
{"id": "C138", "title": "The moments of a bounded distribution are sums over equidistant points", "statement": "When the moments of the bounded Johnson distribution are returned for a positive delta each is the sum of the integrand over equidistant points, with a distance that was halved at least once, the last point adds at most 1e-8 of the sum, and twice the distance gives the same to 1e-5; the values are positive and decreasing; the points left out are negligible; and a delta that is not positive is never accepted.", "quantifier": "All gammas and deltas, all numbers of passes of both loops.", "why_tests_cant": "Tests evaluate a few parameters; that stale values of the inner loop never end it early, that a whole side of the integral disappears for large gamma over delta, and that a negative delta always ends in an exception are statements about all parameters and passes.", "anchors": ["slippy/surface/_johnson_utils.py:_fit_johnson_by_moments"]}
{"id": "C139", "title": "The lognormal distributions are distributions", "statement": "For the two implementations of Johnson's lognormal distribution and every gamma and every positive delta: the quantile function and the distribution function are inverse to each other, the distribution function grows, its derivative is the density, the density integrates to 1, all values lie in the declared support, and numbers that are not positive are refused.", "quantifier": "For all real gamma, positive delta, probabilities between 0 and 1 and real arguments.", "why_tests_cant": "Tests compare single values with tables; that a density differs from the derivative everywhere but at one point and what it integrates to are statements about all arguments.", "anchors": ["slippy/surface/_johnsonsl.py:johnsonsl_gen", "slippy/surface/johnsondists.py:JohnsonSLGen"]}
{"id": "C140", "title": "Filter surfaces: the calls keep target, filter, distribution and moments consistent", "statement": "`fir_filter` makes the filter from the target it is given; a call that raises leaves the surface as it was; after `set_moments` the distribution always belongs to the current filter and the current moments; `set_quantiles` gives the quantiles it is given; `discretise(create_new=True)` leaves the surface unchanged and gives the same profile and spacing as a surface that is discretised in place.", "quantifier": "for all surfaces (any attributes), targets, spans, shapes, moments, quantiles, distributions and drawn numbers", "why_tests_cant": "The tests call each method once in the intended order. A target of another type, a call that fails half way, a second filter after `set_moments` and quantiles of another scale give no exception or an exception whose effect on the attributes is not looked at.", "anchors": ["slippy/surface/Random.py:RandomFilterSurface.fir_filter", "slippy/surface/Random.py:RandomFilterSurface.set_moments", "slippy/surface/Random.py:RandomFilterSurface.set_quantiles", "slippy/surface/Random.py:RandomFilterSurface.discretise"]}
{"id": "C141", "title": "The influence coefficients of the Reynolds solver are those of the elastic bodies", "statement": "The three coefficients that a new UnifiedReynoldsSolver computes are the integrals of 1/r over cells at the distance of 0, 1 and 2 cells, positive and falling, with the first more than three times the second; with the Hertzian scales of a ball they are the changes of the non-dimensional gap under a unit of non-dimensional pressure on a cell. A solver is made exactly for the two sweep directions, and the data check passes exactly if the required data is there and keeps what is there.", "quantifier": "for all spacings, materials, scales, sweep directions and states", "why_tests_cant": "The coefficients are closed formulas with logarithms and roots that a test can only compare with other numbers; that they are the wanted integrals, and that the factor of the spacing is missing for every spacing but one, is a statement about all spacings.", "anchors": ["slippy/contact/unified_reynolds_solver.py:UnifiedReynoldsSolver.__init__", "slippy/contact/unified_reynolds_solver.py:UnifiedReynoldsSolver.data_check", "slippy/contact/unified_reynolds_solver.py:UnifiedReynoldsSolver.nd_time_step"]}
{"id": "C142", "title": "Every row system of the Reynolds solver has exactly one solution", "statement": "With the coefficients of a new solver the tridiagonal system of each row has exactly one solution for every right-hand side, whatever the gap (also where the bodies touch), the viscosity, the density, the width and the time step are, so that the pressure after a sweep does not depend on how the systems are solved.", "quantifier": "for all fields, widths, spacings, time steps and speeds", "why_tests_cant": "The matrix is not diagonally dominant in general, so that regularity depends on an interplay of the flow, squeeze and wedge terms; a singular system gives infinities or an unrelated vector in silence since the error flag of the solver is thrown away, and tests reach only a few matrices.", "anchors": ["slippy/contact/unified_reynolds_solver.py:_solve_row", "slippy/contact/unified_reynolds_solver.py:UnifiedReynoldsSolver.solve", "slippy/contact/_lubrication_utils.py:tdma"]}
{"id": "C143", "title": "Autocorrelation functions can be made of what the documentation says", "statement": "An ACF can be made of a name with its arguments, a function, a surface or an array with a spacing; what is made can be evaluated on a grid; it can be turned back into an array exactly if it was made of an array or surface, and unusable sources are refused when the object is made.", "quantifier": "for all names, argument lists, arrays, surfaces, functions and grids", "why_tests_cant": "The cases differ in the error, in the moment when it is raised and in the layout of the result; the example in the documentation is made without an error and fails only when it is evaluated.", "anchors": ["slippy/surface/ACF_class.py:ACF.__init__", "slippy/surface/ACF_class.py:ACF._input_check_string", "slippy/surface/ACF_class.py:ACF._input_check_array", "slippy/surface/ACF_class.py:ACF.__array__"]}
{"id": "C144", "title": "A lubrication step that passes its data check has what it needs and delivers what it declares", "statement": "The data check of IterSemiSystem passes exactly if there are a solver, a model with a lubricant and the sub models the solver requires; after it the solver finds all it requires in every call, the sub models of the lubricant find their arguments, and the state handed to the sub models of the step has exactly the declared names.", "quantifier": "for all solvers, lubricants, sub models and names", "why_tests_cant": "The names in the states change between the first evaluation, the iterations and the end; a lubricant that needs the gap passes every check and fails in the first evaluation, and a test covers only the lubricants it was written with.", "anchors": ["slippy/contact/lubrication_steps.py:IterSemiSystem.data_check", "slippy/contact/lubrication_steps.py:IterSemiSystem.provides", "slippy/contact/lubrication_steps.py:IterSemiSystem.solve"]}
{"id": "C145", "title": "Operators between measured surfaces, analytical surfaces and numbers", "statement": "The sum and the difference of a measured and an analytical surface, in either order, are surfaces with the nodes of the measured surface and the sum or difference of the heights there; a surface can be multiplied and divided by a number, and numbers can stand on either side.", "quantifier": "for all profiles, spacings, height functions and numbers", "why_tests_cant": "Which method runs depends on the order of the operands and on the name that Python looks for; the geometry of the other surface is taken over by three setters that change each other, so the result depends on a spacing that is not used.", "anchors": ["slippy/surface/Surface_class.py:_AnalyticalSurface.__add__", "slippy/surface/Surface_class.py:_AnalyticalSurface.__sub__", "slippy/surface/Surface_class.py:_Surface.__add__", "slippy/surface/Surface_class.py:_Surface.__div__", "slippy/surface/Surface_class.py:_AnalyticalSurface.__div__"]}
{"id": "C146", "title": "Searching in results, and when their arrays are read", "statement": "A search in saved results finds exactly the records that satisfy the query, in the order in which they were written and with their arrays; what a result holds does not depend on when its arrays are looked at.", "quantifier": "for all records, queries and arrays", "why_tests_cant": "Arrays are stored as strings in the database and read from a second file when they are first used; a test reads them at once.", "anchors": ["slippy/contact/outputs.py:OutputReader.search", "slippy/contact/outputs.py:_array_gen", "slippy/contact/outputs.py:_ArrayReader"]}
{"id": "C147", "title": "The partial slip model uses the influence matrices of its surfaces", "statement": "In every call the partial slip sub model uses the sum of the influence matrices of the materials of both surfaces for the current span, materials and grid spacings, and refuses other materials.", "quantifier": "for all materials, spacings, spans and sequences of calls", "why_tests_cant": "The matrices are kept between calls and renewed only if the span changes; a test that makes a new sub model for each case cannot see it.", "anchors": ["slippy/contact/sub_models/tangential_partial_slip.py:TangentialPartialSlip._check", "slippy/contact/sub_models/tangential_partial_slip.py:TangentialPartialSlip.solve"]}
{"id": "C148", "title": "The results of the height search belong to the last height and hold one contact solution", "statement": "After any calls, changes of the load, clearings of the cache and readings, the property `results` of `HeightOptimisationFunction` describes the contact at the height of the last call: the loads found by the solver on the nodes sought, zero elsewhere, the displacement of each surface by superposition with its influence matrix, the total displacement as their sum, the nodes with positive load, and the total load which that call compared with the set load; reading again gives the same.", "quantifier": "for all gaps, influence matrices, periodic axes, implementations of the convolution, solvers and histories of operations", "why_tests_cant": "Tests call the object once and read once; the defects need a history: a call answered from the cache or a height without contact after a solved one.", "anchors": ["slippy/contact/_step_utils.py:HeightOptimisationFunction.results", "slippy/contact/_step_utils.py:HeightOptimisationFunction.__call__", "slippy/contact/_step_utils.py:HeightOptimisationFunction.change_load", "slippy/contact/_step_utils.py:HeightOptimisationFunction.contact_nodes"]}
{"id": "C149", "title": "The height search moves elastic bodies as half spaces under the pressures found", "statement": "For two elastic bodies the displacements that HeightOptimisationFunction reports after a solution, and those that it gives to the solver, are at every node those of two half spaces under the pressures on all loaded cells of the grid (uniform pressure on each square cell, Boussinesq's solution); on periodic axes those of the nearest images of the loaded cells.", "quantifier": "for all shapes of gap, grid spacings, elastic constants, histories of calls and changes of load, and all nodes", "why_tests_cant": "The influence matrices are made for the shape of the gap, so the coefficients run out at half the grid; tests with one contact spot in the middle never have loaded nodes farther apart than that.", "anchors": ["slippy/contact/_step_utils.py:HeightOptimisationFunction.__init__", "slippy/contact/_step_utils.py:HeightOptimisationFunction.results", "slippy/contact/materials.py:Elastic.influence_matrix"]}
{"id": "C150", "title": "A success of the contact solver means the contact pressures up to the tolerance", "statement": "For bodies whose influence matrix is positive definite the contact problem (no negative pressure, no pressure above the limit, no overlap under pressures below the limit, no pressure across a gap) has exactly one solution, and if bccg reports success, the pressures that it returns differ from this solution by no more than a fixed multiple of the tolerance.", "quantifier": "for all numbers of nodes, positive definite influence matrices, overlaps, limits, starting pressures, tolerances and numbers of inner iterations", "why_tests_cant": "The tests compare with a few analytical contacts; success only says that the last change of the pressures was small, which is not the same as being near the solution.", "anchors": ["slippy/contact/influence_matrix_utils.py:bccg"]}
{"id": "C151", "title": "The load found by the height search rises with the height and is reached", "statement": "If the contact solver solves the contact problem at every height, the function whose root is sought by the height search is the load of the contact problem on the whole grid less the set load, whatever was cached, cleared or changed before; it never falls with the height, rises where a node below the pressure limit carries load, and takes the value zero between a height with too small and one with too large a load; the loads in the cache are in order, so the bounds from the cache enclose a root.", "quantifier": "for all shapes and gaps that just touch, positive definite influence matrices that never lift a surface, pressure limits, histories of calls, changes of load, clears and reads, and heights", "why_tests_cant": "Only a few loads are tried in tests, from a fresh object; the order of the cached loads and the equality of cached and fresh values over long histories are never looked at.", "anchors": ["slippy/contact/_step_utils.py:HeightOptimisationFunction.__call__", "slippy/contact/_step_utils.py:HeightOptimisationFunction.get_bounds_from_cache", "slippy/contact/_step_utils.py:HeightOptimisationFunction.change_load"]}
{"id": "C152", "title": "A set load belongs to one contact, which the static step finds within its bracket", "statement": "For elastic surfaces with positive definite influence matrices that just touch at height zero, every load from zero up to the largest pressure on all nodes is carried, by one distribution of pressure whatever the height, at one positive height if there is no largest pressure; a load controlled static step whose contact solver solves the contact problem accepts exactly the positive loads up to the load of the contact at the upper end of its bracket, and its state belongs to the contact under the load it reports: if that is the set load the pressures are the right ones, and if it reports convergence they are near them, up to five percent of the load times the distance of the heights.", "quantifier": "for all shapes, gaps, influence matrices, pressure limits, loads, brackets and heights tried by the root finder", "why_tests_cant": "Uniqueness and existence of the contact under a load are not tested at all; tests use one sphere and one load within the bracket.", "anchors": ["slippy/contact/static_step.py:StaticStep.solve", "slippy/contact/_step_utils.py:HeightOptimisationFunction"]}
{"id": "C153", "title": "Normal pressures on elastic bodies do positive work, so displacements and contacts determine them", "statement": "On a grid with the same spacing in both directions the normal influence coefficients of an elastic material are those of a symmetric positive definite matrix for every number of nodes: pressures that are not all zero do positive work, and the work of one distribution on the displacements of another is mutual. Hence the contact problem of two elastic bodies has exactly one solution for every overlap, set of nodes and pressure limit; finding loads from normal displacements, for one or two elastic materials with a span of twice the grid, gives numbers, issues no warning if as many steps are allowed as there are nodes, and reaches every prescribed displacement within the tolerance; a set interference returns the displacements of the two half spaces; and the height search, although its matrices reach half the grid only, finds the pressures between the half spaces if its solver is exact and the nodes with overlap lie within half the grid of each other.", "quantifier": "for all spacings, shear moduli, Poisson's ratios below one, shapes, pressures, prescribed nodes and displacements, gaps and heights", "why_tests_cant": "Definiteness for all grids is a statement about infinitely many matrices; tests solve a few contacts of one size and compare with the solution for a sphere.", "anchors": ["slippy/contact/influence_matrix_utils.py:elastic_influence_matrix", "slippy/contact/materials.py:_IMMaterial.loads_from_surface_displacement", "slippy/contact/_step_utils.py:solve_normal_interference", "slippy/contact/_step_utils.py:HeightOptimisationFunction"]}
{"id": "C154", "title": "Tractions in any direction on elastic bodies do positive work, so displacements determine them", "statement": "For every pair of spacings, square or not, and one or two elastic materials, the influence coefficients for tractions and displacements in the same direction (xx, yy or zz) are those of a symmetric positive definite matrix for every number of nodes; on square grids tractions in one direction that are not all zero do positive work on the half space. Hence finding loads from displacements prescribed in any of the three directions at any nodes, with the simple option or in one direction and a span of twice the grid, gives numbers for one or two elastic materials, issues no warning if as many steps are allowed as there are nodes times directions, and reaches every prescribed displacement within the tolerance; for two materials the two displacements returned are those of each body.", "quantifier": "for all spacings, shear moduli, Poisson's ratios below one, shapes, directions, prescribed nodes and displacements, tolerances", "why_tests_cant": "Definiteness for all grids is a statement about infinitely many matrices; tests prescribe a few displacements on one square grid.", "anchors": ["slippy/contact/influence_matrix_utils.py:elastic_influence_matrix", "slippy/contact/materials.py:_IMMaterial.loads_from_surface_displacement"]}
{"id": "C155", "title": "A converged Reynolds sweep is a solution with cavitation", "statement": "If a sweep of the Reynolds solver leaves the pressure unchanged, the discretised Reynolds equation holds at every computed node with a pressure between zero and the maximum, and at every node without pressure the flow driven by the pressure gradient does not exceed the wedge and squeeze terms (the film is broken because the surfaces carry more away than they bring).", "quantifier": "for all fields, widths, lengths, time steps, sweep directions and ways of solving the row systems exactly", "why_tests_cant": "The pressure of such nodes looks plausible: it is zero or positive in either case; tests compare film thicknesses of one contact with published values.", "anchors": ["slippy/contact/unified_reynolds_solver.py:UnifiedReynoldsSolver.solve", "slippy/contact/unified_reynolds_solver.py:_solve_row"]}
{"id": "C156", "title": "An elastic contact has no memory", "statement": "Between elastic half spaces whose surfaces do not change, every state of a quasi static step (in load or displacement control, with or without time dependence, in any increment, whatever heights the root finder tries) holds the load of the one elastic contact at the height that its loads were solved at. Two states with the same load hold the same pressures, whatever came before them: more or fewer increments, loading or unloading, load or displacement control, or a static step. Over all states the load rises with the height. If an increment in load control is reported as converged, its load is within five percent of the load asked for, and the squared difference of its pressures to those of that load is at most the distance of the two heights times five percent of the load, divided by the smallest stiffness.", "quantifier": "for all surfaces and materials with positive definite influence matrices, all step arguments, previous states, numbers of increments, loads, heights and choices of the root finder", "why_tests_cant": "Two histories are needed that end at the same load, and the optimiser keeps its memory between increments; a test can only compare a few of them.", "anchors": ["slippy/contact/quasi_static_step.py:QuasiStaticStep.solve", "slippy/contact/quasi_static_step.py:QuasiStaticStep._solve_load_controlled", "slippy/contact/quasi_static_step.py:QuasiStaticStep._solve_displacement_controlled", "slippy/contact/_step_utils.py:HeightOptimisationFunction.__call__", "slippy/contact/static_step.py:StaticStep.solve"]}
{"id": "C157", "title": "A model can be solved again", "statement": "A step object keeps its attributes and its output requests after solve. If a model is solved a second time from the same initial state, with surfaces that have not changed, each step goes through the same states as the first time, whatever it was used for in between, and each output request gives an output in the same increments as a new one would.", "quantifier": "for all step arguments, surfaces, previous states, choices of the root finder, numbers of earlier calls, timing modes and histories of output requests", "why_tests_cant": "Caches of the height optimiser, counters and iterators of output requests survive the first call; a test that solves a model twice would have to compare all control modes and timing modes after histories of any length.", "anchors": ["slippy/contact/models.py:ContactModel.solve", "slippy/contact/quasi_static_step.py:QuasiStaticStep.solve", "slippy/contact/quasi_static_step.py:QuasiStaticStep._solve_displacement_controlled", "slippy/contact/lubrication_steps.py:IterSemiSystem.solve", "slippy/contact/outputs.py:OutputRequest.new_step", "slippy/contact/outputs.py:OutputRequest.is_active"]}
{"id": "C158", "title": "Greatest shear stresses of Hertz contacts", "statement": "For point contacts and for line contacts, the greatest shear stress that hertz_full reports for a body, and the ones that solve_hertz_point and solve_hertz_line report, are half of the greatest difference between the axial and the radial (point contacts) or the two in plane (line contacts) principal stresses on the axis below the centre of the contact, to one part in a thousand, and the depth reported is where it occurs.", "quantifier": "all loads, radii and moduli with a positive contact size, all Poisson's ratios between 0 and one half, all depths up to ten times the contact size, all minimisers that respect their bounds", "why_tests_cant": "A test compares the reported number with a number from the same source; the difference to the stresses below the contact depends on the Poisson's ratio and is seen only when the stress on the axis is computed for all depths.", "anchors": ["slippy/contact/hertz.py:hertz_full", "slippy/contact/hertz.py:_fill_hertz_solution_point", "slippy/contact/hertz.py:_fill_hertz_solution_line"]}
{"id": "C159", "title": "Files and console of an analysis", "statement": "Whatever the checks and the steps print and whether or not they raise, ContactModel.solve leaves print writing where it wrote before and closes every file it opened; the log file then holds exactly the lines of this analysis up to the exception, nothing of an earlier analysis, with the line on completion last if nothing was raised; with verbose the console has these lines and there is no log; no other files are touched.", "quantifier": "all file systems whose output directory exists and has no directory with the name of one of the three files, all previous contents of these files, all sequences of lines and exceptions in checks and steps, all numbers of steps, verbose and skip_data_check in both settings", "why_tests_cant": "A test runs one analysis that succeeds in an empty folder; what an exception leaves behind depends on where it is raised and on what earlier analyses left in the folder.", "anchors": ["slippy/contact/models.py:ContactModel.solve", "slippy/contact/models.py:ContactModel.data_check", "slippy/contact/outputs.py:OutputSaver.__enter__", "slippy/contact/outputs.py:OutputSaver.__exit__"]}
{"id": "C160", "title": "Tangential deformation of partial slip is that of the elastic bodies", "statement": "For two elastic surfaces and axes that are not periodic, the tangential deformation that TangentialPartialSlip.solve computes from the tangential loads of the contact nodes is, at every node of the grid, the displacement of the two half spaces against each other under these loads, whatever earlier calls there were. In particular a load acts on the nodes reciprocally, and loads which deform the contact nodes equally are equal.", "quantifier": "for all elastic bodies, grid spacings, grid shapes, contact nodes, tangential loads, directions, convolution back ends and earlier calls", "why_tests_cant": "Tests use contacts that are small compared with the grid; loads that are more than half a grid apart only occur for contacts that fill the grid, and a missing influence changes the numbers by some percent only.", "anchors": ["slippy/contact/sub_models/tangential_partial_slip.py:TangentialPartialSlip.solve", "slippy/contact/sub_models/tangential_partial_slip.py:TangentialPartialSlip._check"]}
{"id": "C161", "title": "Contact stiffness is that of the elastic bodies", "statement": "For two elastic surfaces and axes that are not periodic, the contact stiffness that ResultContactStiffness finds for given contact nodes is that of the two half spaces: the loads are those under a rigid flat punch that covers the contact nodes and is moved by one, there is only one such load, and the mean line stiffness divides them by the mean gap that is left between the displaced half spaces and the punch.", "quantifier": "for all elastic bodies, grid spacings, grid shapes, contact nodes, loads, directions and convolution back ends", "why_tests_cant": "There is no reference value for the stiffness of a rough contact; a missing influence of nodes more than half a grid apart makes the stiffness smaller by some percent, which no test can notice.", "anchors": ["slippy/contact/sub_models/contact_stiffness.py:ResultContactStiffness._solve"]}
{"id": "C162", "title": "Built-in sub models find what they require and deliver what they announce", "statement": "Each sub model of the package (Coulomb friction, pure sliding, partial slip, contact stiffness, wear), given a state with at least the quantities it declares as required, returns normally, and the names it returns are exactly those it declares as provided; so in a step whose data check reports no problem the sub models of the package, in any number and order, solve without a missing quantity.", "quantifier": "for all sub models of the package and all their options, all lists of them, all states, all steps of the package that solve sub models", "why_tests_cant": "The tests use single sub models in states with all quantities; the requirements are declared apart from the code that reads the state, so a mismatch shows only in combinations of sub models and steps that are not run.", "anchors": ["slippy/contact/sub_models/friction_coulomb_model.py:FrictionCoulombSimple.solve", "slippy/contact/sub_models/tangential_pure_sliding.py:TangentialPureSliding.solve", "slippy/contact/sub_models/tangential_partial_slip.py:TangentialPartialSlip.solve", "slippy/contact/sub_models/contact_stiffness.py:ResultContactStiffness.solve", "slippy/contact/sub_models/epp_wear.py:WearElasticPerfectlyPlastic.solve", "slippy/contact/steps.py:_ModelStep.solve_sub_models"]}
{"id": "C163", "title": "The film neither gains nor loses lubricant", "statement": "After a converged sweep of the Reynolds solver, in every block of cells with unbroken film, the mass that leaves through the sides less the mass that enters is the mass the block has lost over the time step; over any number of time steps the mass in the block changes by what entered less what left; in a steady periodic film the same mass flows through each section.", "quantifier": "for all gaps, viscosities, densities, pressures, grid sizes, blocks, time steps and numbers of them, both sweep directions, periodic and open films", "why_tests_cant": "The flow through a boundary is never computed by the code, and a test on a grid compares pressures with a reference to a few digits; the balance concerns sums over arbitrary regions.", "anchors": ["slippy/contact/unified_reynolds_solver.py:_solve_row", "slippy/contact/unified_reynolds_solver.py:UnifiedReynoldsSolver.solve", "slippy/contact/unified_reynolds_solver.py:UnifiedReynoldsSolver._get_epsilon"]}
{"id": "C164", "title": "Similar contacts have similar solutions", "statement": "A contact of elastic bodies whose lengths (grid spacing, profile, interference) are all multiplied by one factor and whose moduli are all multiplied by another is the same contact in other units: the influence coefficients scale with the ratio of the two factors, and the solver bccg makes the same iterations, reaches the same verdict, binds the same nodes and returns the pressures multiplied by the factor of the moduli. The choice of units does not decide whether a contact is solved.", "quantifier": "for all problems (any number of nodes, any homogeneous law, any bounds, tolerance, iteration limit and start), all pairs of positive factors and all executions of the solver, including those that meet infinities and nan", "why_tests_cant": "A test solves one contact in one system of units with one tolerance; whether two runs in different units stay together at every iteration, and for which contacts a fixed number in the code separates them, is a statement about pairs of executions.", "anchors": ["slippy/contact/influence_matrix_utils.py:_fftw_bccg", "slippy/contact/influence_matrix_utils.py:elastic_influence_matrix"]}
{"id": "C165", "title": "Mirrored, turned and moved contacts have mirrored, turned and moved solutions", "statement": "In exact arithmetic the solver bccg does not depend on how the nodes are numbered. A contact of elastic bodies that is moved by whole cells, reflected in x or y, turned by half a turn, or has its axes exchanged together with its spacings, is solved by the same iterations with the same verdict, and its pressures are those of the original contact at the corresponding nodes. A contact that is symmetric has symmetric pressures. On periodic grids this holds for cyclic translations and any kernel.", "quantifier": "for all sets of nodes and renamings, all laws, displacements, bounds, tolerances, iteration limits and starts, and all executions of the solver in exact arithmetic, including those that meet infinities and nan", "why_tests_cant": "A test can compare two runs for one contact; the claim relates every pair of runs of corresponding contacts, iteration by iteration.", "anchors": ["slippy/contact/influence_matrix_utils.py:_fftw_bccg", "slippy/contact/influence_matrix_utils.py:elastic_influence_matrix"]}
{"id": "C166", "title": "The two surfaces of a contact can be exchanged", "statement": "Which of the two bodies is surface 1 does not matter. For two surfaces of the same grid the gap with the surfaces exchanged and the off set reversed is the same array, for periodic surfaces the same array moved around by the off set. With a set interference the loads, total displacement, contact nodes and verdict are the same and the displacements of the surfaces are exchanged. The object of the height search, made with the bodies exchanged, gives the same values and total loads after every history, and the results read from it are the same with the displacements exchanged.", "quantifier": "for all profiles, grid spacings, off sets of whole cells and interferences; for all materials, gaps, loads, masks, guesses and limits; for all histories of calls, changes of load, clearings and readings of the search object", "why_tests_cant": "A test can exchange the bodies of one contact; the claim covers every pair of surfaces and every history of the search, including those that end in an error.", "anchors": ["slippy/contact/_model_utils.py:get_gap_from_model", "slippy/contact/_step_utils.py:solve_normal_interference", "slippy/contact/_step_utils.py:HeightOptimisationFunction"]}
{"id": "C167", "title": "Only the combined modulus of the two bodies matters", "statement": "In a frictionless contact of two bodies that are elastic or rigid the materials enter through the sum of (1 - v^2) / E only. Two pairs with the same sum and the same smaller greatest load have the same loads, total displacement, contact nodes and verdict for a set interference, or the same error; and in the height search the same heights, total loads, values and results after every history. The bodies share the total displacement in the ratio of (1 - v^2) / E: a rigid body does not move, two equal bodies move by half of it each.", "quantifier": "for all elastic constants of isotropic materials and rigid bodies, all gaps, interferences, grids, spans, guesses, masks and limits; for all histories of calls, changes of load, clearings and readings of the search object", "why_tests_cant": "A test can compare two pairs of materials; the claim covers a continuum of pairs with the same sum and every contact between them.", "anchors": ["slippy/contact/_step_utils.py:solve_normal_interference", "slippy/contact/_step_utils.py:HeightOptimisationFunction", "slippy/contact/materials.py:Elastic", "slippy/contact/materials.py:Rigid"]}
{"id": "C168", "title": "Roughness does not depend on the direction in which the surface is measured", "statement": "The parameters sq, sa, ssk, sku, sv, sds, sz, ssc and sdr of a surface do not change if the order of its rows or of its columns is reversed, if the two axes are exchanged, or if it is turned by a quarter, together with the mask; a call that fails then fails with the same exception. After a flattening the same holds, and the flattened surface is the flattened original after the same move, as long as the least squares routine finds a fit for both.", "quantifier": "for all shapes, heights (also missing ones without flattening), kinds of masks, grid spacings, four or eight neighbours, planes or curved surfaces taken away, without low pass filter", "why_tests_cant": "A test can turn a few surfaces; a wrong index at one border or one neighbour that is left out shows only on surfaces where it matters, and the fits agree only up to rounding.", "anchors": ["slippy/surface/roughness_funcs.py:roughness", "slippy/surface/roughness_funcs.py:find_summits", "slippy/surface/roughness_funcs.py:get_summit_curvatures", "slippy/surface/roughness_funcs.py:subtract_polynomial"]}
{"id": "C169", "title": "The functional and spatial parameters do not depend on the direction in which the surface is measured", "statement": "The parameters stp, sbi, sci, svi and str of a surface do not change, apart from the order of the entries of an array, if the order of its rows or of its columns is reversed or if the two axes are exchanged, together with the mask, with and without flattening.", "quantifier": "for all shapes, heights, kinds of masks, grid spacings and moves, without low pass filter", "why_tests_cant": "A test can turn a few surfaces; the routine sorts and selects along one axis only, and measures distances from a point beside the middle, which shows only on some shapes and surfaces.", "anchors": ["slippy/surface/roughness_funcs.py:roughness", "slippy/surface/roughness_funcs.py:get_mat_vr"]}
{"id": "C170", "title": "Flattened roughness does not depend on how the surface was levelled", "statement": "With flattening all roughness parameters of a surface are the same as those of the surface plus a constant, a tilt or another polynomial with powers of each coordinate up to the order of the flattening (1, or 2 for curved surfaces), with and without a mask.", "quantifier": "for all shapes, heights, polynomials, masks of True and False, kinds of summits, grid spacings and least squares routines, when all heights used are numbers and the routine finds a fit for both surfaces", "why_tests_cant": "A test can tilt a few surfaces and compare; that nothing of the tilt is left for any surface, any polynomial and any mask needs the uniqueness of the fitted heights, and the failure with a mask shows only if a tilt removes a summit at a point that is not used.", "anchors": ["slippy/surface/roughness_funcs.py:roughness", "slippy/surface/roughness_funcs.py:subtract_polynomial", "slippy/surface/roughness_funcs.py:find_summits"]}
{"id": "C171", "title": "Roughness parameters change with the unit of length as their dimension demands", "statement": "If the heights and the grid spacing of a surface are given in another unit of length, the heights sq, sa, sv and sz are the same lengths in the other unit, the ratios ssk, sku and sdr are the same numbers, the mean summit curvature ssc is the same curvature in the other unit, and the summit density sds is the same number for each area in the other unit, with and without mask and flattening.", "quantifier": "for all shapes, heights, missing heights, kinds of masks, kinds of summits, grid spacings and units, without low pass filter", "why_tests_cant": "A test can compare a few surfaces in metres and millimetres; that nothing in the calculation compares a length with a fixed number, for any surface and unit, needs a proof for the whole calculation.", "anchors": ["slippy/surface/roughness_funcs.py:roughness", "slippy/surface/roughness_funcs.py:get_summit_curvatures", "slippy/surface/roughness_funcs.py:find_summits"]}
{"id": "C172", "title": "Hertz contacts do not depend on the units", "statement": "If the lengths, moduli, stresses and loads handed to solve_hertz_line or solve_hertz_point are given in other units of length and stress, the solution is the same one in these units, or the same exception, whichever parameters are given and whichever is to be found.", "quantifier": "for all units of length and stress, all systems with any parameters missing and all derived arguments", "why_tests_cant": "A test can compare a few contacts in two units; a formula that is not homogeneous can agree for the numbers tried, or belong to a combination of missing parameters that was not tried.", "anchors": ["slippy/contact/hertz.py:solve_hertz_line", "slippy/contact/hertz.py:solve_hertz_point"]}
{"id": "C173", "title": "The full Hertz solution does not depend on the units", "statement": "If the radii, moduli and load handed to hertz_full are given in other units of length and stress, the call raises the same exception or gives the same solution in these units: contact shape, angles, radii, area, pressures and deflection, the pressure, displacement and stress at each point, and the greatest shear stress with its depth.", "quantifier": "for all units of length and stress, all arguments and all points", "why_tests_cant": "A test can compare a few contacts in two units; a formula that adds an area to a length, or divides by the area twice, shows only in the branch and the result compared, and only when the unit of length differs from one.", "anchors": ["slippy/contact/hertz.py:hertz_full", "slippy/contact/hertz.py:_displacement_spherical_contact", "slippy/contact/hertz.py:_stress_line_contact"]}
{"id": "C174", "title": "The axes of an elliptical contact do not depend on the root finder", "statement": "The equation for the ratio of the axes has exactly one root in the interval that is searched, it is negative below and positive above, and so every bracketing root finder leads to the same radii, pressures and deflection.", "quantifier": "for all cosines of the auxiliary angle below one by more than 6e-6, and so for all elliptical contacts of convex bodies, and for all root finders that find a root where the sign changes", "why_tests_cant": "The equation contains two integrals; a test solves it for a few contacts and cannot show that there is no second root, which another version of the root finder could return.", "anchors": ["slippy/contact/hertz.py:hertz_full", "slippy/contact/hertz.py:_k_root"]}
{"id": "C175", "title": "Hertz contacts grow with the load as the theory demands", "statement": "Under eight times the load a round or elliptical contact is twice as wide, has four times the area and deflection and twice the pressure at each similar point; under four times the load a line contact is twice as wide with twice the pressures. Whether a contact is accepted does not depend on the load, and a greater load never gives a smaller mean pressure or deflection.", "quantifier": "for all bodies, orientations, positive loads and factors", "why_tests_cant": "The laws are powers with fractional exponents and a logarithm; a test with one load cannot see a wrong exponent, and the deflection of a line contact turns around only at loads that tests do not use.", "anchors": ["slippy/contact/hertz.py:hertz_full", "slippy/contact/hertz.py:_pressure_line_contact", "slippy/contact/hertz.py:_pressure_spherical_contact", "slippy/contact/hertz.py:_pressure_elliptical_contact"]}
{"id": "C176", "title": "Elliptical contacts become round contacts", "statement": "As the principal relative curvatures of two bodies approach each other, the radii, mean and maximum pressure and deflection of the elliptical contact approach those of the round contact with the same sum of curvatures, which the other branch of the function computes.", "quantifier": "for all bodies and loads at once, in the limit of equal relative curvatures, for all root finders that return roots", "why_tests_cant": "The two branches use different formulas, one of them with integrals and a root search; a test compares them for one nearly round contact with a tolerance, and cannot see whether the difference vanishes.", "anchors": ["slippy/contact/hertz.py:hertz_full", "slippy/contact/hertz.py:_k_root", "slippy/contact/hertz.py:_h"]}
{"id": "C177", "title": "The shape of a contact ellipse is set by the ratio of the curvatures", "statement": "The ratio of the axes of a contact ellipse depends on nothing but the ratio of the principal relative curvatures, falls strictly as the curvatures become more different, and lies between their ratio and the root of their ratio: the contact is longer than the curves of equal distance between the undeformed bodies, and its axes differ less than the curvatures.", "quantifier": "for all pairs of elliptical contacts, with any materials, loads and sizes, and all root finders that return roots", "why_tests_cant": "The ratio is the root of an equation with two integrals; a test compares it with tabulated values for a few bodies, mostly with aligned axes on a flat.", "anchors": ["slippy/contact/hertz.py:hertz_full", "slippy/contact/hertz.py:_k_root", "slippy/contact/hertz.py:_i", "slippy/contact/hertz.py:_j"]}
