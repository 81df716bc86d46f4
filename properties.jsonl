{"id": "C01", "title": "Data.update is a deep merge", "statement": "After a.update(b) on nested Data, every leaf path of b reads b's value in a, and every path on which b is silent (no key of b lies on it) still reads what a had; a key whose value in b is a leaf, or is absent/leaf in a, is taken over wholesale from b. Keys of b that begin with an underscore are skipped at every level. Updating twice with the same b changes nothing more.", "quantifier": "all nested Data trees a and b of any depth and width, all key paths", "why_tests_cant": "the merge recurses through try/except over arbitrary nesting; tests sample a few shapes, the claim is over all pairs of trees and all paths", "anchors": ["trunk/SUAVE/Core/Data.py: Data.update"]}
{"id": "C02", "title": "Data.update keeps key order and key uniqueness", "statement": "a.update(b) leaves every existing key of a at its position, appends the new public keys of b in b's order, never creates a duplicate key, and raises TypeError (changing nothing) when b is not a dictionary.", "quantifier": "all Data trees a, b", "why_tests_cant": "order and uniqueness are invariants of every intermediate dictionary, not of one example", "anchors": ["trunk/SUAVE/Core/Data.py: Data.update"]}
{"id": "C03", "title": "deep_set / deep_get laws", "statement": "For a dotted path without index suffix: if every intermediate key exists and holds a Data, deep_set(path,v) followed by deep_get(path) returns v, deep_get of any path that is neither a prefix nor an extension of it is unchanged, and a second deep_set overrides the first; if an intermediate key is missing deep_set raises and the tree is unchanged.", "quantifier": "all trees, all paths, all values", "why_tests_cant": "frame conditions quantify over every other path in the tree", "anchors": ["trunk/SUAVE/Core/Data.py: Data.deep_set, Data.deep_get"]}
{"id": "C04", "title": "Index-suffixed names written by deep_set can be read back by deep_get", "statement": "A name such as a.b[2] that deep_set accepts as a target can be read back with deep_get and returns the value just written.", "quantifier": "all trees, all index-suffixed paths accepted by deep_set", "why_tests_cant": "needs a statement over all trees; the code handles '[i]' only on the writing side, so this is false and the negation is what must be established", "anchors": ["trunk/SUAVE/Core/Data.py: Data.deep_set, Data.deep_get"]}
{"id": "C05", "title": "Data.append never overwrites", "statement": "Data.append(v,key) either raises KeyError and leaves the container unchanged, or adds exactly one entry under the normalised key (or normalised tag of v) and leaves every other entry untouched; the first happens exactly when the normalised key is already present. Hence after any sequence of appends no successfully appended element has been lost.", "quantifier": "all containers, all sequences of appends with arbitrary tags", "why_tests_cant": "quantifies over append histories and over tags colliding after normalisation", "anchors": ["trunk/SUAVE/Core/Data.py: Data.append"]}
{"id": "C06", "title": "Component containers rename instead of losing elements", "statement": "Container.append of an element whose normalised tag is already present stores it under a different tag that was not in use, changes no other entry, and every element ever appended without an exception stays retrievable under the tag it ends up with, whatever values the random generator returns.", "quantifier": "all containers, all append histories, all outcomes of random.randint", "why_tests_cant": "depends on the history of tags (substring counts) and on the random draw", "anchors": ["trunk/SUAVE/Core/Container.py: Container.append"]}
{"id": "C07", "title": "pack_array / unpack_array (vector mode) round trip", "statement": "Unpacking the vector produced by pack_array('vector') into a structure of the same shape restores every numeric field exactly and leaves non-numeric and higher-rank fields untouched; packing after unpacking any vector of the right length returns that vector; the packed length is the sum of field sizes.", "quantifier": "all nested Data with numeric scalars, 1-d and 2-d arrays (column-major flattening), all vectors of matching length", "why_tests_cant": "solver unknowns pass through this pair at every residual evaluation; correctness is over all shapes and nestings", "anchors": ["trunk/SUAVE/Core/Data.py: Data.pack_array, Data.unpack_array"]}
{"id": "C08", "title": "DataOrdered keeps insertion order under any history", "statement": "After any sequence of attribute sets, deletes, updates and clears on a DataOrdered, using names that are not already attributes of its class, keys() enumerates without duplicates exactly the keys set and not since deleted, in order of first insertion since last deletion; values() and items() agree with attribute access; len equals the number of keys; deleting an absent key raises and changes nothing.", "quantifier": "all operation histories over names the class does not define", "why_tests_cant": "the structure is a doubly linked list with a side map; correctness is an invariant over histories", "anchors": ["trunk/SUAVE/Core/DataOrdered.py: DataOrdered.__setattr__, __delattr__, clear, keys, values, items, __len__"]}
{"id": "C09", "title": "Ordered append never loses an element", "statement": "DataOrdered.append of an element whose tag is already present raises KeyError rather than replacing the stored element (its own check announces this), so no element is lost over any history of appends.", "quantifier": "all append histories on an ordered container", "why_tests_cant": "the history in which two elements share a tag has to be considered for every container state", "anchors": ["trunk/SUAVE/Core/DataOrdered.py: DataOrdered.append", "trunk/SUAVE/Core/ContainerOrdered.py: ContainerOrdered.append"]}
{"id": "C10", "title": "Configs: store_diff then pull_base restores the config", "statement": "If a configuration only adds or changes values relative to its base, then store_diff followed by pull_base with an unchanged base yields a configuration in which every path reads as before.", "quantifier": "all base trees and all configuration trees over them", "why_tests_cant": "diff recurses over arbitrary nested data; the round trip is a law over pairs of trees", "anchors": ["trunk/SUAVE/Core/Diffed_Data.py: Diffed_Data.store_diff, pull_base, diff"]}
{"id": "C11", "title": "Configs: base edits propagate except where overridden", "statement": "After store_diff, if the base is edited and pull_base is called, then every path on which the configuration had not diverged reads the edited base value and every leaf where it had diverged keeps the configuration's own value.", "quantifier": "all base trees, all configurations, all later base edits that keep the shape", "why_tests_cant": "relates three arbitrary trees; the vehicle/config workflow depends on it for every component path", "anchors": ["trunk/SUAVE/Core/Diffed_Data.py: diff, pull_base"]}
{"id": "C12", "title": "Configs: deleted entries stay deleted", "statement": "An entry deleted in a configuration relative to its base is absent again after store_diff and pull_base.", "quantifier": "all base trees and configurations with deletions", "why_tests_cant": "the encoding of a deletion in the diff has to be considered for every tree; it is encoded as None, so the claim is false and its negation is established", "anchors": ["trunk/SUAVE/Core/Diffed_Data.py: diff, pull_base"]}
{"id": "C13", "title": "Nexus evaluation cache is transparent", "statement": "Over any sequence of evaluations with any inputs, fidelity changes and force flags, the results read after each evaluation are those a Nexus that always re-runs its procedure would hold, provided the procedure is a function of the inputs and fidelity; the procedure is skipped only if inputs and fidelity equal those of the last completed evaluation.", "quantifier": "all call histories, all procedures", "why_tests_cant": "correctness of a cache is a statement about histories, including A-B-A input sequences and fidelity switches", "anchors": ["trunk/SUAVE/Optimization/Nexus.py: Nexus.evaluate, Nexus._really_evaluate"]}
{"id": "C14", "title": "A failed evaluation is never mistaken for a cached result", "statement": "If a procedure step raises during an evaluation, a later evaluation with the inputs of the last completed evaluation must not be answered from the partially updated results.", "quantifier": "all histories with an exception at any step", "why_tests_cant": "crash point anywhere inside the procedure; the bookkeeping is updated only at the end, so the claim is false and a concrete history shows it", "anchors": ["trunk/SUAVE/Optimization/Nexus.py: Nexus.evaluate, Nexus._really_evaluate"]}
{"id": "C15", "title": "Optimizer inputs: scaling, hard bounds and units", "statement": "unpack_inputs(x) stores x_i*scale_i as the i-th design variable; with hard_bounded_inputs the stored value always lies in [lower_i, upper_i] and equals x_i*scale_i when that already lies inside; what reaches the vehicle is that value times the unit; all other columns of the input table are unchanged.", "quantifier": "all input tables with lower<=upper, all x", "why_tests_cant": "for all tables and vectors, including values exactly at or beyond the bounds", "anchors": ["trunk/SUAVE/Optimization/helper_functions.py: scale_input_values, limit_input_values, convert_values", "trunk/SUAVE/Optimization/Nexus.py: Nexus.unpack_inputs"]}
{"id": "C16", "title": "Constraint signs: non-negative means satisfied", "statement": "inequality_constraint returns one entry per '<' or '>' row in order, and an entry is >= 0 exactly when the (physical) constrained quantity satisfies its bound; equality_constraint returns one entry per '=' row and it is 0 exactly when the quantity equals its bound.", "quantifier": "all constraint tables with positive scales and units, all values", "why_tests_cant": "the scaled value is compared with an unscaled-by-scale bound, so the claim holds only for unit scale; both directions need all tables", "anchors": ["trunk/SUAVE/Optimization/Nexus.py: inequality_constraint, equality_constraint", "trunk/SUAVE/Optimization/helper_functions.py: scale_const_values, scale_const_bnds"]}
{"id": "C17", "title": "Aliases: inputs reach exactly the aliased fields", "statement": "Setting the design variables through the alias table writes each variable's value to every path its alias lists and to no other path; reading constraint values returns, row by row, the value at that row's alias path.", "quantifier": "all alias tables, all input tables, all trees", "why_tests_cant": "row alignment depends on the number of alias hits of all earlier rows", "anchors": ["trunk/SUAVE/Optimization/helper_functions.py: set_values, get_values"]}
{"id": "C18", "title": "Finite-difference gradient is exact on affine models", "statement": "If objective and constraints are affine functions of x, finite_difference returns the exact gradient and Jacobian (row per constraint, column per variable) for any non-zero step; in general each entry is the forward difference quotient at that coordinate, all other coordinates unchanged.", "quantifier": "all affine models, dimensions, points and non-zero steps", "why_tests_cant": "index/transposition errors show only for non-square or asymmetric cases; claim over all sizes", "anchors": ["trunk/SUAVE/Optimization/Nexus.py: Nexus.finite_difference"]}
{"id": "C19", "title": "Trust-region correction is first-order consistent", "statement": "At the trust-region centre the corrected low-fidelity model has the same value and the same gradient as the high-fidelity model.", "quantifier": "all value/gradient pairs of both fidelities, all dimensions", "why_tests_cant": "an algebraic law over all data", "anchors": ["trunk/SUAVE/Optimization/Package_Setups/TRMM/Trust_Region_Optimization.py: calculate_correction, evaluate_corrected_model"]}
{"id": "C20", "title": "Trust-region step control", "statement": "Over any run, the trust-region size stays positive, changes only by the contraction or expansion factor or not at all, contracts whenever the step is rejected or the model was poor, and the sampled step stays inside both the trust region and the variable bounds; the centre moves only to an accepted point.", "quantifier": "all runs (all sequences of candidate values, violations and accuracy ratios)", "why_tests_cant": "a property of runs of an iterative algorithm with arbitrary responses", "anchors": ["trunk/SUAVE/Optimization/Package_Setups/TRMM/Trust_Region_Optimization.py: update_tr_size, optimize", "trunk/SUAVE/Optimization/Package_Setups/TRMM/Trust_Region.py"]}
{"id": "C21", "title": "Particle swarm stays within bounds and only improves", "statement": "Whatever the random numbers, every position at which the objective is evaluated lies within [lb,ub]; the reported best value never increases over the run, is the objective at the reported point, and that point satisfies the constraints whenever it was accepted as an improvement.", "quantifier": "all objective/constraint functions, all random draws, any number of particles and iterations", "why_tests_cant": "quantifies over all random sequences", "anchors": ["trunk/SUAVE/Optimization/Package_Setups/particle_swarm_optimization.py: particle_swarm_optimization"]}
{"id": "C22", "title": "Differential evolution sees each constraint", "statement": "When the SciPy differential-evolution setup is used with several inequality constraints, the i-th constraint object passed to the solver evaluates the i-th constraint.", "quantifier": "all constraint lists", "why_tests_cant": "closures over a loop variable; with one constraint everything looks right. The claim is false for two or more constraints; the negation and the last-constraint behaviour are established for all lists", "anchors": ["trunk/SUAVE/Optimization/Package_Setups/scipy_setup.py: SciPy_Solve"]}
{"id": "C23", "title": "IPOPT Jacobian structure enumerates the dense matrix", "statement": "The sparsity structure handed to IPOPT lists every (constraint, variable) pair exactly once in row-major order, so the flattened Jacobian entry k belongs to the pair listed at k.", "quantifier": "all numbers of variables and constraints", "why_tests_cant": "a bijection over all sizes", "anchors": ["trunk/SUAVE/Optimization/Package_Setups/ipopt_setup.py: make_structure"]}
{"id": "C24", "title": "Latin hypercube sampling is stratified", "statement": "With n samples each of the n equal slices of every dimension contains exactly one sample, every sample lies in the given bounds, whatever the random numbers and shuffles; with criterion 'center' samples are slice mid-points.", "quantifier": "all n>=1, dimensions, bounds, random draws and permutations", "why_tests_cant": "quantifies over all random outcomes", "anchors": ["trunk/SUAVE/Methods/Utilities/latin_hypercube_sampling.py: latin_hypercube_sampling"]}
{"id": "C25", "title": "Pseudospectral differentiation is exact on low order data", "statement": "For any number N>=2 of control points the differentiation operator annihilates constants and maps the nodes to ones.", "quantifier": "all N and all distinct node sets", "why_tests_cant": "for every operator size", "anchors": ["trunk/SUAVE/Methods/Utilities/Chebyshev/chebyshev_data.py: chebyshev_data", "trunk/SUAVE/Methods/Utilities/Chebyshev/linear_data.py: linear_data"]}
{"id": "C26", "title": "Pseudospectral integration inverts differentiation", "statement": "The integration operator is zero at the first control point and I(D f) = f - f[0] for every f; with the time scaling of a segment the integrated rate starts at the initial value and the differentiated integral returns the rate at all later nodes.", "quantifier": "all sampled functions f and all N for which the reduced operator is invertible", "why_tests_cant": "for every vector and every size", "anchors": ["trunk/SUAVE/Methods/Utilities/Chebyshev/chebyshev_data.py: chebyshev_data", "trunk/SUAVE/Methods/Missions/Segments/Common/Numerics.py: update_differentials_time"]}
{"id": "C27", "title": "Chebyshev differentiation is exact on polynomials", "statement": "With N Chebyshev control points the operator differentiates every polynomial of degree below N exactly at the nodes.", "quantifier": "all N>=2 and all polynomials of degree < N", "why_tests_cant": "exactness for every degree and every N is a theorem about barycentric weights, not a finite check", "anchors": ["trunk/SUAVE/Methods/Utilities/Chebyshev/chebyshev_data.py: chebyshev_data"]}
{"id": "C28", "title": "Bilinear table lookup", "statement": "interp2d reproduces the table at grid nodes, reproduces exactly any bilinear function on the whole grid cell containing the query, and for a query inside the grid returns a value between the least and greatest table value of the enclosing cell; with a fill value, exactly the queries outside the grid return it.", "quantifier": "all increasing grids, all tables, all query points", "why_tests_cant": "all cells, edges and corners, all grids", "anchors": ["trunk/SUAVE/Core/Utilities.py: interp2d"]}
{"id": "C29", "title": "Cubic spline blending", "statement": "The blend weight is 1 before the start, 0 after the end, lies in [0,1] and never increases in between, is continuous and has zero slope at both ends.", "quantifier": "all start<end and all real x", "why_tests_cant": "a statement over the continuum", "anchors": ["trunk/SUAVE/Methods/Utilities/Cubic_Spline_Blender.py: Cubic_Spline_Blender.compute"]}
{"id": "C30", "title": "soft_max bounds the maximum", "statement": "soft_max(a,b) is at least max(a,b), exceeds it by at most log 2, is symmetric and monotone in both arguments.", "quantifier": "all real a, b", "why_tests_cant": "continuum of inputs", "anchors": ["trunk/SUAVE/Methods/Utilities/soft_max.py: soft_max"]}
{"id": "C31", "title": "Standard atmosphere is continuous across layers and clamped outside", "statement": "Temperature as a function of altitude is continuous across layer boundaries, equals the tabulated value at each break, is constant outside the tabulated range, and pressure, density and speed of sound are positive everywhere with p = rho R T.", "quantifier": "all altitudes (positive, negative, beyond the table)", "why_tests_cant": "boundary ties resolved by later masks overwriting earlier ones; the claim is over the continuum", "anchors": ["trunk/SUAVE/Analyses/Atmospheric/US_Standard_1976.py: compute_values", "trunk/SUAVE/Attributes/Atmospheres/Earth/US_Standard_1976.py"]}
{"id": "C32", "title": "Process runs every step once, in order", "statement": "Process.evaluate calls every contained step exactly once in insertion order, with the same arguments, stores each step's result under its tag, and a nested Process contributes its own results tree; an exception in step k means exactly the steps before k ran.", "quantifier": "all processes (nested to any depth), all step behaviours, any failing step", "why_tests_cant": "ordering and at-most-once are claims over all step lists and failure points", "anchors": ["trunk/SUAVE/Analyses/Process.py: Process.evaluate"]}
{"id": "C33", "title": "Mission segments chain without gaps", "statement": "Along a mission, each segment starts at the time, horizontal/vertical position, mass, battery energy and range at which the previous one ended, for any number of segments; within a segment initialisation changes only the offset (all differences between control points are preserved).", "quantifier": "all missions (any number of segments, any control points)", "why_tests_cant": "induction over segments and control points", "anchors": ["trunk/SUAVE/Methods/Missions/Segments/Common/Frames.py: initialize_inertial_position, initialize_time", "trunk/SUAVE/Methods/Missions/Segments/Common/Weights.py: initialize_weights"]}
{"id": "C34", "title": "Merged mission states are the concatenation of segment states", "statement": "merged() returns, for each array field, the rows of the sub-segments in order, so the number of rows is the sum and row k belongs to the right segment; unpacking mission-level unknowns gives each sub-segment exactly its own slice.", "quantifier": "all numbers of sub-segments, all row counts", "why_tests_cant": "index arithmetic over all partitions", "anchors": ["trunk/SUAVE/Analyses/Mission/Segments/Conditions/State.py: Container.merged, append_array", "trunk/SUAVE/Analyses/Mission/Segments/Segment.py: Segment.merged", "trunk/SUAVE/Core/Data.py: append_or_update, do_recursive", "trunk/SUAVE/Methods/Missions/Segments/Common/Sub_Segments.py: unpack_subsegments, merge_sub_segment_states"]}
{"id": "C35", "title": "Mass decreases by the integrated fuel flow", "statement": "In a segment the mass at every control point is the initial mass minus the integral of the mass flow; the first point carries the initial mass; weight is mass times gravity downward; with non-negative flow and a monotone integration operator mass never increases.", "quantifier": "all segments, mass-flow histories and integration operators with zero first row", "why_tests_cant": "for all histories", "anchors": ["trunk/SUAVE/Methods/Missions/Segments/Common/Weights.py: update_weights"]}
{"id": "C36", "title": "Battery energy stays within capacity", "statement": "For any charge/discharge history, the reported state of charge lies in [0,1], depth of discharge is its complement, and the stored energy never exceeds the maximum energy.", "quantifier": "all power histories and initial energies not above the maximum", "why_tests_cant": "charging is clipped through an integrate/differentiate pair; claim over all histories, including mixed charge and discharge", "anchors": ["trunk/SUAVE/Components/Energy/Storages/Batteries/Constant_Mass/Lithium_Ion.py: energy_calc"]}
{"id": "C37", "title": "Trapezoidal wing planform identities", "statement": "The chords, span and mean aerodynamic chord computed from area, aspect ratio and taper satisfy: area equals the integral of the chord over the span, span^2/area equals the aspect ratio, tip/root equals the taper, mean aerodynamic chord equals the integral of chord^2 over area, and its span location the chord-weighted mean.", "quantifier": "all positive areas, aspect ratios and taper ratios", "why_tests_cant": "integral identities over a continuum of parameters", "anchors": ["trunk/SUAVE/Methods/Geometry/Two_Dimensional/Planform/wing_planform.py: wing_planform"]}
{"id": "C38", "title": "Segmented wing planform identities", "statement": "For a wing described by any number of segments the reference area is the integral of the piecewise-linear chord over the span and the mean aerodynamic chord its second moment divided by the area.", "quantifier": "all segment lists with increasing span fractions", "why_tests_cant": "for any number of segments", "anchors": ["trunk/SUAVE/Methods/Geometry/Two_Dimensional/Planform/wing_segmented_planform.py: wing_segmented_planform"]}
{"id": "C39", "title": "Control surfaces are split across wing segments without loss", "statement": "populate_control_sections distributes each control surface over the wing segments so that the pieces' span intervals partition the surface's span interval and the chord fraction is preserved.", "quantifier": "all segment lists and control-surface intervals inside the wing", "why_tests_cant": "eight interval-overlap cases written by hand; one is missing, so the claim is false and is proved under the exact excluded configuration", "anchors": ["trunk/SUAVE/Methods/Geometry/Two_Dimensional/Planform/populate_control_sections.py: populate_control_sections"]}
{"id": "C40", "title": "Frame transforms are rotations", "statement": "For every sequence of rotation axes and all angles the direction cosine matrices returned are orthogonal with determinant one, transposing inverts them, products compose, and vector lengths are preserved.", "quantifier": "all angles, all axis sequences", "why_tests_cant": "trigonometric identity over the continuum and over sequences of any length", "anchors": ["trunk/SUAVE/Methods/Geometry/Three_Dimensional/angles_to_dcms.py: angles_to_dcms", "trunk/SUAVE/Methods/Geometry/Three_Dimensional/orientation_product.py", "trunk/SUAVE/Methods/Geometry/Three_Dimensional/orientation_transpose.py"]}
{"id": "C41", "title": "Fuel centre-of-gravity range is the true extreme", "statement": "For each fuel mass, the reported forward (aft) limit is the least (greatest) centre of gravity over all ways to distribute that fuel mass among the tanks within their capacities.", "quantifier": "all tank lists, capacities, positions and fuel masses up to the total", "why_tests_cant": "optimality over a continuum of distributions; the greedy filling needs an exchange argument", "anchors": ["trunk/SUAVE/Methods/Center_of_Gravity/compute_fuel_center_of_gravity_longitudinal_range.py: compute_fuel_center_of_gravity_longitudinal_range"]}
{"id": "C42", "title": "Mass roll-up", "statement": "sum_mass of a container tree is the sum of all component masses whatever the nesting, and the vehicle centre of gravity is the mass-weighted mean of component centres, hence inside their range for non-negative masses.", "quantifier": "all component trees", "why_tests_cant": "induction over trees", "anchors": ["trunk/SUAVE/Components/Physical_Component.py: Container.sum_mass, Container.total_moment", "trunk/SUAVE/Vehicle.py: center_of_gravity, sum_mass"]}
{"id": "C43", "title": "Saved results load back", "statement": "Loading an archive written by SUAVE's save restores every number, string, boolean, list-of-numbers, nested data and None with the same keys in the same order; functions come back as None.", "quantifier": "all nested data built from the supported types", "why_tests_cant": "induction over trees; unsupported types are silently replaced, which must be delimited exactly", "anchors": ["trunk/SUAVE/Input_Output/SUAVE/archive.py: build_dict_base, build_dict_r", "trunk/SUAVE/Input_Output/SUAVE/load.py"]}
{"id": "C44", "title": "XML save/load round trip", "statement": "Building a document tree from the event stream of a serialised element tree gives back the same tags, attributes, content and order of children.", "quantifier": "all element trees", "why_tests_cant": "stack discipline over all trees", "anchors": ["trunk/SUAVE/Input_Output/XML/load.py", "trunk/SUAVE/Input_Output/XML/Data.py", "trunk/SUAVE/Input_Output/XML/save.py"]}
{"id": "C45", "title": "Unit conversions round trip", "statement": "For every unit u and number x, (x*u)/u = x; conversion of composed units multiplies the factors; offset temperature units convert back and forth.", "quantifier": "all numbers and all units with non-zero factor", "why_tests_cant": "law over all factors", "anchors": ["trunk/SUAVE/Core/Units.py"]}
{"id": "C46", "title": "Unit dependency ordering", "statement": "solve_dependencies returns layers in which every name occurs exactly once and after everything it depends on, whenever the dependency relation is acyclic.", "quantifier": "all finite dependency tables", "why_tests_cant": "over all graphs, including non-termination on cycles", "anchors": ["trunk/SUAVE/Plugins/pint/util.py: solve_dependencies"]}
{"id": "C47", "title": "Unit conversion path search", "statement": "find_shortest_path returns a path of minimal length among all simple paths, and None exactly when the target is unreachable.", "quantifier": "all finite graphs", "why_tests_cant": "over all graphs", "anchors": ["trunk/SUAVE/Plugins/pint/util.py: find_shortest_path"]}
{"id": "C48", "title": "Output redirection is restored", "statement": "After a redirected block ends, normally or by exception, standard output and error are the ones before the block, for any nesting of redirections.", "quantifier": "all nested redirection programs with exceptions anywhere", "why_tests_cant": "all nestings and crash points", "anchors": ["trunk/SUAVE/Core/redirect.py: output"]}
{"id": "C49", "title": "V-n diagram load factors satisfy the regulation", "statement": "The positive limit load factor used is never below the regulatory minimum nor below the user's limit, and the negative one never above the required bound.", "quantifier": "all weights and user limits, both regulation sets", "why_tests_cant": "branchy clamps over a continuum", "anchors": ["trunk/SUAVE/Methods/Performance/V_n_diagram.py"]}
{"id": "C50", "title": "Payload-range bookkeeping", "statement": "At each of the corner points of the payload-range diagram take-off weight = empty weight + payload + fuel, no weight exceeds its maximum, and payload does not increase along the diagram.", "quantifier": "all consistent weight sets", "why_tests_cant": "inequalities over a continuum of weight sets", "anchors": ["trunk/SUAVE/Methods/Performance/payload_range.py: payload_range"]}
{"id": "C51", "title": "Optimization history round trip", "statement": "Design variables written by write_optimization_outputs are read back by read_optimization_outputs as the values the optimizer used.", "quantifier": "all input tables and histories", "why_tests_cant": "column conventions must agree for all tables; the writer divides by the wrong column, so the claim is false in general", "anchors": ["trunk/SUAVE/Optimization/write_optimization_outputs.py", "trunk/SUAVE/Optimization/read_optimization_outputs.py"]}
{"id": "C52", "title": "translate reports physical values", "statement": "Nexus.translate prints, for the objective and each constraint, the physical value expressed in the units of its row.", "quantifier": "all objective and constraint rows with non-zero scale and unit", "why_tests_cant": "algebra over a continuum of scales and units; the objective formula is wrong for every unit but one", "anchors": ["trunk/SUAVE/Optimization/Nexus.py: Nexus.translate", "trunk/SUAVE/Optimization/helper_functions.py: unscale_const_values, scale_obj_values"]}
{"id": "C53", "title": "Finite differences: cost and side effect", "statement": "A finite-difference gradient over n variables runs the procedure at most n+1 times although objective and constraints are requested separately at each point; afterwards the Nexus again holds the design point asked for.", "quantifier": "all problems, all points and all numbers of variables", "why_tests_cant": "relies on the cache over a history of 2n+2 calls for every n", "anchors": ["trunk/SUAVE/Optimization/Nexus.py: Nexus.finite_difference, Nexus.evaluate"]}
{"id": "C54", "title": "Names that collide with container methods", "statement": "An element stored in an ordered container under a name that is also a method name of the container (such as items or update) is listed, counted and deleted like any other.", "quantifier": "all container states and all such names", "why_tests_cant": "only shows for particular names; every state has to be considered", "anchors": ["trunk/SUAVE/Core/DataOrdered.py: DataOrdered.__setattr__, __delattr__, keys, __len__"]}
{"id": "C55", "title": "Trust-region optimizer returns an accepted point", "statement": "The design point returned by the trust-region multifidelity optimizer is a point it accepted: never one that its own acceptance test had just rejected.", "quantifier": "all runs: all surrogate and high-fidelity values, all iteration limits", "why_tests_cant": "depends on which of several exits a run of arbitrary length takes", "anchors": ["trunk/SUAVE/Optimization/Package_Setups/TRMM/Trust_Region_Optimization.py: Trust_Region_Optimization.optimize"]}
{"id": "C56", "title": "SLSQP constraint form agrees with the violation measure", "statement": "In the trust-region optimizer, the constraint vector handed to SLSQP is satisfied exactly when the constraint-violation measure of the trust region is zero.", "quantifier": "all constraint values, edges, scales and senses", "why_tests_cant": "continuum of edges and scales", "anchors": ["trunk/SUAVE/Optimization/Package_Setups/TRMM/Trust_Region_Optimization.py: calculate_constraint_violation, unpack_constraints_slsqp"]}
{"id": "C57", "title": "Particle swarm reports the best feasible point it evaluated", "statement": "The objective value returned by particle swarm is at most the objective of every feasible particle position evaluated during the run.", "quantifier": "all objective and constraint functions, swarms, random draws and iteration counts", "why_tests_cant": "stochastic run of arbitrary length over arbitrary functions", "anchors": ["trunk/SUAVE/Optimization/Package_Setups/particle_swarm_optimization.py: particle_swarm_optimization"]}
{"id": "C58", "title": "Optimizer set-ups pose the constraints as written", "statement": "Whatever optimizer package is chosen (pyOpt, pyOptSparse, IPOPT, surrogate), a point satisfies the constraints the set-up passes to the package exactly when it satisfies the user's constraint rows (value sense bound, in the row's units).", "quantifier": "all constraint rows, scales, units and responses", "why_tests_cant": "continuum of responses, scales and units over four packages", "anchors": ["trunk/SUAVE/Optimization/Package_Setups/pyopt_setup.py: Pyopt_Solve", "trunk/SUAVE/Optimization/Package_Setups/pyoptsparse_setup.py: Pyoptsparse_Solve", "trunk/SUAVE/Optimization/Package_Setups/ipopt_setup.py: make_structure, Ipopt_Solve", "trunk/SUAVE/Optimization/Package_Setups/pyopt_surrogate_setup.py"]}
{"id": "C59", "title": "A NaN evaluation is reported as failed", "statement": "If the objective or any constraint of an evaluation is NaN, the pyOpt wrapper reports the evaluation as failed.", "quantifier": "all objective and constraint vectors including NaN entries", "why_tests_cant": "needs every combination of NaN positions", "anchors": ["trunk/SUAVE/Optimization/Package_Setups/pyopt_setup.py: PyOpt_Problem"]}
{"id": "C60", "title": "Linear collocation data differentiates polynomials", "statement": "With equally spaced control points the differentiation matrix is exact for polynomials of degree below N at the control points.", "quantifier": "all numbers of control points and all polynomials of degree below N", "why_tests_cant": "infinitely many polynomials; fails already for small N with a particular cubic", "anchors": ["trunk/SUAVE/Methods/Utilities/Chebyshev/linear_data.py: linear_data"]}
{"id": "C61", "title": "Atmosphere is in hydrostatic balance", "statement": "Strictly inside each layer of the standard atmosphere on a standard day, pressure falls with geopotential altitude at the rate density times gravity, and is strictly decreasing; gravity decreases with altitude and equals the sea-level value at zero.", "quantifier": "all break tables, layers and altitudes", "why_tests_cant": "a differential identity on a continuum, with two formulas depending on the lapse rate", "anchors": ["trunk/SUAVE/Analyses/Atmospheric/US_Standard_1976.py: US_Standard_1976.compute_values", "trunk/SUAVE/Attributes/Planets/Earth.py: Earth.compute_gravity"]}
{"id": "C62", "title": "Analysis containers visit every analysis once, in order", "statement": "Compiling, initialising or finalising a container of analyses does so exactly once for each contained analysis, in the order in which they were appended, and raises no error of its own.", "quantifier": "all containers of analyses, of any length", "why_tests_cant": "arbitrary number and kind of analyses; the initialise path is not exercised", "anchors": ["trunk/SUAVE/Analyses/Analysis.py: Container.compile, Container.initialize, Container.finalize"]}
{"id": "C63", "title": "Later segments leave earlier results unchanged", "statement": "Evaluating a later segment of a mission leaves every recorded time, mass and position of the segments before it unchanged.", "quantifier": "all missions, any number of segments and control points", "why_tests_cant": "an ownership property over all mission lengths and trajectories", "anchors": ["trunk/SUAVE/Methods/Missions/Segments/Common/Frames.py: initialize_inertial_position", "trunk/SUAVE/Methods/Missions/Segments/Common/Sub_Segments.py: sequential_sub_segments"]}
{"id": "C64", "title": "Climb and descent segments fly the requested profile", "statement": "A climb or descent segment starts at its start altitude, ends at its end altitude and stays between them, at the requested airspeed, Mach number or equivalent airspeed and the requested rate or angle at every control point, and lasts altitude change over rate; the constant-speed climb with a given distance covers that distance.", "quantifier": "all numbers of control points, altitudes, speeds, rates, angles and atmosphere functions", "why_tests_cant": "a continuum of requests and all grid sizes", "anchors": ["trunk/SUAVE/Methods/Missions/Segments/Climb/Constant_Speed_Constant_Rate.py: initialize_conditions", "trunk/SUAVE/Methods/Missions/Segments/Climb/Linear_Speed_Constant_Rate.py: initialize_conditions", "trunk/SUAVE/Methods/Missions/Segments/Climb/Constant_Mach_Constant_Rate.py: initialize_conditions", "trunk/SUAVE/Methods/Missions/Segments/Climb/Linear_Mach_Constant_Rate.py: initialize_conditions", "trunk/SUAVE/Methods/Missions/Segments/Climb/Constant_EAS_Constant_Rate.py: initialize_conditions", "trunk/SUAVE/Methods/Missions/Segments/Climb/Constant_Speed_Constant_Angle.py: initialize_conditions", "trunk/SUAVE/Methods/Missions/Segments/Climb/Constant_Speed_Linear_Altitude.py: initialize_conditions", "trunk/SUAVE/Methods/Missions/Segments/Descent/Constant_Speed_Constant_Rate.py: initialize_conditions", "trunk/SUAVE/Methods/Missions/Segments/Descent/Constant_EAS_Constant_Rate.py: initialize_conditions", "trunk/SUAVE/Methods/Missions/Segments/Descent/Linear_Mach_Constant_Rate.py: initialize_conditions", "trunk/SUAVE/Methods/Missions/Segments/Descent/Constant_Speed_Constant_Angle.py: initialize_conditions", "trunk/SUAVE/Methods/Missions/Segments/Climb/Common.py: update_differentials_altitude"]}
{"id": "C65", "title": "Altitude history agrees with vertical speed", "statement": "In every climb, descent and vertical hover segment the recorded altitude at each control point is the start altitude plus the integral, over the recorded time, of the recorded climb speed.", "quantifier": "all segments of these kinds, all grids and all requests", "why_tests_cant": "a relation between three histories over a continuum of profiles", "anchors": ["trunk/SUAVE/Methods/Missions/Segments/Climb/Common.py: update_differentials_altitude", "trunk/SUAVE/Methods/Missions/Segments/Climb/Constant_Mach_Linear_Altitude.py: initialize_conditions", "trunk/SUAVE/Methods/Missions/Segments/Climb/Constant_Throttle_Constant_Speed.py: update_differentials_altitude", "trunk/SUAVE/Methods/Missions/Segments/Climb/Optimized.py: update_differentials", "trunk/SUAVE/Methods/Missions/Segments/Hover/Climb.py: initialize_conditions", "trunk/SUAVE/Methods/Missions/Segments/Hover/Descent.py: initialize_conditions"]}
{"id": "C66", "title": "Cruise distance, loiter and hover time", "statement": "A constant-altitude cruise covers exactly the requested distance at the requested speed or Mach number; loiter and hover segments last exactly the requested time; all of them keep the requested altitude.", "quantifier": "all grids, speeds, distances, times and altitudes", "why_tests_cant": "a continuum of requests and all grid sizes", "anchors": ["trunk/SUAVE/Methods/Missions/Segments/Cruise/Constant_Speed_Constant_Altitude.py: initialize_conditions", "trunk/SUAVE/Methods/Missions/Segments/Cruise/Constant_Mach_Constant_Altitude.py: initialize_conditions", "trunk/SUAVE/Methods/Missions/Segments/Cruise/Constant_Speed_Constant_Altitude_Loiter.py: initialize_conditions", "trunk/SUAVE/Methods/Missions/Segments/Cruise/Constant_Mach_Constant_Altitude_Loiter.py: initialize_conditions", "trunk/SUAVE/Methods/Missions/Segments/Hover/Hover.py: initialize_conditions", "trunk/SUAVE/Methods/Missions/Segments/Hover/Climb.py: initialize_conditions", "trunk/SUAVE/Methods/Missions/Segments/Hover/Descent.py: initialize_conditions"]}
{"id": "C67", "title": "Dynamic-pressure segments fly at the requested dynamic pressure", "statement": "In a constant-dynamic-pressure segment one half density times speed squared, with the density at the segment's own altitude, equals the requested dynamic pressure at every control point.", "quantifier": "all density functions, altitudes and requests, first and later evaluations", "why_tests_cant": "depends on what the state held before the segment was evaluated", "anchors": ["trunk/SUAVE/Methods/Missions/Segments/Climb/Constant_Dynamic_Pressure_Constant_Rate.py: initialize_conditions", "trunk/SUAVE/Methods/Missions/Segments/Climb/Constant_Dynamic_Pressure_Constant_Angle.py: update_differentials", "trunk/SUAVE/Methods/Missions/Segments/Cruise/Constant_Dynamic_Pressure_Constant_Altitude.py: initialize_conditions"]}
{"id": "C68", "title": "Acceleration segments meet their end speeds", "statement": "Constant-acceleration segments start and end at the requested airspeeds and the airspeed changes at the requested acceleration; constant-throttle cruise integrates its acceleration from the requested start speed; the accelerating climb-out starts at the requested airspeed along its climb angle.", "quantifier": "all grids, speeds, accelerations and angles", "why_tests_cant": "a continuum of requests", "anchors": ["trunk/SUAVE/Methods/Missions/Segments/Cruise/Constant_Acceleration_Constant_Altitude.py: initialize_conditions", "trunk/SUAVE/Methods/Missions/Segments/Transition/Constant_Acceleration_Constant_Pitchrate_Constant_Altitude.py: initialize_conditions", "trunk/SUAVE/Methods/Missions/Segments/Transition/Constant_Acceleration_Constant_Angle_Linear_Climb.py: initialize_conditions", "trunk/SUAVE/Methods/Missions/Segments/Cruise/Constant_Throttle_Constant_Altitude.py: integrate_velocity, initialize_conditions"]}
{"id": "C69", "title": "Pitch segments meet their end angles", "statement": "Pitch-rate and transition segments start at the requested (or inherited) pitch angle and end at the requested one, wherever they stand in the mission.", "quantifier": "all grids, angles, rates and start times", "why_tests_cant": "only shows when the segment does not begin at time zero", "anchors": ["trunk/SUAVE/Methods/Missions/Segments/Cruise/Constant_Pitch_Rate_Constant_Altitude.py: initialize_conditions", "trunk/SUAVE/Methods/Missions/Segments/Transition/Constant_Acceleration_Constant_Pitchrate_Constant_Altitude.py: initialize_conditions", "trunk/SUAVE/Methods/Missions/Segments/Transition/Constant_Acceleration_Constant_Angle_Linear_Climb.py: initialize_conditions"]}
{"id": "C70", "title": "Zero residual means force balance", "statement": "The residuals of climb, cruise, hover, acceleration and pitch-rate segments are zero at a control point exactly when total force equals mass times acceleration there.", "quantifier": "all forces, accelerations and positive masses", "why_tests_cant": "equivalence over all real forces", "anchors": ["trunk/SUAVE/Methods/Missions/Segments/Climb/Common.py: residual_total_forces", "trunk/SUAVE/Methods/Missions/Segments/Cruise/Common.py: residual_total_forces", "trunk/SUAVE/Methods/Missions/Segments/Hover/Common.py: residual_total_forces", "trunk/SUAVE/Methods/Missions/Segments/Cruise/Constant_Acceleration_Constant_Altitude.py: residual_total_forces", "trunk/SUAVE/Methods/Missions/Segments/Cruise/Constant_Pitch_Rate_Constant_Altitude.py: residual_total_forces"]}
{"id": "C71", "title": "Noise segments sample every half second", "statement": "The certification noise segments record the trajectory at points at most half a second apart.", "quantifier": "all airspeeds and angles", "why_tests_cant": "the number of points depends on the request through a ceiling", "anchors": ["trunk/SUAVE/Methods/Missions/Segments/Descent/Constant_Speed_Constant_Angle_Noise.py: expand_state, initialize_conditions", "trunk/SUAVE/Methods/Missions/Segments/Climb/Constant_Speed_Constant_Angle_Noise.py: expand_state, initialize_conditions"]}
{"id": "C72", "title": "Ground friction opposes the motion", "statement": "On a ground segment the normal force balances weight minus lift and the friction force never accelerates the aircraft forward.", "quantifier": "all weights, lifts and friction coefficients", "why_tests_cant": "sign changes at the lift-off speed", "anchors": ["trunk/SUAVE/Methods/Missions/Segments/Ground/Common.py: compute_ground_forces"]}
{"id": "C73", "title": "Battery ageing never runs backwards", "statement": "The charge throughput recorded for a battery never decreases over a history or from one step to the next, and its capacity-fade and resistance-growth factors never improve as throughput and time grow.", "quantifier": "all current histories, time steps and starting throughput", "why_tests_cant": "monotonicity over arbitrary charge and discharge histories", "anchors": ["trunk/SUAVE/Components/Energy/Storages/Batteries/Constant_Mass/Lithium_Ion.py: Lithium_Ion.energy_calc", "trunk/SUAVE/Components/Energy/Storages/Batteries/Constant_Mass/Lithium_Ion_LiNiMnCoO2_18650.py: Lithium_Ion_LiNiMnCoO2_18650.energy_calc, Lithium_Ion_LiNiMnCoO2_18650.update_battery_state_of_health"]}
{"id": "C74", "title": "Battery cooling follows the flow regime", "statement": "The battery cell temperature is never reported below ambient, and the heat-transfer correlation used for the air cooling is the one of the Reynolds-number range the flow is in.", "quantifier": "all heat loads, temperatures, time steps and Reynolds numbers", "why_tests_cant": "a decision over a continuum of flow states", "anchors": ["trunk/SUAVE/Methods/Power/Battery/compute_net_generated_battery_heat.py: compute_net_generated_battery_heat"]}
{"id": "C75", "title": "Trapezoidal and segmented planforms agree", "statement": "A trapezoidal wing described by two stations has, after the segmented-planform computation, the same area, aspect ratio, chords, sweeps, thickness, span, length, wetted area and aerodynamic centre as after the trapezoidal computation.", "quantifier": "all positive areas and aspect ratios, non-negative tapers, sweeps and dihedrals; symmetric and one-sided wings", "why_tests_cant": "agreement of two formula sets over a continuum of wings", "anchors": ["trunk/SUAVE/Methods/Geometry/Two_Dimensional/Planform/wing_planform.py: wing_planform", "trunk/SUAVE/Methods/Geometry/Two_Dimensional/Planform/wing_segmented_planform.py: wing_segmented_planform"]}
{"id": "C76", "title": "Segment properties add up", "statement": "The reference areas of the segments of a wing add up to the wing's reference area; a segment's exposed area is the chord integrated from the side of the body outwards, and its mean aerodynamic chord is the quotient of the integrals of squared chord and chord over the same part.", "quantifier": "all wings, any number of stations, symmetric or not, all body offsets inside the first segment", "why_tests_cant": "a sum over arbitrary numbers of segments and an integral identity", "anchors": ["trunk/SUAVE/Methods/Geometry/Two_Dimensional/Planform/wing_segmented_planform.py: segment_properties"]}
{"id": "C77", "title": "Origins survive being made non-dimensional", "statement": "Making the component origins of a vehicle non-dimensional and dimensional again returns the original origins; if the reference length changes in between, all origins scale by the ratio of the lengths.", "quantifier": "all vehicles with non-zero reference length, any number of wings, fuselages, networks and engines", "why_tests_cant": "a round trip over arbitrary layouts", "anchors": ["trunk/SUAVE/Methods/Geometry/Two_Dimensional/Planform/rescale_non_dimensional.py: set_origin_non_dimensional, set_origin_dimensional"]}
{"id": "C78", "title": "Fuselage lengths add up and are stable", "statement": "After the fuselage computation nose, cabin and tail lengths add up to the total length, and computing again changes nothing.", "quantifier": "all fuselage data", "why_tests_cant": "clamped cases and repeated application", "anchors": ["trunk/SUAVE/Methods/Geometry/Two_Dimensional/Planform/fuselage_planform.py: fuselage_planform"]}
{"id": "C79", "title": "Lift and drag are resolved along the flight path", "statement": "After orientations and forces are updated, the drag contribution to the inertial total force is directed against the inertial velocity, the lift contribution is perpendicular to it, thrust is rotated by the body attitude, and the total is the sum of lift, drag, thrust and weight.", "quantifier": "all velocities, attitudes and force components", "why_tests_cant": "depends continuously on three attitude angles and two flow angles", "anchors": ["trunk/SUAVE/Methods/Missions/Segments/Common/Frames.py: update_orientations, update_forces"]}
{"id": "C80", "title": "Aerodynamic forces respect the limits", "statement": "The lift coefficient used never exceeds the maximum lift coefficient in magnitude, no aerodynamic force acts without dynamic pressure, lift acts only along the wind vertical axis and drag only along the wind axis, and dynamic pressure, Mach and Reynolds number are those of the recorded velocity.", "quantifier": "all aerodynamic results, velocities and fluid states", "why_tests_cant": "a clamp over a continuum of results", "anchors": ["trunk/SUAVE/Methods/Missions/Segments/Common/Aerodynamics.py: update_freestream, update_aerodynamics"]}
{"id": "C81", "title": "Latitude and longitude follow the ground track", "statement": "The change of latitude over a segment is the northward distance over the radius, and the change of longitude the eastward distance over the radius of the parallel being flown.", "quantifier": "all courses, speeds, altitudes and start positions", "why_tests_cant": "an integral over the trajectory, with the trigonometric function of a running result", "anchors": ["trunk/SUAVE/Methods/Missions/Segments/Common/Frames.py: initialize_planet_position, update_planet_position"]}
{"id": "C82", "title": "Appended components land in the container of their kind", "statement": "Appending a wing, fuselage, network, nacelle, system, landing gear, envelope, payload or mass-properties object to a vehicle puts it into the vehicle's container for that kind and leaves the other containers alone; only foreign objects are refused.", "quantifier": "all component kinds and subclasses", "why_tests_cant": "a dispatch over all kinds, including those nobody appends in the tests", "anchors": ["trunk/SUAVE/Vehicle.py: Vehicle.find_component_root, Vehicle.append_component"]}
{"id": "C83", "title": "Estimated component positions use the right references", "statement": "When component centres of gravity are estimated, the propulsion centre used for the electrical systems is the mass-weighted mean over all networks, and the systems placed relative to the main wing do not depend on the other wings.", "quantifier": "all vehicles, any number of wings and networks", "why_tests_cant": "only shows with several networks or a wing after the main wing", "anchors": ["trunk/SUAVE/Methods/Center_of_Gravity/compute_component_centers_of_gravity.py: compute_component_centers_of_gravity"]}
{"id": "C84", "title": "Working in another folder", "statement": "Inside a folder-redirected block the working directory is the folder and the pulled files are there; afterwards, normally or by exception, the working directory is the original one and the pushed files are there; no other file changes.", "quantifier": "all file systems, file lists and block bodies, including bodies that raise or change directory", "why_tests_cant": "the body is an arbitrary program and the exit code itself can fail half-way", "anchors": ["trunk/SUAVE/Core/redirect.py: folder"]}
{"id": "C85", "title": "V-n diagram speeds", "statement": "The cruise speed used is never below the given one, the regulatory minimum or the manoeuvre speeds, and the dive speed is at least the regulatory multiple of the cruise speed.", "quantifier": "all wing loadings, speeds and categories", "why_tests_cant": "piecewise-linear tables and comparison chains over a continuum; ties slip through", "anchors": ["trunk/SUAVE/Methods/Performance/V_n_diagram.py"]}
{"id": "C86", "title": "Stall line of the V-n diagram", "statement": "The stall line has equally spaced airspeeds strictly between its end points, each with the load factor of the lift law at that airspeed, in the same positions of both lists; it meets load factor one at the stall speed and the limit load factor at the manoeuvre speed.", "quantifier": "all lists, numbers of points and flight conditions", "why_tests_cant": "in-place insertion by index for any number of points", "anchors": ["trunk/SUAVE/Methods/Performance/V_n_diagram.py: stall_line, stall_maneuver_speeds, convert_keas"]}
{"id": "C87", "title": "Gust corner of the V-n diagram", "statement": "The corner inserted where the gust line meets the manoeuvre boundary lies on both lines.", "quantifier": "all load factors, speeds and categories", "why_tests_cant": "one branch uses the end point of another category", "anchors": ["trunk/SUAVE/Methods/Performance/V_n_diagram.py: gust_dive_speed_intersection"]}
{"id": "C88", "title": "Payload-range fuel iteration", "statement": "The residual reported for a point of the payload-range diagram is fuel burned plus reserves less the fuel of the point; for missions with constant cruise fuel per distance the iteration finds the distance that burns exactly the available fuel.", "quantifier": "all missions, weights, reserves and starting distances", "why_tests_cant": "quantifies over mission functions", "anchors": ["trunk/SUAVE/Methods/Performance/payload_range.py: payload_range"]}
{"id": "C89", "title": "Ram compression and the ideal inlet undo each other", "statement": "The ram component's stagnation values are those of the free stream brought to rest without losses; an inlet without losses returns the free stream's Mach number, temperature, velocity and stagnation values, and a pressure loss in an adiabatic inlet leaves the stagnation temperature alone.", "quantifier": "all fluids, flight conditions and inlet settings", "why_tests_cant": "real powers over a continuum of flight conditions", "anchors": ["trunk/SUAVE/Components/Energy/Converters/Ram.py: Ram.compute", "trunk/SUAVE/Components/Energy/Converters/Compression_Nozzle.py: Compression_Nozzle.compute"]}
{"id": "C90", "title": "Energy is conserved through the engine", "statement": "In the burner, fuel heat is the rise of stagnation enthalpy of air and fuel; each turbine gives the work its compressor, fan and off-take need; over the whole engine the exit enthalpy is what came in plus fuel heat less off-take; the reported fuel to air ratio is that of the burner.", "quantifier": "all component settings, bypass ratios and flight conditions", "why_tests_cant": "composition of eight components over a continuum", "anchors": ["trunk/SUAVE/Components/Energy/Converters/Combustor.py: Combustor.compute", "trunk/SUAVE/Components/Energy/Converters/Turbine.py: Turbine.compute", "trunk/SUAVE/Components/Energy/Converters/Compressor.py", "trunk/SUAVE/Components/Energy/Converters/Fan.py", "trunk/SUAVE/Components/Energy/Networks/Turbofan.py: Turbofan.evaluate_thrust"]}
{"id": "C91", "title": "Nozzle exit state", "statement": "Behind an expansion nozzle the flow is at most sonic, pressure is at least ambient and equal to it when subsonic, static and stagnation values fit, the area ratio carries the mass flow, and velocity is Mach number times speed of sound.", "quantifier": "all nozzle settings, stagnation values and ambient conditions", "why_tests_cant": "mask arithmetic over a continuum with choking as boundary case", "anchors": ["trunk/SUAVE/Components/Energy/Converters/Expansion_Nozzle.py: Expansion_Nozzle.compute", "trunk/SUAVE/Methods/Propulsion/fm_id.py: fm_id"]}
{"id": "C92", "title": "Thrust bookkeeping", "statement": "Thrust is momentum change plus pressure excess over the exit areas of core and fan; fuel flow is fuel to air ratio times core air, never negative; both are proportional to throttle and number of engines; specific impulse is thrust per weight of fuel.", "quantifier": "all exit states, throttles, bypass ratios and engine counts", "why_tests_cant": "nondimensional coefficients hide the identity; sampled checks only compare numbers", "anchors": ["trunk/SUAVE/Components/Energy/Processes/Thrust.py: Thrust.compute"]}
{"id": "C93", "title": "Engine sizing and engine out", "statement": "A turbofan sized for a thrust at a flight condition delivers that thrust there at full throttle; with one engine out the others give full thrust and the throttle is restored.", "quantifier": "all engines, design points and thrusts", "why_tests_cant": "round trip between sizing and evaluation over all designs", "anchors": ["trunk/SUAVE/Methods/Propulsion/turbofan_sizing.py: turbofan_sizing", "trunk/SUAVE/Components/Energy/Processes/Thrust.py: Thrust.size", "trunk/SUAVE/Components/Energy/Networks/Turbofan.py: Turbofan.engine_out"]}
{"id": "C94", "title": "Polytropic efficiency", "statement": "Compressing in two stages of one polytropic efficiency equals compressing once by the product; lower efficiency never lowers compressor work nor raises turbine exit pressure.", "quantifier": "all pressure ratios and efficiencies", "why_tests_cant": "inequalities between real powers", "anchors": ["trunk/SUAVE/Components/Energy/Converters/Compressor.py: Compressor.compute", "trunk/SUAVE/Components/Energy/Converters/Fan.py: Fan.compute", "trunk/SUAVE/Components/Energy/Converters/Turbine.py: Turbine.compute"]}
{"id": "C95", "title": "Exit conditions reported for noise", "statement": "After a turbofan evaluation, the static and stagnation pressures stored for the noise analysis are those of the core and fan nozzle exits.", "quantifier": "all engines and flight conditions", "why_tests_cant": "the wrong number is plausible and only differs by the dynamic pressure", "anchors": ["trunk/SUAVE/Components/Energy/Networks/Turbofan.py: Turbofan.evaluate_thrust"]}
{"id": "C96", "title": "Shock relations conserve mass, momentum and energy", "statement": "Across an attached oblique shock at the angle and with the ratios computed, mass, both momentum components and energy are conserved; pressure and temperature rise, the flow across the shock becomes subsonic, and stagnation pressure falls consistently with pressure and temperature.", "quantifier": "all supersonic Mach numbers, deflections with an attached shock, and heat capacity ratios", "why_tests_cant": "entropy increase is an inequality between real powers over two continuous parameters", "anchors": ["trunk/SUAVE/Methods/Aerodynamics/Common/Gas_Dynamics/Oblique_Shock.py: oblique_shock_relations"]}
{"id": "C97", "title": "Shock angle", "statement": "The shock angle computed for a deflection satisfies the deflection relation, lies between the deflection and a right angle, is the smaller of all angles that do, and no angle at all does where the formula has no real value.", "quantifier": "all Mach numbers above one, deflections and heat capacity ratios", "why_tests_cant": "a closed solution of a cubic through trigonometric functions; choice of root", "anchors": ["trunk/SUAVE/Methods/Aerodynamics/Common/Gas_Dynamics/Oblique_Shock.py: theta_beta_mach"]}
{"id": "C98", "title": "Shock trains and the scramjet inlet", "statement": "A train of attached shocks keeps stagnation temperature, heats and slows the flow and loses stagnation pressure with every shock; the scramjet inlet's Mach number and velocity are those behind the last shock.", "quantifier": "all numbers of shocks, deflections and Mach numbers", "why_tests_cant": "induction over the number of shocks", "anchors": ["trunk/SUAVE/Methods/Propulsion/shock_train.py: shock_train", "trunk/SUAVE/Components/Energy/Converters/Compression_Nozzle.py: Compression_Nozzle.compute_scramjet"]}
{"id": "C99", "title": "Heat addition and thermal choking", "statement": "Any Mach number that solves the heat addition equation conserves mass and momentum together with the stagnation pressure ratio returned; a solution exists exactly when the temperature asked for is not above the choking temperature, so the temperature the burner cuts back to always has one, and there the exit is sonic.", "quantifier": "all entry Mach numbers, temperatures and heat capacity ratios", "why_tests_cant": "existence of a root of a nonlinear equation", "anchors": ["trunk/SUAVE/Methods/Propulsion/rayleigh.py: rayleigh", "trunk/SUAVE/Components/Energy/Converters/Combustor.py: Combustor.compute_rayleigh"]}
{"id": "C100", "title": "Area and Mach number", "statement": "The Mach number sought for an area ratio is the one at which both areas carry the same mass flow without losses; the pressure ratio returned belongs to it.", "quantifier": "all area ratios, Mach numbers and heat capacity ratios", "why_tests_cant": "equivalence of an equation solved numerically with a physical law", "anchors": ["trunk/SUAVE/Methods/Propulsion/fm_solver.py: fm_solver", "trunk/SUAVE/Methods/Propulsion/nozzle_calculations.py: mach_area, pressure_ratio_isentropic"]}
{"id": "C101", "title": "Scramjet burner and nozzle", "statement": "In the supersonic burner energy and axial momentum are conserved with the fuel's share, and the stagnation temperature reported is that of the gas leaving; the nozzle conserves energy and mass and is isentropic without losses.", "quantifier": "all burner settings and inlet states", "why_tests_cant": "a misplaced factor changes numbers but not signs or shapes", "anchors": ["trunk/SUAVE/Components/Energy/Converters/Combustor.py: Combustor.compute_supersonic_combustion", "trunk/SUAVE/Components/Energy/Converters/Supersonic_Nozzle.py: Supersonic_Nozzle.compute_scramjet"]}
{"id": "C102", "title": "Scramjet thrust", "statement": "Stream thrust is momentum change plus pressure excess on the exit area; fuel flow and specific impulse fit; a sized scramjet gives the design thrust at the design point and its air flow follows the stagnation state of the flight condition.", "quantifier": "all flight conditions, designs and throttles", "why_tests_cant": "state left over from sizing is only visible at other flight conditions", "anchors": ["trunk/SUAVE/Components/Energy/Processes/Thrust.py: Thrust.compute_stream_thrust, Thrust.size_stream_thrust", "trunk/SUAVE/Components/Energy/Networks/Scramjet.py: Scramjet.evaluate_thrust", "trunk/SUAVE/Methods/Propulsion/scramjet_sizing.py: scramjet_sizing"]}
{"id": "C103", "title": "Ramjet nozzle regimes", "statement": "The ramjet nozzle's exit pressure is ambient where the geometry can match it, below it when over-expanded and above it when under-expanded; exit values fit the stagnation values and the area; the exit is subsonic in subsonic flow or behind an internal shock, supersonic otherwise.", "quantifier": "all pressure ratios, areas and heat capacity ratios", "why_tests_cant": "five overlapping masks over a continuum", "anchors": ["trunk/SUAVE/Components/Energy/Converters/Supersonic_Nozzle.py: Supersonic_Nozzle.compute_limited_geometry", "trunk/SUAVE/Methods/Propulsion/nozzle_calculations.py"]}
{"id": "C104", "title": "Motor speed under a propeller load", "statement": "For a voltage and a propeller power coefficient the motor reports the speed at which its torque is the torque the propeller takes; the speed is forward exactly when the voltage exceeds what the no-load current drops, is the only forward speed that balances, grows with the voltage, and is zero at zero voltage.", "quantifier": "all motors, densities, power coefficients and voltages", "why_tests_cant": "closed root of a quadratic over five continuous parameters", "anchors": ["trunk/SUAVE/Components/Energy/Converters/Motor.py: Motor.omega"]}
{"id": "C105", "title": "Torque and voltage are inverse descriptions of the motor", "statement": "The voltage and current asked for a torque at a speed produce that torque; the torque at a voltage asks for that voltage; both ways report the same current.", "quantifier": "all motors, torques, voltages and speeds", "why_tests_cant": "inverse functions over a continuum", "anchors": ["trunk/SUAVE/Components/Energy/Converters/Motor.py: Motor.torque, Motor.voltage_current, Motor.current"]}
{"id": "C106", "title": "Power balance of the motor", "statement": "Electrical power is shaft power plus winding heat plus no-load power; the efficiency reported is shaft power over electrical power and lies between zero and one for a loaded motor; a gear passes its efficiency of the torque at the expected current; a motor driven by its propeller reports the power it takes.", "quantifier": "all motors, voltages and speeds", "why_tests_cant": "holds for every operating point, including the cut-off the code applies to negative currents", "anchors": ["trunk/SUAVE/Components/Energy/Converters/Motor.py: Motor.current"]}
{"id": "C107", "title": "Low-fidelity motor runs at its efficiency", "statement": "The speed chosen by the low-fidelity motor is the highest at which its efficiency is the one configured, for every efficiency up to the motor's peak; its rated power and current fit.", "quantifier": "all motors, voltages and efficiencies up to one", "why_tests_cant": "root selection and existence over a continuum", "anchors": ["trunk/SUAVE/Components/Energy/Converters/Motor_Lo_Fid.py: Motor_Lo_Fid.omega, Motor_Lo_Fid.current, Motor_Lo_Fid.power_lo"]}
{"id": "C108", "title": "Speed controller", "statement": "The voltage passed on lies between zero and the supply voltage and follows the throttle; the power delivered is the efficiency times the power taken, for every throttle.", "quantifier": "all throttles, also outside zero to one, voltages and currents", "why_tests_cant": "solvers visit throttles outside the range where tests do not", "anchors": ["trunk/SUAVE/Components/Energy/Distributors/Electronic_Speed_Controller.py: Electronic_Speed_Controller.voltageout, Electronic_Speed_Controller.currentin"]}
{"id": "C109", "title": "Battery and propeller network", "statement": "Thrust is the sum over the propellers; battery power covers systems and motors through the controller efficiency and, once torques balance, goes into propellers, windings and no-load currents; treating propellers as identical gives the same as evaluating each; reported current, power, per-propeller thrust, efficiency and per-cell power fit; charging fills the battery.", "quantifier": "all numbers of propellers, propeller models, throttles, voltages and loads", "why_tests_cant": "sums over any number of arbitrary propellers", "anchors": ["trunk/SUAVE/Components/Energy/Networks/Battery_Propeller.py: Battery_Propeller.evaluate_thrust", "trunk/SUAVE/Methods/Power/Battery/pack_battery_conditions.py: pack_battery_conditions"]}
{"id": "C110", "title": "Lift and cruise network", "statement": "Thrust is the sum over propellers and lift rotors; battery power is voltage times current and covers both groups and the systems; in cruise the lift rotors stand still and draw nothing, in hover the propellers.", "quantifier": "all numbers of propellers and rotors, propeller models, throttles, voltages and loads", "why_tests_cant": "sums over any number of arbitrary propellers and a limit of a quotient", "anchors": ["trunk/SUAVE/Components/Energy/Networks/Lift_Cruise.py: Lift_Cruise.evaluate_thrust"]}
{"id": "C111", "title": "Gearbox", "statement": "Output speed follows the ratio of the wheel radii, output power is the efficiency times input power, and output power is output torque times output speed.", "quantifier": "all radii, efficiencies and shaft states", "why_tests_cant": "the quotient of radii inverted gives plausible numbers", "anchors": ["trunk/SUAVE/Components/Energy/Converters/Gearbox.py: Gearbox.compute"]}
{"id": "C112", "title": "Solar networks", "statement": "Panel power after tracking is what systems, motors and battery get; the battery's share is its current times the system voltage and is what is recorded; in the low-fidelity network thrust power is controller power through the configured efficiencies, at any throttle.", "quantifier": "all fluxes, panels, loads, numbers of propellers and throttles", "why_tests_cant": "sums over any number of arbitrary propellers", "anchors": ["trunk/SUAVE/Components/Energy/Networks/Solar.py: Solar.evaluate_thrust", "trunk/SUAVE/Components/Energy/Networks/Solar_Low_Fidelity.py: Solar_Low_Fidelity.evaluate_thrust", "trunk/SUAVE/Components/Energy/Distributors/Solar_Logic.py: Solar_Logic.logic", "trunk/SUAVE/Components/Energy/Converters/Solar_Panel.py: Solar_Panel.power"]}
{"id": "C113", "title": "Ducted-fan networks", "statement": "Battery power is the fan's power over motor and controller efficiency plus the systems, less what a generator gives, at any throttle; current times voltage is that power; the generator burns its specific consumption times the power needed.", "quantifier": "all powers, efficiencies, loads and throttles", "why_tests_cant": "limits of the throttle range", "anchors": ["trunk/SUAVE/Components/Energy/Networks/Battery_Ducted_Fan.py: Battery_Ducted_Fan.evaluate_thrust", "trunk/SUAVE/Components/Energy/Networks/Serial_Hybrid_Ducted_Fan.py: Serial_Hybrid_Ducted_Fan.evaluate_thrust", "trunk/SUAVE/Components/Energy/Converters/Generator_Zero_Fid.py: Generator_Zero_Fid.calculate_power"]}
{"id": "C114", "title": "Solar flux on the panel", "statement": "The flux is never negative nor above the solar constant, is the direct intensity times the cosine of the angle between the sun and the panel, and in level flight does not depend on the heading and is nothing at night.", "quantifier": "all places, times, attitudes and altitudes", "why_tests_cant": "trigonometric identity over seven continuous parameters", "anchors": ["trunk/SUAVE/Components/Energy/Processes/Solar_Radiation.py: Solar_Radiation.solar_radiation"]}
{"id": "C115", "title": "Path through the atmosphere", "statement": "The air mass is the length of the sun's ray through a spherical atmosphere nine kilometres high; the sun is never weaker higher up by day.", "quantifier": "all altitudes and sun angles", "why_tests_cant": "a geometric law over a continuum; a unit error only shows near the horizon", "anchors": ["trunk/SUAVE/Components/Energy/Processes/Solar_Radiation.py: Solar_Radiation.solar_radiation"]}
{"id": "C116", "title": "The sun depends on the instant and the place", "statement": "Whole days of mission time count as calendar days, an hour counts as fifteen degrees of longitude, the same instant gives the same flux however it is split into start time and mission time, and a longitude may be given in any turn.", "quantifier": "all places, times and attitudes", "why_tests_cant": "calendar wrap-around occurs in long missions only", "anchors": ["trunk/SUAVE/Components/Energy/Processes/Solar_Radiation.py: Solar_Radiation.solar_radiation"]}
{"id": "C117", "title": "Adding sound levels adds energies", "statement": "The sum of sound pressure levels is the one level whose energy is the sum of the energies of the parts: independent of order and grouping, at least the loudest part and at most the loudest plus ten times the logarithm of the number of parts, and it rises with every further source.", "quantifier": "all numbers of sources and all levels", "why_tests_cant": "a law over lists of arbitrary length of reals", "anchors": ["trunk/SUAVE/Methods/Noise/Fidelity_One/Noise_Tools/decibel_arithmetic.py: SPL_arithmetic", "trunk/SUAVE/Methods/Noise/Fidelity_One/Noise_Tools/decibel_arithmetic.py: SPL_spectra_arithmetic"]}
{"id": "C118", "title": "The noise of a segment is that of its sources", "statement": "The total level of a segment at a microphone is the energy sum of airframe, engines, propellers and lift rotors of all networks, each counted once.", "quantifier": "all numbers of networks, rotors and microphones, all levels", "why_tests_cant": "the number and kind of sources is unbounded", "anchors": ["trunk/SUAVE/Analyses/Noise/Fidelity_One.py: Fidelity_One.evaluate_noise"]}
{"id": "C119", "title": "Third octave bands keep the energy of the harmonics", "statement": "Sorting harmonics into the default third octave bands neither loses nor doubles energy: every frequency in range lies in exactly one band and the total over the bands equals that over the harmonics.", "quantifier": "all lists of harmonics with any frequencies and levels", "why_tests_cant": "frequencies form a continuum; band edges are boundary cases", "anchors": ["trunk/SUAVE/Methods/Noise/Fidelity_One/Noise_Tools/SPL_harmonic_to_third_octave.py: SPL_harmonic_to_third_octave", "trunk/SUAVE/Analyses/Noise/Fidelity_One.py: Fidelity_One.__defaults__"]}
{"id": "C120", "title": "Exposure levels integrate the loud part of a flyover", "statement": "Effective perceived noise level and single event level sum the history within ten decibels of its maximum: each point counts once, a constant offset shifts the result, the two differ by a constant.", "quantifier": "all histories of any length", "why_tests_cant": "windows are decided by comparisons along arbitrary histories", "anchors": ["trunk/SUAVE/Methods/Noise/Fidelity_One/Noise_Tools/epnl_noise.py: epnl_noise", "trunk/SUAVE/Methods/Noise/Fidelity_One/Noise_Tools/senel_noise.py: senel_noise"]}
{"id": "C121", "title": "Tone correction", "statement": "The tone correction is never negative nor above six and two thirds decibels, is nothing for an evenly sloped spectrum, does not depend on the overall level, and is the prescribed function of the height of a single tone in any band, for every spectrum of the history.", "quantifier": "all spectra and histories", "why_tests_cant": "ten-step procedure with branches on differences of 24 reals", "anchors": ["trunk/SUAVE/Methods/Noise/Fidelity_One/Noise_Tools/noise_tone_correction.py: noise_tone_correction"]}
{"id": "C122", "title": "Perceived noise level", "statement": "The perceived noise level of a spectrum is that of the certification procedure: never negative, zero for inaudible spectra, ten decibels more for twice the noisiness and never lower for a spectrum louder in every band.", "quantifier": "all spectra of 24 bands", "why_tests_cant": "piecewise tables over a continuum of levels", "anchors": ["trunk/SUAVE/Methods/Noise/Fidelity_One/Noise_Tools/pnl_noise.py: pnl_noise"]}
{"id": "C123", "title": "A-weighting", "statement": "The A-weighting does not depend on the level, never raises a level by more than two decibels, and the tabulated and the computed weighting agree to a fifth of a decibel.", "quantifier": "all levels and frequencies", "why_tests_cant": "formula over a continuum of frequencies", "anchors": ["trunk/SUAVE/Methods/Noise/Fidelity_One/Noise_Tools/dbA_noise.py: dbA_noise", "trunk/SUAVE/Methods/Noise/Fidelity_One/Noise_Tools/dbA_noise.py: A_weighting"]}
{"id": "C124", "title": "Microphone grids", "statement": "Ground microphones fill the rectangle evenly, no two in the same place; microphones on a building lie on its walls and roof.", "quantifier": "all rectangles, buildings and resolutions", "why_tests_cant": "grids of arbitrary size", "anchors": ["trunk/SUAVE/Methods/Noise/Fidelity_One/Noise_Tools/generate_microphone_points.py: generate_ground_microphone_points", "trunk/SUAVE/Methods/Noise/Fidelity_One/Noise_Tools/generate_microphone_points.py: generate_building_microphone_points"]}
{"id": "C125", "title": "Microphone geometry", "statement": "Relative position, distance and angle to a microphone are those of the line of sight, at the certification points given by the regulation, and the mission's own position record is left alone.", "quantifier": "all positions of aircraft and microphone", "why_tests_cant": "trigonometry over a continuum; points overhead are boundary cases", "anchors": ["trunk/SUAVE/Methods/Noise/Fidelity_One/Noise_Tools/compute_noise_evaluation_locations.py: compute_ground_noise_evaluation_locations", "trunk/SUAVE/Methods/Noise/Fidelity_One/Noise_Tools/noise_geometric.py: noise_geometric"]}
{"id": "C126", "title": "Certification limits", "statement": "The limits rise with weight and number of engines, by the slope of the regulation, and agree with the regulation for all weights.", "quantifier": "all weights and numbers of engines", "why_tests_cant": "rounded logarithms over a continuum", "anchors": ["trunk/SUAVE/Methods/Noise/Fidelity_One/Noise_Tools/noise_certification_limits.py: noise_certification_limits"]}
{"id": "C127", "title": "Airframe noise adds its components", "statement": "The airframe total is the energy sum of the noise of wing, tails, slats, flaps and gear at each time step; each component falls by twenty times the logarithm of distance, air absorption in proportion to distance; retracted parts are silent, and each gear is computed with its own dimensions.", "quantifier": "all configurations, spectra and histories", "why_tests_cant": "sum over a continuum of spectra; omissions only show when one source dominates", "anchors": ["trunk/SUAVE/Methods/Noise/Fidelity_One/Airframe/noise_airframe_Fink.py: noise_airframe_Fink", "trunk/SUAVE/Methods/Noise/Fidelity_One/Airframe/noise_clean_wing.py: noise_clean_wing", "trunk/SUAVE/Methods/Noise/Fidelity_One/Airframe/noise_landing_gear.py: noise_landing_gear", "trunk/SUAVE/Methods/Noise/Fidelity_One/Airframe/noise_leading_edge_slat.py: noise_leading_edge_slat", "trunk/SUAVE/Methods/Noise/Fidelity_One/Airframe/noise_trailing_edge_flap.py: noise_trailing_edge_flap", "trunk/SUAVE/Methods/Noise/Fidelity_One/Noise_Tools/atmospheric_attenuation.py: atmospheric_attenuation"]}
{"id": "C128", "title": "Correlation noise of jet transports", "statement": "Multiplying the engines raises take-off and sideline noise by ten times the logarithm of the factor, airframe and engines add as energies on landing, and noise rises with weight and with thrust.", "quantifier": "all weights, numbers of engines and thrusts", "why_tests_cant": "logarithms and polynomials over a continuum", "anchors": ["trunk/SUAVE/Methods/Noise/Fidelity_Zero/shevell.py: shevell"]}
{"id": "C129", "title": "Skin friction of a flat plate", "statement": "The mixed plate is the turbulent one where transition is at the leading edge and the laminar one where it is at the trailing edge; other transition points are refused; friction falls with Reynolds number and with Mach number, and laminar friction is below turbulent.", "quantifier": "all Reynolds and Mach numbers, temperatures and transition points", "why_tests_cant": "formulas with logarithms and powers over a continuum; limits of the range", "anchors": ["trunk/SUAVE/Methods/Aerodynamics/Common/Fidelity_Zero/Helper_Functions/compressible_mixed_flat_plate.py: compressible_mixed_flat_plate", "trunk/SUAVE/Methods/Aerodynamics/Common/Fidelity_Zero/Helper_Functions/compressible_turbulent_flat_plate.py: compressible_turbulent_flat_plate"]}
{"id": "C130", "title": "Form factors and wetted areas", "statement": "Form factors of wings, fuselages and nacelles are at least one, defined and without jumps at all Mach numbers, and one for wings from Mach 1 on; segments of equal friction and form make the wing's; the exposed area is what lies outside the fuselage.", "quantifier": "all shapes, sweeps, Mach numbers and numbers of segments", "why_tests_cant": "jumps and poles are single points of a continuum", "anchors": ["trunk/SUAVE/Methods/Aerodynamics/Common/Fidelity_Zero/Drag/parasite_drag_wing.py: parasite_drag_wing, compute_parasite_drag", "trunk/SUAVE/Methods/Aerodynamics/Common/Fidelity_Zero/Drag/parasite_drag_fuselage.py: parasite_drag_fuselage", "trunk/SUAVE/Methods/Aerodynamics/Common/Fidelity_Zero/Drag/parasite_drag_nacelle.py: parasite_drag_nacelle", "trunk/SUAVE/Methods/Aerodynamics/Supersonic_Zero/Drag/parasite_drag_fuselage.py: parasite_drag_fuselage", "trunk/SUAVE/Methods/Aerodynamics/Supersonic_Zero/Drag/parasite_drag_nacelle.py: parasite_drag_nacelle"]}
{"id": "C131", "title": "Parasite drag adds up", "statement": "The total parasite coefficient times the reference area is the sum of the drag areas of wings, fuselages, nacelles and pylons; the coefficients left in the breakdown refer to the vehicle's area and add up to the total; pylon factors are averages over the nacelles.", "quantifier": "all numbers of parts, areas, coefficients and names", "why_tests_cant": "in-place updates over an unbounded number of named entries", "anchors": ["trunk/SUAVE/Methods/Aerodynamics/Common/Fidelity_Zero/Drag/parasite_total.py: parasite_total", "trunk/SUAVE/Methods/Aerodynamics/Common/Fidelity_Zero/Drag/parasite_drag_pylon.py: parasite_drag_pylon"]}
{"id": "C132", "title": "Induced drag", "statement": "Induced drag, lift, Oswald factor and the aspect ratio of the largest wing fit together whichever of them is given; inviscid and viscous part add up; each wing's part is weighted by its area.", "quantifier": "all numbers of wings, areas and coefficients, given or computed efficiencies", "why_tests_cant": "sums over any number of wings with a choice by comparison", "anchors": ["trunk/SUAVE/Methods/Aerodynamics/Common/Fidelity_Zero/Drag/induced_drag_aircraft.py: induced_drag_aircraft"]}
{"id": "C133", "title": "Drag rise of a wing", "statement": "The compressibility drag is never negative, grows with Mach number, is 19 counts times the cube of the cosine of sweep at the crest-critical Mach number, which lies below drag divergence and falls with lift and thickness; wings add by area.", "quantifier": "all thicknesses, lift coefficients, sweeps and Mach numbers", "why_tests_cant": "polynomials and powers over a continuum", "anchors": ["trunk/SUAVE/Methods/Aerodynamics/Common/Fidelity_Zero/Drag/compressibility_drag_wing.py: compressibility_drag_wing", "trunk/SUAVE/Methods/Aerodynamics/Common/Fidelity_Zero/Drag/compressibility_drag_wing_total.py: compressibility_drag_wing_total"]}
{"id": "C134", "title": "Total drag", "statement": "Drag is the trimmed sum of its parts plus increment and spoilers, grows with each, and the adjustment multiplies lift over drag by one plus itself; excrescence drag grows with wetted area and, like windmilling drag, counts every placed nacelle.", "quantifier": "all coefficients, factors and lists of parts", "why_tests_cant": "sums over lists; sign of a polynomial over a continuum", "anchors": ["trunk/SUAVE/Methods/Aerodynamics/Common/Fidelity_Zero/Drag/untrimmed.py: untrimmed", "trunk/SUAVE/Methods/Aerodynamics/Common/Fidelity_Zero/Drag/trim.py: trim", "trunk/SUAVE/Methods/Aerodynamics/Common/Fidelity_Zero/Drag/total_aircraft.py: total_aircraft", "trunk/SUAVE/Methods/Aerodynamics/Common/Fidelity_Zero/Drag/miscellaneous_drag_aircraft_ESDU.py: miscellaneous_drag_aircraft_ESDU", "trunk/SUAVE/Methods/Aerodynamics/Supersonic_Zero/Drag/miscellaneous_drag_aircraft.py: miscellaneous_drag_aircraft", "trunk/SUAVE/Methods/Aerodynamics/Common/Fidelity_Zero/Helper_Functions/windmilling_drag.py: windmilling_drag"]}
{"id": "C135", "title": "Wave drag", "statement": "The volume wave drag has no jump through the transonic rise, is never negative, is the configured multiple of its value at the end of the rise at the peak Mach number, and the formula's value beyond; wave drag due to lift is never negative and each row of a segment gets its own.", "quantifier": "all Mach numbers, cut-offs, wings and numbers of rows", "why_tests_cant": "continuity over Mach numbers; rows in any order", "anchors": ["trunk/SUAVE/Methods/Aerodynamics/Supersonic_Zero/Drag/compressibility_drag_total.py: compressibility_drag_total, lift_wave_drag, drag_div", "trunk/SUAVE/Methods/Aerodynamics/Supersonic_Zero/Drag/wave_drag_lift.py: wave_drag_lift, fw", "trunk/SUAVE/Methods/Aerodynamics/Supersonic_Zero/Drag/wave_drag_volume_raymer.py: wave_drag_volume_raymer", "trunk/SUAVE/Methods/Aerodynamics/Supersonic_Zero/Drag/wave_drag_volume_sears_haack.py: wave_drag_volume_sears_haack", "trunk/SUAVE/Methods/Aerodynamics/Common/Fidelity_Zero/Helper_Functions/wave_drag_lift.py: wave_drag_lift"]}
{"id": "C136", "title": "Maximum lift with flaps and slats", "statement": "Flaps and slats add lift, the more the further they are turned and the more area they affect; undeflected ones add nothing; the vehicle's maximum is proportional to the configured factor, adds up over high-lift wings and ignores the others; it grows with Reynolds number.", "quantifier": "all wings, deflections, sweeps and Reynolds numbers", "why_tests_cant": "polynomial correlations over a continuum", "anchors": ["trunk/SUAVE/Methods/Aerodynamics/Fidelity_Zero/Lift/compute_max_lift_coeff.py: compute_max_lift_coeff", "trunk/SUAVE/Methods/Aerodynamics/Fidelity_Zero/Lift/compute_flap_lift.py: compute_flap_lift", "trunk/SUAVE/Methods/Aerodynamics/Fidelity_Zero/Lift/compute_slat_lift.py: compute_slat_lift"]}
{"id": "C137", "title": "Lift and drag through stall", "statement": "The lift before stall peaks at its maximum at the stall angle and is odd about zero lift; after stall it peaks at 41 degrees, vanishes at 92 and is odd; drag after stall grows to its maximum at 90 degrees; vertical surfaces add drag only.", "quantifier": "all sections, aspect ratios and angles of attack", "why_tests_cant": "maxima over a continuum of angles", "anchors": ["trunk/SUAVE/Methods/Aerodynamics/AERODAS/pre_stall_coefficients.py: pre_stall_coefficients", "trunk/SUAVE/Methods/Aerodynamics/AERODAS/post_stall_coefficients.py: post_stall_coefficients", "trunk/SUAVE/Methods/Aerodynamics/AERODAS/finite_aspect_ratio.py: finite_aspect_ratio", "trunk/SUAVE/Methods/Aerodynamics/AERODAS/section_properties.py: section_properties", "trunk/SUAVE/Methods/Aerodynamics/AERODAS/AERODAS_setup.py: lift_drag_total"]}
{"id": "C138", "title": "The weight statement adds up", "statement": "Structures, propulsion, systems, operating items, payload and fuel add up to the take-off weight with each item counted once; subtotals are those of their items; the weights listed are the masses written to the components.", "quantifier": "all vehicles, numbers of wings, fuselages and networks, all methods and factors", "why_tests_cant": "sums over unbounded collections; a doubled item gives plausible numbers", "anchors": ["trunk/SUAVE/Methods/Weights/Correlations/Common/weight_transport.py: empty_weight"]}
{"id": "C139", "title": "Component masses add up to the take-off mass", "statement": "After the analysis the masses of all components of the vehicle, summed by the vehicle itself, give the take-off mass of the statement.", "quantifier": "all vehicles and methods", "why_tests_cant": "two bookkeepings over unbounded trees", "anchors": ["trunk/SUAVE/Methods/Weights/Correlations/Common/weight_transport.py: empty_weight", "trunk/SUAVE/Vehicle.py: Vehicle.sum_mass"]}
{"id": "C140", "title": "Weight reduction factors", "statement": "A structural factor takes its share off wings, tails and fuselages, individual factors theirs off their component; factors for systems act on systems; evaluating again gives the same statement.", "quantifier": "all factors, vehicles and methods", "why_tests_cant": "settings are changed in place; visible in the next evaluation only", "anchors": ["trunk/SUAVE/Methods/Weights/Correlations/Common/weight_transport.py: empty_weight"]}
{"id": "C141", "title": "What the weight analyses store", "statement": "A weight analysis stores the operating empty weight of its statement in the vehicle, for every kind of vehicle.", "quantifier": "all vehicles", "why_tests_cant": "call signatures and stored values of four analyses", "anchors": ["trunk/SUAVE/Analyses/Weights/Weights.py: Weights.evaluate", "trunk/SUAVE/Analyses/Weights/Weights_BWB.py: Weights_BWB", "trunk/SUAVE/Analyses/Weights/Weights_UAV.py: Weights_UAV.evaluate", "trunk/SUAVE/Analyses/Weights/Weights_eVTOL.py: Weights_eVTOL.evaluate"]}
{"id": "C142", "title": "Parts of gear, payload, operating items and systems add up", "statement": "The totals returned for landing gear, payload, operating items and systems are the sums of the parts returned with them, by every method.", "quantifier": "all inputs", "why_tests_cant": "a unit mixed up in one summand", "anchors": ["trunk/SUAVE/Methods/Weights/Correlations/Common/landing_gear.py", "trunk/SUAVE/Methods/Weights/Correlations/Common/payload.py", "trunk/SUAVE/Methods/Weights/Correlations/Transport/operating_items.py", "trunk/SUAVE/Methods/Weights/Correlations/Common/systems.py", "trunk/SUAVE/Methods/Weights/Correlations/FLOPS/payload.py", "trunk/SUAVE/Methods/Weights/Correlations/FLOPS/operating_items.py", "trunk/SUAVE/Methods/Weights/Correlations/FLOPS/systems.py", "trunk/SUAVE/Methods/Weights/Correlations/Raymer/systems.py"]}
{"id": "C143", "title": "Weights and seats", "statement": "More seats never make payload, operating items or any system lighter; there is an attendant for every fifty seats; seat classes share the passengers.", "quantifier": "all aircraft types and numbers of seats", "why_tests_cant": "piecewise correlations; steps at arbitrary numbers", "anchors": ["trunk/SUAVE/Methods/Weights/Correlations/Transport/operating_items.py: operating_items", "trunk/SUAVE/Methods/Weights/Correlations/Common/systems.py: systems", "trunk/SUAVE/Methods/Weights/Correlations/FLOPS/operating_items.py: operating_items_FLOPS", "trunk/SUAVE/Methods/Weights/Correlations/FLOPS/payload.py: payload_FLOPS"]}
{"id": "C144", "title": "Fuselage and wing weights", "statement": "The fuselage index is between pressure and bending index and never falls with either; wings get heavier with load, weights and span; the bending term of a panel is the integral of the bending moment over thickness, unchanged by splitting the panel, and the simple and segmented computation scale alike.", "quantifier": "all dimensions, loads and numbers of stations", "why_tests_cant": "an integral over a continuum, splitting of arbitrary panels", "anchors": ["trunk/SUAVE/Methods/Weights/Correlations/Transport/tube.py: tube", "trunk/SUAVE/Methods/Weights/Correlations/Common/wing_main.py: wing_main"]}
{"id": "C145", "title": "Tails, engines and motors", "statement": "Tails get heavier with load, span and weight, a T-tail is heavier than a plain one exactly when flagged; engines and motors never get lighter with thrust, power or torque and one is never heavier than two of the same total; installed weight is proportional to their number.", "quantifier": "all dimensions, thrusts and powers", "why_tests_cant": "power laws over a continuum; truth values and strings as flags", "anchors": ["trunk/SUAVE/Methods/Weights/Correlations/Transport/tail_vertical.py: tail_vertical", "trunk/SUAVE/Methods/Weights/Correlations/Transport/tail_horizontal.py: tail_horizontal", "trunk/SUAVE/Methods/Weights/Correlations/Propulsion/engine_jet.py", "trunk/SUAVE/Methods/Weights/Correlations/Propulsion/engine_piston.py", "trunk/SUAVE/Methods/Weights/Correlations/Propulsion/air_cooled_motor.py", "trunk/SUAVE/Methods/Weights/Correlations/Propulsion/hts_motor.py", "trunk/SUAVE/Methods/Weights/Correlations/Propulsion/nasa_motor.py", "trunk/SUAVE/Methods/Weights/Correlations/Propulsion/integrated_propulsion.py", "trunk/SUAVE/Methods/Weights/Correlations/FLOPS/prop_system.py", "trunk/SUAVE/Methods/Weights/Correlations/Raymer/prop_system.py", "trunk/SUAVE/Methods/Weights/Correlations/Raymer/tail.py"]}
{"id": "C146", "title": "The FLOPS wing", "statement": "Bending material is the load factor times the gross weight relieved by engines and wing; constants are those of the aircraft's type; several fuselages are allowed; sweep, taper and the whole span enter as in the manual.", "quantifier": "all wings, loads and numbers of stations", "why_tests_cant": "algebra and telescoping sums of arbitrary length", "anchors": ["trunk/SUAVE/Methods/Weights/Correlations/FLOPS/wing.py: wing_weight_FLOPS, generate_int_stations, determine_fuselage_chord, wing_weight_constants_FLOPS"]}
{"id": "C147", "title": "FLOPS gear, fuselage, tails and anti-icing", "statement": "Gear, fuselage and tails get heavier with weight and dimensions; the strut length is in inches; every nacelle gets anti-icing.", "quantifier": "all dimensions and weights", "why_tests_cant": "unit and key errors that only shift numbers", "anchors": ["trunk/SUAVE/Methods/Weights/Correlations/FLOPS/landing_gear.py: landing_gear_FLOPS", "trunk/SUAVE/Methods/Weights/Correlations/FLOPS/fuselage.py: fuselage_weight_FLOPS", "trunk/SUAVE/Methods/Weights/Correlations/FLOPS/tail.py", "trunk/SUAVE/Methods/Weights/Correlations/FLOPS/systems.py: systems_FLOPS"]}
{"id": "C148", "title": "Weights of light aircraft", "statement": "Any light aircraft has a weight statement, and again after it was computed; its items add up to structures, systems, empty and take-off weight; wing, tails, fuselage, gear and controls get heavier with load and weight; no item is negative; results of one evaluation stay as they are.", "quantifier": "all light aircraft, with any set of wings, tails and fuel", "why_tests_cant": "paths on which a name is never assigned or an object is replaced; power laws over a continuum", "anchors": ["trunk/SUAVE/Methods/Weights/Correlations/General_Aviation/empty.py: empty", "trunk/SUAVE/Methods/Weights/Correlations/General_Aviation/systems.py: systems", "trunk/SUAVE/Methods/Weights/Correlations/General_Aviation/wing_main.py: wing_main", "trunk/SUAVE/Methods/Weights/Correlations/General_Aviation/tail_horizontal.py: tail_horizontal", "trunk/SUAVE/Methods/Weights/Correlations/General_Aviation/tail_vertical.py: tail_vertical", "trunk/SUAVE/Methods/Weights/Correlations/General_Aviation/fuselage.py: fuselage", "trunk/SUAVE/Methods/Weights/Correlations/General_Aviation/landing_gear.py: landing_gear"]}
{"id": "C149", "title": "Component masses of light aircraft and blended wing bodies", "statement": "After a weight evaluation the masses of the vehicle's components add up to the take-off mass.", "quantifier": "all vehicles", "why_tests_cant": "relation between a returned statement and the masses left in a tree of components", "anchors": ["trunk/SUAVE/Methods/Weights/Correlations/General_Aviation/empty.py: empty", "trunk/SUAVE/Methods/Weights/Correlations/BWB/empty.py: empty", "trunk/SUAVE/Vehicle.py: Vehicle.sum_mass"]}
{"id": "C150", "title": "Blended wing bodies, human-powered aircraft and UAVs", "statement": "The weight statement of each adds up to its total; bodies, wings and tails have positive weight that grows with size, load and weight; nose and main gear are stored as what they are; a human-powered aircraft may have a fuselage.", "quantifier": "all dimensions and weights", "why_tests_cant": "power laws over a continuum; a branch that always fails", "anchors": ["trunk/SUAVE/Methods/Weights/Correlations/BWB/empty.py: empty", "trunk/SUAVE/Methods/Weights/Correlations/BWB/cabin.py: cabin", "trunk/SUAVE/Methods/Weights/Correlations/BWB/aft_centerbody.py: aft_centerbody", "trunk/SUAVE/Methods/Weights/Correlations/Human_Powered/empty.py: empty", "trunk/SUAVE/Methods/Weights/Correlations/Human_Powered/wing.py: wing", "trunk/SUAVE/Methods/Weights/Correlations/Human_Powered/tail.py: tail", "trunk/SUAVE/Methods/Weights/Correlations/UAV/empty.py: empty"]}
{"id": "C151", "title": "Wing of the physics-based build-up", "statement": "The wings together carry the take-off weight times load and safety factor; shear and bending moment fall from half of the lift at the root to nothing at the tip; the skin carries the torque; mass is positive, grows with weight, load, safety factor and thrust, and does not depend on which side motors are listed.", "quantifier": "all wings, numbers of stations, motors, materials and loads", "why_tests_cant": "sums over any number of stations", "anchors": ["trunk/SUAVE/Methods/Weights/Buildups/Common/wing.py: wing"]}
{"id": "C152", "title": "Fuselage and wiring of the build-up", "statement": "A spherical fuselage has the area of a sphere; area does not depend on the order of the dimensions; the mass grows with take-off mass and load and its beam with its length; wiring grows with power and motors and does not depend on their side.", "quantifier": "all dimensions, loads and powers", "why_tests_cant": "power laws over a continuum", "anchors": ["trunk/SUAVE/Methods/Weights/Buildups/Common/fuselage.py: fuselage", "trunk/SUAVE/Methods/Weights/Buildups/Common/wiring.py: wiring"]}
{"id": "C153", "title": "Rotor blades of the build-up", "statement": "The blade carries its share of the thrust times the safety factor; the inertia of its spar caps is that of their polygon; the iteration for the centrifugal load ends.", "quantifier": "all rotors, numbers of stations, materials and speeds", "why_tests_cant": "termination of a loop; sums over any number of stations", "anchors": ["trunk/SUAVE/Methods/Weights/Buildups/Common/prop.py: prop"]}
{"id": "C154", "title": "Weight of electric vertical take-off aircraft", "statement": "Its total is the contingency factor times everything built, plus battery, payload and passengers of all networks; each lift rotor is sized for the others to carry the weight alone; every rotor, listed or represented by an identical one, counts; aircraft with both kinds of rotors, or without a fuselage, are allowed; component masses add up to the total.", "quantifier": "all aircraft, networks and rotors", "why_tests_cant": "paths on which a name is never assigned; relation between a returned statement and a tree of components", "anchors": ["trunk/SUAVE/Methods/Weights/Buildups/eVTOL/empty.py: empty", "trunk/SUAVE/Vehicle.py: Vehicle.sum_mass"]}
{"id": "C155", "title": "Convergence of take-off mass", "statement": "When the loop reports success, the vehicle's take-off mass is that of its build-up to a kilogram, and within 1/(1-q) kilograms of the exact one when the build-up grows by at most q per kilogram; then it succeeds from any reasonable start; it reports failure only if the difference is above a kilogram.", "quantifier": "all vehicles and starting masses", "why_tests_cant": "fixed-point iteration over a continuum; termination", "anchors": ["trunk/SUAVE/Methods/Weights/Buildups/eVTOL/converge_evtol_weight.py: converge_evtol_weight"]}
{"id": "C156", "title": "Landing field length", "statement": "estimate_landing_field_length evaluates the landing polynomial at the approach speed, using the constants the user supplies or the default ones; with the default ones the length is at least 250 m, grows linearly with landing mass, does not depend on gravity, and never falls when wing area, lift coefficient or air density shrink. At the stall speed the maximum lift coefficient just carries the weight.", "quantifier": "all aircraft with positive area, lift coefficient and density, all masses, all user constants", "why_tests_cant": "continuum of aircraft and airports; the user's constants are looked up on a name that does not exist and the exception is swallowed", "anchors": ["trunk/SUAVE/Methods/Performance/estimate_landing_field_length.py: estimate_landing_field_length", "trunk/SUAVE/Methods/Performance/estimate_stall_speed.py: estimate_stall_speed"]}
{"id": "C157", "title": "Take-off field length", "statement": "estimate_take_off_field_length fails exactly when there is no engine; otherwise it is the polynomial, in feet, of V2 squared times mass over thrust; it does not fall when the mass grows (thrust not growing with speed) and, at the same index, not when there are fewer engines.", "quantifier": "all aircraft, all thrust functions, all masses, all engine counts", "why_tests_cant": "thrust is an arbitrary function of a speed that itself depends on the mass", "anchors": ["trunk/SUAVE/Methods/Performance/estimate_take_off_field_length.py: estimate_take_off_field_length"]}
{"id": "C158", "title": "Second-segment climb", "statement": "The second-segment gradient is the excess of engine-out thrust over drag divided by weight at V2, where lift equals weight; the rudder's drag is the drag due to the side force that balances the failed engine; the windmilling drag is that of the failed engine.", "quantifier": "all aircraft, thrusts and drag coefficients", "why_tests_cant": "relates four coefficients over a continuum; an excess share only shows against an independent force balance", "anchors": ["trunk/SUAVE/Methods/Performance/estimate_take_off_field_length.py: estimate_take_off_field_length", "trunk/SUAVE/Methods/Aerodynamics/Common/Fidelity_Zero/Helper_Functions/asymmetry_drag.py: asymmetry_drag", "trunk/SUAVE/Methods/Aerodynamics/Common/Fidelity_Zero/Helper_Functions/windmilling_drag.py: windmilling_drag"]}
{"id": "C159", "title": "Take-off weight for a field length", "statement": "find_take_off_weight_given_tofl returns weights between the operating empty weight and 1.1 times the maximum, never less for a longer field, exactly a tried weight for its own field length, and such that the aircraft at that weight needs at most the field given; the vehicle is left as it was.", "quantifier": "all field-length functions increasing in weight (convex for the last part, as the estimate with constant thrust is), all target lists, all vehicles", "why_tests_cant": "interpolation error has a sign for every convex function; the side effect is on a field that nobody prints", "anchors": ["trunk/SUAVE/Methods/Performance/find_take_off_weight_given_tofl.py: find_take_off_weight_given_tofl"]}
{"id": "C160", "title": "Electric payload-range diagram", "statement": "Each flown point of electric_payload_range weighs its empty weight plus its payload; ranges are those of the mission in the chosen unit; the mission is left as it was.", "quantifier": "all weights, units and missions", "why_tests_cant": "arbitrary mission function; wrong weights look plausible in a plot", "anchors": ["trunk/SUAVE/Methods/Performance/electric_payload_range.py: electric_payload_range"]}
{"id": "C161", "title": "Climb-rate diagram", "statement": "electric_V_h_diagram reports climb rates that are never negative, zero at and below stall speed, and above it take up exactly the power left after drag, limited by the battery, at the given temperature offset; it can be called without naming a grid; identical propellers count as often as they are there.", "quantifier": "all aircraft, drag and power functions, speeds, altitudes and temperature offsets", "why_tests_cant": "arbitrary functions over a two-dimensional continuum", "anchors": ["trunk/SUAVE/Methods/Performance/electric_V_h_diagram.py: electric_V_h_diagram", "trunk/SUAVE/Methods/Performance/propeller_single_point.py: propeller_single_point"]}
{"id": "C162", "title": "Best speeds", "statement": "Whatever point the bounded minimizer returns, maximum_lift_to_drag and propeller_range_endurance_speeds report the ratio at the reported speed, a speed within the bounds at which the wing can carry the weight; crossed bounds give no speed.", "quantifier": "all lift and drag functions, all results of the minimizer", "why_tests_cant": "independent of the minimizer's quality, for all functions", "anchors": ["trunk/SUAVE/Methods/Performance/maximum_lift_to_drag.py: maximum_lift_to_drag, stall_speed", "trunk/SUAVE/Methods/Performance/propeller_range_endurance_speeds.py: propeller_range_endurance_speeds"]}
{"id": "C163", "title": "Price levels and hourly rates", "statement": "The price level of every tabulated year is the one given, price levels are positive and never fall with the year, 1970 is the unit of the cost method; hourly rates are positive and rise with the year.", "quantifier": "all years", "why_tests_cant": "a continuum of years; negative rates only show before 1967", "anchors": ["trunk/SUAVE/Methods/Costs/Correlations/Industrial_Costs/estimate_escalation_factor.py: estimate_escalation_factor", "trunk/SUAVE/Methods/Costs/Correlations/Industrial_Costs/estimate_hourly_rates.py: estimate_hourly_rates"]}
{"id": "C164", "title": "Industrial costs add up", "statement": "The recurring and non-recurring totals are the sums of their breakdowns, no part is negative, unit cost times aircraft produced is the cost of the programme (or development is spread over the units named); known aircraft types are accepted in any case and no others.", "quantifier": "all programmes", "why_tests_cant": "continuum of inputs with sixteen parameters; a part may turn negative only for few aircraft", "anchors": ["trunk/SUAVE/Methods/Costs/Correlations/Industrial_Costs/compute_industrial_costs.py: compute_industrial_costs"]}
{"id": "C165", "title": "Unit cost falls with production", "statement": "If the aircraft produced share the development costs, producing more of them never raises the unit cost.", "quantifier": "all programmes and all production numbers", "why_tests_cant": "monotonicity of a sum of seven power laws over a continuum", "anchors": ["trunk/SUAVE/Methods/Costs/Correlations/Industrial_Costs/compute_industrial_costs.py: compute_industrial_costs"]}
{"id": "C166", "title": "Prototypes are paid once", "statement": "For engineering, labour, material, tooling and quality control, non-recurring plus recurring cost is the cost of the whole programme: what prototypes cost is taken off production.", "quantifier": "all programmes", "why_tests_cant": "an identity between two breakdowns for all inputs", "anchors": ["trunk/SUAVE/Methods/Costs/Correlations/Industrial_Costs/compute_industrial_costs.py: compute_industrial_costs"]}
{"id": "C167", "title": "Cash flow distributes the non-recurring costs", "statement": "The yearly cash flow has as many entries as full years of development (five when not given), none negative, and over the years each kind of cost adds up to what was to be distributed, to two in a million.", "quantifier": "all costs and all durations", "why_tests_cant": "telescoping sums for every number of years; a wrong factor only shows when facilities cost something", "anchors": ["trunk/SUAVE/Methods/Costs/Correlations/Industrial_Costs/distribute_non_recurring_cost.py: distribute_non_recurring_cost"]}
{"id": "C168", "title": "Sweep conversion follows the planform", "statement": "The sweep converted from one chord fraction to another is the sweep of that line of the same trapezoid: converting to the same line changes nothing, converting there and back restores the angle, lines further back on a tapered wing are swept less and every result is a proper angle.", "quantifier": "all trapezoidal planforms, chord fractions and angles, symmetric wings and single fins, with or without segments", "why_tests_cant": "an identity between tangents over a continuum of planforms; fins need a different factor that one sample cannot reveal", "anchors": ["trunk/SUAVE/Methods/Flight_Dynamics/Static_Stability/Approximations/Supporting_Functions/convert_sweep.py: convert_sweep, convert_sweep_segments"]}
{"id": "C169", "title": "Extending a surface to the centre line continues its outline", "statement": "A surface that starts outside the body is extended to the centre line along its own leading and trailing edge: root chord, span, area, aspect ratio and the position of the root are those of the continued trapezoid, and nothing changes for a surface that already reaches it.", "quantifier": "all tapered surfaces and offsets, symmetric or not", "why_tests_cant": "an identity over a continuum of planforms", "anchors": ["trunk/SUAVE/Methods/Flight_Dynamics/Static_Stability/Approximations/Supporting_Functions/extend_to_ref_area.py: extend_to_ref_area"]}
{"id": "C170", "title": "Mean aerodynamic chord and aerodynamic centre", "statement": "The mean aerodynamic chord is the integral of the squared chord over the area, it lies between tip and root chord, and the aerodynamic centre is the quarter-chord point of that chord at its station.", "quantifier": "all tapered and untapered wings, however their chords are given", "why_tests_cant": "an integral identity over a continuum of planforms", "anchors": ["trunk/SUAVE/Methods/Flight_Dynamics/Static_Stability/Approximations/Supporting_Functions/trapezoid_mac.py: trapezoid_mac", "trunk/SUAVE/Methods/Flight_Dynamics/Static_Stability/Approximations/Supporting_Functions/trapezoid_ac_x.py: trapezoid_ac_x"]}
{"id": "C171", "title": "Lift-curve slope", "statement": "The lift-curve slope of a wing is positive, below that of its section and of a slender wing, rises with Mach number up to the speed of sound and falls beyond it.", "quantifier": "all wings of positive aspect ratio, all sweeps and Mach numbers", "why_tests_cant": "monotonicity over a continuum; the value at exactly Mach one is a branch of its own", "anchors": ["trunk/SUAVE/Methods/Flight_Dynamics/Static_Stability/Approximations/datcom.py: datcom"]}
{"id": "C172", "title": "Pitch stability of an aircraft", "statement": "The moment slope is the sum over the surfaces, whatever their order, independent of fins; moving the centre of gravity back by one mean chord adds the whole lift-curve slope so there is exactly one neutral position; surfaces behind the centre of gravity stabilise; raising the incidence of a tail pushes the nose down; a surface of no area has no influence.", "quantifier": "all lists of surfaces, fuselages and centres of gravity", "why_tests_cant": "lists of any length and a continuum of positions; sign errors cancel in trimmed samples", "anchors": ["trunk/SUAVE/Methods/Flight_Dynamics/Static_Stability/Approximations/Tube_Wing/taw_cmalpha.py: taw_cmalpha"]}
{"id": "C173", "title": "Yaw stability of an aircraft", "statement": "The fin factor is continuous, bounded and never falls with fin height; a fin behind the centre of gravity stabilises, the more the further back; the order of the fuselages does not matter.", "quantifier": "all fins, lists of fuselages and centres of gravity", "why_tests_cant": "continuity at the joints of the fit and independence of order for lists of any length", "anchors": ["trunk/SUAVE/Methods/Flight_Dynamics/Static_Stability/Approximations/Tube_Wing/taw_cnbeta.py: taw_cnbeta"]}
{"id": "C174", "title": "Static margin and neutral point agree with the moment slope", "statement": "The static margin is positive exactly when the aircraft is stable, and the neutral point is the centre of gravity at which the moment slope vanishes, wherever the centre of gravity now is.", "quantifier": "all aircraft and centres of gravity", "why_tests_cant": "a statement about the moment slope at another centre of gravity than the one evaluated", "anchors": ["trunk/SUAVE/Analyses/Stability/Fidelity_Zero.py: Fidelity_Zero.__call__"]}
{"id": "C175", "title": "Mode approximations solve the reduced equations of motion", "statement": "Frequency and damping of phugoid, short period and dutch roll and the time constants of roll and spiral are the roots of the equations of motion reduced to the variables of the mode.", "quantifier": "all positive masses, inertias, speeds and all derivatives", "why_tests_cant": "equality of roots of polynomials over a continuum of coefficients", "anchors": ["trunk/SUAVE/Methods/Flight_Dynamics/Dynamic_Stability/Approximations/phugoid.py: phugoid", "trunk/SUAVE/Methods/Flight_Dynamics/Dynamic_Stability/Approximations/short_period.py: short_period", "trunk/SUAVE/Methods/Flight_Dynamics/Dynamic_Stability/Approximations/dutch_roll.py: dutch_roll", "trunk/SUAVE/Methods/Flight_Dynamics/Dynamic_Stability/Approximations/roll.py: roll", "trunk/SUAVE/Methods/Flight_Dynamics/Dynamic_Stability/Approximations/spiral.py: spiral"]}
{"id": "C176", "title": "Longitudinal modes", "statement": "The polynomial assembled from the derivatives vanishes exactly at the growth rates of the longitudinal equations of motion, and the frequencies and dampings reported are those of its two quadratic factors.", "quantifier": "all derivatives and flight conditions", "why_tests_cant": "existence of nontrivial solutions of a linear system for all coefficients; the factorisation is approximate in a way samples hide", "anchors": ["trunk/SUAVE/Methods/Flight_Dynamics/Dynamic_Stability/Full_Linearized_Equations/longitudinal.py: longitudinal"]}
{"id": "C177", "title": "Lateral modes", "statement": "The polynomial assembled from the derivatives vanishes exactly at the growth rates of the lateral equations of motion; dutch-roll frequency and damping, roll and spiral time are those of its roots, each reported under its own name.", "quantifier": "all derivatives, in whatever order the roots are found", "why_tests_cant": "which root is reported under which name depends on their order; all orders have to be considered", "anchors": ["trunk/SUAVE/Methods/Flight_Dynamics/Dynamic_Stability/Full_Linearized_Equations/lateral_directional.py: lateral_directional"]}
{"id": "C178", "title": "State-space flight modes", "statement": "The state matrices built from the vortex-lattice derivatives are the equations of motion solved for the rates; the modes reported describe the motion (half and double times, time constants) and are identified whatever the order of the eigenvalues; the result does not depend on units; mass, incidence and inertia are those of the vehicle.", "quantifier": "all derivatives, inertias, incidences and orders of eigenvalues", "why_tests_cant": "solutions of linear systems for all coefficients, orders of eigenvalues, and scale invariance", "anchors": ["trunk/SUAVE/Methods/Flight_Dynamics/Dynamic_Stability/compute_dynamic_flight_modes.py: compute_dynamic_flight_modes"]}
{"id": "C179", "title": "Aerodynamic derivatives by differences are derivatives", "statement": "The derivatives obtained by perturbing pitch, heading, throttle, deflection and speed equal the slopes of the coefficients, exactly for affine coefficients, at every state including zero and in climbing flight.", "quantifier": "all states, steps and coefficient functions", "why_tests_cant": "special states (zero pitch, zero throttle, climbing flight) and all slopes", "anchors": ["trunk/SUAVE/Methods/Flight_Dynamics/Static_Stability/compute_aero_derivatives.py: compute_aero_derivatives"]}
{"id": "C180", "title": "Rotor thrust and torque integrate the blade loading", "statement": "Thrust and torque of a rotor are the number of blades times the integral of the loading over the radius (trapezoidal rule, exact for loads linear in the radius, for any spacing of the stations), averaged over the azimuth; axisymmetric loading gives the same totals in the one- and two-dimensional analysis and no in-plane force.", "quantifier": "all station layouts, loads, numbers of blades and azimuths", "why_tests_cant": "sums of arbitrary length over arbitrary loads", "anchors": ["trunk/SUAVE/Components/Energy/Converters/Rotor.py: Rotor.spin"]}
{"id": "C181", "title": "Velocities seen by the blades", "statement": "Before induction a blade station sees the axial speed of the rotor, its speed of rotation less the component of the cross flow along its motion, and the radial component of the cross flow: tangential and radial components together are the cross flow, it averages out over a revolution, and it is seen whenever the two-dimensional analysis runs, for straight and swept blades and with a nonuniform freestream.", "quantifier": "all flows, azimuths, rotors and settings", "why_tests_cant": "a continuum of flow directions and azimuths; the error needs both cross-flow components", "anchors": ["trunk/SUAVE/Components/Energy/Converters/Rotor.py: Rotor.spin"]}
{"id": "C182", "title": "Induced velocity of the wake", "statement": "The induced velocity reported with the rotor is normal to the velocity at the disc (momentum theory), every velocity that meets this relation can be found by the solver, and at convergence the circulation with which the blade is loaded is that of the wake.", "quantifier": "all blade velocities, wake parameters and section lift functions", "why_tests_cant": "relation between unknowns of a nonlinear system, for every iterate and root", "anchors": ["trunk/SUAVE/Methods/Propulsion/Rotor_Wake/Fidelity_Zero/fidelity_zero_wake_convergence.py: fidelity_zero_wake_convergence, iteration, va_vt", "trunk/SUAVE/Components/Energy/Converters/Rotor.py: Rotor.spin"]}
{"id": "C183", "title": "Power balance of a rotor", "statement": "The shaft power of a rotor in axial flight is speed times thrust plus the drag of the sections times their speed plus the power in the induced velocities; with nonnegative losses the efficiency is at most one.", "quantifier": "all rotors, speeds, section coefficients and wake parameters", "why_tests_cant": "an energy identity between sums over all stations", "anchors": ["trunk/SUAVE/Components/Energy/Converters/Rotor.py: Rotor.spin", "trunk/SUAVE/Methods/Propulsion/Rotor_Wake/Fidelity_Zero/fidelity_zero_wake_convergence.py: va_vt"]}
{"id": "C184", "title": "Rotor coefficients and switched-off rotors", "statement": "Thrust, torque and power coefficients, efficiency and figure of merit belong to the thrust, torque and power reported with them, also at zero throttle and in reversed rotation; a rotor without throttle or rotation reports no force and no power.", "quantifier": "all rotors, speeds of rotation, throttles and loads", "why_tests_cant": "consistency of separately patched outputs over all operating points", "anchors": ["trunk/SUAVE/Components/Energy/Converters/Rotor.py: Rotor.spin"]}
{"id": "C185", "title": "Orientation of rotors", "statement": "The thrust vector has the length of the thrust and points along the rotor axis; thrust times axial speed is thrust vector times velocity of the vehicle; a propeller pushes forward, a lift rotor up, a tilted one in between.", "quantifier": "all orientations, thrusts and velocities", "why_tests_cant": "rotations over a continuum of angles", "anchors": ["trunk/SUAVE/Components/Energy/Converters/Rotor.py: Rotor.spin, Rotor.body_to_prop_vel", "trunk/SUAVE/Components/Energy/Converters/Lift_Rotor.py: Lift_Rotor"]}
{"id": "C186", "title": "Blade sections", "statement": "Sections without polars lift with slope 2 pi corrected for compressibility up to a maximum lift (in both directions) that depends on the thickness at their radius and on Reynolds number; drag is positive, falls with Reynolds number, and compressibility never raises friction; the reported lift coefficient is never zero.", "quantifier": "all angles, Mach and Reynolds numbers, thicknesses and station counts", "why_tests_cant": "inequalities over a continuum; array shapes that agree by coincidence", "anchors": ["trunk/SUAVE/Methods/Aerodynamics/Common/Fidelity_Zero/Lift/BET_calculations.py: compute_airfoil_aerodynamics", "trunk/SUAVE/Components/Energy/Converters/Rotor.py: Rotor.spin"]}
{"id": "C187", "title": "Tip loss", "statement": "The tip-loss factor lies between zero and one, vanishes at the tip, falls towards the tip, and rises with the number of blades and with falling inflow; the converged circulation vanishes at the tip.", "quantifier": "all radii, inflows and numbers of blades", "why_tests_cant": "monotonicity over a continuum", "anchors": ["trunk/SUAVE/Methods/Aerodynamics/Common/Fidelity_Zero/Lift/BET_calculations.py: compute_inflow_and_tip_loss"]}
{"id": "C188", "title": "Contraction of the rotor wake", "statement": "Each streamtube of the wake carries the flow it had at the disc; the wake does not contract at the disc or without induction, contracts behind a rotor that accelerates the flow by less than the square root of two, and keeps the order of its streamtubes.", "quantifier": "all radii, induced velocities and positions", "why_tests_cant": "a recursion over all stations", "anchors": ["trunk/SUAVE/Methods/Propulsion/Rotor_Wake/Fidelity_Zero/compute_wake_contraction_matrix.py: compute_wake_contraction_matrix"]}
{"id": "C189", "title": "Slipstream of rotors on wings", "statement": "Behind the blades a point feels the developed induced velocity of its radius on both sides of the hub, swirl up on one side and down on the other, at every control point; several rotors superpose; the slipstream acts on the wing asked for, or the last main wing.", "quantifier": "all rotors, points, control points and vehicles", "why_tests_cant": "tables of any length, several rotors and control points", "anchors": ["trunk/SUAVE/Methods/Propulsion/Rotor_Wake/Fidelity_Zero/compute_fidelity_zero_induced_velocity.py: compute_fidelity_zero_induced_velocity", "trunk/SUAVE/Analyses/Propulsion/Rotor_Wake_Fidelity_Zero.py: Rotor_Wake_Fidelity_Zero.evaluate_slipstream"]}
{"id": "C190", "title": "Propeller design", "statement": "A designed propeller delivers the design thrust or takes the design power asked for, or the largest thrust its blade can give when more is asked, and stores matching thrust, power, torque and coefficients; its efficiency is at most one; its chords carry the optimal circulation at the design lift coefficient.", "quantifier": "all design conditions, blades and drag-to-lift ratios", "why_tests_cant": "roots of quadratics and bounds over a continuum of designs", "anchors": ["trunk/SUAVE/Methods/Propulsion/propeller_design.py: propeller_design"]}
{"id": "C191", "title": "Velocity of a horseshoe vortex", "statement": "Below the speed of sound at zero Mach number the velocity which a unit horseshoe vortex induces at a point off its legs and clear of its core is that of the Biot-Savart law for a bound segment with two semi-infinite legs; exchanging the ends of the vortex reverses it.", "quantifier": "all vortex ends and field points clear of the vortex", "why_tests_cant": "improper integrals over a continuum of geometries", "anchors": ["trunk/SUAVE/Methods/Aerodynamics/Common/Fidelity_Zero/Lift/compute_wing_induced_velocity.py: compute_wing_induced_velocity, subsonic"]}
{"id": "C192", "title": "Compressibility of the vortex lattice below the speed of sound", "statement": "At a subsonic Mach number the induced velocity is the incompressible one of the geometry compressed laterally by the Prandtl-Glauert factor.", "quantifier": "all Mach numbers below one, vortex ends and points", "why_tests_cant": "identity over a continuum", "anchors": ["trunk/SUAVE/Methods/Aerodynamics/Common/Fidelity_Zero/Lift/compute_wing_induced_velocity.py: compute_wing_induced_velocity, subsonic"]}
{"id": "C193", "title": "Symmetry of the induced velocity", "statement": "Mirroring the vortex and the point in the symmetry plane mirrors the induced velocity (with opposite circulation sense); scaling the geometry scales the velocity inversely.", "quantifier": "all geometries whose vortex ends differ laterally", "why_tests_cant": "identity over a continuum", "anchors": ["trunk/SUAVE/Methods/Aerodynamics/Common/Fidelity_Zero/Lift/compute_wing_induced_velocity.py: compute_wing_induced_velocity"]}
{"id": "C194", "title": "Supersonic zone of silence", "statement": "Above the speed of sound a vortex induces nothing at points outside the Mach cones of its ends, induces something downstream, and the separate treatment of points in its plane agrees with the general formula.", "quantifier": "all supersonic Mach numbers, vortex ends and points", "why_tests_cant": "case distinctions over a continuum", "anchors": ["trunk/SUAVE/Methods/Aerodynamics/Common/Fidelity_Zero/Lift/compute_wing_induced_velocity.py: compute_wing_induced_velocity, supersonic"]}
{"id": "C195", "title": "Onset flow of the vortex lattice", "statement": "The velocity of the air relative to a panel is the free stream at the given incidence and sideslip minus the rigid-body velocity due to roll, pitch and yaw rate at the panel's three-quarter point, plus the slipstream; the boundary condition uses its component along the panel normal.", "quantifier": "all flight conditions, rates and panels", "why_tests_cant": "signs of cross products over all combinations of rates and positions", "anchors": ["trunk/SUAVE/Methods/Aerodynamics/Common/Fidelity_Zero/Lift/compute_RHS_matrix.py: build_RHS"]}
{"id": "C196", "title": "No flow through the wing", "statement": "With the circulations obtained from the lattice no air passes through any panel at its control point; the alternative (VORLAX) right-hand side states the same condition.", "quantifier": "all lattices, circulations, slopes and dihedrals", "why_tests_cant": "holds for flat or unswept test wings, fails for panels with both slope and dihedral", "anchors": ["trunk/SUAVE/Methods/Aerodynamics/Common/Fidelity_Zero/Lift/VLM.py: VLM", "trunk/SUAVE/Methods/Aerodynamics/Common/Fidelity_Zero/Lift/compute_RHS_matrix.py: build_RHS"]}
{"id": "C197", "title": "Slipstreams seen by the lattice", "statement": "With the propeller wake model every propeller and lift rotor of every network of the vehicle contributes its slipstream to the onset flow of the wings; without it none does.", "quantifier": "all numbers of networks, propellers and rotors", "why_tests_cant": "vehicles with several networks", "anchors": ["trunk/SUAVE/Methods/Aerodynamics/Common/Fidelity_Zero/Lift/compute_RHS_matrix.py: compute_RHS_matrix"]}
{"id": "C198", "title": "Panel normals and areas", "statement": "The normal of a panel is a unit vector perpendicular to the panel that never points down, equal to the normal of the plane in which the panel lies; it is missing only for degenerate panels; the area of a flat panel is that of the trapezoid.", "quantifier": "all panel corners", "why_tests_cant": "identity over a continuum, sign choice", "anchors": ["trunk/SUAVE/Methods/Aerodynamics/Common/Fidelity_Zero/Lift/generate_VD_helpers.py: compute_unit_normal, compute_panel_area"]}
{"id": "C199", "title": "Resolution of lattice forces and moments", "statement": "Lift, induced drag and side force are the components of one summed force along orthonormal wind axes, so their squares add to the total; roll, pitch and yaw moment are components of the one summed moment about the reference point; moving the reference point changes the pitching moment by the transfer formula in the reported coefficients.", "quantifier": "all strips, incidences, sideslips and reference points", "why_tests_cant": "identities over all incidences and sideslips together", "anchors": ["trunk/SUAVE/Methods/Aerodynamics/Common/Fidelity_Zero/Lift/VLM.py: VLM"]}
{"id": "C200", "title": "Strip forces follow the chord", "statement": "The force on a strip has the magnitude of its normal and axial coefficients, the normal part is perpendicular to the chord of the strip and tilted by its dihedral.", "quantifier": "all incidences and dihedrals", "why_tests_cant": "the error is of third order in the incidence and hides in test tolerances", "anchors": ["trunk/SUAVE/Methods/Aerodynamics/Common/Fidelity_Zero/Lift/VLM.py: VLM", "trunk/SUAVE/Methods/Aerodynamics/Common/Fidelity_Zero/Lift/generate_VD_helpers.py: postprocess_VD"]}
{"id": "C201", "title": "Circulation accumulated along strips", "statement": "The circulation accumulated at a panel is the sum over the panels in front of it in the same strip, whatever the numbers of panels in the strips; nothing leaks from strip to strip.", "quantifier": "all numbers and lengths of strips, all circulations", "why_tests_cant": "index arithmetic over flattened arrays with strips of different lengths", "anchors": ["trunk/SUAVE/Methods/Aerodynamics/Common/Fidelity_Zero/Lift/VLM.py: strip_cumsum, VLM"]}
{"id": "C202", "title": "Reference point and velocity guard", "statement": "Moments are taken about the centre of gravity of the vehicle if it is given, otherwise about the aerodynamic centre of the main wing or of the horizontal wing with the largest chord; zero free-stream velocities never reach the solution.", "quantifier": "all vehicles and velocity arrays", "why_tests_cant": "vehicles with unusual origins and without a main wing", "anchors": ["trunk/SUAVE/Methods/Aerodynamics/Common/Fidelity_Zero/Lift/VLM.py: VLM"]}
{"id": "C203", "title": "Rotation about a hinge line", "statement": "Deflection turns points about the hinge line by the deflection angle with the right-hand rule: distances are kept, points on the hinge stay, successive angles add.", "quantifier": "all hinge lines with unit vectors, angles and points", "why_tests_cant": "matrix identity over a continuum", "anchors": ["trunk/SUAVE/Methods/Aerodynamics/Common/Fidelity_Zero/Lift/deflect_control_surface.py: make_hinge_quaternion, rotate_points_with_quaternion"]}
{"id": "C204", "title": "Deflection of control surfaces", "statement": "A control surface deflected in several steps ends where one step would put it, and setting the deflection back restores the lattice; the left side of a symmetric surface moves as the mirror image of the right one, or oppositely for ailerons.", "quantifier": "all surfaces, deflection histories, horizontal and vertical, flaps and slats", "why_tests_cant": "sequences of deflections; stored state", "anchors": ["trunk/SUAVE/Methods/Aerodynamics/Common/Fidelity_Zero/Lift/deflect_control_surface.py: deflect_control_surface, deflect_control_surface_strip"]}
{"id": "C205", "title": "Deflection of all-moving surfaces", "statement": "An all-moving surface turns rigidly about its hinge; its two halves move as mirror images unless it is declared antisymmetric; setting the deflection back restores it; the hinge given by the user is respected.", "quantifier": "all all-moving surfaces, default and user-defined hinges", "why_tests_cant": "state passed from one side to the other and from one call to the next", "anchors": ["trunk/SUAVE/Methods/Aerodynamics/Common/Fidelity_Zero/Lift/deflect_control_surface.py: deflect_control_surface_strip", "trunk/SUAVE/Components/Wings/All_Moving_Surface.py: All_Moving_Surface"]}
{"id": "C206", "title": "Numbers and spacing of vortices", "statement": "The numbers of vortices are accepted exactly when given completely either globally or separately for wings and fuselages, and are used as given; linear and cosine spacing run strictly outward from root to tip.", "quantifier": "all combinations of settings, all numbers of stations", "why_tests_cant": "combinations of six optional settings; any number of stations", "anchors": ["trunk/SUAVE/Methods/Aerodynamics/Common/Fidelity_Zero/Lift/generate_vortex_distribution.py: generate_vortex_distribution, generate_wing_vortex_distribution"]}
{"id": "C207", "title": "Stations on span breaks", "statement": "Whenever there are enough stations every span break becomes a station, the number of stations is kept and no two coincide, so that every strip has positive width; the stations of a control surface are those of the wing it belongs to.", "quantifier": "all sets of stations and breaks", "why_tests_cant": "greedy moves with ties and breaks closer together than stations", "anchors": ["trunk/SUAVE/Methods/Aerodynamics/Common/Fidelity_Zero/Lift/generate_vortex_distribution.py: generate_wing_vortex_distribution"]}
{"id": "C208", "title": "Strips tile the wing", "statement": "Every strip lies between two neighbouring breaks, chords run linearly between them, the areas of the strips add up to the area of the wing, and twist turns the panels rigidly about the leading edge.", "quantifier": "all stations, breaks, chords and twists", "why_tests_cant": "sums over lattices of any size; points used by few outputs", "anchors": ["trunk/SUAVE/Methods/Aerodynamics/Common/Fidelity_Zero/Lift/generate_vortex_distribution.py: generate_wing_vortex_distribution"]}
{"id": "C209", "title": "Merging of span breaks", "statement": "The breaks of segments, slats and trailing-edge surfaces merge into one list with strictly increasing span fractions which contains exactly the given fractions, and a control surface is known at a break exactly where one of the inputs knows it.", "quantifier": "all sorted lists of breaks of any length, with any coincidences", "why_tests_cant": "interleavings and coincidences of three lists", "anchors": ["trunk/SUAVE/Methods/Aerodynamics/Common/Fidelity_Zero/Lift/make_VLM_wings.py: make_VLM_wings, add_span_break"]}
{"id": "C210", "title": "Frames of section panels", "statement": "On every panel of a section the tangent and normal reported are orthogonal unit vectors, the normal points to the left of the direction in which the outline is passed, and the midpoint is the mean of the corners.", "quantifier": "all outlines with distinct neighbouring points, any number of panels", "why_tests_cant": "any outline; sign conventions of the normals decide the sign of lift", "anchors": ["trunk/SUAVE/Methods/Aerodynamics/Airfoil_Panel_Method/panel_geometry.py: panel_geometry"]}
{"id": "C211", "title": "Flow tangency on sections", "statement": "Any solution of the linear system gives a flow, built from source and vortex sheets on the panels, that is tangential to every panel at its midpoint when approached from outside, with the tangential velocity reported.", "quantifier": "all outlines, incidences and solutions of the system", "why_tests_cant": "the influence integrals are singular on the panel itself; any number of panels", "anchors": ["trunk/SUAVE/Methods/Aerodynamics/Airfoil_Panel_Method/infl_coeff.py: infl_coeff", "trunk/SUAVE/Methods/Aerodynamics/Airfoil_Panel_Method/hess_smith.py: hess_smith", "trunk/SUAVE/Methods/Aerodynamics/Airfoil_Panel_Method/velocity_distribution.py: velocity_distribution"]}
{"id": "C212", "title": "Kutta condition", "statement": "At the trailing edge the tangential velocities of the two adjoining panels are equal and opposite in their directions of passage, so the pressures there agree.", "quantifier": "all outlines, incidences and solutions of the system", "why_tests_cant": "holds for the solution of a linear system of any size", "anchors": ["trunk/SUAVE/Methods/Aerodynamics/Airfoil_Panel_Method/hess_smith.py: hess_smith", "trunk/SUAVE/Methods/Aerodynamics/Airfoil_Panel_Method/velocity_distribution.py: velocity_distribution"]}
{"id": "C213", "title": "Symmetric sections without incidence", "statement": "A symmetric section with a symmetric pressure distribution at zero incidence has no lift and no moment.", "quantifier": "all symmetric outlines and symmetric pressures", "why_tests_cant": "a matter of which point of each piece carries the pressure", "anchors": ["trunk/SUAVE/Methods/Aerodynamics/Airfoil_Panel_Method/aero_coeff.py: aero_coeff"]}
{"id": "C214", "title": "Section forces from pressures", "statement": "Lift and pressure drag are the components, normal to and along the flow, of the sum of pressures over the pieces of the outline, and the moment is taken about the quarter chord with the same pressures.", "quantifier": "all outlines, pressures and incidences", "why_tests_cant": "sums of any length; sign conventions", "anchors": ["trunk/SUAVE/Methods/Aerodynamics/Airfoil_Panel_Method/aero_coeff.py: aero_coeff"]}
{"id": "C215", "title": "Number of points of a NACA section", "statement": "The outline has exactly as many points as asked for, even or odd, and the arrays of each surface have matching lengths.", "quantifier": "all digit strings, numbers of points and resolution factors", "why_tests_cant": "parity of the number of points", "anchors": ["trunk/SUAVE/Methods/Geometry/Two_Dimensional/Cross_Section/Airfoil/compute_naca_4series.py: compute_naca_4series"]}
{"id": "C216", "title": "Outline of a NACA section", "statement": "The outline starts and ends at the trailing edge, passes through the origin, and the stations of each surface increase strictly from zero to one.", "quantifier": "all digits, at least three points, all positive resolution factors", "why_tests_cant": "monotonicity of the stretched spacing for every factor and number", "anchors": ["trunk/SUAVE/Methods/Geometry/Two_Dimensional/Cross_Section/Airfoil/compute_naca_4series.py: compute_naca_4series"]}
{"id": "C217", "title": "Camber of a NACA section", "statement": "Both surfaces lie at the same distance above and below the camber line, which stays between the chord and the height of the first digit, reaches it at the place of the second digit, and ends on the chord.", "quantifier": "all digits, all stations", "why_tests_cant": "two formulas that must join; all digits", "anchors": ["trunk/SUAVE/Methods/Geometry/Two_Dimensional/Cross_Section/Airfoil/compute_naca_4series.py: compute_naca_4series"]}
{"id": "C218", "title": "Reported thickness of a NACA section", "statement": "The maximum thickness reported is the greatest distance between the surfaces.", "quantifier": "all digits and stations", "why_tests_cant": "needs the maximum of a polynomial with a root", "anchors": ["trunk/SUAVE/Methods/Geometry/Two_Dimensional/Cross_Section/Airfoil/compute_naca_4series.py: compute_naca_4series"]}
{"id": "C219", "title": "Names of NACA sections", "statement": "Every string of four digits that names a section gives one, and the analysis without a section uses the NACA 0012.", "quantifier": "all digit strings", "why_tests_cant": "the default branch is not exercised; ten thousand names", "anchors": ["trunk/SUAVE/Methods/Geometry/Two_Dimensional/Cross_Section/Airfoil/compute_naca_4series.py: compute_naca_4series", "trunk/SUAVE/Methods/Geometry/Two_Dimensional/Cross_Section/Airfoil/compute_airfoil_properties.py: compute_boundary_layer_properties"]}
{"id": "C220", "title": "Section files with one block per surface", "statement": "A file with a name, the numbers of points and one block per surface is read as exactly the points it holds, in their order.", "quantifier": "all files of this format, of any length", "why_tests_cant": "files of any length and any printing of numbers", "anchors": ["trunk/SUAVE/Methods/Geometry/Two_Dimensional/Cross_Section/Airfoil/import_airfoil_geometry.py: import_airfoil_geometry"]}
{"id": "C221", "title": "Section files that run round the section", "statement": "A file that runs from the trailing edge over the upper surface to the nose and back is divided at the nose, whatever its name and its way of printing numbers.", "quantifier": "all files of this format, with and without name, with and without a point at station zero", "why_tests_cant": "depends on the text of the numbers", "anchors": ["trunk/SUAVE/Methods/Geometry/Two_Dimensional/Cross_Section/Airfoil/import_airfoil_geometry.py: import_airfoil_geometry"]}
{"id": "C222", "title": "Thickness of a section from a file", "statement": "The thickness reported for a section read from a file is the greatest distance between its surfaces at a station.", "quantifier": "all pairs of surfaces", "why_tests_cant": "depends on the distribution of points on both surfaces", "anchors": ["trunk/SUAVE/Methods/Geometry/Two_Dimensional/Cross_Section/Airfoil/import_airfoil_geometry.py: import_airfoil_geometry"]}
{"id": "C223", "title": "Laminar closure relations", "statement": "In attached flow the shape factor falls and the friction rises with the pressure-gradient parameter, through the change of formulas, and separation shows as friction that is not positive.", "quantifier": "all parameters from -0.09 to 0.25", "why_tests_cant": "two formulas joined at zero", "anchors": ["trunk/SUAVE/Methods/Aerodynamics/Airfoil_Panel_Method/thwaites_method.py: getH, getcf, thwaites_method"]}
{"id": "C224", "title": "Turbulent shape factor", "statement": "The shape factor falls when the entrainment shape factor grows.", "quantifier": "all entrainment shape factors", "why_tests_cant": "three formulas joined at two places", "anchors": ["trunk/SUAVE/Methods/Aerodynamics/Airfoil_Panel_Method/heads_method.py: getH"]}
{"id": "C225", "title": "One fluid in the boundary layer", "statement": "Both parts of a boundary layer are computed with the same viscosity, and the friction that lets the layer grow is the friction reported.", "quantifier": "all surfaces, transition points, Reynolds numbers and edge velocities", "why_tests_cant": "relations between quantities computed in different functions", "anchors": ["trunk/SUAVE/Methods/Aerodynamics/Airfoil_Panel_Method/heads_method.py: heads_method, odefcn", "trunk/SUAVE/Methods/Aerodynamics/Airfoil_Panel_Method/thwaites_method.py: thwaites_method", "trunk/SUAVE/Methods/Aerodynamics/Airfoil_Panel_Method/airfoil_analysis.py: airfoil_analysis"]}
{"id": "C226", "title": "Velocity gradient along the surface", "statement": "The velocity gradient on inner panels is second-order accurate: exact for velocities that are quadratic along the surface, whatever the spacing.", "quantifier": "all spacings and velocities", "why_tests_cant": "uneven spacings", "anchors": ["trunk/SUAVE/Methods/Aerodynamics/Airfoil_Panel_Method/airfoil_analysis.py: airfoil_analysis"]}
{"id": "C227", "title": "Removal of jumps", "statement": "A value that jumps by more than the tolerance is replaced by the value before it; all other values are kept.", "quantifier": "all distributions and tolerances", "why_tests_cant": "any number and position of jumps", "anchors": ["trunk/SUAVE/Methods/Aerodynamics/Airfoil_Panel_Method/thwaites_method.py: thwaites_method", "trunk/SUAVE/Methods/Aerodynamics/Airfoil_Panel_Method/heads_method.py: heads_method"]}
{"id": "C228", "title": "Transition panel", "statement": "The turbulent computation starts at the first panel that meets the transition criterion.", "quantifier": "all distributions of the criterion", "why_tests_cant": "depends on the criterion over the whole surface", "anchors": ["trunk/SUAVE/Methods/Aerodynamics/Airfoil_Panel_Method/airfoil_analysis.py: airfoil_analysis"]}
{"id": "C229", "title": "Section drag", "statement": "The drag coefficient counts the momentum loss of both surfaces.", "quantifier": "all boundary layers", "why_tests_cant": "the sum is never compared with its parts", "anchors": ["trunk/SUAVE/Methods/Aerodynamics/Airfoil_Panel_Method/airfoil_analysis.py: airfoil_analysis"]}
{"id": "C230", "title": "Sections between two sections", "statement": "Asked for a number of sections the generator writes two files less, with coordinates in equal steps strictly between the two sections given; each file is read back as the points it was written from.", "quantifier": "all pairs of sections, numbers of sections and points", "why_tests_cant": "round trip over all numbers of points", "anchors": ["trunk/SUAVE/Methods/Geometry/Two_Dimensional/Cross_Section/Airfoil/generate_interpolated_airfoils.py: generate_interpolated_airfoils", "trunk/SUAVE/Methods/Geometry/Two_Dimensional/Cross_Section/Airfoil/import_airfoil_geometry.py: import_airfoil_geometry"]}
{"id": "C231", "title": "Rocket mass flow", "statement": "The mass flow of a rocket engine at full throttle is the one that chokes in the throat at the chamber state, proportional to throttle; it is the flow that leaves the nozzle at the exit state.", "quantifier": "all chamber states, throats, expansion ratios, throttles and nozzle losses", "why_tests_cant": "continuity between two stations for all nozzles", "anchors": ["trunk/SUAVE/Components/Energy/Converters/Rocket_Combustor.py: compute", "trunk/SUAVE/Components/Energy/Converters/de_Laval_Nozzle.py: compute"]}
{"id": "C232", "title": "Rocket thrust", "statement": "Rocket thrust is momentum plus pressure thrust, never negative and proportional to the number of engines; specific impulse is thrust per weight of propellant used by the vehicle.", "quantifier": "all exit states, throttles and numbers of engines", "why_tests_cant": "energy bookkeeping over all numbers of engines", "anchors": ["trunk/SUAVE/Components/Energy/Processes/Rocket_Thrust.py: compute", "trunk/SUAVE/Components/Energy/Networks/Liquid_Rocket.py: evaluate_thrust"]}
{"id": "C233", "title": "Rocket sizing", "statement": "A rocket engine sized for a design thrust delivers that thrust at the design point, for any number of engines and whether the design point is given as altitude or as conditions.", "quantifier": "all design thrusts, numbers of engines and ways to give the design point", "why_tests_cant": "round trip of sizing and evaluation over all inputs", "anchors": ["trunk/SUAVE/Methods/Propulsion/liquid_rocket_sizing.py: liquid_rocket_sizing"]}
{"id": "C234", "title": "Fuel cell stack sizing", "statement": "A fuel cell stack sized for a power has the smallest whole number of cells that delivers it at the rated current density, and its mass, volume and specific power belong to these cells.", "quantifier": "all powers and rated points", "why_tests_cant": "sizing followed by evaluation for all powers", "anchors": ["trunk/SUAVE/Methods/Power/Fuel_Cell/Sizing/initialize_larminie_from_power.py: initialize_larminie_from_power", "trunk/SUAVE/Methods/Power/Fuel_Cell/Discharge/larminie.py: larminie"]}
{"id": "C235", "title": "Fuel cell consumption", "statement": "The fuel rate of a fuel cell is power over efficiency and fuel energy; the power drawn and the maximum power are those of the whole stack.", "quantifier": "all stacks, powers and current densities", "why_tests_cant": "depends on the number of cells", "anchors": ["trunk/SUAVE/Methods/Power/Fuel_Cell/Discharge/larminie.py: larminie", "trunk/SUAVE/Methods/Power/Fuel_Cell/Discharge/zero_fidelity.py: zero_fidelity", "trunk/SUAVE/Methods/Power/Fuel_Cell/Discharge/find_power_larminie.py: find_power_larminie"]}
{"id": "C236", "title": "Battery mass for energy and power", "statement": "A battery sized for an energy and a power holds that energy and delivers that power; with the hard maximum no lighter battery does, with the smooth maximum the excess is at most log 2 kilograms.", "quantifier": "all energies, powers and specific values", "why_tests_cant": "a maximum over two requirements for all inputs", "anchors": ["trunk/SUAVE/Methods/Power/Battery/Sizing/initialize_from_energy_and_power.py: initialize_from_energy_and_power"]}
{"id": "C237", "title": "Battery on the Ragone line", "statement": "If some specific energy within the bounds of the chemistry lets energy and power need the same mass, the battery of least mass on the Ragone line is that one and meets both demands exactly.", "quantifier": "all energies, powers and Ragone constants", "why_tests_cant": "the intersection of a line and an exponential for all constants", "anchors": ["trunk/SUAVE/Methods/Power/Battery/Ragone/find_specific_power.py: find_specific_power", "trunk/SUAVE/Methods/Power/Battery/Ragone/find_ragone_properties.py: find_ragone_properties", "trunk/SUAVE/Methods/Power/Battery/Ragone/find_ragone_optimum.py: find_ragone_optimum"]}
{"id": "C238", "title": "Battery from its circuit", "statement": "Sizing a battery from the circuit of its module and from its mass agrees: mass, energy and power are those of all modules, and the total number of cells is series times parallel.", "quantifier": "all cell configurations, modules and masses", "why_tests_cant": "two sizing routes compared for all configurations", "anchors": ["trunk/SUAVE/Methods/Power/Battery/Sizing/initialize_from_circuit_configuration.py: initialize_from_circuit_configuration", "trunk/SUAVE/Methods/Power/Battery/Sizing/initialize_from_mass.py: initialize_from_mass"]}
{"id": "C239", "title": "Piston engine power", "statement": "The power available from a piston engine is its sea level power below the flat rating altitude, falls continuously with air density above it, and never exceeds sea level power.", "quantifier": "all altitudes, temperature offsets and flat rating altitudes", "why_tests_cant": "continuity in altitude for all atmospheres", "anchors": ["trunk/SUAVE/Components/Energy/Converters/Internal_Combustion_Engine.py: power"]}
{"id": "C240", "title": "Piston engine power demand", "statement": "The throttle computed for a demanded power is the one at which the engine gives that power, with the same torque and fuel flow; throttle, power and fuel are never negative.", "quantifier": "all demands, speeds and altitudes", "why_tests_cant": "inverse of a function over all flight conditions", "anchors": ["trunk/SUAVE/Components/Energy/Converters/Internal_Combustion_Engine.py: calculate_throttle, power"]}
{"id": "C241", "title": "Propeller driven by piston engines", "statement": "Thrust, power, torque and fuel of a piston engine network are those of all its engines and propellers; the solver has as many unknowns as residuals and engines and propellers that do not match are reported.", "quantifier": "all numbers of engines and propellers", "why_tests_cant": "bookkeeping over any number of engines", "anchors": ["trunk/SUAVE/Components/Energy/Networks/Internal_Combustion_Propeller.py: evaluate_thrust, add_unknowns_and_residuals_to_segment", "trunk/SUAVE/Components/Energy/Networks/Internal_Combustion_Propeller_Constant_Speed.py: evaluate_thrust"]}
{"id": "C242", "title": "Cryocooler power", "statement": "The power of a cryocooler is proportional to its heat load, is never below that of a Carnot machine between the same temperatures and is zero when no cooling is needed.", "quantifier": "all coolers, loads and temperatures", "why_tests_cant": "thermodynamic bound over all temperatures", "anchors": ["trunk/SUAVE/Methods/Cryogenics/Cryocooler/cryocooler_model.py: cryocooler_model"]}
{"id": "C243", "title": "Cryogen consumption", "statement": "The mass of cryogen used times the enthalpy between inlet and outlet state is the heat to be removed.", "quantifier": "all loads, inlet and outlet states", "why_tests_cant": "energy balance over all states", "anchors": ["trunk/SUAVE/Methods/Weights/Cooling/Cryogen/Consumption/Coolant_use.py: Coolant_use"]}
{"id": "C244", "title": "Current leads", "statement": "A lead sized for a current has the least heat leak at that current, reports its heat leak without current, and answers for every current asked for.", "quantifier": "all materials, currents and temperatures", "why_tests_cant": "minimum and termination for all currents", "anchors": ["trunk/SUAVE/Methods/Cryogenics/Leads/lead_calculations.py: Q_min, LARatio, calc_current", "trunk/SUAVE/Components/Energy/Distributors/Cryogenic_Lead.py: initialize_material_lead, Q_unpowered, Q_offdesign"]}
{"id": "C245", "title": "Power of superconducting fan networks", "statement": "The turboelectric power of a superconducting ducted fan network is the sum of what its motors, rotor supplies and cryocoolers draw, sizing and operation agree, and the mass rate is fuel plus cryogen used.", "quantifier": "all numbers of engines, loads and efficiencies", "why_tests_cant": "bookkeeping over any number of engines", "anchors": ["trunk/SUAVE/Components/Energy/Networks/Turboelectric_HTS_Ducted_Fan.py: evaluate_thrust", "trunk/SUAVE/Methods/Propulsion/serial_HTS_turboelectric_sizing.py: serial_HTS_turboelectric_sizing", "trunk/SUAVE/Components/Energy/Distributors/HTS_DC_Supply.py: power"]}
{"id": "C246", "title": "Dynamo fed rotors", "statement": "A superconducting dynamo takes the power it delivers plus its losses, its supply takes that over its own efficiency, and the network counts the rotor power once.", "quantifier": "all currents, efficiencies and numbers of engines", "why_tests_cant": "bookkeeping over any number of engines", "anchors": ["trunk/SUAVE/Components/Energy/Distributors/HTS_DC_Dynamo_Basic.py: shaft_power", "trunk/SUAVE/Components/Energy/Distributors/HTS_Dynamo_Supply.py: power_in", "trunk/SUAVE/Methods/Cryogenics/Dynamo/dynamo_efficiency.py: efficiency_curve", "trunk/SUAVE/Components/Energy/Networks/Turboelectric_HTS_Dynamo_Ducted_Fan.py: evaluate_thrust"]}
{"id": "C247", "title": "Several energy networks", "statement": "Thrust, mass rate and rotation of a vehicle with several energy networks are the sums over the networks, in any order and also for networks that burn a second fuel.", "quantifier": "all lists of networks", "why_tests_cant": "all lengths and orders of the list", "anchors": ["trunk/SUAVE/Components/Energy/Networks/Network.py: evaluate_thrust"]}
{"id": "C248", "title": "Engine decks", "statement": "An engine deck read from a table gives its own values inside the table, continues without jumps beyond zero and full throttle, meets its anchor point and delivers thrust and fuel of all engines.", "quantifier": "all decks, scalings, anchors and throttles", "why_tests_cant": "continuity over all throttles", "anchors": ["trunk/SUAVE/Components/Energy/Networks/Propulsor_Surrogate.py: evaluate_thrust, build_surrogate"]}
{"id": "C249", "title": "Electric motor sizing", "statement": "A motor sized for a propeller gives the design torque at the design speed and voltage with the design efficiency, with and without gear; if that is impossible the nearest motor within the slack is found.", "quantifier": "all design points, gear ratios and answers of the optimizer", "why_tests_cant": "round trip of sizing and operation", "anchors": ["trunk/SUAVE/Methods/Propulsion/electric_motor_sizing.py: size_optimal_motor, optimize_kv, size_from_kv, size_from_mass", "trunk/SUAVE/Components/Energy/Converters/Motor.py: torque"]}
{"id": "C250", "title": "Turbofan emissions", "statement": "Carbon dioxide, water and sulphur dioxide emitted are fixed multiples of the fuel burned; nitrogen oxides never decrease with temperature, pressure or fuel flow.", "quantifier": "all flight histories", "why_tests_cant": "monotonicity over all histories", "anchors": ["trunk/SUAVE/Methods/Propulsion/turbofan_emission_index.py: turbofan_emission_index"]}
{"id": "C251", "title": "Expansion of a state to its control points", "statement": "Expanding a segment's state to n control points keeps every key: one-row arrays become n equal rows, arrays declared one or two rows short get n-1 or n-2, everything else, initial values and numerics stay; expanding again changes nothing.", "quantifier": "all nested states, paths and numbers of points", "why_tests_cant": "arbitrarily nested structures", "anchors": ["trunk/SUAVE/Analyses/Mission/Segments/Conditions/Conditions.py: expand_rows, expanded_array", "trunk/SUAVE/Analyses/Mission/Segments/Conditions/State.py: expand_rows", "trunk/SUAVE/Methods/Missions/Segments/expand_state.py: expand_state"]}
{"id": "C252", "title": "Two fuels", "statement": "When a vehicle burns two fuels its mass changes by what both fuels change at every control point, each fuel goes down by its own flow over time, and the weight is the mass reported times gravity.", "quantifier": "all flows, masses and numbers of control points", "why_tests_cant": "linear identity for all flows and grids", "anchors": ["trunk/SUAVE/Methods/Missions/Segments/Common/Weights.py: update_weights"]}
{"id": "C253", "title": "Charging segments", "statement": "A charging segment lasts as long as the charging power of its battery needs for the missing energy and the contingency given; a discharging one lasts the time given.", "quantifier": "all batteries, energies and preceding segments", "why_tests_cant": "energy balance over all states before the segment", "anchors": ["trunk/SUAVE/Methods/Missions/Segments/Ground/Battery_Charge_Discharge.py: initialize_conditions"]}
{"id": "C254", "title": "Calibrated airspeed segments", "statement": "In climbs and descents at calibrated airspeed the equivalent airspeed is at most the calibrated one above standard pressure and equal to it there, so that the dynamic pressure at that level is that of the calibrated speed in the standard atmosphere on any day.", "quantifier": "all speeds, altitudes, atmospheres and temperature deviations", "why_tests_cant": "inequality between powers for all pressures", "anchors": ["trunk/SUAVE/Methods/Missions/Segments/Climb/Constant_CAS_Constant_Rate.py: initialize_conditions", "trunk/SUAVE/Methods/Missions/Segments/Descent/Constant_CAS_Constant_Rate.py: initialize_conditions"]}
{"id": "C255", "title": "Optimized climbs", "statement": "An optimized climb starts and ends at its altitudes, its bounds and constraints match its unknowns one by one and mean what they say, failed evaluations are reported, and the state left behind is that of the optimum found.", "quantifier": "all grids, unknowns and answers of the optimizer", "why_tests_cant": "depends on what the optimizer evaluates last", "anchors": ["trunk/SUAVE/Methods/Missions/Segments/optimize.py: converge_opt, make_bnds, get_ieconstraints, get_problem_pyopt", "trunk/SUAVE/Methods/Missions/Segments/Climb/Optimized.py: unpack_unknowns, update_differentials, solve_linear_speed_constant_rate"]}
{"id": "C256", "title": "Ground runs", "statement": "A converged takeoff or landing run obeys force equals mass times acceleration after its first point and ends at the wanted speed, with the takeoff or landing mass, ground friction and ground incline it was given.", "quantifier": "all masses, speeds, forces, inclines and preceding segments", "why_tests_cant": "depends on the preceding segment and all inputs", "anchors": ["trunk/SUAVE/Methods/Missions/Segments/Ground/Common.py: initialize_conditions, compute_ground_forces, compute_forces, solve_residuals", "trunk/SUAVE/Methods/Missions/Segments/Ground/Landing.py: initialize_conditions", "trunk/SUAVE/Methods/Missions/Segments/Ground/Takeoff.py: initialize_conditions", "trunk/SUAVE/Methods/Missions/Segments/Common/Weights.py: initialize_weights"]}
{"id": "C257", "title": "Missions with a variable cruise", "statement": "A mission whose cruise distance is solved for ends with the wanted landing mass or state of charge, at the only distance that does.", "quantifier": "all targets and all missions whose final quantity falls with distance", "why_tests_cant": "uniqueness over all distances", "anchors": ["trunk/SUAVE/Methods/Missions/Segments/Cruise/Variable_Cruise_Distance.py: residual_landing_weight, residual_state_of_charge"]}
{"id": "C258", "title": "Lifting line lift", "statement": "For every wing of positive chord the lifting line method has exactly one solution; its lift is an affine function of the angle of attack, proportional to it without twist, with a slope above zero and at most pi times the aspect ratio; a vertical surface has neither lift nor drag.", "quantifier": "all numbers of stations, chords, twists and angles", "why_tests_cant": "solvability of every linear system of a family", "anchors": ["trunk/SUAVE/Methods/Aerodynamics/Lifting_Line/Lifting_Line.py: lifting_line"]}
{"id": "C259", "title": "Lifting line drag", "statement": "The induced drag the lifting line method returns is that of its circulation, pi times the aspect ratio times the sum of n A_n squared; it is never negative and the same for opposite angles of an untwisted wing.", "quantifier": "all wings, stations and angles", "why_tests_cant": "identity over all circulations", "anchors": ["trunk/SUAVE/Methods/Aerodynamics/Lifting_Line/Lifting_Line.py: lifting_line"]}
{"id": "C260", "title": "Lifting line geometry", "statement": "The lifting line method sees at each station the chord and twist interpolated between the sections that bound it, root and tip for a wing without segments.", "quantifier": "all wings, segments and stations", "why_tests_cant": "all numbers and places of segments", "anchors": ["trunk/SUAVE/Methods/Aerodynamics/Lifting_Line/Lifting_Line.py: lifting_line"]}
{"id": "C261", "title": "Lifting line surrogates", "statement": "Lift and drag of the aircraft are those of its wings weighted with their areas; the surrogates return for each wing the lift and drag its own training found, and reproduce data that lie on a line at every angle.", "quantifier": "all wings, training angles and coefficients", "why_tests_cant": "property of least squares for all data", "anchors": ["trunk/SUAVE/Analyses/Aerodynamics/Lifting_Line.py: sample_training, build_surrogate, evaluate_surrogate, calculate_lift_lifting_line"]}
{"id": "C262", "title": "Blending of the vortex lattice surrogates", "statement": "Outside the blending ranges one surrogate alone gives the coefficient, within one only the two neighbours count; the result lies between them and is continuous in the Mach number; with training on one side of Mach 1 only, that surrogate serves everywhere.", "quantifier": "all surrogates, angles, Mach numbers and ordered limits", "why_tests_cant": "continuity and bounds over a continuum", "anchors": ["trunk/SUAVE/Analyses/Aerodynamics/Vortex_Lattice.py: evaluate_surrogate"]}
{"id": "C263", "title": "Transonic table of the vortex lattice", "statement": "The transonic surrogates of lift and drag agree with the training data at the last subsonic and the first two supersonic Mach numbers and are linear between them.", "quantifier": "all training data", "why_tests_cant": "all tables of results", "anchors": ["trunk/SUAVE/Analyses/Aerodynamics/Vortex_Lattice.py: build_surrogate"]}
{"id": "C264", "title": "Training of the vortex lattice surrogates", "statement": "Each entry of the training tables is the coefficient of the vortex lattice at the angle and Mach number of its row and column.", "quantifier": "all training angles and Mach numbers", "why_tests_cant": "index arithmetic for all sizes", "anchors": ["trunk/SUAVE/Analyses/Aerodynamics/Vortex_Lattice.py: sample_training"]}
{"id": "C265", "title": "Coefficients of the wings from the vortex lattice", "statement": "Each wing's coefficient comes from its own surfaces of the lattice, two for a symmetric wing; times the reference areas they add up to the force on the lattice.", "quantifier": "all lists of wings and forces", "why_tests_cant": "all mixtures of symmetric and other wings", "anchors": ["trunk/SUAVE/Analyses/Aerodynamics/Vortex_Lattice.py: calculate_VLM"]}
{"id": "C266", "title": "Equivalent area of lift", "statement": "The equivalent area of lift at each station is the Prandtl-Glauert factor over twice the dynamic pressure times the lift of all panels at or ahead of it, whatever the order of the panels; it starts at zero and ends with the whole lift.", "quantifier": "all lattices, pressures and Mach numbers", "why_tests_cant": "sums over all panels in any order", "anchors": ["trunk/SUAVE/Methods/Noise/Boom/lift_equivalent_area.py: lift_equivalent_area"]}
{"id": "C267", "title": "Mach cuts of the equivalent area", "statement": "Panels whose disturbances arrive at the ground together, those on one Mach line, are counted at the same station.", "quantifier": "all panels and supersonic Mach numbers", "why_tests_cant": "geometry for all Mach numbers", "anchors": ["trunk/SUAVE/Methods/Noise/Boom/lift_equivalent_area.py: lift_equivalent_area"]}
{"id": "C268", "title": "Volume wave drag", "statement": "The Sears-Haack wave drag is that of the body of least drag for its length and cross section; Raymer's is constant up to Mach 1.2, his formula from 1.3, and between zero and its low speed value; both are defined for every sweep.", "quantifier": "all bodies, sweeps and Mach numbers", "why_tests_cant": "bounds over a continuum", "anchors": ["trunk/SUAVE/Methods/Aerodynamics/Supersonic_Zero/Drag/wave_drag_volume_raymer.py: wave_drag_volume_raymer", "trunk/SUAVE/Methods/Aerodynamics/Supersonic_Zero/Drag/wave_drag_volume_sears_haack.py: wave_drag_volume_sears_haack"]}
{"id": "C269", "title": "Viscous wake of a wing", "statement": "Behind a wing the velocity deficit is positive within the span and zero outside, greatest in the plane of the wing and falling away from it with the stated width, the same on both sides; it is defined at every plane behind the leading edge, and the grid of the plane is symmetric.", "quantifier": "all wings, planes and points", "why_tests_cant": "monotonicity and symmetry over a continuum", "anchors": ["trunk/SUAVE/Methods/Aerodynamics/Common/Fidelity_Zero/Lift/compute_wing_wake.py: compute_wing_wake", "trunk/SUAVE/Methods/Aerodynamics/Common/Fidelity_Zero/Lift/generate_wing_wake_grid.py: generate_wing_wake_grid"]}
{"id": "C270", "title": "Volume between the spars", "statement": "The internal volume estimated for a wing of NACA 4-digit sections is the integral over the span of the cross section between front and rear spar.", "quantifier": "all tapers, thicknesses, cambers and spans", "why_tests_cant": "an integral for all wings", "anchors": ["trunk/SUAVE/Methods/Geometry/Three_Dimensional/estimate_naca_4_series_internal_volume.py: estimate_naca_4_series_internal_volume"]}
{"id": "C271", "title": "Stations and chords", "statement": "The chord at a spanwise station tapers linearly from root to tip, and the station of a chord and the chord of a station undo each other.", "quantifier": "all tapered wings, stations and chords", "why_tests_cant": "inverse functions over a continuum", "anchors": ["trunk/SUAVE/Methods/Geometry/Three_Dimensional/compute_chord_length_from_span_location.py: compute_chord_length_from_span_location", "trunk/SUAVE/Methods/Geometry/Three_Dimensional/compute_span_location_from_chord_length.py: compute_span_location_from_chord_length"]}
{"id": "C272", "title": "Tails sized by volume coefficient", "statement": "A tail sized by a volume coefficient has it: its area, the integral of its chord, times the arm is the coefficient times the wing's area and chord (horizontal) or span (vertical); aspect ratio and taper are kept.", "quantifier": "all tails, wings, arms and coefficients", "why_tests_cant": "an integral for all wings", "anchors": ["trunk/SUAVE/Methods/Geometry/Two_Dimensional/Planform/horizontal_tail_planform_raymer.py: horizontal_tail_planform_raymer", "trunk/SUAVE/Methods/Geometry/Two_Dimensional/Planform/vertical_tail_planform_raymer.py: vertical_tail_planform_raymer"]}
{"id": "C273", "title": "Fuel volume of a wing", "statement": "The fuel volume is 0.495 times thickness ratio, area and mean geometric chord of the planform; it grows with the cube of the size and is less than half of the slab of the wing's area, chord and thickness.", "quantifier": "all wings and scales", "why_tests_cant": "scaling for all factors", "anchors": ["trunk/SUAVE/Methods/Geometry/Two_Dimensional/Planform/wing_fuel_volume.py: wing_fuel_volume"]}
{"id": "C274", "title": "Size of a turbofan nacelle", "statement": "Diameter, length and wetted area of the nacelle grow with the sea level thrust by the stated powers; the inlet has 1/2.1 of the frontal area, the wetted area is a tenth more than that of a cylinder.", "quantifier": "all thrusts", "why_tests_cant": "monotonicity over a continuum", "anchors": ["trunk/SUAVE/Methods/Geometry/Two_Dimensional/Cross_Section/Propulsion/compute_turbofan_geometry.py: compute_turbofan_geometry"]}
{"id": "C275", "title": "Derivatives of the rolling moment", "statement": "Damping in roll and dihedral effect are those of strip theory for a straight-tapered wing; rolling is damped, and positive dihedral rolls away from the side slip.", "quantifier": "all tapers, spans, dihedrals and lift-curve slopes", "why_tests_cant": "an integral for all wings", "anchors": ["trunk/SUAVE/Methods/Flight_Dynamics/Dynamic_Stability/Full_Linearized_Equations/Supporting_Functions/cl_p.py: cl_p", "trunk/SUAVE/Methods/Flight_Dynamics/Dynamic_Stability/Full_Linearized_Equations/Supporting_Functions/cl_beta.py: cl_beta"]}
{"id": "C276", "title": "Derivatives of tails and downwash", "statement": "Damping in yaw and pitch come from the tail surfaces by their own lift-curve slope, area and arm and are never positive; the downwash slope is that behind a lifting line, and its lag comes from the downwash of the wing.", "quantifier": "all aircraft and conditions", "why_tests_cant": "signs over a continuum", "anchors": ["trunk/SUAVE/Analyses/Stability/Fidelity_Zero.py: Fidelity_Zero.__call__", "trunk/SUAVE/Methods/Flight_Dynamics/Dynamic_Stability/Full_Linearized_Equations/Supporting_Functions/cm_q.py: cm_q", "trunk/SUAVE/Methods/Flight_Dynamics/Dynamic_Stability/Full_Linearized_Equations/Supporting_Functions/cn_r.py: cn_r", "trunk/SUAVE/Methods/Flight_Dynamics/Dynamic_Stability/Full_Linearized_Equations/Supporting_Functions/ep_alpha.py: ep_alpha", "trunk/SUAVE/Methods/Flight_Dynamics/Dynamic_Stability/Full_Linearized_Equations/Supporting_Functions/cm_alphadot.py: cm_alphadot"]}
{"id": "C277", "title": "Modes of the zero fidelity stability analysis", "statement": "With moments of inertia the analysis returns the modes, each from the inertia about its own axis: Dutch roll yaw, short period pitch, roll mode roll, the others none; without them only the static part; aircraft without a tail are not an error.", "quantifier": "all aircraft and conditions", "why_tests_cant": "dependence for all inertia tensors", "anchors": ["trunk/SUAVE/Analyses/Stability/Fidelity_Zero.py: Fidelity_Zero.__call__"]}
{"id": "C278", "title": "Section files in two blocks", "statement": "The points of upper and lower surface returned are those of the two blocks of lines of the file, all of them and in order; a third block or a word that is no number is an exception.", "quantifier": "all files", "why_tests_cant": "all contents and blank lines of files", "anchors": ["trunk/SUAVE/Methods/Geometry/Two_Dimensional/Cross_Section/Airfoil/import_airfoil_dat.py: import_airfoil_dat"]}
{"id": "C279", "title": "Polar files", "statement": "From polar files the lines of data between the rule and the empty lines at the end are read, each number from its column; the returned coefficients agree with the file at its angles and are constant beyond them; fewer than three files are refused.", "quantifier": "all files, tables and numbers of angles", "why_tests_cant": "all contents of files", "anchors": ["trunk/SUAVE/Methods/Geometry/Two_Dimensional/Cross_Section/Airfoil/import_airfoil_polars.py: import_airfoil_polars"]}
{"id": "C280", "title": "Mask of a section", "statement": "A cell of the mask is set exactly when it lies between the two surfaces of the section; the mask holds the whole section and does not change with its size.", "quantifier": "all sections given from nose to tail", "why_tests_cant": "index arithmetic for all sections and sizes", "anchors": ["trunk/SUAVE/Methods/Geometry/Two_Dimensional/Cross_Section/Airfoil/convert_airfoil_to_meshgrid.py: convert_airfoil_to_meshgrid"]}
{"id": "C281", "title": "Scope of unit contexts", "statement": "Transformations enabled for a block of the program hold within that block only: look-ups see the innermost block first, parameters not given are taken from the block around it, and after the block all is as it was before it.", "quantifier": "all registries of contexts and all nestings of blocks and look-ups", "why_tests_cant": "all nestings of blocks", "anchors": ["trunk/SUAVE/Plugins/pint/unit.py: UnitRegistry.context", "trunk/SUAVE/Plugins/pint/unit.py: UnitRegistry.enable_contexts", "trunk/SUAVE/Plugins/pint/unit.py: UnitRegistry.disable_contexts", "trunk/SUAVE/Plugins/pint/context.py: Context.from_context", "trunk/SUAVE/Plugins/pint/context.py: ContextChain"]}
{"id": "C282", "title": "Arithmetic of measurements", "statement": "Sums, differences, products and quotients of measurements have the value of the operation on the values, and errors that combine by their squares; plain numbers are operands without error.", "quantifier": "all measurements and numbers", "why_tests_cant": "identities over a continuum", "anchors": ["trunk/SUAVE/Plugins/pint/measurement.py: _Measurement", "trunk/SUAVE/Plugins/pint/quantity.py: _Quantity.plus_minus"]}
{"id": "C283", "title": "Reading of unit names", "statement": "A word that is not the spelling of a unit is read as prefix, spelling and suffix, found whenever there is such a reading; an undefined word is an exception; a warning is given exactly when there are several readings.", "quantifier": "all tables of units, prefixes and suffixes and all words", "why_tests_cant": "all words and tables", "anchors": ["trunk/SUAVE/Plugins/pint/unit.py: UnitRegistry.get_name", "trunk/SUAVE/Plugins/pint/unit.py: UnitRegistry.parse_unit_name", "trunk/SUAVE/Plugins/pint/unit.py: UnitRegistry._dedup_candidates"]}
{"id": "C284", "title": "Saved fuselages, nacelles and blades", "statement": "The file of a body is accepted by a reader of the format: its declared numbers are those of its lists, and its cells join neighbouring points of neighbouring sections, closing around. A field saved for a cell is the mean over its corners; fuselage sections are ellipses of the width and height given.", "quantifier": "all numbers of sections and points around, all points and fields", "why_tests_cant": "index arithmetic for all numbers of sections and points", "anchors": ["trunk/SUAVE/Input_Output/VTK/save_fuselage_vtk.py: write_fuselage_data", "trunk/SUAVE/Input_Output/VTK/save_nacelle_vtk.py: write_nacelle_data", "trunk/SUAVE/Input_Output/VTK/save_prop_vtk.py: save_prop_vtk", "trunk/SUAVE/Input_Output/VTK/write_azimuthal_cell_values.py: write_azimuthal_cell_values"]}
{"id": "C285", "title": "Saved wings", "statement": "The file of a wing is accepted by a reader; each cell is a panel of that wing, carrying the lift of its strip and its own pressure.", "quantifier": "all lattices of wings with one or two halves and all numbers of panels", "why_tests_cant": "index arithmetic for all lattices", "anchors": ["trunk/SUAVE/Input_Output/VTK/save_wing_vtk.py: save_wing_vtk", "trunk/SUAVE/Input_Output/VTK/save_wing_vtk.py: write_wing_vtk"]}
{"id": "C286", "title": "Saved rotor wakes", "statement": "The file of a wake is accepted by a reader; each cell is a vortex ring carrying its circulation. The lines saved for a blade are the edges of its rings, each once, with the difference of the circulations of the rings beside it.", "quantifier": "all numbers of blades, rings and time steps, all circulations", "why_tests_cant": "index arithmetic for all numbers of blades, rings and steps", "anchors": ["trunk/SUAVE/Input_Output/VTK/save_prop_wake_vtk.py: save_prop_wake_vtk", "trunk/SUAVE/Input_Output/VTK/save_prop_wake_vtk.py: write_VD"]}
{"id": "C287", "title": "Saved vortices of a wing", "statement": "The file of the vortices of a surface is accepted by a reader; bound and trailing vortices join the right points, and at every corner as much circulation arrives as leaves.", "quantifier": "all numbers of panels along chord and span, all circulations", "why_tests_cant": "index arithmetic and sums for all lattices", "anchors": ["trunk/SUAVE/Input_Output/VTK/save_vortex_distribution_vtk.py: process_VD", "trunk/SUAVE/Input_Output/VTK/save_vortex_distribution_vtk.py: full_VD"]}
{"id": "C288", "title": "Saved vehicles", "statement": "Saving a vehicle writes each of its propellers, rotors, wings, fuselages and nacelles into a file of its own.", "quantifier": "all vehicles", "why_tests_cant": "all vehicles", "anchors": ["trunk/SUAVE/Input_Output/VTK/save_vehicle_vtk.py: save_vehicle_vtks"]}
{"id": "C289", "title": "Two levels of fidelity: the correction", "statement": "With regression models that reproduce their data the corrected model of the additive solver equals the high fidelity at every sampled point. A run returns a point it has evaluated, with the value of the high fidelity there, and no recorded design is better.", "quantifier": "all models of both fidelities, samples, regression models, optimizers and tolerances", "why_tests_cant": "all models, optimizers and numbers of iterations", "anchors": ["trunk/SUAVE/Optimization/Package_Setups/additive_setup.py: Additive_Solve", "trunk/SUAVE/Optimization/Package_Setups/additive_setup.py: evaluate_corrected_model"]}
{"id": "C290", "title": "Two levels of fidelity: the problem posed", "statement": "The additive solver poses the constraints and bounds of the table of the problem, written as for the other set-ups, to its optimizer.", "quantifier": "all rows of constraints and inputs, all points", "why_tests_cant": "all bounds, scales and units", "anchors": ["trunk/SUAVE/Optimization/Package_Setups/additive_setup.py: unpack_constraints_slsqp", "trunk/SUAVE/Optimization/Package_Setups/additive_setup.py: initialize_opt_vals_SLSQP", "trunk/SUAVE/Optimization/Package_Setups/additive_setup.py: scale_vals"]}
{"id": "C291", "title": "Expected improvement", "statement": "The expected improvement is the mean of the improvement below the best value of a normally distributed objective; it is positive, exceeds the improvement of the prediction, grows as the prediction falls, and the search maximizes it.", "quantifier": "all best values, predictions and deviations above zero", "why_tests_cant": "integrals over the real line", "anchors": ["trunk/SUAVE/Optimization/Package_Setups/additive_setup.py: evaluate_expected_improvement"]}
{"id": "C292", "title": "Carpet and line plots of a problem", "statement": "The entries of a carpet or line plot are objective and constraints, in their units, at the input values of their row and column, other inputs unchanged; the values run from bound to bound and the problem is left as it was.", "quantifier": "all problems, numbers of points, pairs of inputs and base designs", "why_tests_cant": "all problems and numbers of points", "anchors": ["trunk/SUAVE/Optimization/carpet_plot.py: carpet_plot", "trunk/SUAVE/Optimization/line_plot.py: line_plot"]}
{"id": "C293", "title": "Optimization with surrogates", "statement": "The result is a design with its own objective, the optimum of the surrogate of the data before; a run ends early only when the next optimum is close; no sampled design is better.", "quantifier": "all objectives, surrogates, optimizers, tolerances and data", "why_tests_cant": "all objectives and optimizers", "anchors": ["trunk/SUAVE/Optimization/Surrogate_Optimization.py: iterative_optimization"]}
{"id": "C294", "title": "Accuracy of a surrogate by leaving one out", "statement": "The check fits the surrogate to all data but one point and compares its prediction there with the value of that point.", "quantifier": "all data, regression models and points left out", "why_tests_cant": "all data and models", "anchors": ["trunk/SUAVE/Surrogate/svr_surrogate_functions.py: check_svr_accuracy"]}
{"id": "C295", "title": "Where the sound of a propeller was emitted", "statement": "The retarded distance and angle are those of the point from which the sound heard now was emitted; the angle to the shaft is that between the shaft and the direction from there to the microphone.", "quantifier": "all subsonic Mach numbers, microphones off the axis and shaft angles", "why_tests_cant": "geometry over a continuum of positions and Mach numbers", "anchors": ["trunk/SUAVE/Methods/Noise/Fidelity_One/Propeller/compute_harmonic_noise.py: compute_harmonic_noise"]}
{"id": "C296", "title": "Tones of a propeller", "statement": "Levels of tones fall by twenty times the logarithm of the distance, are no less than that of the summed pressures, use the transforms of thickness and load over the chord, and do not depend on the unit of length.", "quantifier": "all rotors, stations, loads, harmonics and microphones", "why_tests_cant": "complex integrals over a continuum of rotors and positions", "anchors": ["trunk/SUAVE/Methods/Noise/Fidelity_One/Propeller/compute_harmonic_noise.py: compute_harmonic_noise"]}
{"id": "C297", "title": "Positions of the sources of a rotor", "statement": "The position used for a rotor is the vector from its hub to the microphone; blade sections have their own distance, the same for tones and broadband noise.", "quantifier": "all attitudes, origins, microphones, radii and azimuths", "why_tests_cant": "rotations over a continuum", "anchors": ["trunk/SUAVE/Methods/Noise/Fidelity_One/Propeller/compute_source_coordinates.py: compute_point_source_coordinates", "trunk/SUAVE/Methods/Noise/Fidelity_One/Propeller/compute_source_coordinates.py: compute_blade_section_source_coordinates"]}
{"id": "C298", "title": "Broadband noise of a propeller", "statement": "The widths of the sections sum to the blade; values around the disc are averaged over a turn; the boundary layer of a section is in metres, whether the flow is declared uniform or not; the density is in proportion to the number of blades.", "quantifier": "all stations, azimuths, chords and boundary layers", "why_tests_cant": "sums over any number of stations", "anchors": ["trunk/SUAVE/Methods/Noise/Fidelity_One/Propeller/compute_broadband_noise.py: compute_broadband_noise"]}
{"id": "C299", "title": "Level of a propeller", "statement": "The level of a band is that of the energies of tones and broadband noise together; a rotor at rest is silent.", "quantifier": "all levels and numbers of rotors", "why_tests_cant": "logarithms over a continuum of levels", "anchors": ["trunk/SUAVE/Methods/Noise/Fidelity_One/Propeller/propeller_mid_fidelity.py: propeller_mid_fidelity"]}
{"id": "C300", "title": "Where a jet seems to radiate from", "statement": "The angle found for each of the three jets is the direction of the microphone seen from a point downstream of the nozzle that the jet's own position formula gives for that angle, to within a two hundredth of a diameter; the search ends for every microphone.", "quantifier": "all microphones off the jet axis, engines, flight conditions and angles left by the step before", "why_tests_cant": "termination of a loop over real numbers for every start", "anchors": ["trunk/SUAVE/Methods/Noise/Fidelity_One/Engine/noise_source_location.py: noise_source_location"]}
{"id": "C301", "title": "The mixed jet", "statement": "The mixed stream carries the mass, momentum and stagnation enthalpy of core and fan streams, with speed and temperature in between; densities are those of the gas at its static pressure and temperature.", "quantifier": "all streams with positive flow and static temperature", "why_tests_cant": "conservation laws over a continuum of states", "anchors": ["trunk/SUAVE/Methods/Noise/Fidelity_One/Engine/noise_SAE.py: noise_SAE"]}
{"id": "C302", "title": "Jet noise falls with distance", "statement": "For given source angles every band of every jet falls by twenty times the logarithm of the distance, and by the absorption of the air.", "quantifier": "all engines, conditions, bands and distances", "why_tests_cant": "regressions over a continuum of inputs, all bands and steps", "anchors": ["trunk/SUAVE/Methods/Noise/Fidelity_One/Engine/noise_SAE.py: noise_SAE", "trunk/SUAVE/Methods/Noise/Fidelity_One/Engine/primary_noise_component.py: primary_noise_component", "trunk/SUAVE/Methods/Noise/Fidelity_One/Engine/secondary_noise_component.py: secondary_noise_component", "trunk/SUAVE/Methods/Noise/Fidelity_One/Engine/mixed_noise_component.py: mixed_noise_component"]}
{"id": "C303", "title": "Total jet noise at each step", "statement": "The total of a band has the energy of its three jets; excitation never shortens the source region to nothing; the bypass correction is limited to its range; every step uses the flight speed at that step.", "quantifier": "all levels, Strouhal numbers, bypass ratios and segments", "why_tests_cant": "continuum of inputs and segments of any length", "anchors": ["trunk/SUAVE/Methods/Noise/Fidelity_One/Engine/noise_SAE.py: noise_SAE"]}
{"id": "C304", "title": "Installation effects of a jet", "statement": "No incidence, no plug, no effect; the ground adds a bounded amount that dies out with height; the wing adds at most 2.5 dB, dying out with the distance between engine and wing.", "quantifier": "all angles, speeds, heights and positions", "why_tests_cant": "limits and bounds over a continuum", "anchors": ["trunk/SUAVE/Methods/Noise/Fidelity_One/Engine/angle_of_attack_effect.py: angle_of_attack_effect", "trunk/SUAVE/Methods/Noise/Fidelity_One/Engine/external_plug_effect.py: external_plug_effect", "trunk/SUAVE/Methods/Noise/Fidelity_One/Engine/ground_proximity_effect.py: ground_proximity_effect", "trunk/SUAVE/Methods/Noise/Fidelity_One/Engine/jet_installation_effect.py: jet_installation_effect"]}
{"id": "C305", "title": "Jet noise of similar engines", "statement": "An engine with all lengths multiplied, heard at the distance multiplied alike, has the same source angles and, but for the absorption of the air, the same levels at the frequency divided alike.", "quantifier": "all engines, factors, frequencies and conditions", "why_tests_cant": "a symmetry relating pairs of runs over a continuum", "anchors": ["trunk/SUAVE/Methods/Noise/Fidelity_One/Engine/noise_SAE.py: noise_SAE", "trunk/SUAVE/Methods/Noise/Fidelity_One/Engine/mixed_noise_component.py: mixed_noise_component", "trunk/SUAVE/Methods/Noise/Fidelity_One/Engine/noise_source_location.py: noise_source_location"]}
{"id": "C306", "title": "The wing handed to AVL is the wing of the vehicle", "statement": "A wing is exported as a chain of sections, one for each segment (root and tip without segments) with its chord and twist; each lies outboard of the one before by the span of the panel, higher by the tangent of the dihedral and behind by the sweep, and a quarter chord sweep is that of the exported quarter chord line; the result does not depend on whether the wing is given with or without segments.", "quantifier": "all wings, symmetric or not, horizontal or vertical, any number of segments and any angles", "why_tests_cant": "continuum of planforms; wrong geometry only shows as slightly wrong coefficients", "anchors": ["trunk/SUAVE/Methods/Aerodynamics/AVL/create_avl_datastructure.py: populate_wing_sections"]}
{"id": "C307", "title": "Control surfaces handed to AVL", "statement": "A wing is cut exactly at the edges of its control surfaces; each cut lies on the wing with the chord and twist there; a control surface covers the span between its edges, with its hinge, sign and deflection.", "quantifier": "all wings and lists of control surfaces", "why_tests_cant": "any number and overlap of surfaces and segments; AVL silently ignores surfaces that do not span two sections", "anchors": ["trunk/SUAVE/Methods/Aerodynamics/AVL/create_avl_datastructure.py: append_avl_wing_control_surfaces"]}
{"id": "C308", "title": "Every wing can be exported to AVL", "statement": "Creating the sections of a wing never fails.", "quantifier": "all wings, segments and control surfaces", "why_tests_cant": "failure depends on where control surfaces begin", "anchors": ["trunk/SUAVE/Methods/Aerodynamics/AVL/create_avl_datastructure.py: populate_wing_sections, append_avl_wing_control_surfaces"]}
{"id": "C309", "title": "The fuselage handed to AVL stays inside the fuselage", "statement": "A fuselage is exported as eleven sections across its width and eleven across its height, mirror images about the middle one, inside its length and width, the middle one of the full length and the others shorter towards the side.", "quantifier": "all bodies with a nose and a tail no longer than the body", "why_tests_cant": "real powers with an exponent interpolated from the fineness", "anchors": ["trunk/SUAVE/Methods/Aerodynamics/AVL/create_avl_datastructure.py: populate_body_sections"]}
{"id": "C310", "title": "AVL is run at the requested condition", "statement": "For each condition AVL is told the angle of attack in degrees or the lift coefficient, the sideslip in degrees, the rates, the Mach number and the speed that were asked for, to four decimals, for trimmed and untrimmed aircraft.", "quantifier": "all conditions", "why_tests_cant": "the effect is split over two generated files read by an external program", "anchors": ["trunk/SUAVE/Methods/Aerodynamics/AVL/translate_data.py: translate_conditions_to_cases", "trunk/SUAVE/Methods/Aerodynamics/AVL/write_run_cases.py: write_run_cases", "trunk/SUAVE/Methods/Aerodynamics/AVL/write_input_deck.py: make_case_command"]}
{"id": "C311", "title": "AVL is given the mass of the aircraft", "statement": "The mass file holds the mass of the vehicle whenever one is specified and the export fails when none is.", "quantifier": "all masses", "why_tests_cant": "the four cases of two masses given or not are not all exercised", "anchors": ["trunk/SUAVE/Methods/Aerodynamics/AVL/write_mass_file.py: write_mass_file"]}
{"id": "C312", "title": "Deflections reach the control surface they are meant for", "statement": "The deflection that the deck gives to AVL's control variable number k is that of the surface to which AVL gives the number k, which is its place in the order of first mention in the geometry file.", "quantifier": "all wings, orders and positions of control surfaces", "why_tests_cant": "depends on two orders, one by list and one by position along the span", "anchors": ["trunk/SUAVE/Methods/Aerodynamics/AVL/write_input_deck.py: control_surface_deflection_command", "trunk/SUAVE/Methods/Aerodynamics/AVL/write_geometry.py: make_surface_text", "trunk/SUAVE/Methods/Aerodynamics/AVL/create_avl_datastructure.py: append_avl_wing_control_surfaces"]}
{"id": "C313", "title": "Results of AVL come back in order", "statement": "Row i of the results is the case of the i-th angle of attack, in each batch; the lift coefficients of the wings add up to that of the aircraft.", "quantifier": "all numbers of cases and batches, all results", "why_tests_cant": "tags are built and cut as text; needs all numbers of cases", "anchors": ["trunk/SUAVE/Methods/Aerodynamics/AVL/translate_data.py: translate_results_to_conditions", "trunk/SUAVE/Analyses/Aerodynamics/AVL_Inviscid.py: evaluate"]}
{"id": "C314", "title": "Stability training data survive being saved; one static margin", "statement": "Training data of the stability analysis written to a file and read back are the same data, and the analysis reports for each condition one static margin, the distance of the neutral point behind the centre of gravity over the mean chord.", "quantifier": "all training data and centres of gravity", "why_tests_cant": "round trip over all values; the shape of the result depends on broadcasting", "anchors": ["trunk/SUAVE/Analyses/Stability/AVL.py: sample_training, __call__"]}
{"id": "C315", "title": "Wings survive a round trip through OpenVSP", "statement": "A wing written to OpenVSP and read back has, segment by segment, the span location, chord, twist, thickness, sweep and dihedral it had.", "quantifier": "all wings, horizontal and vertical, with any number of segments", "why_tests_cant": "round trip over all shapes through an external program", "anchors": ["trunk/SUAVE/Input_Output/OpenVSP/vsp_wing.py: write_vsp_wing, read_vsp_wing"]}
{"id": "C316", "title": "Control surfaces survive a round trip through OpenVSP", "statement": "A control surface written to OpenVSP and read back covers the part of the span it covered; surfaces in the end caps are rejected.", "quantifier": "all sequences of wing breaks and all ranges of the span", "why_tests_cant": "needs all breaks and positions; the failures are at the very ends", "anchors": ["trunk/SUAVE/Input_Output/OpenVSP/vsp_wing.py: write_vsp_control_surface, read_vsp_wing"]}
{"id": "C317", "title": "Wing tanks are trimmed where they were asked for", "statement": "The start and end of a tank in a wing are sent to the same fraction of the same panel of the OpenVSP wing, in order, and every tank inside the wing is written.", "quantifier": "all wing breaks and tank positions", "why_tests_cant": "needs all breaks; the failures are at the tip and for vehicles with a fuselage", "anchors": ["trunk/SUAVE/Input_Output/OpenVSP/vsp_wing.py: get_vsp_trim_from_SUAVE_trim, write_wing_conformal_fuel_tank"]}
{"id": "C318", "title": "Sweeps are converted between chord lines", "statement": "The sweep of one chord line of a trapezoidal wing is converted into that of another; converting in steps or back is consistent, and on a tapered wing the sweep falls with the chord fraction.", "quantifier": "all sweeps, chord fractions, aspect ratios and tapers", "why_tests_cant": "an identity over the reals", "anchors": ["trunk/SUAVE/Input_Output/OpenVSP/vsp_wing.py: convert_sweep"]}
{"id": "C319", "title": "Heights and lengths of an imported fuselage", "statement": "The height of an imported fuselage at a fraction of its length lies on the line between the sections around it, and the lengths of its segments add up to its length.", "quantifier": "all sequences of sections, all units", "why_tests_cant": "needs all positions of sections and all three units", "anchors": ["trunk/SUAVE/Input_Output/OpenVSP/vsp_fuselage.py: read_vsp_fuselage, get_fuselage_height"]}
{"id": "C320", "title": "Exported fuselages have the angles of their sections", "statement": "The angle that the exported fuselage is given at a section is the angle to the axis of the line between its neighbours.", "quantifier": "all sections", "why_tests_cant": "a statement about angles for all slopes", "anchors": ["trunk/SUAVE/Input_Output/OpenVSP/vsp_fuselage.py: set_section_angles"]}
{"id": "C321", "title": "Fuselage tanks are trimmed where they were asked for", "statement": "The search for the end of a fuselage tank terminates and finds the asked fraction of the fuselage length within a millimetre.", "quantifier": "all shapes of the fuselage, positions of its nose and fractions", "why_tests_cant": "termination for all surfaces", "anchors": ["trunk/SUAVE/Input_Output/OpenVSP/vsp_fuselage.py: find_fuse_u_coordinate, write_fuselage_conformal_fuel_tank"]}
{"id": "C322", "title": "Nose and tail of an imported fuselage", "statement": "An imported fuselage has a nose and a tail of at most half its length; the nose ends where the sections stop growing and the tail begins where they start to shrink.", "quantifier": "all sequences of sections", "why_tests_cant": "needs all numbers, positions and sizes of sections", "anchors": ["trunk/SUAVE/Input_Output/OpenVSP/vsp_fuselage.py: compute_fuselage_fineness"]}
{"id": "C323", "title": "Nacelles survive a round trip through OpenVSP", "statement": "A nacelle written to OpenVSP and read back has its diameters, length, cowling airfoil, cowling angle and segments.", "quantifier": "all nacelles, closed and open, with and without segments", "why_tests_cant": "round trip over all shapes through an external program", "anchors": ["trunk/SUAVE/Input_Output/OpenVSP/vsp_nacelle.py: write_vsp_nacelle, read_vsp_nacelle"]}
{"id": "C324", "title": "Propellers survive a round trip through OpenVSP", "statement": "A blade station written to OpenVSP and read back has its radius, chord, twist, thickness and mid chord offset, in all units.", "quantifier": "all blade stations and units", "why_tests_cant": "round trip over all shapes through an external program", "anchors": ["trunk/SUAVE/Input_Output/OpenVSP/vsp_propeller.py: make_section_text, read_vsp_propeller"]}
{"id": "C325", "title": "The atmosphere of constant temperature", "statement": "At every altitude the atmosphere of constant temperature has the temperature asked for, the density of an ideal gas and a pressure that falls with altitude by the law of an isothermal atmosphere; a mission can use it.", "quantifier": "all altitudes and temperatures", "why_tests_cant": "a continuum of altitudes; the failures are at the breaks of the table and in the way missions call it", "anchors": ["trunk/SUAVE/Analyses/Atmospheric/Constant_Temperature.py: compute_values", "trunk/SUAVE/Methods/Missions/Segments/Common/Aerodynamics.py: update_atmosphere"]}
{"id": "C326", "title": "Constant Mach and constant dynamic pressure climbs at a constant angle", "statement": "A converged climb at constant Mach number or dynamic pressure and constant angle satisfies the equations of motion, goes from the start altitude (that of the previous segment if none is given) to the end altitude, and has at every point the Mach number or dynamic pressure and the angle asked for.", "quantifier": "all atmospheres, angles, altitudes and numbers of control points", "why_tests_cant": "the altitudes are unknowns of a root finder; needs all grids", "anchors": ["trunk/SUAVE/Methods/Missions/Segments/Climb/Constant_Mach_Constant_Angle.py: initialize_conditions, residual_total_forces", "trunk/SUAVE/Methods/Missions/Segments/Climb/Constant_Dynamic_Pressure_Constant_Angle.py", "trunk/SUAVE/Methods/Missions/Segments/Climb/Optimized.py: update_differentials"]}
{"id": "C327", "title": "Initial state of a battery", "statement": "A segment starts with the battery energy given, with a state of charge equal to that energy over the capacity and at most one, the temperature given or that of the surrounding air, and a fresh battery where nothing is said about its age.", "quantifier": "all combinations of given and missing values", "why_tests_cant": "combinations of eight optional inputs", "anchors": ["trunk/SUAVE/Methods/Power/Battery/append_initial_battery_conditions.py: append_initial_battery_conditions"]}
{"id": "C328", "title": "Circulation shed into a rotor wake", "statement": "Each panel of the vortex wake of a rotor carries the circulation that the blade had at the azimuth where it shed the panel, for every blade, age of the panel and start angle.", "quantifier": "all rotors, numbers of blades and stations, speeds, start positions and time steps", "why_tests_cant": "needs all combinations of blades, azimuthal stations and speeds; a test has one rotor", "anchors": ["trunk/SUAVE/Methods/Propulsion/Rotor_Wake/Fidelity_One/generate_fidelity_one_wake_shape.py: generate_fidelity_one_wake_shape"]}
{"id": "C329", "title": "Blades of the vortex wake", "statement": "The wake starts from the trailing edges of the blades with their chord, twist, pitch and airfoil, the bound vortices lie at the quarter chord, all blades are alike and a rotor turning the other way leaves the mirror image.", "quantifier": "all blade shapes, twists, pitch commands, airfoils, blades and angles", "why_tests_cant": "a continuum of blade shapes and angles; a test compares total loads", "anchors": ["trunk/SUAVE/Methods/Propulsion/Rotor_Wake/Fidelity_One/generate_fidelity_one_wake_shape.py: generate_fidelity_one_wake_shape"]}
{"id": "C330", "title": "Drift of a rotor wake", "statement": "The wake is carried away by the air relative to the vehicle and by the induced velocity: aft in forward flight, and to the side and up or down as the air moves past the vehicle, whatever the sense of rotation.", "quantifier": "all velocities of the vehicle, induced velocities and ages", "why_tests_cant": "needs all flight directions; tests fly straight ahead", "anchors": ["trunk/SUAVE/Methods/Propulsion/Rotor_Wake/Fidelity_One/generate_fidelity_one_wake_shape.py: generate_fidelity_one_wake_shape"]}
{"id": "C331", "title": "Position and width of a rotor wake", "statement": "The wake of a rotor moved to another place is the same wake moved along, and at the blades it has the width of the disc.", "quantifier": "all positions of the rotor, induced velocities and ages", "why_tests_cant": "needs all positions of the rotor; a test has one vehicle", "anchors": ["trunk/SUAVE/Methods/Propulsion/Rotor_Wake/Fidelity_One/generate_fidelity_one_wake_shape.py: generate_fidelity_one_wake_shape", "trunk/SUAVE/Analyses/Propulsion/Rotor_Wake_Fidelity_One.py"]}
{"id": "C332", "title": "Velocity induced by a segment of the wake", "statement": "A vortex segment induces the velocity of the law of Biot and Savart, softened near its core: never stronger than without the core, bounded at any distance, with the same sense, unchanged far away, opposite for the opposite segment and independent of place and orientation.", "quantifier": "all segments, points and core sizes", "why_tests_cant": "a continuum of positions with a singularity; orientation is never varied in a test", "anchors": ["trunk/SUAVE/Methods/Propulsion/Rotor_Wake/Fidelity_One/compute_wake_induced_velocity.py: vortex, regularization_kernel"]}
{"id": "C333", "title": "The wake as a lattice of filaments", "statement": "The rings of a wake together induce what filaments with the differences of circulation between neighbouring panels induce, without bound vortices at the blades, and in the sense of the rotation of the rotor.", "quantifier": "all wakes, circulations and points", "why_tests_cant": "a sum over all panels of every wake", "anchors": ["trunk/SUAVE/Methods/Propulsion/Rotor_Wake/Fidelity_One/compute_wake_induced_velocity.py: compute_wake_induced_velocity, compute_vortex_ring", "trunk/SUAVE/Methods/Propulsion/Rotor_Wake/Fidelity_One/generate_fidelity_one_wake_shape.py"]}
{"id": "C334", "title": "Induced velocity at the blades", "statement": "The axial and tangential velocity at a blade are the components of the wake velocity along the axis and along the motion of that blade at its azimuth, and are interpolated from the middles of the stations to the stations.", "quantifier": "all rotors, senses of rotation, azimuths, start offsets and stations", "why_tests_cant": "needs all azimuths and radial grids; the start offset is zero in tests", "anchors": ["trunk/SUAVE/Methods/Propulsion/Rotor_Wake/Fidelity_One/compute_fidelity_one_inflow_velocities.py: compute_fidelity_one_inflow_velocities"]}
{"id": "C335", "title": "Convergence of the wake shape", "statement": "The iteration on the wake shape stops at the first turn that changes the disc velocities by no more than the tolerance or after the allowed number of turns; the velocities returned are those of the last turn, and a fully prescribed wake takes one turn.", "quantifier": "all wake models, tolerances and limits", "why_tests_cant": "termination and stopping condition of a loop over any map", "anchors": ["trunk/SUAVE/Methods/Propulsion/Rotor_Wake/Fidelity_One/fidelity_one_wake_convergence.py: fidelity_one_wake_convergence"]}
{"id": "C336", "title": "Wakes of identical rotors", "statement": "With identical rotors the wake of one is copied to the others: every coordinate is moved once by the distance of the rotors, the circulation is kept, and the copied wake is the one that the other rotor would have made.", "quantifier": "all rotor positions and wakes", "why_tests_cant": "depends on memory shared between arrays and on all positions", "anchors": ["trunk/SUAVE/Analyses/Propulsion/Rotor_Wake_Fidelity_One.py: shift_wake_VD", "trunk/SUAVE/Components/Energy/Networks/Battery_Propeller.py: evaluate_thrust", "trunk/SUAVE/Components/Energy/Networks/Lift_Cruise.py: evaluate_thrust"]}
{"id": "C337", "title": "Slipstream of a vortex wake over a wing", "statement": "The wake of a rotor acts on the panels of the wing asked for (or of the last main wing) and on no other panel of the vehicle, whatever wings there are.", "quantifier": "all vehicles, symmetric and unsymmetric wings in any order", "why_tests_cant": "index arithmetic over all lists of wings; tests have one layout", "anchors": ["trunk/SUAVE/Analyses/Propulsion/Rotor_Wake_Fidelity_One.py: evaluate_slipstream", "trunk/SUAVE/Methods/Aerodynamics/Common/Fidelity_Zero/Lift/extract_wing_VD.py: extract_wing_collocation_points"]}
{"id": "C338", "title": "External inflow of a rotor", "statement": "An inflow given on any number of azimuthal stations is interpolated to the stations of the rotor: the result lies between neighbouring values and a linear inflow is reproduced.", "quantifier": "all numbers of stations and inflows", "why_tests_cant": "needs all pairs of numbers of stations; a test has one", "anchors": ["trunk/SUAVE/Analyses/Propulsion/Rotor_Wake_Fidelity_Two.py: evaluate"]}
{"id": "C339", "title": "Design thrust and flow of a ducted fan", "statement": "A ducted fan sized for a thrust delivers it at the design point at full throttle, in proportion to the throttle and without burning fuel; away from the design point it swallows the same corrected mass flow, and its thrust is proportional to the number of engines.", "quantifier": "all fans, design points, flight conditions and throttles", "why_tests_cant": "needs all fan parameters and conditions; tests compare stored numbers at one point", "anchors": ["trunk/SUAVE/Components/Energy/Networks/Ducted_Fan.py: evaluate_thrust, size", "trunk/SUAVE/Components/Energy/Processes/Thrust.py: compute, size", "trunk/SUAVE/Methods/Propulsion/ducted_fan_sizing.py"]}
{"id": "C340", "title": "Power of a ducted fan", "statement": "The power that a ducted fan reports is the kinetic energy given to the air per time, so it exceeds the thrust times the speed by the energy left in the wake; the networks that drive the fan electrically supply at least this power.", "quantifier": "all fans with a nozzle expanding to ambient pressure, conditions and throttles", "why_tests_cant": "energy balance over all conditions; the static limit is not tested", "anchors": ["trunk/SUAVE/Components/Energy/Networks/Ducted_Fan.py: evaluate_thrust", "trunk/SUAVE/Components/Energy/Networks/Turboelectric_HTS_Dynamo_Ducted_Fan.py: evaluate_thrust"]}
{"id": "C341", "title": "Calls of the engine sizing functions", "statement": "A sizing function takes either a Mach number and an altitude or a set of conditions, raises if neither is given, sizes the engine there and leaves the sea level static thrust of one engine.", "quantifier": "all engines, design points and combinations of arguments", "why_tests_cant": "all combinations of optional arguments; tests pass Mach number and altitude", "anchors": ["trunk/SUAVE/Methods/Propulsion/ducted_fan_sizing.py", "trunk/SUAVE/Methods/Propulsion/turbojet_sizing.py", "trunk/SUAVE/Methods/Propulsion/turbofan_sizing.py", "trunk/SUAVE/Methods/Propulsion/ramjet_sizing.py", "trunk/SUAVE/Methods/Propulsion/scramjet_sizing.py", "trunk/SUAVE/Methods/Propulsion/liquid_rocket_sizing.py", "trunk/SUAVE/Methods/Propulsion/serial_HTS_turboelectric_sizing.py", "trunk/SUAVE/Methods/Propulsion/serial_HTS_dynamo_turboelectric_sizing.py"]}
{"id": "C342", "title": "Design thrust of turbojets and ramjets", "statement": "A sized turbojet or ramjet delivers the design thrust at the design point; with an engine out the remaining engines deliver their share at full throttle and the throttle is put back.", "quantifier": "all engines, with and without afterburner, conditions and numbers of engines", "why_tests_cant": "needs all engine parameters; tests compare one engine with stored numbers", "anchors": ["trunk/SUAVE/Components/Energy/Networks/Turbojet_Super.py: evaluate_thrust, size, engine_out", "trunk/SUAVE/Components/Energy/Networks/Ramjet.py: evaluate_thrust, size"]}
{"id": "C343", "title": "Ratings of a superconducting drive with dynamos", "statement": "The supplies sized for such a drive can feed the shafts and rotors of all motors with all losses in between, the cooler being counted unless the cooling is by boiling cryogen only; at the design point the network asks for no more than that.", "quantifier": "all efficiencies, component models, numbers of engines and supplies", "why_tests_cant": "compares two functions over all component models; a test runs one aircraft", "anchors": ["trunk/SUAVE/Methods/Propulsion/serial_HTS_dynamo_turboelectric_sizing.py", "trunk/SUAVE/Components/Energy/Networks/Turboelectric_HTS_Dynamo_Ducted_Fan.py: evaluate_thrust"]}
{"id": "C344", "title": "State after converging a segment", "statement": "After a segment has converged its unknowns, conditions and residuals belong together, the residuals are those of the solution found by the root finder, and a failure of the root finder is recorded.", "quantifier": "all segments, root finders and sequences of trial points", "why_tests_cant": "depends on the order in which the root finder tries points; tests only see the usual order", "anchors": ["trunk/SUAVE/Methods/Missions/Segments/converge_root.py: converge_root, iterate"]}
{"id": "C345", "title": "Single point segments", "statement": "A single point is placed at the given altitude (or that of the previous segment, and raises without either) with the given speed; zero residuals mean that the forces balance in the vertical plane with the given acceleration, also without propulsion and with a given throttle.", "quantifier": "all speeds, altitudes, accelerations, masses and forces", "why_tests_cant": "a balance for all forces; tests compare stored solutions", "anchors": ["trunk/SUAVE/Methods/Missions/Segments/Single_Point/Set_Speed_Set_Altitude.py", "trunk/SUAVE/Methods/Missions/Segments/Single_Point/Set_Speed_Set_Altitude_No_Propulsion.py", "trunk/SUAVE/Methods/Missions/Segments/Single_Point/Set_Speed_Set_Throttle.py", "trunk/SUAVE/Methods/Missions/Segments/Climb/Common.py: residual_total_forces", "trunk/SUAVE/Methods/Missions/Segments/Common/Frames.py: initialize_inertial_position, update_forces"]}
{"id": "C346", "title": "Totals of the mission report", "statement": "The totals that the mission report prints are the sums of its rows: fuel burnt, range and time; the clock shows the whole time, additional fuel is counted once, and an unknown system of units raises.", "quantifier": "all missions of joined segments", "why_tests_cant": "sums over any mission; tests do not read the report", "anchors": ["trunk/SUAVE/Input_Output/Results/print_mission_breakdown.py: print_mission_breakdown"]}
{"id": "C347", "title": "Calibrated airspeed of the mission report", "statement": "The calibrated airspeed grows with Mach number and pressure, equals the true airspeed at sea level, and is never below the equivalent airspeed.", "quantifier": "all subsonic and moderately supersonic Mach numbers and pressures up to sea level pressure", "why_tests_cant": "inequality between transcendental expressions over a continuum", "anchors": ["trunk/SUAVE/Input_Output/Results/print_mission_breakdown.py: print_mission_breakdown"]}
{"id": "C348", "title": "Engine data report", "statement": "The sea level and design rows of the engine data report are the thrust and consumption of the network at the stated condition, per engine.", "quantifier": "all networks and atmospheres", "why_tests_cant": "depends on which conditions a network reads; tests do not read the report", "anchors": ["trunk/SUAVE/Input_Output/Results/print_engine_data.py: print_engine_data"]}
{"id": "C349", "title": "Parasite drag report", "statement": "The rows of the parasite drag report add up to its total, and total and rows are those of the analysis of the vehicle that was given.", "quantifier": "all vehicles, settings and breakdowns", "why_tests_cant": "over all settings and numbers of parts; tests do not read the report", "anchors": ["trunk/SUAVE/Input_Output/Results/print_parasite_drag.py: print_parasite_drag"]}
{"id": "C350", "title": "Sum of noise levels at certification points", "statement": "Airframe and engine together, and climb and cutback together, are at least as loud as the louder of the two and by at most 3.02 dB louder, in either order, growing with each; without the engine the level is that of the airframe.", "quantifier": "all levels", "why_tests_cant": "a continuum of levels; tests compare stored numbers", "anchors": ["trunk/SUAVE/Methods/Noise/Certification/flyover_noise.py: flyover_noise", "trunk/SUAVE/Methods/Noise/Fidelity_One/Noise_Tools/compute_noise.py: compute_noise"]}
{"id": "C351", "title": "Microphones of the certification points", "statement": "Flyover, sideline and approach noise of one vehicle may be computed in any order, each with its own microphone; the sideline microphone is abeam the point where the climb passes 304.8 m.", "quantifier": "all orders of calls and all climbs along a cubic", "why_tests_cant": "depends on the order of calls on shared settings; tests use one order", "anchors": ["trunk/SUAVE/Methods/Noise/Certification/flyover_noise.py: flyover_noise", "trunk/SUAVE/Methods/Noise/Certification/sideline_noise.py: sideline_noise", "trunk/SUAVE/Methods/Noise/Certification/approach_noise.py: approach_noise", "trunk/SUAVE/Methods/Noise/Fidelity_One/Noise_Tools/noise_geometric.py: noise_geometric"]}
{"id": "C352", "title": "Sampling of the trajectory for certification noise", "statement": "The trajectory for certification noise is sampled at intervals of at most half a second, with at most 200 points.", "quantifier": "all durations of segments", "why_tests_cant": "rounding for all durations; tests have one", "anchors": ["trunk/SUAVE/Methods/Noise/Certification/flyover_noise.py: flyover_noise", "trunk/SUAVE/Methods/Noise/Certification/sideline_noise.py: sideline_noise", "trunk/SUAVE/Methods/Noise/Certification/approach_noise.py: approach_noise"]}
{"id": "C353", "title": "Geometry file for the mesher", "statement": "The geometry file for the mesher has each surface of the key file in exactly one loop, one volume bounded by all loops with the far field outside, and groups for vehicle, far field and symmetry plane that hold the surfaces named so.", "quantifier": "all key files", "why_tests_cant": "over all lists of surface names; the mesher is external and not run in tests", "anchors": ["trunk/SUAVE/Input_Output/GMSH/write_geo_file.py: write_geo_file", "trunk/SUAVE/Input_Output/GMSH/write_geo_file.py: read_keys"]}
{"id": "C354", "title": "Coefficients from half and full meshes", "statement": "Lift and drag coefficients of the inviscid flow solver refer to the whole vehicle whether the mesh is half or full.", "quantifier": "all solvers, areas, angles and settings", "why_tests_cant": "settings are passed between several objects; tests do not run the solver", "anchors": ["trunk/SUAVE/Analyses/Aerodynamics/SU2_Euler.py: SU2_Euler", "trunk/SUAVE/Analyses/Aerodynamics/SU2_inviscid.py: call_SU2", "trunk/SUAVE/Input_Output/SU2/write_SU2_cfg.py: write_SU2_cfg"]}
{"id": "C355", "title": "Training tables of the flow solver", "statement": "The training table has a row for each pair of angle of attack and Mach number with the coefficients computed for it; saved and read again it is unchanged up to the printed digits; the surrogates return the table at its points, below and above Mach one.", "quantifier": "all solvers, training values and interpolating surrogates", "why_tests_cant": "over all tables and all interpolating models", "anchors": ["trunk/SUAVE/Analyses/Aerodynamics/SU2_inviscid.py: sample_training", "trunk/SUAVE/Analyses/Aerodynamics/SU2_inviscid_Super.py: sample_training", "trunk/SUAVE/Analyses/Aerodynamics/SU2_inviscid_Super.py: build_surrogate"]}
{"id": "C356", "title": "Stored wave drag", "statement": "Wave drag by slices is computed once for each Mach number, stored in a file and found there by any later evaluation; each value is that of the numbers of slices and rotations asked for; the compressibility drag with it is returned.", "quantifier": "all histories of evaluations over all Mach numbers", "why_tests_cant": "all histories of a file cache; the tool is external and not run in tests", "anchors": ["trunk/SUAVE/Methods/Aerodynamics/OpenVSP_Wave_Drag/wave_drag_volume.py: wave_drag_volume", "trunk/SUAVE/Methods/Aerodynamics/OpenVSP_Wave_Drag/compressibility_drag_total.py: compressibility_drag_total"]}
{"id": "C357", "title": "Fuel tank properties from OpenVSP", "statement": "Mass and volume of a fuel tank are the sums over its parts in the mass report and its centre of gravity is that of its parts together.", "quantifier": "all mass reports", "why_tests_cant": "over all lists of parts; tests do not run OpenVSP", "anchors": ["trunk/SUAVE/Input_Output/OpenVSP/get_fuel_tank_properties.py: get_fuel_tank_properties"]}
{"id": "C358", "title": "Tree of a vehicle as JSON", "statement": "The tree saved for display holds each entry of the data once under its parent with its name and text, and the data can be read back from it; the root has the tag of the data or the name given.", "quantifier": "all nested data", "why_tests_cant": "over all nested data; tests do not read the file", "anchors": ["trunk/SUAVE/Input_Output/D3JS/save_tree.py: save_tree"]}
{"id": "C359", "title": "Grid of points on a propeller disc", "statement": "For a rotor with two or more origins the grid about the second relative to the first holds only points on the disc (between hub and 99% of the radius for polar grids) and all of the requested points that lie on it; azimuths divide the turn evenly. With one origin it raises.", "quantifier": "all radii, origins and numbers of points", "why_tests_cant": "a continuum of radii and all numbers of points", "anchors": ["trunk/SUAVE/Methods/Aerodynamics/Common/Fidelity_Zero/Lift/generate_propeller_grid.py: generate_propeller_grid"]}
{"id": "C360", "title": "Rotor in the wake of another", "statement": "The inflow of a rotor in a wake is that wake at the radius and azimuth of each station: axial, tangential and radial parts have the magnitude and the sense used by the rotor, at all control points.", "quantifier": "all wakes, stations, senses of rotation and numbers of control points", "why_tests_cant": "sign conventions between files and all positions; tests compare stored numbers", "anchors": ["trunk/SUAVE/Methods/Aerodynamics/Common/Fidelity_Zero/Lift/compute_propeller_nonuniform_freestream.py: compute_propeller_nonuniform_freestream"]}
{"id": "C361", "title": "Battery cell cycler", "statement": "Cycling a cell gives no thrust and no fuel flow, and reports the current asked for, positive both ways. Discharging, the energy falls by what the avionics and the losses take; charging, it rises by what the charger gives less the losses, up to the capacity.", "quantifier": "all currents, voltages, states of the battery and numbers of control points; charging power above the losses", "why_tests_cant": "integrals over any number of control points and a continuum of states", "anchors": ["trunk/SUAVE/Components/Energy/Networks/Battery_Cell_Cycler.py: evaluate_thrust"]}
{"id": "C362", "title": "Mesh sources on wings", "statement": "Every wing gets a line source along leading and trailing edge of each panel, panel after panel without gaps, sized by its own settings or by one and twenty per cent of the chords at its ends, and one along the tip chord, whatever wings were meshed before.", "quantifier": "all wings, segments and settings, after any others", "why_tests_cant": "a variable is kept between wings; all numbers of segments; tests do not run OpenVSP", "anchors": ["trunk/SUAVE/Input_Output/OpenVSP/write_vsp_mesh.py: set_sources", "trunk/SUAVE/Input_Output/OpenVSP/write_vsp_mesh.py: add_segment_sources"]}
{"id": "C363", "title": "Wetted areas read from OpenVSP", "statement": "The measurement of a component is the sum over its lines in the first block of the file; the wetted areas of the components read add up to the area measured.", "quantifier": "all files of measurements and lists of geometries", "why_tests_cant": "over all files; tests do not run OpenVSP", "anchors": ["trunk/SUAVE/Input_Output/OpenVSP/get_vsp_measurements.py: get_vsp_measurements", "trunk/SUAVE/Input_Output/OpenVSP/vsp_read.py: vsp_read"]}
{"id": "C364", "title": "Rotors read from OpenVSP", "statement": "The network of a vehicle read from OpenVSP has each rotor of the aircraft once, mirrored ones on both sides, with the numbers of engines; rotors turned up by 70 degrees or more lift. Without a given network it is of the lift and cruise kind exactly when there are both kinds of rotors.", "quantifier": "all lists of rotors and given networks", "why_tests_cant": "over all lists of rotors; tests do not run OpenVSP", "anchors": ["trunk/SUAVE/Input_Output/OpenVSP/vsp_read.py: vsp_read"]}
{"id": "C365", "title": "Vehicle written to OpenVSP", "statement": "Each wing, nacelle and fuselage of the vehicle is written to the model once, with or without messages.", "quantifier": "all vehicles and both settings of messages", "why_tests_cant": "over all lists of components; tests do not run OpenVSP", "anchors": ["trunk/SUAVE/Input_Output/OpenVSP/vsp_write.py: write"]}
{"id": "C366", "title": "Mach slices", "statement": "The slicing planes touch the Mach cone turned by the angle of attack; a slice has the area seen along the x axis and the place where its plane cuts the x axis; only an empty last slice is left out.", "quantifier": "all Mach numbers from one, angles of attack and slices", "why_tests_cant": "trigonometric identities over a continuum; tests do not run OpenVSP", "anchors": ["trunk/SUAVE/Input_Output/OpenVSP/mach_slices.py: mach_slices"]}
{"id": "C367", "title": "Lift-to-drag ratio of the second segment", "statement": "The estimated lift-to-drag ratio of the second segment is that of the main wing, positive, grows with its aspect ratio and falls with the lift coefficient.", "quantifier": "all vehicles with one main wing anywhere in the list, all ratios of speeds and lift coefficients", "why_tests_cant": "monotonicity over a continuum and all lists of wings", "anchors": ["trunk/SUAVE/Methods/Aerodynamics/Common/Fidelity_Zero/Helper_Functions/estimate_2ndseg_lift_drag_ratio.py: estimate_2ndseg_lift_drag_ratio"]}
{"id": "C368", "title": "Table of a PyCycle engine", "statement": "The engine table holds each throttle at each flight condition once, with the thrust and consumption of the model there in SI units; from row to row only the condition or the throttle changes; altitudes are scaled to between zero and one.", "quantifier": "all engine models, throttles and flight conditions", "why_tests_cant": "over all numbers of conditions; tests do not run PyCycle", "anchors": ["trunk/SUAVE/Components/Energy/Networks/PyCycle.py: build_surrogate"]}
{"id": "C369", "title": "Centre of gravity with fuel", "statement": "The centre of gravity with fuel balances vehicle and fuel: it is that without fuel for no fuel, lies between the two, and moves towards the fuel with its mass.", "quantifier": "all masses and positions", "why_tests_cant": "a continuum of masses and positions", "anchors": ["trunk/SUAVE/Methods/Center_of_Gravity/compute_mission_center_of_gravity.py: compute_mission_center_of_gravity"]}
{"id": "C370", "title": "Files of evaluation points", "statement": "The file of evaluation points has each point once in order with its number and its tangential, axial and radial velocities, named by the time step.", "quantifier": "all lists of points and velocities", "why_tests_cant": "over all numbers of points; tests do not read the file", "anchors": ["trunk/SUAVE/Input_Output/VTK/save_evaluation_points_vtk.py: save_evaluation_points_vtk"]}
{"id": "C371", "title": "Nacelles as drawn", "statement": "A nacelle drawn or exported runs from its front to its length, round about its axis with the radius of its inlet at the ends and half its diameter in the middle; stations, if it has any, are where they were put with their width and height.", "quantifier": "all nacelles, numbers of points, stations and angles", "why_tests_cant": "a continuum of shapes; tests only draw", "anchors": ["trunk/SUAVE/Plots/Geometry/plot_vehicle.py: generate_nacelle_points", "trunk/SUAVE/Input_Output/VTK/save_nacelle_vtk.py: save_nacelle_vtk"]}
{"id": "C372", "title": "Blades as drawn", "statement": "Every blade of a rotor drawn or exported is the one before turned by an equal part of a full turn about the axis, with the chord, thickness and radius asked for; rotors that turn in opposite senses are drawn as mirror images.", "quantifier": "all rotors, blades, sections and points of the airfoil", "why_tests_cant": "a continuum of rotors and points; tests only draw", "anchors": ["trunk/SUAVE/Plots/Geometry/plot_vehicle.py: get_blade_coordinates", "trunk/SUAVE/Input_Output/VTK/save_prop_vtk.py: generate_propeller_points"]}
{"id": "C373", "title": "Fuel used over a mission", "statement": "The curves of fuel used show, at every point of the mission, what has been used of each fuel and of both since its start, without jumps between segments.", "quantifier": "all lists of segments and control points", "why_tests_cant": "over all missions; tests only draw", "anchors": ["trunk/SUAVE/Plots/Performance/Mission_Plots.py: plot_fuel_use"]}
{"id": "C374", "title": "Incidence of tilting rotors", "statement": "The incidence shown is the angle between the thrust and the flight path in the plane of symmetry, and the advance ratio the distance flown in one turn over the diameter.", "quantifier": "all thrusts, velocities, pitch angles, speeds and diameters", "why_tests_cant": "a continuum of conditions; tests only draw", "anchors": ["trunk/SUAVE/Plots/Performance/Mission_Plots.py: plot_tiltrotor_conditions"]}
{"id": "C375", "title": "C-rates shown", "statement": "The C-rate shown is one over the hours the battery would last; the nominal one refers to the one capacity of the pack and is not above the instantaneous one during discharge.", "quantifier": "all currents, voltages and energies", "why_tests_cant": "a continuum of conditions; tests only draw", "anchors": ["trunk/SUAVE/Plots/Performance/Mission_Plots.py: plot_battery_pack_conditions"]}
{"id": "C376", "title": "Derivatives read from AVL", "statement": "Every rate derivative in the results of AVL is that of the coefficient and the rate it is named after, all in the same axes; every strip of every surface is read from its own line and every control surface from its own columns.", "quantifier": "all contents of the files, numbers of control surfaces, surfaces and strips", "why_tests_cant": "over all files; tests do not run AVL", "anchors": ["trunk/SUAVE/Methods/Aerodynamics/AVL/read_results.py: read_results"]}
{"id": "C377", "title": "Airfoils written for AVL", "statement": "The airfoil written for AVL has all points of the airfoil in order, in a file of its own.", "quantifier": "all airfoils and names", "why_tests_cant": "over all numbers of points and names; tests do not run AVL", "anchors": ["trunk/SUAVE/Methods/Aerodynamics/AVL/write_avl_airfoil_file.py: write_avl_airfoil_file"]}
{"id": "C378", "title": "Weight breakdown as printed", "statement": "The printed weight breakdown has every item of a group but its total once, in order, rounded to the nearest kilogram behind its name, and the items add up to the total.", "quantifier": "all groups of items, names and masses", "why_tests_cant": "over all masses; tests do not read the file", "anchors": ["trunk/SUAVE/Input_Output/Results/print_weights.py: print_weight_breakdown"]}
{"id": "C379", "title": "Compressibility drag as printed", "statement": "The tables of compressibility drag hold the drag of every wing at every Mach number and lift coefficient, and the total table their sum.", "quantifier": "all drag analyses, wings and lift coefficients", "why_tests_cant": "over all analyses; tests do not read the file", "anchors": ["trunk/SUAVE/Input_Output/Results/print_compress_drag.py: print_compress_drag"]}
{"id": "C380", "title": "Cell voltage within the measurements", "statement": "The voltage of an NMC cell lies between the lowest and the highest voltage measured, is the measured one at every measured state, and beyond the measured range of charge, temperature or current is that at the limit of the range.", "quantifier": "all measured discharge curves, states of charge, temperatures and currents", "why_tests_cant": "a continuum of states between the measured ones", "anchors": ["trunk/SUAVE/Components/Energy/Storages/Batteries/Constant_Mass/Lithium_Ion_LiNiMnCoO2_18650.py: compute_voltage, create_response_surface, process_raw_data", "trunk/SUAVE/Methods/Power/Battery/Cell_Cycle_Models/LiNiMnCoO2_cell_cycle_model.py: compute_NMC_cell_state_variables"]}
{"id": "C381", "title": "Reading the voltage changes nothing", "statement": "Asking a battery for its voltage leaves the conditions of the mission as they are.", "quantifier": "all batteries and conditions", "why_tests_cant": "over all conditions; tests look at the value returned", "anchors": ["trunk/SUAVE/Components/Energy/Storages/Batteries/Constant_Mass/Lithium_Ion_LiNiMnCoO2_18650.py: compute_voltage", "trunk/SUAVE/Methods/Power/Battery/Cell_Cycle_Models/LiNiMnCoO2_cell_cycle_model.py: compute_NMC_cell_state_variables"]}
{"id": "C382", "title": "Charge through a cell", "statement": "The charge throughput of a cell grows over a segment by the charge that went through the cell, in whichever direction.", "quantifier": "all currents and times of a segment", "why_tests_cant": "over all histories of the current", "anchors": ["trunk/SUAVE/Components/Energy/Storages/Batteries/Constant_Mass/Lithium_Ion_LiNiMnCoO2_18650.py: energy_calc", "trunk/SUAVE/Methods/Power/Battery/Cell_Cycle_Models/LiNiMnCoO2_cell_cycle_model.py: compute_NMC_cell_state_variables"]}
{"id": "C383", "title": "Electrical state of an NMC pack", "statement": "The voltages, currents and powers reported for pack and cell agree with each other and with the current drawn; an empty battery has no voltage under load, and an aged one loses more in its resistance.", "quantifier": "all currents, energies, temperatures and numbers of cells", "why_tests_cant": "over all histories; tests fly a few missions", "anchors": ["trunk/SUAVE/Components/Energy/Storages/Batteries/Constant_Mass/Lithium_Ion_LiNiMnCoO2_18650.py: energy_calc"]}
{"id": "C384", "title": "Heat of an NMC cell", "statement": "The heat of a cell is that of its resistance plus that of the entropy, is not negative during discharge, and its fractions add up to one.", "quantifier": "all currents, states of charge and temperatures", "why_tests_cant": "a continuum of states", "anchors": ["trunk/SUAVE/Components/Energy/Storages/Batteries/Constant_Mass/Lithium_Ion_LiNiMnCoO2_18650.py: energy_calc"]}
{"id": "C385", "title": "Capacity of an aged battery", "statement": "The capacity of a battery after any number of flights and recharges is its initial capacity times the fraction its ageing model has left.", "quantifier": "all sequences of flights and recharges, all ageing factors", "why_tests_cant": "over all sequences of segments", "anchors": ["trunk/SUAVE/Methods/Missions/Segments/Common/Energy.py: initialize_battery", "trunk/SUAVE/Components/Energy/Storages/Batteries/Constant_Mass/Lithium_Ion.py: energy_calc", "trunk/SUAVE/Components/Energy/Storages/Batteries/Constant_Mass/Lithium_Ion_LiNiMnCoO2_18650.py: energy_calc", "trunk/SUAVE/Components/Energy/Networks/Battery_Propeller.py: evaluate_thrust"]}
{"id": "C386", "title": "Points of a panel", "statement": "The panels of a strip cover its chord one after the other; the vortex of each lies a quarter, its control line three quarters of the way from the front to the rear edge, and its middle points half way between the ends.", "quantifier": "all wings with sweep, dihedral, twist, camber, cuts and numbers of panels", "why_tests_cant": "over all geometries and every panel of them", "anchors": ["trunk/SUAVE/Methods/Aerodynamics/Common/Fidelity_Zero/Lift/generate_vortex_distribution.py: generate_wing_vortex_distribution"]}
{"id": "C387", "title": "Strips share their edges", "statement": "Two strips next to each other on a wing have the edge between them in common, so the lattice has no gaps.", "quantifier": "all wings with any number of segments and strips", "why_tests_cant": "over all geometries; tests look at coefficients", "anchors": ["trunk/SUAVE/Methods/Aerodynamics/Common/Fidelity_Zero/Lift/generate_vortex_distribution.py: generate_wing_vortex_distribution", "trunk/SUAVE/Methods/Aerodynamics/Common/Fidelity_Zero/Lift/make_VLM_wings.py: make_VLM_wings"]}
{"id": "C388", "title": "Halves of a symmetric wing", "statement": "The second half of a symmetric wing in the lattice is the mirror image of the first, panel by panel and point by point.", "quantifier": "all wings, control surfaces and numbers of panels", "why_tests_cant": "over all geometries", "anchors": ["trunk/SUAVE/Methods/Aerodynamics/Common/Fidelity_Zero/Lift/generate_vortex_distribution.py: generate_wing_vortex_distribution"]}
{"id": "C389", "title": "Mirror image of a fin", "statement": "The reflection of a fin in the plane of symmetry is its mirror image: every point of the one lies opposite a point of the other; reflecting twice gives the fin back, with its deflections.", "quantifier": "all fins with any number of segments", "why_tests_cant": "over all geometries", "anchors": ["trunk/SUAVE/Components/Wings/Vertical_Tail.py: make_x_z_reflection", "trunk/SUAVE/Components/Wings/Vertical_Tail_All_Moving.py: make_x_z_reflection", "trunk/SUAVE/Methods/Aerodynamics/Common/Fidelity_Zero/Lift/generate_vortex_distribution.py: generate_wing_vortex_distribution"]}
{"id": "C390", "title": "Breaks for control surfaces", "statement": "Dividing a wing at the ends of its control surfaces leaves its surface as it was: chord, twist, sweep, dihedral and camber are the same at every point.", "quantifier": "all sections and places of control surfaces within them", "why_tests_cant": "over all geometries", "anchors": ["trunk/SUAVE/Methods/Aerodynamics/Common/Fidelity_Zero/Lift/make_VLM_wings.py: make_VLM_wings, make_span_break_from_segment", "trunk/SUAVE/Methods/Aerodynamics/Common/Fidelity_Zero/Lift/generate_vortex_distribution.py: generate_wing_vortex_distribution"]}
{"id": "C391", "title": "Control surfaces fill their cuts", "statement": "A control surface that is not deflected fills exactly the part of the wing cut out for it.", "quantifier": "all wings and control surfaces at either edge, with sweep, dihedral, twist and camber", "why_tests_cant": "over all geometries; tests look at coefficients", "anchors": ["trunk/SUAVE/Methods/Aerodynamics/Common/Fidelity_Zero/Lift/make_VLM_wings.py: make_cs_wing_from_cs, make_VLM_wings", "trunk/SUAVE/Methods/Aerodynamics/Common/Fidelity_Zero/Lift/generate_vortex_distribution.py: generate_wing_vortex_distribution"]}
{"id": "C392", "title": "Force derivatives from lift, drag and weight", "statement": "The derivatives of the forces along the axes of the aircraft with angle of attack, speed, bank and heading are those of lift, drag and weight turned into these axes; the cross derivatives of roll and yaw are those of strip theory for an elliptic wing.", "quantifier": "all lift and drag curves, speeds, climb angles and wings", "why_tests_cant": "derivatives and integrals over all curves", "anchors": ["trunk/SUAVE/Methods/Flight_Dynamics/Dynamic_Stability/Full_Linearized_Equations/Supporting_Functions/cx_alpha.py: cx_alpha", "trunk/SUAVE/Methods/Flight_Dynamics/Dynamic_Stability/Full_Linearized_Equations/Supporting_Functions/cz_alpha.py: cz_alpha", "trunk/SUAVE/Methods/Flight_Dynamics/Dynamic_Stability/Full_Linearized_Equations/Supporting_Functions/cx_u.py: cx_u", "trunk/SUAVE/Methods/Flight_Dynamics/Dynamic_Stability/Full_Linearized_Equations/Supporting_Functions/cz_u.py: cz_u", "trunk/SUAVE/Methods/Flight_Dynamics/Dynamic_Stability/Full_Linearized_Equations/Supporting_Functions/cy_phi.py: cy_phi", "trunk/SUAVE/Methods/Flight_Dynamics/Dynamic_Stability/Full_Linearized_Equations/Supporting_Functions/cy_psi.py: cy_psi", "trunk/SUAVE/Methods/Flight_Dynamics/Dynamic_Stability/Full_Linearized_Equations/Supporting_Functions/cl_r.py: cl_r", "trunk/SUAVE/Methods/Flight_Dynamics/Dynamic_Stability/Full_Linearized_Equations/Supporting_Functions/cn_p.py: cn_p", "trunk/SUAVE/Methods/Flight_Dynamics/Dynamic_Stability/Full_Linearized_Equations/Supporting_Functions/cz_alphadot.py: cz_alphadot", "trunk/SUAVE/Methods/Flight_Dynamics/Dynamic_Stability/Full_Linearized_Equations/Supporting_Functions/cz_q.py: cz_q"]}
{"id": "C393", "title": "Books of the lattice agree", "statement": "The panels, strips and surfaces counted for a vehicle add up: the panels marked as belonging to a wing or control surface, or to its reflection, are exactly those of it, and every strip begins where the one before it ends.", "quantifier": "all vehicles with any number of wings, control surfaces, nacelles and fuselages of any size", "why_tests_cant": "over all vehicles; tests look at totals for a few", "anchors": ["trunk/SUAVE/Methods/Aerodynamics/Common/Fidelity_Zero/Lift/generate_vortex_distribution.py: generate_vortex_distribution, generate_wing_vortex_distribution, generate_fuselage_and_nacelle_vortex_distribution"]}
{"id": "C394", "title": "Sums over strips and surfaces", "statement": "The forces summed by strip and by surface add up to those of the vehicle; the lift coefficients of the surfaces, weighted with their areas, give that of the vehicle.", "quantifier": "all vehicles and all forces on their panels", "why_tests_cant": "over all layouts", "anchors": ["trunk/SUAVE/Methods/Aerodynamics/Common/Fidelity_Zero/Lift/VLM.py: VLM", "trunk/SUAVE/Methods/Aerodynamics/Common/Fidelity_Zero/Lift/generate_vortex_distribution.py: generate_vortex_distribution"]}
{"id": "C395", "title": "Values by strip", "statement": "A value known for each strip is given to all panels of that strip and to no others; the stations of lift along the span are those of wings and control surfaces only, whatever bodies there are.", "quantifier": "all vehicles and all values", "why_tests_cant": "over all layouts", "anchors": ["trunk/SUAVE/Methods/Aerodynamics/Common/Fidelity_Zero/Lift/VLM.py: VLM", "trunk/SUAVE/Methods/Aerodynamics/Common/Fidelity_Zero/Lift/generate_vortex_distribution.py: generate_vortex_distribution", "trunk/SUAVE/Methods/Aerodynamics/Common/Fidelity_Zero/Lift/generate_VD_helpers.py: postprocess_VD"]}
{"id": "C396", "title": "Flat plate of a fuselage", "statement": "A fuselage appears in the lattice as a flat plate whose panels cover it without gaps, as long as the fuselage along its axis, not longer elsewhere, and as wide as the fuselage.", "quantifier": "all fuselages with nose and tail, all numbers of panels", "why_tests_cant": "over all shapes and numbers of panels", "anchors": ["trunk/SUAVE/Methods/Aerodynamics/Common/Fidelity_Zero/Lift/generate_vortex_distribution.py: generate_fuselage_and_nacelle_vortex_distribution"]}
{"id": "C397", "title": "Flat plates of nacelles", "statement": "Each nacelle appears in the lattice as one flat plate at its own place, of its length and largest width.", "quantifier": "all nacelles, alone or in pairs", "why_tests_cant": "over all places and shapes", "anchors": ["trunk/SUAVE/Methods/Aerodynamics/Common/Fidelity_Zero/Lift/generate_vortex_distribution.py: generate_vortex_distribution, generate_fuselage_and_nacelle_vortex_distribution"]}
{"id": "C398", "title": "Copper leads", "statement": "The heat of a current lead does not depend on the units of the conductivities, its section and mass do; the conductivities of copper at a given temperature are in the same units as the constants of copper.", "quantifier": "all materials, temperatures, currents and lengths", "why_tests_cant": "scaling laws over all materials; no test compares tables and constants", "anchors": ["trunk/SUAVE/Attributes/Solids/Copper.py: Copper", "trunk/SUAVE/Methods/Cryogenics/Leads/lead_calculations.py: Q_min, LARatio", "trunk/SUAVE/Components/Energy/Distributors/Cryogenic_Lead.py: initialize_material_lead"]}
{"id": "C399", "title": "Old files before a run of AVL", "statement": "Before AVL is run, the log files of earlier runs are removed and no others; purging a list of files removes exactly these, and it is no error if one is missing.", "quantifier": "all file systems, names and outputs", "why_tests_cant": "over all contents of the working directory", "anchors": ["trunk/SUAVE/Methods/Aerodynamics/AVL/purge_files.py: purge_files", "trunk/SUAVE/Methods/Aerodynamics/AVL/run_analysis.py: call_avl, run_analysis", "trunk/SUAVE/Core/redirect.py: output"]}
{"id": "C400", "title": "Cuts for control surfaces", "statement": "Between two breaks of a wing, exactly those control surfaces are cut out that reach over this part of the span; control surfaces that get into each other's way on the same edge are refused.", "quantifier": "all lists of control surfaces and segments", "why_tests_cant": "over all numbers, orders and places of control surfaces", "anchors": ["trunk/SUAVE/Methods/Aerodynamics/Common/Fidelity_Zero/Lift/make_VLM_wings.py: make_VLM_wings, make_span_breaks_from_cs, make_span_break"]}
{"id": "C401", "title": "Derivative for the inflow of blades", "statement": "The derivative offered to the solver of the inflow of blade elements is the derivative of the residual it solves.", "quantifier": "all stations, velocities, blades and angles with positive velocities through and around the disc", "why_tests_cant": "a derivative over all inputs", "anchors": ["trunk/SUAVE/Methods/Propulsion/Rotor_Wake/Fidelity_Zero/fidelity_zero_wake_convergence.py: compute_dR_dpsi, iteration"]}
{"id": "C402", "title": "Bending material of wings", "statement": "The weight of the material that takes the bending of a wing is that of the double integral of the load over its span, is positive for every wing, and an additional segment on the straight line between two others changes nothing.", "quantifier": "all panels with linear chord and thickness", "why_tests_cant": "integrals over all geometries", "anchors": ["trunk/SUAVE/Methods/Weights/Correlations/Common/wing_main.py: wing_main, big_integral"]}
{"id": "C403", "title": "Plain wings in the lattice", "statement": "A wing without segments is, in the lattice, the trapezium that its data describe: its chords at root and tip, its taper, the sweep given, the dihedral.", "quantifier": "all plain wings", "why_tests_cant": "over all geometries", "anchors": ["trunk/SUAVE/Methods/Aerodynamics/Common/Fidelity_Zero/Lift/make_VLM_wings.py: convert_to_segmented_wing, make_VLM_wings"]}
{"id": "C404", "title": "Copies of wings for the lattice", "statement": "The lattice works on copies of the wings that agree with them in everything it reads; segments and control surfaces come in the same order.", "quantifier": "all wings with any number of segments and control surfaces", "why_tests_cant": "over all trees of data", "anchors": ["trunk/SUAVE/Methods/Aerodynamics/Common/Fidelity_Zero/Lift/make_VLM_wings.py: copy_wings, copy_large_container, copy_data_from_paths, recursive_set, get_paths"]}
{"id": "C405", "title": "Wings the lattice cannot do", "statement": "The lattice refuses wings it cannot do: control surfaces appended to segments, control surfaces on all-moving surfaces and hinges given in two ways.", "quantifier": "all wings", "why_tests_cant": "over all wings, including those no test builds", "anchors": ["trunk/SUAVE/Methods/Aerodynamics/Common/Fidelity_Zero/Lift/make_VLM_wings.py: make_VLM_wings, copy_wings, get_paths"]}
{"id": "C406", "title": "Failures of surrogates", "statement": "A surrogate problem gives the values of its surrogates in order and reports a failure if one of them is not a number.", "quantifier": "all surrogates and points", "why_tests_cant": "over all surrogates and places of values that are no numbers", "anchors": ["trunk/SUAVE/Surrogate/Surrogate_Problem.py: Surrogate_Problem.compute"]}
{"id": "C407", "title": "Unknowns of electric networks", "statement": "An electric network put on a segment leaves the solver as many unknowns as residuals and every unknown that is read is there; rotors and motors that do not match are reported.", "quantifier": "all numbers of propellers, rotors and control points, identical or not, both models of batteries, cruise, hover and transition", "why_tests_cant": "over all numbers; tests use few vehicles, all with identical propellers, and set the missing pieces by hand", "anchors": ["trunk/SUAVE/Components/Energy/Networks/Battery_Propeller.py: add_unknowns_and_residuals_to_segment, add_tiltrotor_transition_unknowns_and_residuals_to_segment", "trunk/SUAVE/Components/Energy/Networks/Lift_Cruise.py: add_transition_unknowns_and_residuals_to_segment, add_cruise_unknowns_and_residuals_to_segment, add_lift_unknowns_and_residuals_to_segment", "trunk/SUAVE/Components/Energy/Storages/Batteries/Constant_Mass/Lithium_Ion.py: append_battery_unknowns_and_residuals_to_segment, append_battery_residuals"]}
{"id": "C408", "title": "Leading edge of a rotating aircraft", "statement": "The flow at the leading edge is corrected for the rates of pitch and yaw between control point and edge and for nothing else; the suction is never negative and there is none at a supersonic edge.", "quantifier": "all strips, flight conditions, rates and numbers of panels", "why_tests_cant": "over all inputs; the correction is one term among many", "anchors": ["trunk/SUAVE/Methods/Aerodynamics/Common/Fidelity_Zero/Lift/VLM.py: VLM, compute_rotation_effects"]}
{"id": "C409", "title": "Cruise and rough air gusts in the V-n diagram", "statement": "Where a gust at manoeuvre or cruise speed exceeds the manoeuvre limit, the envelope is extended to the gust: it passes through the cruise gust point and, for a rough gust, follows the lift parabola up to the rough air speed; it never falls below the manoeuvre limit.", "quantifier": "all gust velocities, speeds, load factors and numbers of points, both sides", "why_tests_cant": "insertions by index into both lists on a branch per gust and side; tests compare one aircraft", "anchors": ["trunk/SUAVE/Methods/Performance/V_n_diagram.py: gust_loads, stall_line"]}
{"id": "C410", "title": "Dive gusts in the V-n diagram", "statement": "The limit reported at the dive speed is the larger of manoeuvre limit and dive gust on the positive side and the smaller of prescribed load factor and dive gust on the negative side, and the envelope has that load factor at the dive speed.", "quantifier": "all gust velocities, load factors and lists with dive gusts no stronger than cruise gusts, all categories", "why_tests_cant": "counting from the end of lists whose length depends on earlier branches", "anchors": ["trunk/SUAVE/Methods/Performance/V_n_diagram.py: gust_loads, gust_dive_speed_intersection"]}
{"id": "C411", "title": "Stations of the detailed FLOPS wing", "statement": "At every station outside the fuselage the detailed wing weight uses the sweep of the panel the station is in, whatever the width of the fuselage; the engines entering it are those on the right-hand wing.", "quantifier": "all wings, numbers of segments, fuselage widths and engines", "why_tests_cant": "look-ups shifted by one station for any number of segments; tests compare one total weight", "anchors": ["trunk/SUAVE/Methods/Weights/Correlations/FLOPS/wing.py: generate_wing_stations, find_sweep, get_spanwise_engine"]}
{"id": "C412", "title": "Loads of the detailed FLOPS wing", "statement": "Lift and moment of a panel are the integrals of chord times load; the bending moment at a station is that of all panels outboard of it, and the relief by engines that of unit weights at the engines outboard of it.", "quantifier": "all stations, chords, loads and engines", "why_tests_cant": "cumulative sums shifted by one and a search for the nearest station, for any number of stations", "anchors": ["trunk/SUAVE/Methods/Weights/Correlations/FLOPS/wing.py: wing_weight_FLOPS"]}
{"id": "C413", "title": "Zero lift and slope of a measured polar", "statement": "The angle of zero lift taken from a polar is where the polar crosses zero lift, and the lift curve slope is that of the polar around zero.", "quantifier": "all polars, of any number of angles and any lift beyond stall", "why_tests_cant": "over all polars; tests use one file with convenient angles", "anchors": ["trunk/SUAVE/Methods/Geometry/Two_Dimensional/Cross_Section/Airfoil/compute_airfoil_properties.py: compute_extended_polars"]}
{"id": "C414", "title": "Measured data inside an extended polar", "statement": "The extended polar equals the measured data at their angles, and uses the nearest measured angle between them; outside the data the extended lift is kept and the drag is never lowered and, beyond the last angle, not below the last measured drag.", "quantifier": "all sweeps and polars", "why_tests_cant": "searches for equal floating point numbers over all polars", "anchors": ["trunk/SUAVE/Methods/Geometry/Two_Dimensional/Cross_Section/Airfoil/compute_airfoil_properties.py: apply_pre_stall_data"]}
{"id": "C415", "title": "Raymer's fuselage, horizontal tail, gear and nacelles", "statement": "The weights of fuselage, horizontal tail, landing gear and nacelles by Raymer's correlations are positive numbers that follow powers of the gross weight; the fuselage depends on gross weight and load factor only by their product, a longer tail arm makes the tail lighter, and nacelles are weighed with the engine weight in the unit of the correlation.", "quantifier": "all gross weights, load factors, geometries and ranges", "why_tests_cant": "power laws over all real inputs and where they stop being numbers", "anchors": ["trunk/SUAVE/Methods/Weights/Correlations/Raymer/fuselage.py: fuselage_weight_Raymer", "trunk/SUAVE/Methods/Weights/Correlations/Raymer/tail.py: tail_horizontal_Raymer", "trunk/SUAVE/Methods/Weights/Correlations/Raymer/landing_gear.py: landing_gear_Raymer", "trunk/SUAVE/Methods/Weights/Correlations/Raymer/prop_system.py: nacelle_Raymer"]}
{"id": "C416", "title": "Orientation angles of rotors and nacelles", "statement": "The orientation angles of a rotor or nacelle, and the tilt of a rotor, give a rotation; one angle is a rotation about its axis by that angle, several are rotations one after the other; going to the frame of the rotor or nacelle and back changes nothing.", "quantifier": "all orientation angles and tilts", "why_tests_cant": "over all angles; tests tilt about one axis only", "anchors": ["trunk/SUAVE/Components/Energy/Converters/Rotor.py: body_to_prop_vel, prop_vel_to_body", "trunk/SUAVE/Components/Nacelles/Nacelle.py: body_to_nac_vel, nac_vel_to_body"]}
{"id": "C417", "title": "Gust lines of the V-n diagram", "statement": "The dashed lines of the V-n diagram are the straight gust lines of the cruise gust, the dive gust and, for commuters, the rough gust, from load factor one at rest to 1.05 times the dive speed.", "quantifier": "all flight conditions, gust velocities and categories", "why_tests_cant": "indices counted from both ends of a list, over all conditions", "anchors": ["trunk/SUAVE/Methods/Performance/V_n_diagram.py: gust_loads, post_processing"]}
{"id": "C418", "title": "What the trust region compares", "statement": "The accuracy ratio that resizes the trust region is the actual over the predicted reduction of the merit function, both measured from the centre to the proposed point, with the predicted one taken from the corrected low-fidelity model; it is one when the predicted reduction is below the tolerance.", "quantifier": "all models, corrections, centres, steps and constraint sets, for both inner optimizers and for failed solves", "why_tests_cant": "a bookkeeping of six evaluations over all pairs of models and all exits of the inner solve", "anchors": ["trunk/SUAVE/Optimization/Package_Setups/TRMM/Trust_Region_Optimization.py: optimize, accuracy_ratio, evaluate_corrected_model"]}
{"id": "C419", "title": "Segments and airfoils attached to parts", "statement": "A segment or airfoil attached to a wing, fuselage, rotor or nacelle is filed last under a free name and changes no other; where names that are taken are completed, it is accepted; an airfoil attached to a nacelle is the one its section is drawn with.", "quantifier": "all containers, names and histories of attachments", "why_tests_cant": "over all names; tests use few names, all distinct and in lower case", "anchors": ["trunk/SUAVE/Components/Wings/Main_Wing.py: Segment_Container.append", "trunk/SUAVE/Components/Wings/Wing.py: append_segment", "trunk/SUAVE/Components/Energy/Converters/Rotor.py: append_airfoil", "trunk/SUAVE/Components/Nacelles/Nacelle.py: append_airfoil"]}
{"id": "C420", "title": "Mind maps of data", "statement": "The FreeMind map of a nested structure shows every value below the keys that lead to it, in the order of the data, and nothing else but keys without values; different data give different maps.", "quantifier": "all nestings of dictionaries, lists and values", "why_tests_cant": "over all nestings; there is no reader to compare with", "anchors": ["trunk/SUAVE/Input_Output/FreeMind/save.py: save, build_nodes"]}
{"id": "C421", "title": "Raymer's items of the systems", "statement": "No item of Raymer's systems becomes lighter with more passengers, a larger fuselage, wing or cargo or more engines; furnishings cover each seat and the fuselage; aircraft of few seats have no auxiliary power unit.", "quantifier": "all sizes, passengers, engines and cargo weights", "why_tests_cant": "monotonicity over all sizes", "anchors": ["trunk/SUAVE/Methods/Weights/Correlations/Raymer/systems.py: systems_Raymer"]}
{"id": "C422", "title": "The folder of an AVL run", "statement": "A training run of AVL changes no folder but its own, starts without files of earlier runs, leaves exactly its own files if they are kept and nothing otherwise; stored results can be read for every Mach number.", "quantifier": "all folders, settings, files and numbers of Mach numbers", "why_tests_cant": "over all states of the file system and settings", "anchors": ["trunk/SUAVE/Analyses/Stability/AVL.py: sample_training, evaluate_conditions", "trunk/SUAVE/Analyses/Aerodynamics/AVL_Inviscid.py: sample_training, evaluate_conditions"]}
{"id": "C423", "title": "Saving the evolution of a wake", "statement": "Saving the evolution of a wake writes one frame for each azimuthal station, with the blade one station further on each time and the evaluation points of that station, and leaves the rotor as it was.", "quantifier": "all numbers of stations, speeds, senses of rotation, offsets and blades", "why_tests_cant": "over all numbers of stations and speeds", "anchors": ["trunk/SUAVE/Input_Output/VTK/store_wake_evolution_vtks.py: store_wake_evolution_vtks"]}
{"id": "C424", "title": "Control surfaces of trimmed aircraft in AVL", "statement": "AVL holds each control surface of an untrimmed aircraft at its deflection; of a trimmed one ailerons, elevators and rudders zero the rolling, pitching and yawing moment and flaps and slats stay at their deflection.", "quantifier": "all wings, control surfaces and deflections", "why_tests_cant": "the effect is split over two generated files read by an external program", "anchors": ["trunk/SUAVE/Methods/Aerodynamics/AVL/write_run_cases.py: make_controls_case_text, write_run_cases", "trunk/SUAVE/Methods/Aerodynamics/AVL/write_input_deck.py: make_case_command, control_surface_deflection_command"]}
{"id": "C425", "title": "Exit of a nozzle with a shock inside", "statement": "The Mach number found behind a shock inside a nozzle exists, is unique and carries the flow of the choked throat at ambient pressure; it rises with the pressure ahead, falls with the area, is subsonic below the exit's own choking and fits the limiting pressure ratio.", "quantifier": "all area ratios, gases, pressures, temperatures", "why_tests_cant": "existence, uniqueness and monotonicity of the root of an equation over all inputs", "anchors": ["trunk/SUAVE/Methods/Propulsion/nozzle_calculations.py: exit_Mach_shock"]}
{"id": "C426", "title": "Properties of air", "statement": "Viscosity of air follows Sutherland's law; viscosity, conductivity and speed of sound rise with temperature; over the range of the fits the specific heat and the ratio of specific heats belong to one gas to within a hundredth and the Prandtl number lies between 0.62 and 0.75.", "quantifier": "all temperatures above zero; between 123 and 673 K for the fits", "why_tests_cant": "over a continuum of temperatures; tests sample a few", "anchors": ["trunk/SUAVE/Attributes/Gases/Air.py: Air.compute_density, compute_cp, compute_gamma, compute_speed_of_sound, compute_absolute_viscosity, compute_thermal_conductivity, compute_prandtl_number"]}
{"id": "C427", "title": "Processes for each part", "statement": "An analysis carried out for each wing, fuselage or nacelle calls every step for the first part, then for the second and so on, each with its own part, until one raises; the results are filed under the names of the parts in their order.", "quantifier": "all steps, nestings, parts, effects and exceptions", "why_tests_cant": "over all processes and effects of steps", "anchors": ["trunk/SUAVE/Analyses/Aerodynamics/Process_Geometry.py: Process_Geometry.evaluate"]}
{"id": "C428", "title": "Values as columns and rows", "statement": "A number, list or array of numbers given where columns are expected becomes the column (or row) of these numbers in order; matrices stay as they are; doing it twice changes nothing more; stacked matrices keep all their rows in order.", "quantifier": "all numbers, lists, arrays of any shape", "why_tests_cant": "over all shapes of input", "anchors": ["trunk/SUAVE/Core/Arrays.py: atleast_2d, atleast_2d_col, atleast_2d_row, append_array"]}
{"id": "C429", "title": "Carpet of the expected improvement", "statement": "The carpet plot of the expected improvement shows it at each point of the grid, higher where more is expected, and on request its logarithm; for each point the improvement there is printed.", "quantifier": "all grids and improvements", "why_tests_cant": "over all fields of expected improvement", "anchors": ["trunk/SUAVE/Optimization/Package_Setups/additive_setup.py: expected_improvement_carpet"]}
{"id": "C430", "title": "The geometry file of AVL", "statement": "From the geometry file AVL reads one surface per wing and two per body in the order of the vehicle, mirrored exactly for symmetric wings; every section once, from left to right or bottom to top, within half of the fourth decimal, each with its own airfoil and control surfaces in order; coefficients refer to the main wing and the centre of gravity, and without main wing nothing is written.", "quantifier": "all wings, bodies, sections, control surfaces", "why_tests_cant": "the file is read by an external program; tests compare single files", "anchors": ["trunk/SUAVE/Methods/Aerodynamics/AVL/write_geometry.py: write_geometry, make_header_text, make_surface_text, make_body_text, make_wing_section_text, make_body_section_text, make_controls_text"]}
{"id": "C431", "title": "Properties of steam", "statement": "Steam and carbon dioxide obey one universal gas constant; density and speed of sound of steam are those of an ideal gas; its specific heat rises with temperature and fits the ratio of specific heats over the stated range.", "quantifier": "all temperatures of the stated range, all pressures", "why_tests_cant": "over a continuum of temperatures", "anchors": ["trunk/SUAVE/Attributes/Gases/Steam.py: Steam.compute_density, compute_speed_of_sound, compute_cp, compute_gamma", "trunk/SUAVE/Attributes/Gases/CO2.py: CO2.__defaults__"]}
{"id": "C432", "title": "Several elements added at once", "statement": "Extending a container by a list or dictionary of elements adds each of them behind the former ones, in order, as appending them one by one would; anything else is refused.", "quantifier": "all containers and given elements", "why_tests_cant": "over all contents; no test calls it with a list", "anchors": ["trunk/SUAVE/Core/Container.py: Container.extend", "trunk/SUAVE/Core/ContainerOrdered.py: ContainerOrdered.extend"]}
{"id": "C433", "title": "Batteries that gain mass", "statement": "A metal-air battery gains, over any discharge of its whole energy, the total mass stated for it, loses mass when charged, and for any energy the metal, water and oxygen of an aluminium-air battery fit its reaction and potential.", "quantifier": "all courses of power, energies and factors", "why_tests_cant": "an integral over all courses of power", "anchors": ["trunk/SUAVE/Methods/Power/Battery/Variable_Mass/find_mass_gain_rate.py: find_mass_gain_rate", "trunk/SUAVE/Methods/Power/Battery/Variable_Mass/find_total_mass_gain.py: find_total_mass_gain", "trunk/SUAVE/Components/Energy/Storages/Batteries/Variable_Mass/Aluminum_Air.py: Aluminum_Air.find_water_mass, find_aluminum_mass"]}
{"id": "C434", "title": "Noise reports", "statement": "In the reports of airframe and engine noise every column of the history has a heading and holds the quantity it announces at each step, angles in degrees; the maxima printed are the largest of the printed numbers; every angle has a spectrum with a line for each band.", "quantifier": "all histories, spectra and numbers of steps", "why_tests_cant": "over all histories; tests do not read the files", "anchors": ["trunk/SUAVE/Methods/Noise/Fidelity_One/Noise_Tools/print_airframe_output.py: print_airframe_output", "trunk/SUAVE/Methods/Noise/Fidelity_One/Noise_Tools/print_engine_output.py: print_engine_output"]}
{"id": "C435", "title": "Weighted levels of jet aircraft", "statement": "The weighted levels handed back for the airframe and for the engines have one entry for each time step, the sum over the bands of the weighted levels of that step.", "quantifier": "all histories of spectra", "why_tests_cant": "over all histories of any length", "anchors": ["trunk/SUAVE/Methods/Noise/Fidelity_One/Airframe/noise_airframe_Fink.py: noise_airframe_Fink", "trunk/SUAVE/Methods/Noise/Fidelity_One/Engine/noise_SAE.py: noise_SAE"]}
{"id": "C436", "title": "Sections of exported fuselages", "statement": "A fuselage written to OpenVSP shows every segment of the vehicle in its order, at its place along and above the axis and with its width and height; a blunt tail is closed where it ends; a fuselage without segments is shaped around the root of the main wing.", "quantifier": "all numbers, places and sizes of segments, and all places of the sections a new fuselage begins with", "why_tests_cant": "needs OpenVSP, and holds for every number of segments only because of the order in which they are moved", "anchors": ["trunk/SUAVE/Input_Output/OpenVSP/vsp_fuselage.py: write_vsp_fuselage"]}
{"id": "C437", "title": "Problems posed to SNOPT", "statement": "Both multifidelity set-ups pose every constraint of the table to SNOPT once, under its own name and with exactly the values that meet the row allowed, and every variable with its bounds over its scale.", "quantifier": "all tables of constraints and inputs", "why_tests_cant": "over tables of any length and mixture of relations; needs a commercial optimizer to run", "anchors": ["trunk/SUAVE/Optimization/Package_Setups/additive_setup.py: initialize_opt_vals, scale_vals", "trunk/SUAVE/Optimization/Package_Setups/TRMM/Trust_Region_Optimization.py: optimize, scale_vals"]}
{"id": "C438", "title": "Panels of the mission plots", "statement": "Every panel of the mission plots draws the quantity its label names, in the unit of the label: equivalent airspeed has the dynamic pressure at sea level density, specific consumption is mass rate over thrust, lift and drag are positive against the axes of the wind.", "quantifier": "all conditions and units", "why_tests_cant": "a continuum of conditions; tests only draw", "anchors": ["trunk/SUAVE/Plots/Performance/Mission_Plots.py: plot_altitude_sfc_weight, plot_aircraft_velocities, plot_aerodynamic_coefficients, plot_aerodynamic_forces, plot_battery_pack_conditions, plot_battery_cell_conditions, plot_flight_conditions, plot_stability_coefficients, plot_solar_flux"]}
{"id": "C439", "title": "Start of the turbulent layer", "statement": "The turbulent part of a boundary layer starts with the entrainment shape factor that belongs to the shape factor of the laminar part: it falls as the shape factor grows, stays above 3.3, and gives the shape factor back to one percent; where the correlation does not apply its definition by the thicknesses is used.", "quantifier": "all thicknesses of the laminar layer; there and back for shape factors up to ten", "why_tests_cant": "two fitted formulas with broken powers, joined at 1.6, against two others joined at 5.3", "anchors": ["trunk/SUAVE/Methods/Aerodynamics/Airfoil_Panel_Method/heads_method.py: heads_method, getH, getH1"]}
{"id": "C440", "title": "Every panel of a section gets its own boundary layer", "statement": "In the results of a section analysis the boundary layer of each panel is the one computed for that panel: laminar before and turbulent behind transition, of the lower surface below and the upper surface above the stagnation point.", "quantifier": "all numbers of panels, stagnation and transition points", "why_tests_cant": "index arithmetic through masks, reversals and flattening over all positions of stagnation and transition", "anchors": ["trunk/SUAVE/Methods/Aerodynamics/Airfoil_Panel_Method/airfoil_analysis.py: airfoil_analysis, concatenate_surfaces"]}
{"id": "C441", "title": "Header and airfoils of an exported propeller", "statement": "The blade element file written for a propeller announces as many sections as it lists rows and airfoils, its diameter, centre and twist at three quarters of the radius to five decimals, the direction of the thrust as normal of the disc, and at each station the airfoil that the station uses.", "quantifier": "all propellers, numbers of stations, twists, airfoils and orientations", "why_tests_cant": "three lists that must agree, an interpolation between stations and a chain of rotations over all orientations", "anchors": ["trunk/SUAVE/Input_Output/OpenVSP/vsp_propeller.py: write_vsp_propeller_bem, make_header_text, make_airfoil_text"]}
{"id": "C442", "title": "Each surrogate learns its own values", "statement": "The surrogates fitted to a sampled problem are separate models: that of the objective has learnt the objective and that of each constraint the values of this constraint, from all samples; every kriging model is trained.", "quantifier": "all samples, numbers of constraints and regression models", "why_tests_cant": "aliasing of mutable regression objects over any number of constraints", "anchors": ["trunk/SUAVE/Surrogate/scikit_surrogate_functions.py: build_scikit_models", "trunk/SUAVE/Surrogate/svr_surrogate_functions.py: build_svr_models", "trunk/SUAVE/Surrogate/kriging_surrogate_functions.py: build_kriging_models"]}
{"id": "C443", "title": "Cells supplied with the code", "statement": "The battery cells supplied are closed cylinders filled with their mass; a pack of them stores the rated energy of its cells, and the maximum power it is given can be delivered by its cells at their voltage and resistance.", "quantifier": "all packs of the supplied cells, all currents", "why_tests_cant": "a bound over all currents and pack sizes relating data that tests only copy", "anchors": ["trunk/SUAVE/Components/Energy/Storages/Batteries/Constant_Mass/Lithium_Ion_LiFePO4_18650.py: Lithium_Ion_LiFePO4_18650", "trunk/SUAVE/Components/Energy/Storages/Batteries/Constant_Mass/Lithium_Ion_LiNiMnCoO2_18650.py: Lithium_Ion_LiNiMnCoO2_18650", "trunk/SUAVE/Methods/Power/Battery/Sizing/initialize_from_circuit_configuration.py: initialize_from_circuit_configuration"]}
{"id": "C444", "title": "Voltage and heat of a lithium ion battery", "statement": "A generic lithium ion battery has a positive resistance, an open circuit voltage that rises with its charge and never exceeds the maximum, a lower voltage under load and a higher one while charging; its heat is the voltage lost times the current and is that of all its cells.", "quantifier": "all currents, powers, energies, ages and packs", "why_tests_cant": "polynomial and exponential fits over the whole range of charge, both signs of the current and all numbers of cells", "anchors": ["trunk/SUAVE/Components/Energy/Storages/Batteries/Constant_Mass/Lithium_Ion.py: energy_calc"]}
{"id": "C445", "title": "One operating point of a propeller", "statement": "Running a propeller at one speed, altitude, pitch and rotation speed reports its thrust, torque and power there, and an efficiency that is thrust times speed over power; calls do not affect one another, and a pitch other than zero makes the rotor a variable pitch one.", "quantifier": "all rotors, orientations, operating points and sequences of calls", "why_tests_cant": "all orientations and arbitrary sequences of calls on an object that is changed in place", "anchors": ["trunk/SUAVE/Methods/Performance/propeller_single_point.py: propeller_single_point", "trunk/SUAVE/Components/Energy/Converters/Rotor.py: Rotor.spin"]}
{"id": "C446", "title": "One analysis of each kind", "statement": "An analysis appended to the analyses of a vehicle replaces the one of its kind and no other, whatever class it is derived from and in whatever order analyses are appended; anything else is refused. Taking over the analyses of another vehicle uses those analyses and keeps the others.", "quantifier": "all classes of analyses, derived ones included, and all sequences", "why_tests_cant": "classes nobody has written yet, and arbitrary sequences of appending and taking over", "anchors": ["trunk/SUAVE/Analyses/Vehicle.py: Vehicle.append, Vehicle.get_root", "trunk/SUAVE/Core/Container.py: Container.extend", "trunk/SUAVE/Core/Data.py: Data.update"]}
{"id": "C447", "title": "Panels about rotors and ageing", "statement": "The panels about rotors show every value drawn and the zero line, the thrust with its direction of action; those about ageing show the share of capacity lost in percent over the quantity named below; the coloured disc of a rotor is closed.", "quantifier": "all values, limits, directions and numbers of stations", "why_tests_cant": "limits over a continuum of values and signs; tests only draw", "anchors": ["trunk/SUAVE/Plots/Performance/Mission_Plots.py: plot_propeller_conditions, plot_eMotor_Prop_efficiencies, plot_battery_degradation", "trunk/SUAVE/Plots/Performance/Propeller_Plots.py: plot_propeller_disc_performance"]}
{"id": "C448", "title": "Levels of a set of rotors", "statement": "The level of a set of rotors at a microphone and its A-weighted level are the sums of energy over all rotors, bands and both kinds of noise, and a band that could not be computed adds nothing to either.", "quantifier": "all numbers of rotors and bands, all levels, with or without missing ones", "why_tests_cant": "an identity over all spectra of any size", "anchors": ["trunk/SUAVE/Methods/Noise/Fidelity_One/Propeller/propeller_mid_fidelity.py: propeller_mid_fidelity", "trunk/SUAVE/Methods/Noise/Fidelity_One/Noise_Tools/decibel_arithmetic.py: SPL_spectra_arithmetic"]}
{"id": "C449", "title": "Noise report of a propeller", "statement": "The noise report of a propeller aircraft is written for every flyover; it has one row for each step with the quantity announced below each heading, the speed above in knots, and the largest of the printed levels below.", "quantifier": "all histories and numbers of steps", "why_tests_cant": "over all histories; tests do not read the file", "anchors": ["trunk/SUAVE/Methods/Noise/Fidelity_One/Noise_Tools/print_propeller_output.py: print_propeller_output"]}
{"id": "C450", "title": "Preparing a mission solved all at once", "statement": "Preparing a mission that is solved all at once expands every segment to the number of control points set for it and lets it start from the state of the segment before; evaluating again does not disturb values found, and uses the numbers of points set in between.", "quantifier": "all missions, states and numbers of points", "why_tests_cant": "over all missions of any length and all states reached by the solver", "anchors": ["trunk/SUAVE/Methods/Missions/Segments/Common/Sub_Segments.py: expand_sub_segments, update_sub_segments", "trunk/SUAVE/Analyses/Mission/All_At_Once.py: All_At_Once"]}
{"id": "C451", "title": "Surfaces in the pressure figures", "statement": "In the figures of surface pressure along a mission and in the frames of its film exactly the surfaces that are not vertical are drawn.", "quantifier": "all lists of wings, vertical or not, symmetric or not", "why_tests_cant": "over all lists of wings; tests draw one airliner", "anchors": ["trunk/SUAVE/Plots/Performance/Mission_Plots.py: plot_surface_pressure_contours, create_video_frames"]}
{"id": "C452", "title": "Frames of a film of a mission", "statement": "The film of a mission has one frame for each control point, numbered from one without gaps, and each shows exactly the points flown up to its own.", "quantifier": "all missions, any number of segments and points", "why_tests_cant": "over all missions of any length", "anchors": ["trunk/SUAVE/Plots/Performance/Mission_Plots.py: create_video_frames"]}
{"id": "C453", "title": "Lines of the lift distribution", "statement": "The figure of the lift distribution has one line for each lifting surface, with the stations and the lift of that surface, and together the lines hold every station once.", "quantifier": "all numbers of surfaces and stations", "why_tests_cant": "index arithmetic over all partitions", "anchors": ["trunk/SUAVE/Plots/Performance/Mission_Plots.py: plot_lift_distribution"]}
{"id": "C454", "title": "Loudest level in the noise figures", "statement": "The figures of noise on the ground show for each microphone the highest A-weighted level heard there during the mission.", "quantifier": "all missions, segments, control points and levels", "why_tests_cant": "a maximum over all missions of any length", "anchors": ["trunk/SUAVE/Plots/Performance/Mission_Plots.py: plot_ground_noise_levels, plot_flight_profile_noise_contours"]}
{"id": "C455", "title": "Places in the noise figures", "statement": "The figures of noise show microphones, buildings and aircraft at their places and to one scale.", "quantifier": "all positions, grids and lists of buildings", "why_tests_cant": "index arithmetic over all numbers of buildings and grids; tests only draw", "anchors": ["trunk/SUAVE/Plots/Performance/Mission_Plots.py: plot_ground_noise_levels, plot_flight_profile_noise_contours"]}
{"id": "C456", "title": "Map of centres of gravity", "statement": "The map of centres of gravity shows and hands back, for each fuel mass, the limits of the whole vehicle: reached with the fuel at its own limits and never exceeded in between; it is drawn in the units named at the axes.", "quantifier": "all masses, limits, empty vehicles and documented units", "why_tests_cant": "an extremum over a continuum of fuel positions", "anchors": ["trunk/SUAVE/Methods/Center_of_Gravity/compute_fuel_center_of_gravity_longitudinal_range.py: plot_cg_map"]}
{"id": "C457", "title": "Arrows of airfoil forces", "statement": "The figure of surface forces shows, for each case in a window of its own and for each pressure, an arrow along the force of that pressure, a tenth of the pressure coefficient long, that touches the surface where the pressure acts: leaving it for suction, reaching it for pressure.", "quantifier": "all contours, normals, pressures, angles of attack and Reynolds numbers", "why_tests_cant": "signs and places for all pressures; tests only draw the figure", "anchors": ["trunk/SUAVE/Plots/Performance/Airfoil_Plots.py: plot_airfoil_surface_forces"]}
{"id": "C458", "title": "Figures of airfoil polars", "statement": "The figures of airfoil polars show each polar against the angle in the unit named at the axes, with its own Reynolds number, lift, drag and their ratio, over a grid.", "quantifier": "all polars, any number of them", "why_tests_cant": "any number of polars and angles; tests only draw the figure", "anchors": ["trunk/SUAVE/Plots/Performance/Airfoil_Plots.py: plot_airfoil_polar_files, plot_airfoil_polars"]}
{"id": "C459", "title": "Derivatives of every control surface", "statement": "After the derivatives of a segment are computed, every control surface of every wing has its own record of the slopes of lift, drag and the three moments with its deflection, and the differences of the propellers are those of each propeller.", "quantifier": "all vehicles, control surfaces, keys, deflections and coefficient functions, with and without surrogates", "why_tests_cant": "depends on the names of surfaces on different wings; tests use vehicles with different names", "anchors": ["trunk/SUAVE/Methods/Flight_Dynamics/Static_Stability/compute_aero_derivatives.py: compute_aero_derivatives, propeller_derivatives"]}
{"id": "C460", "title": "Compositions add to one", "statement": "The fractions of the composition of every gas add to one; checking a composition completes it to one under the name Other and warns if it adds to more.", "quantifier": "all gases built on the general one, all compositions", "why_tests_cant": "all compositions; tests do not look at them", "anchors": ["trunk/SUAVE/Attributes/Constants/Composition.py: Composition", "trunk/SUAVE/Attributes/Gases/Gas.py: Gas", "trunk/SUAVE/Attributes/Gases/Air.py: Air", "trunk/SUAVE/Attributes/Gases/CO2.py: CO2", "trunk/SUAVE/Attributes/Gases/Steam.py: Steam"]}
{"id": "C461", "title": "Data of propellants agree", "statement": "For every propellant supplied and every volume of it, the energy by way of the mass is the energy by way of the energy of a cubic metre, to a thousandth, and the freezing point lies below the flash point, which lies below the point of ignition.", "quantifier": "all volumes, all propellants supplied", "why_tests_cant": "all volumes; tests use one propellant and one mission", "anchors": ["trunk/SUAVE/Attributes/Propellants/Propellant.py: Propellant", "trunk/SUAVE/Attributes/Propellants/JP7.py: JP7", "trunk/SUAVE/Attributes/Propellants/Jet_A.py: Jet_A", "trunk/SUAVE/Attributes/Propellants/Aviation_Gasoline.py: Aviation_Gasoline"]}
{"id": "C462", "title": "Lift of the aerodynamic analyses", "statement": "In every supplied aerodynamic analysis the lift left behind and returned is the lift of the wings, times the correction for the fuselage where there is one, the same at every evaluation; the total of the breakdown is that lift; and the drag steps find the lift of every wing of the vehicle.", "quantifier": "all lifts, corrections and lists of wings with different tags, all conditions before the evaluation", "why_tests_cant": "all vehicles and tags; tests evaluate a few vehicles with tags in small letters and compare one number", "anchors": ["trunk/SUAVE/Analyses/Aerodynamics/Vortex_Lattice.py: evaluate_surrogate, evaluate_no_surrogate, sample_training, calculate_VLM", "trunk/SUAVE/Methods/Aerodynamics/Common/Fidelity_Zero/Lift/fuselage_correction.py: fuselage_correction", "trunk/SUAVE/Methods/Aerodynamics/Common/Fidelity_Zero/Lift/aircraft_total.py: aircraft_total", "trunk/SUAVE/Analyses/Aerodynamics/AVL_Inviscid.py: evaluate", "trunk/SUAVE/Analyses/Aerodynamics/SU2_inviscid.py: evaluate", "trunk/SUAVE/Analyses/Aerodynamics/SU2_inviscid_Super.py: evaluate"]}
{"id": "C463", "title": "Supplied aerodynamic analyses have all their steps", "statement": "Every supplied aerodynamic analysis, once constructed, has every step its defaults name, lift before drag and the total of drag last, and can be initialised with its own default settings.", "quantifier": "all supplied analyses, all settings added by a user; in general all lists of steps and all packages of methods", "why_tests_cant": "exceptions in defaults are dropped silently, so that a missing step raises nothing at construction; tests construct only some of the analyses", "anchors": ["trunk/SUAVE/Core/Data.py: __new__", "trunk/SUAVE/Analyses/Aerodynamics/Fidelity_Zero.py: Fidelity_Zero", "trunk/SUAVE/Analyses/Aerodynamics/Supersonic_Zero.py: Supersonic_Zero", "trunk/SUAVE/Analyses/Aerodynamics/AVL.py: AVL", "trunk/SUAVE/Analyses/Aerodynamics/SU2_Euler.py: SU2_Euler", "trunk/SUAVE/Analyses/Aerodynamics/SU2_Euler_Super.py: SU2_Euler_Super", "trunk/SUAVE/Analyses/Aerodynamics/Supersonic_OpenVSP_Wave_Drag.py: Supersonic_OpenVSP_Wave_Drag"]}
{"id": "C464", "title": "Settings of the aerodynamic analyses", "statement": "Every setting that a step of a supplied aerodynamic analysis reads has a default in that analysis, so that an evaluation with default settings, or with settings added, does not stop for want of one.", "quantifier": "all supplied analyses, all settings added by a user; in general all lists of steps and settings", "why_tests_cant": "tests evaluate only some of the analyses, two of which need programs that are not installed; over all added settings", "anchors": ["trunk/SUAVE/Analyses/Aerodynamics/SU2_Euler_Super.py: SU2_Euler_Super", "trunk/SUAVE/Analyses/Aerodynamics/Supersonic_OpenVSP_Wave_Drag.py: Supersonic_OpenVSP_Wave_Drag", "trunk/SUAVE/Analyses/Aerodynamics/AVL.py: AVL", "trunk/SUAVE/Methods/Aerodynamics/Supersonic_Zero/Drag/compressibility_drag_total.py: compressibility_drag_total", "trunk/SUAVE/Methods/Aerodynamics/Supersonic_Zero/Drag/parasite_drag_nacelle.py: parasite_drag_nacelle"]}
{"id": "C465", "title": "Parameters of segments", "statement": "Every kind of mission segment starts with the default values of its parameters, and from exactly the values a user gives to these parameters: what its initialisation reads are attributes the segment has.", "quantifier": "all kinds of segments with conditions of their own, all values of their parameters, all attributes added by a user", "why_tests_cant": "over all kinds of segments and values; attributes added under a wrong name raise nothing, and tests always give all parameters explicitly", "anchors": ["trunk/SUAVE/Analyses/Mission/Segments/Descent/Constant_CAS_Constant_Rate.py: Constant_CAS_Constant_Rate", "trunk/SUAVE/Methods/Missions/Segments/Descent/Constant_CAS_Constant_Rate.py: initialize_conditions", "trunk/SUAVE/Analyses/Mission/Segments/Climb/Constant_Speed_Constant_Rate.py: Constant_Speed_Constant_Rate", "trunk/SUAVE/Analyses/Mission/Segments/Cruise/Constant_Mach_Constant_Altitude.py: Constant_Mach_Constant_Altitude", "trunk/SUAVE/Analyses/Mission/Segments/Segment.py: Segment"]}
{"id": "C466", "title": "Shaft power off-takes of a turbofan", "statement": "A shaft power off-take appended to a turbofan, like its other components, draws its power from the low-pressure shaft and lowers the thrust accordingly.", "quantifier": "all turbofans, all tags and numbers of off-takes, all conditions and throttles", "why_tests_cant": "over all tags and engines; nothing is raised and the results look plausible, only too good", "anchors": ["trunk/SUAVE/Components/Energy/Networks/Turbofan.py: Turbofan.evaluate_thrust", "trunk/SUAVE/Components/Energy/Converters/Shaft_Power_Off_Take.py: Shaft_Power_Off_Take", "trunk/SUAVE/Core/Data.py: Data.append"]}
{"id": "C467", "title": "Materials given to components in the buildup of weights", "statement": "Materials given to a wing, a rotor blade or a fuselage under its attribute materials, by group and role, are the ones it is weighed with, each missing one being replaced by its own default; the same names hold for wings and blades.", "quantifier": "all sets of materials given, all libraries of solids and all sections", "why_tests_cant": "over all combinations of materials given; a material that is not found raises nothing and is replaced by a default", "anchors": ["trunk/SUAVE/Methods/Weights/Buildups/Common/wing.py: wing", "trunk/SUAVE/Methods/Weights/Buildups/Common/prop.py: prop", "trunk/SUAVE/Methods/Weights/Buildups/Common/fuselage.py: fuselage"]}
{"id": "C468", "title": "Height of shear webs in the buildup of weights", "statement": "The shear web of a wing or rotor blade is as high as the section is thick at the position of the web.", "quantifier": "all sections, stations along the chord, positions of webs and chords", "why_tests_cant": "over all sections and stations; a wrong height only shifts the mass of the web and raises nothing", "anchors": ["trunk/SUAVE/Methods/Weights/Buildups/Common/wing.py: wing", "trunk/SUAVE/Methods/Weights/Buildups/Common/prop.py: prop"]}
{"id": "C469", "title": "Torsion box of a wing in the buildup of weights", "statement": "The area of the torsion box of a wing is the area enclosed by its two sides and its webs, and the length of its skin is the circumference of the closed box.", "quantifier": "all sections, stations between the webs and chords", "why_tests_cant": "an identity between sums over all stations; a skin that is too short only lowers the mass", "anchors": ["trunk/SUAVE/Methods/Weights/Buildups/Common/wing.py: wing"]}
{"id": "C470", "title": "Solids of the library in the buildup of weights", "statement": "Any solid of the library may be given as the material for any role in the buildup of weights: it has the properties read for the role; no solid yields at a higher stress than the one it breaks at.", "quantifier": "all solids of the library and all roles", "why_tests_cant": "over all combinations of solids and roles; tests use the defaults", "anchors": ["trunk/SUAVE/Attributes/Solids/Solid.py: Solid", "trunk/SUAVE/Attributes/Solids/Titanium.py: Titanium", "trunk/SUAVE/Attributes/Solids/Aluminum_Rib.py: Aluminum_Rib", "trunk/SUAVE/Attributes/Solids/Copper.py: Copper", "trunk/SUAVE/Methods/Weights/Buildups/Common/wing.py: wing", "trunk/SUAVE/Methods/Weights/Buildups/Common/fuselage.py: fuselage"]}
{"id": "C471", "title": "Pressures of the wings of a vehicle that is saved", "statement": "Saving the wings of a vehicle to VTK files with results of the vortex lattice leaves the pressures in the results as they were, so wings may come in any order and the same results may be saved again.", "quantifier": "all pressures, all numbers and orders of symmetric and other wings", "why_tests_cant": "over all orders of wings and repeated saves; the effect shows only in a later call", "anchors": ["trunk/SUAVE/Input_Output/VTK/save_wing_vtk.py: save_wing_vtk", "trunk/SUAVE/Input_Output/VTK/save_vehicle_vtk.py: save_vehicle_vtks"]}
