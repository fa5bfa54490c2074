{"id": "C01", "title": "E-NAUTILUS intermediate points lie between the preferred point and a reachable front point", "statement": "Every intermediate point shown by an E-NAUTILUS request is, in each objective, between the point the decision maker preferred last (initially the nadir) and some reachable row of the supplied Pareto front; when one iteration is left every shown point IS a reachable row of the front.", "quantifier": "all fronts, numbers of objectives, preferred points, k-means outcomes, requested numbers of points and positive iteration counts", "why_tests_cant": "The clustering is random and the points are real vectors: a test sees one clustering of one front.", "anchors": ["desdeo_mcdm/interactive/ENautilus.py:calculate_representative_points", "desdeo_mcdm/interactive/ENautilus.py:calculate_intermediate_points", "desdeo_mcdm/interactive/ENautilus.py:handle_request", "desdeo_mcdm/interactive/ENautilus.py:handle_initial_request"]}
{"id": "C02", "title": "E-NAUTILUS bounds are exact and keep every attainable solution reachable", "statement": "For each shown point z and objective r, the reported lower (upper) bound is the minimum (maximum) of objective r over exactly the front rows that are at least as good as z in all other objectives, it is attained, and every front row at least as good as z in all objectives lies within the reported bounds, so choosing z keeps it reachable. The bounds computation fails only when for some objective no such row exists.", "quantifier": "all fronts, all points z, all objectives", "why_tests_cant": "Universally quantified over real-valued fronts and points.", "anchors": ["desdeo_mcdm/interactive/ENautilus.py:calculate_bounds", "desdeo_mcdm/interactive/ENautilus.py:calculate_reachable_point_indices"]}
{"id": "C03", "title": "E-NAUTILUS reachable indices are exactly the rows inside the bounds, in order and without repetition", "statement": "After a point is chosen the reachable indices are precisely the indices of the front rows that lie within the lower and upper bounds reported for that point, listed in increasing order without repetition; if the new point is at least as good as an older one in all objectives, its bounds are no wider.", "quantifier": "all fronts, bounds and pairs of points", "why_tests_cant": "Ranges over all fronts and boxes.", "anchors": ["desdeo_mcdm/interactive/ENautilus.py:calculate_reachable_point_indices", "desdeo_mcdm/interactive/ENautilus.py:calculate_bounds"]}
{"id": "C04", "title": "E-NAUTILUS ends after exactly the requested number of iterations", "statement": "If the decision maker asks for N iterations and then keeps answering with a valid choice (neither stepping back nor changing the number of iterations), the requests report N, N-1, ..., 1 iterations left, the N-th choice produces the stop request, and none before does.", "quantifier": "all N >= 1, all fronts, all sequences of choices and all clustering outcomes whose calls do not raise", "why_tests_cant": "Ranges over arbitrary long interaction histories.", "anchors": ["desdeo_mcdm/interactive/ENautilus.py:handle_initial_request", "desdeo_mcdm/interactive/ENautilus.py:handle_request"]}
{"id": "C05", "title": "E-NAUTILUS stop request returns the chosen point with its own decision vector", "statement": "The objective vector in the stop request is the point chosen in the last request; when the process was run with one iteration left it is a row of the front, and, if decision variables were supplied, the returned solution is the variable vector of a row whose objectives equal the returned objective vector.", "quantifier": "all fronts, variable tables with one row per front row, histories", "why_tests_cant": "A wrong row is found only for particular geometries of the front.", "anchors": ["desdeo_mcdm/interactive/ENautilus.py:handle_request", "desdeo_mcdm/interactive/ENautilus.py:ENautilusStopRequest"]}
{"id": "C06", "title": "E-NAUTILUS never makes the decision maker give something up", "statement": "Each shown intermediate point is at least as good in every objective as the point the decision maker preferred in the previous iteration, and the method can always continue (no call raises) as long as responses are valid.", "quantifier": "all fronts of mutually nondominated rows bounded by the nadir, all clustering outcomes and all valid choices", "why_tests_cant": "Counterexamples need at least three objectives and a particular sequence of choices.", "anchors": ["desdeo_mcdm/interactive/ENautilus.py:calculate_bounds", "desdeo_mcdm/interactive/ENautilus.py:calculate_reachable_point_indices", "desdeo_mcdm/interactive/ENautilus.py:handle_request"]}
{"id": "C07", "title": "E-NAUTILUS stepping back restores the supplied iteration", "statement": "Answering with step_back and the stored data of an earlier request produces a request with exactly these points, bounds, distances and iterations left, and answering it behaves, for every later response, exactly as answering the original request did.", "quantifier": "all histories, all earlier requests, all later responses", "why_tests_cant": "Equivalence of all continuations cannot be enumerated.", "anchors": ["desdeo_mcdm/interactive/ENautilus.py:handle_request", "desdeo_mcdm/interactive/ENautilus.py:ENautilusRequest"]}
{"id": "C08", "title": "E-NAUTILUS accepts only indices of shown points", "statement": "Every response with step_back False that passes validation has a preferred_point_index that denotes one of the shown points, so that iterate does not raise an index error.", "quantifier": "all requests and responses", "why_tests_cant": "Boundary values for every number of points and objectives.", "anchors": ["desdeo_mcdm/interactive/ENautilus.py:ENautilusRequest.validator", "desdeo_mcdm/interactive/ENautilus.py:handle_request"]}
{"id": "C09", "title": "E-NAUTILUS accepted responses do not crash the method", "statement": "A response that passes E-NAUTILUS validation never makes iterate raise KeyError or ZeroDivisionError, and a response that fails validation leaves the method unchanged.", "quantifier": "all responses with any subset of the keys and any iteration count", "why_tests_cant": "All subsets of keys and all integers.", "anchors": ["desdeo_mcdm/interactive/ENautilus.py:ENautilusRequest.validator", "desdeo_mcdm/interactive/ENautilus.py:handle_request", "desdeo_mcdm/interactive/ENautilus.py:calculate_intermediate_points"]}
{"id": "C10", "title": "E-NAUTILUS distances are percentages of the way to the front", "statement": "In the first iteration with N iterations every reported distance is 100/N; in all iterations, when the representative point is at least as good as the preferred point and the preferred point at least as good as the nadir, the reported distance lies in [0,100] and it is 100 when one iteration is left. It is not a number only if the representative point is the nadir.", "quantifier": "all fronts, nadirs, preferred points and iteration counts", "why_tests_cant": "Real-valued identity over all geometries.", "anchors": ["desdeo_mcdm/interactive/ENautilus.py:calculate_distances", "desdeo_mcdm/interactive/ENautilus.py:calculate_intermediate_points"]}
{"id": "C11", "title": "NAUTILUS Navigator step bookkeeping is consistent in every history", "statement": "In every request returned by the Navigator, over any history of forward steps, returns to earlier requests of the same process and stops, step_number is between 1 and 100, steps_remaining is between 1 and 100 and their sum is 101.", "quantifier": "all interaction histories of any length", "why_tests_cant": "Ranges over histories of unbounded length.", "anchors": ["desdeo_mcdm/interactive/NautilusNavigator.py:NautilusNavigator.update", "desdeo_mcdm/interactive/NautilusNavigator.py:NautilusNavigator.handle_request"]}
{"id": "C12", "title": "NAUTILUS Navigator arrives on the Pareto front", "statement": "A forward step taken when one step remains puts the navigation point exactly on the projection, which is a row of the front; so a process of 100 forward steps ends on the front, and further forward steps keep it there.", "quantifier": "all fronts, reference point sequences, user bounds, minimizer outcomes", "why_tests_cant": "Ranges over all 100-step reference point sequences.", "anchors": ["desdeo_mcdm/interactive/NautilusNavigator.py:calculate_navigation_point", "desdeo_mcdm/interactive/NautilusNavigator.py:update"]}
{"id": "C13", "title": "NAUTILUS Navigator moves at constant pace with constant preferences", "statement": "If the reference point is not changed, after h of the 100 steps the navigation point is nadir + (h/100)(p - nadir) for the projection p, the reported distance is exactly h, and p is still reachable when the user bounds allow it.", "quantifier": "all fronts, reference points, h between 1 and 100", "why_tests_cant": "Real-valued closed form for all inputs.", "anchors": ["desdeo_mcdm/interactive/NautilusNavigator.py:calculate_navigation_point", "desdeo_mcdm/interactive/NautilusNavigator.py:calculate_distance", "desdeo_mcdm/interactive/NautilusNavigator.py:update"]}
{"id": "C14", "title": "NAUTILUS Navigator reachable bounds never widen on forward steps", "statement": "On every forward step of every history the new lower bounds are at least the old ones, the new upper bounds at most the old ones, and the reachable indices are a subset of the old ones, equal to exactly the rows inside the new bounds.", "quantifier": "all fronts with rows between ideal and nadir, all histories, reference points and user bounds", "why_tests_cant": "Invariant over unbounded histories.", "anchors": ["desdeo_mcdm/interactive/NautilusNavigator.py:calculate_bounds", "desdeo_mcdm/interactive/NautilusNavigator.py:calculate_reachable_point_indices", "desdeo_mcdm/interactive/NautilusNavigator.py:update"]}
{"id": "C15", "title": "NAUTILUS Navigator navigation point never worsens", "statement": "On a forward step the new navigation point is at least as good in every objective as the old one.", "quantifier": "all fronts of mutually nondominated rows, all reference point sequences", "why_tests_cant": "Counterexamples need three objectives and a change of preference.", "anchors": ["desdeo_mcdm/interactive/NautilusNavigator.py:update", "desdeo_mcdm/interactive/NautilusNavigator.py:calculate_navigation_point"]}
{"id": "C16", "title": "NAUTILUS Navigator respects user bounds", "statement": "The projection towards which the navigation moves does not exceed the user bounds given in the same response, as the request message promises.", "quantifier": "all user bounds, reference points and histories", "why_tests_cant": "Depends on the order of updates within one step, for all bounds.", "anchors": ["desdeo_mcdm/interactive/NautilusNavigator.py:update", "desdeo_mcdm/interactive/NautilusNavigator.py:solve_nautilus_asf_problem"]}
{"id": "C17", "title": "NAUTILUS Navigator returning to an earlier request restores it", "statement": "After go_to_previous with an earlier request the returned request shows the same navigation point, bounds, reachable indices, distance, step number and steps remaining, and navigating on from it behaves as it did the first time.", "quantifier": "all histories, earlier requests and continuations", "why_tests_cant": "All pairs of history and continuation.", "anchors": ["desdeo_mcdm/interactive/NautilusNavigator.py:update", "desdeo_mcdm/interactive/NautilusNavigator.py:handle_request"]}
{"id": "C18", "title": "NAUTILUS Navigator stop returns the reachable solutions with matching decision vectors", "statement": "A stop response returns the objective vectors of exactly the reachable indices shown in the answered request and, if supplied, the decision vectors of the same rows in the same order, and does not change the method.", "quantifier": "all fronts, decision tables and histories", "why_tests_cant": "Row alignment for all reachable sets.", "anchors": ["desdeo_mcdm/interactive/NautilusNavigator.py:NautilusNavigatorStopRequest", "desdeo_mcdm/interactive/NautilusNavigator.py:handle_request"]}
{"id": "C19", "title": "NAUTILUS Navigator projects on the best reachable solution", "statement": "The projection is a reachable row that satisfies the stored user bounds, minimizes the achievement function over all such rows, and no such row dominates it; projecting fails only if no such row exists.", "quantifier": "all fronts, reachable sets, reference points and bounds", "why_tests_cant": "Optimality over all candidate sets.", "anchors": ["desdeo_mcdm/interactive/NautilusNavigator.py:solve_nautilus_asf_problem"]}
{"id": "C20", "title": "NAUTILUS Navigator accepts only usable responses", "statement": "A response that passes validation has all entries, a reference point between ideal and nadir, one of the speeds 1-5 and one bound per objective; every other response is refused with the method exception and changes nothing.", "quantifier": "all responses", "why_tests_cant": "All combinations of missing and malformed entries.", "anchors": ["desdeo_mcdm/interactive/NautilusNavigator.py:NautilusNavigatorRequest.validator"]}
{"id": "C21", "title": "NIMBUS phases follow the documented order", "statement": "In every history NIMBUS goes classification -> save -> intermediate -> (save | preferred) -> (classification | stop); a request of the wrong kind is refused and changes nothing, and a stopped method hands every request back unchanged and does nothing.", "quantifier": "all sequences of requests and responses", "why_tests_cant": "Unbounded request sequences.", "anchors": ["desdeo_mcdm/interactive/NIMBUS.py:NIMBUS.iterate", "desdeo_mcdm/interactive/NIMBUS.py:handle_classification_request", "desdeo_mcdm/interactive/NIMBUS.py:handle_save_request", "desdeo_mcdm/interactive/NIMBUS.py:handle_intermediate_solutions_request", "desdeo_mcdm/interactive/NIMBUS.py:handle_most_preferred_request"]}
{"id": "C22", "title": "NIMBUS archive is append-only and aligned", "statement": "In every history the archived solutions and archived objectives have the same length, each archived pair is a pair (decision vector, objective vector) that was shown together, and nothing is ever removed or reordered.", "quantifier": "all histories", "why_tests_cant": "Unbounded histories.", "anchors": ["desdeo_mcdm/interactive/NIMBUS.py:save_solutions_to_archive", "desdeo_mcdm/interactive/NIMBUS.py:handle_save_request"]}
{"id": "C23", "title": "NIMBUS loses no solution between saving and comparing", "statement": "After a save response the solutions offered for intermediate computation are the archived ones followed by exactly the solutions not chosen for the archive; every solution just computed is among them, and chosen ones are in the archive.", "quantifier": "all index lists including empty, repeated and unordered ones", "why_tests_cant": "All index lists.", "anchors": ["desdeo_mcdm/interactive/NIMBUS.py:handle_save_request", "desdeo_mcdm/interactive/NIMBUS.py:save_solutions_to_archive"]}
{"id": "C24", "title": "NIMBUS accepted indices denote shown solutions", "statement": "Every index list accepted by the save, intermediate and most-preferred requests denotes shown solutions, and answering an accepted request does not raise an index error.", "quantifier": "all index lists and numbers of shown solutions", "why_tests_cant": "All index lists.", "anchors": ["desdeo_mcdm/interactive/NIMBUS.py:NimbusSaveRequest.validator", "desdeo_mcdm/interactive/NIMBUS.py:NimbusIntermediateSolutionsRequest.validator", "desdeo_mcdm/interactive/NIMBUS.py:NimbusMostPreferredRequest.validator", "desdeo_mcdm/interactive/NIMBUS.py:compute_intermediate_solutions"]}
{"id": "C25", "title": "NIMBUS computes the requested number of solutions", "statement": "A classification response with number_of_solutions = m in 1..4 yields exactly m new solutions, each with the objective vector of its own decision vector.", "quantifier": "all accepted responses, problems and minimizer outcomes", "why_tests_cant": "All classifications and solver outcomes.", "anchors": ["desdeo_mcdm/interactive/NIMBUS.py:handle_classification_request", "desdeo_mcdm/interactive/NIMBUS.py:calculate_new_solutions", "desdeo_mcdm/interactive/NIMBUS.py:NimbusClassificationRequest.validator"]}
{"id": "C26", "title": "NIMBUS reference point stays between ideal and nadir", "statement": "The reference point derived from an accepted classification equals the ideal for '<', the given level for '<=' and '>=', the current value for '=' and the nadir for '0', hence lies between ideal and nadir in every objective.", "quantifier": "all accepted classifications", "why_tests_cant": "All classification vectors and levels.", "anchors": ["desdeo_mcdm/interactive/NIMBUS.py:calculate_new_solutions", "desdeo_mcdm/interactive/NIMBUS.py:NimbusClassificationRequest.validator"]}
{"id": "C27", "title": "NIMBUS first solution honours the classification", "statement": "For discrete problems the solution of the first NIMBUS subproblem is not worse than the current one in objectives classified '<', '<=' or '=', and within the given level in objectives classified '>='; a feasible solution is found whenever the current solution is in the data.", "quantifier": "all data sets, current solutions and accepted classifications", "why_tests_cant": "All data sets and classifications.", "anchors": ["desdeo_mcdm/interactive/NIMBUS.py:calculate_new_solutions (cons_1)"]}
{"id": "C28", "title": "NIMBUS intermediate solutions are spread evenly between the two chosen ones", "statement": "Asking for n intermediate solutions between two shown solutions computes n solutions from points that lie on the segment between the two chosen ones, distinct and evenly spaced.", "quantifier": "all pairs of solutions and n >= 1", "why_tests_cant": "All n and all pairs.", "anchors": ["desdeo_mcdm/interactive/NIMBUS.py:compute_intermediate_solutions"]}
{"id": "C29", "title": "NIMBUS most preferred solution becomes the current one", "statement": "After a most-preferred response the current solution and objectives are the chosen pair, and they are shown by the next classification request or the stop request.", "quantifier": "all indices and histories", "why_tests_cant": "All histories.", "anchors": ["desdeo_mcdm/interactive/NIMBUS.py:update_current_solution", "desdeo_mcdm/interactive/NIMBUS.py:handle_most_preferred_request", "desdeo_mcdm/interactive/NIMBUS.py:request_stop"]}
{"id": "C30", "title": "NIMBUS accepts only complete classifications", "statement": "Every accepted classification assigns exactly one class and level to each objective.", "quantifier": "all responses", "why_tests_cant": "All list lengths and contents.", "anchors": ["desdeo_mcdm/interactive/NIMBUS.py:NimbusClassificationRequest.validator"]}
{"id": "C31", "title": "NAUTILUS iteration point moves towards the found solution without worsening", "statement": "Each new NAUTILUS iteration point is the convex combination ((it_h - 1) z + f)/it_h of the previous point and the last found solution; if the solution is at least as good as the previous point, so is the new point, and the solution is at least as good as the new point; with one iteration left it equals the found solution.", "quantifier": "all points, solutions and iteration counts", "why_tests_cant": "Real vectors.", "anchors": ["desdeo_mcdm/interactive/Nautilus.py:calculate_iteration_point", "desdeo_mcdm/interactive/Nautilus.py:handle_request"]}
{"id": "C32", "title": "NAUTILUS reaches the solution in N even steps if preferences are kept", "statement": "If after the first preference the decision maker keeps using the previous preference without short steps, then after h of N iterations the point is nadir + (h/N)(f - nadir), the reported distance 100 h/N, and after N iterations the method stops at f.", "quantifier": "all N, problems and solver outcomes", "why_tests_cant": "Closed form for all N.", "anchors": ["desdeo_mcdm/interactive/Nautilus.py:calculate_iteration_point", "desdeo_mcdm/interactive/Nautilus.py:calculate_distance", "desdeo_mcdm/interactive/Nautilus.py:handle_request"]}
{"id": "C33", "title": "NAUTILUS never runs out of storage", "statement": "Within one run (the initial request answered successfully once), for every history of accepted responses (forward, step back, short step, changing the number of iterations) all iteration data are written within the allocated storage: no IndexError is raised.", "quantifier": "all histories of any length", "why_tests_cant": "Needs particular long histories.", "anchors": ["desdeo_mcdm/interactive/Nautilus.py:Nautilus.__init__", "desdeo_mcdm/interactive/Nautilus.py:handle_initial_request", "desdeo_mcdm/interactive/Nautilus.py:handle_request"]}
{"id": "C34", "title": "NAUTILUS stepping back replaces the last iteration only", "statement": "A step-back response recomputes the current iteration from the previous iteration point with the new preference (or takes a half step with short_step) and leaves the iteration number and the iterations left unchanged.", "quantifier": "all states with at least one iteration", "why_tests_cant": "All states.", "anchors": ["desdeo_mcdm/interactive/Nautilus.py:handle_request"]}
{"id": "C35", "title": "NAUTILUS preference weights are positive", "statement": "Preferential factors computed from an accepted preference are finite and positive for every objective, as the achievement function requires.", "quantifier": "all accepted rankings and percentages, all nadir and utopian points with nadir above utopian", "why_tests_cant": "All preference vectors.", "anchors": ["desdeo_mcdm/interactive/Nautilus.py:calculate_preferential_factors", "desdeo_mcdm/interactive/Nautilus.py:validate_preferences"]}
{"id": "C36", "title": "NAUTILUS answers every accepted response with a request", "statement": "iterate returns a request (never None, never a KeyError) for every response that passes validation.", "quantifier": "all accepted responses", "why_tests_cant": "All flag combinations and key subsets.", "anchors": ["desdeo_mcdm/interactive/Nautilus.py:handle_request", "desdeo_mcdm/interactive/Nautilus.py:validate_response"]}
{"id": "C37", "title": "NAUTILUS stop returns the last found solution", "statement": "The stop request is produced exactly when the iterations left reach zero and carries a decision vector together with its own objective vector, equal to the last iteration point.", "quantifier": "all histories", "why_tests_cant": "All histories.", "anchors": ["desdeo_mcdm/interactive/Nautilus.py:handle_request", "desdeo_mcdm/interactive/Nautilus.py:NautilusStopRequest"]}
{"id": "C38", "title": "NAUTILUS number of iterations can be changed", "statement": "Supplying n_iterations changes the number of remaining iterations to the supplied number, as the request message says.", "quantifier": "all states and supplied numbers", "why_tests_cant": "All histories of changes.", "anchors": ["desdeo_mcdm/interactive/Nautilus.py:handle_request"]}
{"id": "C39", "title": "NAUTILUS lower bounds never get worse", "statement": "The lower bounds of the reachable set computed by the epsilon-constraint problems are no larger than every feasible solution at least as good as the current point and do not decrease when the iteration point improves.", "quantifier": "all problems and exact solver outcomes", "why_tests_cant": "All feasible sets.", "anchors": ["desdeo_mcdm/interactive/Nautilus.py:calculate_bounds"]}
{"id": "C40", "title": "NAUTILUS V2 never runs out of storage", "statement": "For every history of accepted NAUTILUS V2 responses iteration data are written within the allocated storage.", "quantifier": "all histories", "why_tests_cant": "Needs a particular history of changes of the iteration number.", "anchors": ["desdeo_mcdm/interactive/NautilusV2.py:NautilusV2.handle_initial_request", "desdeo_mcdm/interactive/NautilusV2.py:handle_request"]}
{"id": "C41", "title": "NAUTILUS V2 degrees of improvement satisfy the given pairwise ratios", "statement": "For an accepted list of pairwise improvement ratios the computed direction is positive, has value 1 in the first objective and satisfies each supplied ratio; the computation terminates.", "quantifier": "all numbers of objectives and accepted lists of pairs", "why_tests_cant": "Termination and graph connectivity over all pair lists.", "anchors": ["desdeo_mcdm/interactive/NautilusV2.py:calculate_doi", "desdeo_mcdm/interactive/NautilusV2.py:validate_n2_preferences"]}
{"id": "C42", "title": "NAUTILUS V2 moves from the starting point to the solution in even steps", "statement": "With kept preferences after h of N iterations the point is start + (h/N)(f - start) and the reported distance is 100 h/N; with one iteration left the point equals the found solution.", "quantifier": "all N, starting points, solver outcomes", "why_tests_cant": "Closed form.", "anchors": ["desdeo_mcdm/interactive/NautilusV2.py:calculate_iteration_point", "desdeo_mcdm/interactive/NautilusV2.py:calculate_distance", "desdeo_mcdm/interactive/NautilusV2.py:handle_request"]}
{"id": "C43", "title": "NAUTILUS V2 preference weights are positive", "statement": "The preferential factors given to the achievement function are finite and positive for every accepted preference and admissible starting point.", "quantifier": "all accepted preferences and starting points", "why_tests_cant": "All inputs.", "anchors": ["desdeo_mcdm/interactive/NautilusV2.py:calculate_preferential_factors", "desdeo_mcdm/interactive/NautilusV2.py:validate_n2_preferences"]}
{"id": "C44", "title": "NAUTILUS V2 answers every accepted response with a request", "statement": "iterate returns a request for every response that passes validation.", "quantifier": "all accepted responses", "why_tests_cant": "All flag combinations.", "anchors": ["desdeo_mcdm/interactive/NautilusV2.py:handle_request", "desdeo_mcdm/interactive/NautilusV2.py:validate_response"]}
{"id": "C45", "title": "Reference point method storage is never exhausted", "statement": "For every history of any length all iteration results are stored within the allocated lists, and the results of iteration h are those returned at iteration h.", "quantifier": "histories of unbounded length", "why_tests_cant": "Unbounded.", "anchors": ["desdeo_mcdm/interactive/ReferencePointMethod.py:handle_initial_request", "desdeo_mcdm/interactive/ReferencePointMethod.py:handle_request"]}
{"id": "C46", "title": "Reference point method stops with the solution the decision maker pointed at", "statement": "A satisfied decision maker who gives index i (0 for the current solution, i for the i-th additional one) gets exactly the decision and objective vector shown under that index; each index accepted denotes a shown solution.", "quantifier": "all histories and indices", "why_tests_cant": "All histories.", "anchors": ["desdeo_mcdm/interactive/ReferencePointMethod.py:RPMRequest.response", "desdeo_mcdm/interactive/ReferencePointMethod.py:handle_request"]}
{"id": "C47", "title": "Reference point method perturbs one objective at a time", "statement": "The k perturbed reference points differ from the reference point in exactly the i-th component, by the Euclidean distance between the reference point and the found solution; all coincide with it iff the solution equals it.", "quantifier": "all reference points and solutions", "why_tests_cant": "Real vectors.", "anchors": ["desdeo_mcdm/interactive/ReferencePointMethod.py:calculate_prp"]}
{"id": "C48", "title": "Reference point method solutions are Pareto optimal", "statement": "A minimizer of the achievement problem solved by the reference point method is Pareto optimal.", "quantifier": "all problems, reference points accepted", "why_tests_cant": "Depends on the sign of the weights for all reference points.", "anchors": ["desdeo_mcdm/interactive/ReferencePointMethod.py:solve_asf", "desdeo_mcdm/interactive/ReferencePointMethod.py:handle_initial_request"]}
{"id": "C49", "title": "Reference point method validates reference points", "statement": "An accepted reference point has one finite component per objective and is not worse than the nadir in any objective.", "quantifier": "all reference points", "why_tests_cant": "All vectors.", "anchors": ["desdeo_mcdm/interactive/ReferencePointMethod.py:validate_reference_point"]}
{"id": "C50", "title": "Pareto Navigator direction problem is the achievement problem over the hull", "statement": "A point (zeta, z) satisfies the linear constraints passed to the LP solver iff w_i (z_i - ref_i) <= zeta for all i and z satisfies the half-space description; so the LP optimum minimizes the Chebyshev achievement function over the polyhedral approximation.", "quantifier": "all reference points, weights and half-space descriptions", "why_tests_cant": "Equivalence for all points.", "anchors": ["desdeo_mcdm/interactive/ParetoNavigator.py:solve_linear_parametric_problem", "desdeo_mcdm/interactive/ParetoNavigator.py:construct_lppp_A"]}
{"id": "C51", "title": "Pareto Navigator shows solutions between ideal and nadir", "statement": "Every solution produced by navigation satisfies the half-spaces of the hull and lies between ideal and nadir.", "quantifier": "all directions, speeds, LP outcomes that satisfy the constraints", "why_tests_cant": "All directions.", "anchors": ["desdeo_mcdm/interactive/ParetoNavigator.py:handle_request", "desdeo_mcdm/interactive/ParetoNavigator.py:solve_linear_parametric_problem"]}
{"id": "C52", "title": "Pareto Navigator box contains every known solution", "statement": "After any history of added solutions, the ideal and nadir enclose all stored polyhedral solutions, the ideal never increases, the nadir never decreases and no stored solution is lost.", "quantifier": "all histories", "why_tests_cant": "Unbounded histories.", "anchors": ["desdeo_mcdm/interactive/ParetoNavigator.py:handle_solution_request", "desdeo_mcdm/interactive/ParetoNavigator.py:calculate_extremes"]}
{"id": "C53", "title": "Pareto Navigator speed maps to the step length", "statement": "Every accepted speed 1..5 is mapped to the step speed/50 in (0, 0.1] and a request without speed keeps the step.", "quantifier": "all accepted responses", "why_tests_cant": "All histories of speed changes.", "anchors": ["desdeo_mcdm/interactive/ParetoNavigator.py:calculate_speed", "desdeo_mcdm/interactive/ParetoNavigator.py:handle_request", "desdeo_mcdm/interactive/ParetoNavigator.py:ParetoNavigatorRequest.response"]}
{"id": "C54", "title": "Pareto Navigator stepping back moves backwards", "statement": "A step_back response moves the reference point against the last navigation direction, also when repeated.", "quantifier": "all histories with repeated step backs", "why_tests_cant": "Histories.", "anchors": ["desdeo_mcdm/interactive/ParetoNavigator.py:handle_request"]}
{"id": "C55", "title": "Pareto Navigator classification becomes a reference point within the box", "statement": "A classification of all objectives yields the reference point with ideal for '<', nadir for '>' and the current value for '='; it lies between ideal and nadir whenever the current solution does.", "quantifier": "all classifications of full length", "why_tests_cant": "All classifications.", "anchors": ["desdeo_mcdm/interactive/ParetoNavigator.py:classification_to_ref_point"]}
{"id": "C56", "title": "Pareto Navigator navigation can start from any accepted response", "statement": "A response that passes validation never makes the first navigation step raise; the starting solution is the objective vector found for the given reference point.", "quantifier": "all accepted responses", "why_tests_cant": "All key subsets.", "anchors": ["desdeo_mcdm/interactive/ParetoNavigator.py:handle_initial_request", "desdeo_mcdm/interactive/ParetoNavigator.py:handle_request", "desdeo_mcdm/interactive/ParetoNavigator.py:ParetoNavigatorRequest.response"]}
{"id": "C57", "title": "PAINT keeps exactly the simplices that pass the first rule", "statement": "After the first filtering rule the retained simplices are exactly those fulfilling the keep condition, each once.", "quantifier": "all numbers of simplices and all outcomes of the dominance predicate", "why_tests_cant": "In-place swapping with a moving boundary, for all lists.", "anchors": ["desdeo_mcdm/approximation/PAINT.py:approximate"]}
{"id": "C58", "title": "PAINT result has no conflicting simplices", "statement": "After the second rule no retained simplex conflicts with another retained one and each discarded one conflicts with a retained simplex.", "quantifier": "all lists and conflict predicates", "why_tests_cant": "All lists.", "anchors": ["desdeo_mcdm/approximation/PAINT.py:approximate"]}
{"id": "C59", "title": "PAINT simplices are processed in order", "statement": "Sorting returns a permutation of the simplices ordered by the number of distinct vertices and then by their smallest vertex, stable.", "quantifier": "all lists of simplices", "why_tests_cant": "All lists.", "anchors": ["desdeo_mcdm/approximation/PAINT.py:sort_wrt_entries"]}
{"id": "C60", "title": "PAINT perturbation is applied to the outcomes used", "statement": "Perturbing the outcomes changes the outcomes used by the following approximation.", "quantifier": "all outcomes and perturbations", "why_tests_cant": "State wiring for all inputs.", "anchors": ["desdeo_mcdm/approximation/PAINT.py:perturbate", "desdeo_mcdm/approximation/PAINT.py:approximate"]}
{"id": "C61", "title": "Payoff table method returns consistent ideal and nadir", "statement": "The ideal is at most the nadir in every objective, each is attained in the payoff table, and with an exact solver the ideal is a lower bound of every feasible solution.", "quantifier": "all problems, solver outcomes and numbers of objectives", "why_tests_cant": "All problems.", "anchors": ["desdeo_mcdm/utilities/solvers.py:payoff_table_method_general", "desdeo_mcdm/utilities/solvers.py:payoff_table_method"]}
{"id": "C62", "title": "Pareto front representation returns aligned nondominated solutions", "statement": "The returned variables and objectives have the same length, the i-th objective vector belongs to the i-th variable vector, and no returned vector dominates another.", "quantifier": "all problems and solver outcomes", "why_tests_cant": "All solver outcome sequences.", "anchors": ["desdeo_mcdm/utilities/solvers.py:solve_pareto_front_representation_general"]}
{"id": "C63", "title": "Pareto front representation validates its step and its bounds", "statement": "The step must be a float or an array with one entry per objective, otherwise the library exception is raised; every epsilon level tried lies on the grid ideal + i*step below the nadir.", "quantifier": "all steps and bounds", "why_tests_cant": "All sizes.", "anchors": ["desdeo_mcdm/utilities/solvers.py:solve_pareto_front_representation_general"]}
{"id": "C64", "title": "NAUTILUS V2 iteration points never worsen and approach the found solution", "statement": "Each forward step shows a convex combination of the point shown last and the solution found for it; if the solver returns a solution at least as good as a reachable reference point, every forward step shows a point at least as good as the one shown last, and a feasible solution at least as good as it exists at every moment.", "quantifier": "all histories, solver outcomes and numbers of objectives", "why_tests_cant": "Invariant over all histories.", "anchors": ["desdeo_mcdm/interactive/NautilusV2.py:NautilusV2.handle_request", "desdeo_mcdm/interactive/NautilusV2.py:calculate_iteration_point"]}
{"id": "C65", "title": "NAUTILUS V2 stepping back replaces the last iteration only", "statement": "A step back keeps the number of iterations left and all earlier iterations; a short step shows the middle of the last and the previous point and keeps the solution, new preferences start again from the previous point.", "quantifier": "all histories and responses", "why_tests_cant": "All histories.", "anchors": ["desdeo_mcdm/interactive/NautilusV2.py:NautilusV2.handle_request"]}
{"id": "C66", "title": "NAUTILUS V2 stop returns the last found solution", "statement": "The stop request is issued exactly when at most one iteration is left and contains a decision vector with its own objective vector, equal to the point shown last.", "quantifier": "all histories", "why_tests_cant": "All histories.", "anchors": ["desdeo_mcdm/interactive/NautilusV2.py:NautilusV2.handle_request"]}
{"id": "C67", "title": "NAUTILUS V2 number of remaining iterations can be changed", "statement": "Supplying n_iterations = v as the number of remaining iterations leads to exactly v further points if the process is continued.", "quantifier": "all histories and all v", "why_tests_cant": "Needs all continuations.", "anchors": ["desdeo_mcdm/interactive/NautilusV2.py:NautilusV2.handle_request", "desdeo_mcdm/interactive/NautilusV2.py:validate_n_iterations"]}
{"id": "C68", "title": "NAUTILUS V2 lower bounds are exact and never get worse", "statement": "With exact solvers every shown lower bound is the least value of the objective over feasible solutions at least as good as the point in the other objectives, and bounds of better points are at least as large.", "quantifier": "all histories and problems", "why_tests_cant": "All problems.", "anchors": ["desdeo_mcdm/interactive/NautilusV2.py:NautilusV2.calculate_bounds"]}
{"id": "C69", "title": "NAUTILUS V2 accepts only starting points inside the objective ranges", "statement": "The constructor accepts a starting point only if it has one component per objective and is nowhere worse than the nadir point.", "quantifier": "all starting points", "why_tests_cant": "All inputs.", "anchors": ["desdeo_mcdm/interactive/NautilusV2.py:NautilusV2.__init__"]}
{"id": "C70", "title": "Reference point method answers every accepted response", "statement": "Whenever the response of an issued request passes validation, iterate returns a request instead of raising.", "quantifier": "all histories, issued requests and accepted responses", "why_tests_cant": "All histories and inputs.", "anchors": ["desdeo_mcdm/interactive/ReferencePointMethod.py:ReferencePointMethod.iterate", "desdeo_mcdm/interactive/ReferencePointMethod.py:RPMRequest.validator"]}
{"id": "C71", "title": "Pareto Navigator ends with the solution the decision maker was shown", "statement": "Answering a solution request with satisfied = True ends the process with exactly the decision vector and the objective vector shown in that request.", "quantifier": "all histories and all issued solution requests", "why_tests_cant": "Unbounded histories.", "anchors": ["desdeo_mcdm/interactive/ParetoNavigator.py:ParetoNavigator.handle_solution_request"]}
{"id": "C72", "title": "Pareto Navigator adds rejected solutions to the approximation", "statement": "When a shown solution is rejected, exactly its objective vector is appended to the stored solutions, and navigation goes on from the unchanged current solution in an approximation that contains it.", "quantifier": "all histories", "why_tests_cant": "Unbounded histories.", "anchors": ["desdeo_mcdm/interactive/ParetoNavigator.py:ParetoNavigator.handle_solution_request"]}
{"id": "C73", "title": "Pareto Navigator navigates the supplied solutions", "statement": "The Pareto optimal solutions given to the constructor are the ones the approximation is built from.", "quantifier": "all problems and solution sets", "why_tests_cant": "All inputs.", "anchors": ["desdeo_mcdm/interactive/ParetoNavigator.py:ParetoNavigator.__init__"]}
{"id": "C74", "title": "PAINT approximation is inherently nondominated", "statement": "If the polytope tests are exact, no point of the union of the returned polytopes dominates another point of it or an outcome, or is dominated by an outcome.", "quantifier": "all outcome sets, triangulations and options", "why_tests_cant": "Infinitely many points of the polytopes.", "anchors": ["desdeo_mcdm/approximation/PAINT.py:PAINT.approximate"]}
{"id": "C75", "title": "PAINT approximation contains the outcomes", "statement": "If the polytope tests are exact and the outcomes do not dominate each other, every outcome that is a vertex of the triangulation belongs to the approximation.", "quantifier": "all outcome sets and triangulations", "why_tests_cant": "All outcome sets.", "anchors": ["desdeo_mcdm/approximation/PAINT.py:PAINT.approximate"]}
{"id": "C76", "title": "PAINT approximation is maximal", "statement": "If the polytope tests are exact, adding any other polytope of the triangulation to the approximation makes it, together with the outcomes, dominated.", "quantifier": "all outcome sets and triangulations", "why_tests_cant": "All outcome sets.", "anchors": ["desdeo_mcdm/approximation/PAINT.py:PAINT.approximate"]}
{"id": "C77", "title": "PAINT returns polytopes of the triangulation", "statement": "approximate returns generated polytopes only, none more often than generated, in sorted order; too few outcomes and failing triangulations raise PAINTException.", "quantifier": "all outcome sets, triangulations and outcomes of the tests", "why_tests_cant": "In-place filtering for all sizes.", "anchors": ["desdeo_mcdm/approximation/PAINT.py:PAINT.approximate", "desdeo_mcdm/approximation/PAINT.py:PAINT.__init__"]}
{"id": "C78", "title": "Pareto front representation respects the constraints", "statement": "With a solver that respects the constraints it is given, all returned solutions are feasible.", "quantifier": "all problems and solvers", "why_tests_cant": "All problems.", "anchors": ["desdeo_mcdm/utilities/solvers.py:solve_pareto_front_representation", "desdeo_mcdm/utilities/solvers.py:solve_pareto_front_representation_general"]}
{"id": "C79", "title": "A failed optimization loses only its own reference point", "statement": "With a solver whose successes are minima, the front representation returns exactly the solutions of the successful optimizations, in the order of the reference points.", "quantifier": "all sequences of solver outcomes", "why_tests_cant": "All sequences of outcomes.", "anchors": ["desdeo_mcdm/utilities/solvers.py:solve_pareto_front_representation_general"]}
{"id": "C80", "title": "Pareto front representation computes missing ideal and nadir", "statement": "If ideal or nadir is not given or infinite, the result is the one for the ideal and nadir of the payoff table method.", "quantifier": "all problems and arguments", "why_tests_cant": "All inputs.", "anchors": ["desdeo_mcdm/utilities/solvers.py:solve_pareto_front_representation_general"]}
{"id": "C81", "title": "NAUTILUS Navigator speed has no influence on the navigation", "statement": "Two interactions whose responses agree up to accepted speed entries show the same requests (or raise the same exception) up to the reported speed; the reported speed is the one given with the last forward response at step number 1, later ones are ignored.", "quantifier": "all interactions of any length, all accepted speeds", "why_tests_cant": "Equality of two arbitrary long histories.", "anchors": ["desdeo_mcdm/interactive/NautilusNavigator.py:update"]}
{"id": "C82", "title": "NIMBUS starts from the requested point", "statement": "A NIMBUS session shows first the objective vector of the solution obtained by minimizing the achievement function at the given starting point (the midpoint of ideal and nadir when none is given), with an empty archive; a starting point with the wrong number of components is refused, and so is a failed initial minimization.", "quantifier": "all problems, all starting points, all results of the minimizer", "why_tests_cant": "All problems and starting points.", "anchors": ["desdeo_mcdm/interactive/NIMBUS.py:NIMBUS.__init__", "desdeo_mcdm/interactive/NIMBUS.py:start"]}
{"id": "C83", "title": "NIMBUS only shows Pareto optimal rows of data-based problems", "statement": "For a data-based problem no row of the data dominates any solution NIMBUS ever shows (to classify, save, use for intermediate solutions, choose, or as the final solution), provided the scalarizing functions strictly prefer dominating vectors.", "quantifier": "all data-based problems, all histories of answers including refused ones and answers to old requests", "why_tests_cant": "All histories of any length.", "anchors": ["desdeo_mcdm/interactive/NIMBUS.py:iterate", "desdeo_mcdm/interactive/NIMBUS.py:calculate_new_solutions", "desdeo_mcdm/interactive/NIMBUS.py:compute_intermediate_solutions"]}
{"id": "C84", "title": "Constructors accept exactly consistent arguments", "statement": "The constructors of E-NAUTILUS, NAUTILUS Navigator, NAUTILUS, NAUTILUS v2 and the Reference Point Method accept arguments whose dimensions agree (front columns, ideal, nadir, starting point, names, minimize list, decision vectors) and refuse all others with the exception of the method; NAUTILUS v2 also refuses starting points worse than the nadir.", "quantifier": "all shapes of fronts, lengths of points, names and minimize lists, all starting points", "why_tests_cant": "All combinations of dimensions.", "anchors": ["desdeo_mcdm/interactive/ENautilus.py:ENautilus.__init__", "desdeo_mcdm/interactive/NautilusNavigator.py:NautilusNavigator.__init__", "desdeo_mcdm/interactive/Nautilus.py:Nautilus.__init__", "desdeo_mcdm/interactive/NautilusV2.py:NautilusV2.__init__", "desdeo_mcdm/interactive/ReferencePointMethod.py:ReferencePointMethod.__init__"]}
{"id": "C85", "title": "Which responses NAUTILUS and NAUTILUS v2 accept", "statement": "NAUTILUS and NAUTILUS v2 accept the first response exactly if it has an integer number of iterations, at least 1, a usable preference and neither of the flags 'step_back' and 'use_previous_preference'; a later response exactly if it has both flags, does not step back from the nadir point, has a usable preference unless the previous one is kept, and a usable number of iterations if it has one. Usable preferences are, for NAUTILUS, arrays with an entry per objective that are ranks, none of which is larger than the number of objectives and not all smaller than 1, or percentages that sum up to 100; for NAUTILUS v2, positive arrays with an entry per objective (with an entry 1 for method 2), or k-1 valid pairs in which every objective occurs. A refused response has no effect.", "quantifier": "all requests, all responses, including those with missing keys, all states", "why_tests_cant": "All responses and states.", "anchors": ["desdeo_mcdm/interactive/Nautilus.py:validate_response", "desdeo_mcdm/interactive/Nautilus.py:validate_preferences", "desdeo_mcdm/interactive/NautilusV2.py:validate_response", "desdeo_mcdm/interactive/NautilusV2.py:validate_preferences"]}
{"id": "C86", "title": "Which responses the reference point method and Pareto Navigator accept", "statement": "The reference point method accepts a response exactly if the decision maker is satisfied (not in the first response) and gives an index between 0 and the number of objectives, or is not satisfied and gives a reference point with one component per objective that is not worse than the nadir in all objectives. Pareto Navigator accepts the first response exactly if it has a speed that int() turns into 1,...,5 and either a preferred solution or such a reference point; a later one exactly if it asks for the solution, or a given speed is such a speed, at most one kind of preference is given, a reference point is as above and classes are '<', '>' or '='. A refused response has no effect.", "quantifier": "all requests, responses, including those with missing keys, and states", "why_tests_cant": "All responses and states.", "anchors": ["desdeo_mcdm/interactive/ReferencePointMethod.py:RPMInitialRequest.response", "desdeo_mcdm/interactive/ReferencePointMethod.py:RPMRequest.response", "desdeo_mcdm/interactive/ParetoNavigator.py:ParetoNavigatorInitialRequest.response", "desdeo_mcdm/interactive/ParetoNavigator.py:ParetoNavigatorRequest.response"]}
{"id": "C87", "title": "Which solutions a front representation returns", "statement": "Whatever the single-objective solvers return, solve_pareto_front_representation_general called with bounds returns, in the order of the reference points, exactly the solutions of the successful optimizations that belong to the first reference point or are not worse in every objective than some solution kept before, together with their objective vectors. In particular, if the optimization of the first reference point fails, nothing is returned.", "quantifier": "all objective functions, all bounds, steps and eps for which the reference points are built, all solver results and success flags", "why_tests_cant": "A test fixes one problem and one solver; the filter depends on the whole history of successes and failures.", "anchors": ["desdeo_mcdm/utilities/solvers.py:solve_pareto_front_representation_general"]}
{"id": "C88", "title": "E-NAUTILUS requests are consistent in every history", "statement": "However an E-NAUTILUS object is used (the initial request answered any number of times, any issued request answered, not only the last one, calls that raise in between; positive numbers of iterations; steps back to issued requests), every request it issues has at least one iteration left, exact bounds for every shown point, and only front rows as points when one iteration is left; the reachable indices are all rows at first and later exactly the rows within the bounds reported with some shown point.", "quantifier": "all fronts, all histories of calls including failing ones, all k-means results", "why_tests_cant": "Out-of-order answers, restarts and partly executed calls multiply the histories.", "anchors": ["desdeo_mcdm/interactive/ENautilus.py:ENautilus.iterate", "desdeo_mcdm/interactive/ENautilus.py:ENautilus.handle_request"]}
{"id": "C89", "title": "E-NAUTILUS stops only at solutions on the front", "statement": "Whichever issued request is answered last, the objective vector of the stop request is a row of the supplied front.", "quantifier": "all fronts and all histories, older requests included", "why_tests_cant": "Needs out-of-order histories.", "anchors": ["desdeo_mcdm/interactive/ENautilus.py:ENautilus.handle_request"]}
{"id": "C90", "title": "E-NAUTILUS can be started over", "statement": "Answering the initial request again shows what a newly constructed method shows for the same answer.", "quantifier": "all fronts and all histories before the restart", "why_tests_cant": "Depends on the state left behind by an arbitrary earlier run.", "anchors": ["desdeo_mcdm/interactive/ENautilus.py:ENautilus.handle_initial_request"]}
{"id": "C91", "title": "A failed E-NAUTILUS call has no effect", "statement": "If iterate or setting a response raises, the decision maker can answer the same request again and is shown what would have been shown without the failed call.", "quantifier": "all states and responses", "why_tests_cant": "Every exception point of every call must be considered.", "anchors": ["desdeo_mcdm/interactive/ENautilus.py:ENautilus.handle_request"]}
{"id": "C92", "title": "Which responses E-NAUTILUS, NAUTILUS Navigator and NIMBUS accept", "statement": "The validators of E-NAUTILUS, NAUTILUS Navigator and NIMBUS accept exactly the responses described by the specifications PositiveInt, lastAccepted, PassingReference, PassingSpeed, PassingClassification and the index conditions; a response that is not accepted leaves the method unchanged.", "quantifier": "all responses, with missing entries and entries of unexpected types", "why_tests_cant": "The space of responses is infinite.", "anchors": ["desdeo_mcdm/interactive/ENautilus.py:ENautilusRequest.validator", "desdeo_mcdm/interactive/NautilusNavigator.py:NautilusNavigatorRequest.validator", "desdeo_mcdm/interactive/NIMBUS.py:NimbusClassificationRequest.validator"]}
{"id": "C93", "title": "NIMBUS honours classifications on analytic problems", "statement": "For an analytic problem the first solution shown after a classification is what the scalar minimizer returns for minimizing the first scalarizing function, with the levels as reference point, over the feasible decision vectors whose objectives honour the classification relative to the current objectives; with an exact minimizer the first solution is therefore feasible and honours the classification. The constraints are satisfiable for every accepted classification.", "quantifier": "all analytic problems, reachable histories, accepted complete classifications and minimizers", "why_tests_cant": "the constraint handed to the minimizer depends on the whole history (current objectives) and on every combination of classes; tests use one problem and an approximate solver", "anchors": ["desdeo_mcdm/interactive/NIMBUS.py: calculate_new_solutions, NIMBUS.py: NimbusClassificationRequest.validator"]}
{"id": "C94", "title": "NIMBUS only shows Pareto optimal solutions of analytic problems", "statement": "If the scalar minimizer solves exactly what it is asked for and the scalarizing functions prefer dominating vectors, every solution NIMBUS shows for an analytic problem (to classify, save, interpolate, choose, final) is feasible, comes with its own objective vector and is not dominated by any feasible decision vector.", "quantifier": "all analytic problems, histories with any answers to any issued request, scalarizing functions", "why_tests_cant": "Pareto optimality quantifies over all feasible vectors and all histories; tests cannot enumerate either", "anchors": ["desdeo_mcdm/interactive/NIMBUS.py: __init__, calculate_new_solutions, compute_intermediate_solutions, iterate"]}
{"id": "C95", "title": "A failed call has no effect (other methods)", "statement": "In the reference point method, NIMBUS, NAUTILUS Navigator, Pareto Navigator, NAUTILUS and NAUTILUS 2, a call that raises - a response refused by the validator, or an exception while the response is processed - leaves the method as it was, so that the decision maker can simply answer again.", "quantifier": "all problems, reachable histories, issued requests, responses and solver outcomes for which the call raises", "why_tests_cant": "every response that fails and every state it fails in is covered, including combinations of solver failures and partially processed responses; tests only look at the exception", "anchors": ["desdeo_mcdm/interactive/ReferencePointMethod.py: iterate, handle_request", "desdeo_mcdm/interactive/NIMBUS.py: iterate", "desdeo_mcdm/interactive/NautilusNavigator.py: iterate, handle_request", "desdeo_mcdm/interactive/ParetoNavigator.py: iterate, handle_*", "desdeo_mcdm/interactive/Nautilus.py: iterate, handle_request", "desdeo_mcdm/interactive/NautilusV2.py: iterate, handle_request"]}
{"id": "C96", "title": "Methods can be started over (other methods)", "statement": "In the same methods, going back to the beginning (answering the initial request again, or `start`, or navigating back to the first step) starts over: whatever the decision maker answers from then on, every request and exception is the one a newly constructed method gives.", "quantifier": "all problems, reachable histories, and all later sequences of responses and solver outcomes", "why_tests_cant": "equality of all future behaviours with those of a fresh object needs a simulation over unbounded continuations", "anchors": ["desdeo_mcdm/interactive/ReferencePointMethod.py: start, handle_initial_request", "desdeo_mcdm/interactive/NIMBUS.py: start", "desdeo_mcdm/interactive/NautilusNavigator.py: start, handle_request", "desdeo_mcdm/interactive/ParetoNavigator.py: start, handle_initial_request", "desdeo_mcdm/interactive/Nautilus.py: start, handle_initial_request", "desdeo_mcdm/interactive/NautilusV2.py: start, handle_initial_request"]}
{"id": "C97", "title": "NAUTILUS and NAUTILUS 2 end with a Pareto optimal solution", "statement": "If the scalar minimizers solve exactly the problems they are given, every run of NAUTILUS and NAUTILUS 2 ends with a solution that is feasible (within the bounds of the variables and satisfying the constraints), comes with its own objective vector and is not dominated by any feasible vector.", "quantifier": "all problems, runs with any answers, steps back, changes of preference and of the number of iterations, and exact minimizers", "why_tests_cant": "Pareto optimality quantifies over all feasible vectors and all runs; tests look at single runs on problems without constraints", "anchors": ["desdeo_mcdm/interactive/Nautilus.py: solve_asf, calculate_bounds, iterate", "desdeo_mcdm/interactive/NautilusV2.py: solve_asf, calculate_bounds, iterate"]}
{"id": "C98", "title": "NAUTILUS and NAUTILUS 2 never make the decision maker give something up", "statement": "If the scalar minimizers solve exactly the problems they are given, every step forward in NAUTILUS and NAUTILUS 2 shows a point that is at least as good in every objective as the one shown before (or as the starting point), as long as that one can be reached.", "quantifier": "all problems, runs, preferences and exact minimizers", "why_tests_cant": "depends on all feasible vectors and on a tiny augmentation term that tests with tolerances do not see", "anchors": ["desdeo_mcdm/interactive/Nautilus.py: solve_asf, calculate_preferential_factors, calculate_iteration_point", "desdeo_mcdm/interactive/NautilusV2.py: solve_asf, calculate_preferential_factors, calculate_iteration_point"]}
{"id": "C99", "title": "The reference point method shows and returns Pareto optimal solutions", "statement": "In a session of the reference point method on a problem with variables, with exact minimizers and reference points without positive components, every current and additional objective vector shown belongs to a feasible Pareto optimal solution, and every stop request returns such a solution together with its objective vector.", "quantifier": "for all problems (bounds and constraints), all histories of answers to any issued request, all exact solver outcomes", "why_tests_cant": "It concerns all problems and all session histories; which solution is returned depends on the storage at the time of the answer.", "anchors": ["desdeo_mcdm/interactive/ReferencePointMethod.py:ReferencePointMethod.solve_asf", "desdeo_mcdm/interactive/ReferencePointMethod.py:ReferencePointMethod.handle_request"]}
{"id": "C100", "title": "Pareto Navigator shows Pareto optimal solutions near the current one", "statement": "When the decision maker asks for the solution, Pareto Navigator (with an exact minimizer) shows a feasible Pareto optimal solution with its objective vector; it is at least as good as the current solution if some feasible solution is, and otherwise exceeds it by as little as possible in the worst objective. Every stop request returns a solution that was shown.", "quantifier": "for all problems (continuous with constraints, or discrete), all histories, all exact solver outcomes", "why_tests_cant": "It concerns the optima of arbitrary problems and all histories of navigation.", "anchors": ["desdeo_mcdm/interactive/ParetoNavigator.py:ParetoNavigator.solve_asf", "desdeo_mcdm/interactive/ParetoNavigator.py:ParetoNavigator.handle_request"]}
{"id": "C101", "title": "Going on in Pareto Navigator approaches an attainable reference point", "statement": "If the reference point in force is attainable in the polyhedral approximation (some convex combination of the stored solutions within the shown ideal and nadir is at least as good in every objective) and the current solution belongs to the approximation, then answering the navigation request n times in a row without a new preference shrinks what every objective exceeds its reference value by at least by the factor (1 - a)^n, where the step length a is between 1/50 and 6/50 whatever has been answered before; an objective that meets its reference value goes on meeting it.", "quantifier": "every problem with any number of objectives, every history of answers (stale, refused and failing ones included), every number n of steps, every exact linear programming and convex hull solver", "why_tests_cant": "A convergence statement about an unbounded number of steps whose rate must hold from every state that some history reaches.", "anchors": ["desdeo_mcdm/interactive/ParetoNavigator.py: ParetoNavigator.handle_navigation_request, calculate_search_direction, solve_linear_parametric_problem, polyhedral_set_eq, calculate_speed"]}
{"id": "C102", "title": "The reference point method reaches attainable reference points", "statement": "With exact minimizers, the answer to a reference point that some decision vector within the variable bounds attains (and that has no positive component, see C48) is a solution that is at least as good as the reference point in every objective, and the i-th additional solution reaches every reference value but perhaps the i-th.", "quantifier": "every problem with any number of objectives, every history, every attainable reference point without positive components, every exact minimizer", "why_tests_cant": "Attainment must hold for every feasible set and reference point; a test sees particular optima within tolerances.", "anchors": ["desdeo_mcdm/interactive/ReferencePointMethod.py: handle_initial_request, handle_navigation_request, calculate_prp"]}
{"id": "C103", "title": "The nadir of the payoff table bounds the Pareto front", "statement": "With a solver that finds feasible global minima, no Pareto optimal solution is worse than the nadir point computed by the payoff table method in any objective.", "quantifier": "every problem with any number of objectives and constraints, every exact solver (whichever minimizer of an objective it returns), every Pareto optimal solution", "why_tests_cant": "Ranges over all problems and all tie-breaking behaviours of the solver; tests compare with the known nadir of a few problems.", "anchors": ["desdeo_mcdm/utilities/solvers.py: payoff_table_method_general, payoff_table_method"]}
{"id": "C104", "title": "Unusable responses are refused with the documented exception", "statement": "Setting the response of a request either succeeds or raises the exception class of the method (ENautilusException, NautilusNavigatorException, NimbusException, NautilusException, RPMException, ParetoNavigatorException), whatever keys, shapes and values the response has.", "quantifier": "every request and response of all seven interactive methods, every problem", "why_tests_cant": "Ranges over all responses, malformed ones included; callers catch the documented exception only.", "anchors": ["desdeo_mcdm/interactive: validators and response setters of all requests"]}
{"id": "C105", "title": "E-NAUTILUS: origins and a common unit do not matter", "statement": "Take any E-NAUTILUS problem and express all objective values in a unit that is the same positive multiple of the old one for every objective, and from new origins: the front, the ideal and nadir points and any earlier points the decision maker sends back with a step back. If the clustering groups the same rows, then for every initial response and every sequence of responses the converted run gives, call by call, the converted points and bounds, the same distances in percent, the same iterations left, the same final decision vector and the same exceptions.", "quantifier": "every problem, every positive factor and vector of origins, every clustering outcome, every sequence of responses", "why_tests_cant": "a relation between two whole runs for all problems, factors and response sequences; tests compare a few runs on one data set", "anchors": ["desdeo_mcdm/interactive/ENautilus.py: ENautilus.iterate, calculate_intermediate_points, calculate_bounds, calculate_distances, calculate_reachable_subset"]}
{"id": "C106", "title": "E-NAUTILUS: units chosen per objective do not matter", "statement": "Express each objective in a unit of its own (any positive factor and origin per objective). If the clustering groups the same rows, then every run shows the converted points, bounds and final objective vector, the same iterations left and exceptions, and the same distances in percent and final decision vector.", "quantifier": "every problem, every positive factor and origin per objective, every clustering outcome, every sequence of responses", "why_tests_cant": "a relation between two whole runs for all problems, units and response sequences", "anchors": ["desdeo_mcdm/interactive/ENautilus.py: ENautilus.iterate, calculate_distances, handle_request"]}
{"id": "C107", "title": "NAUTILUS Navigator takes every new reference point into account", "statement": "Every forward step goes straight towards the row with the smallest achievement value for the reference point given in the very response that asked for the step, among the rows shown as reachable that respect the user bounds shown. In particular changing the reference point, by however little, changes the direction if another reachable row is better for the new one.", "quantifier": "every front, ideal and nadir point, every sequence of responses, every new reference point", "why_tests_cant": "which changes are ignored depends on magnitudes of all previous reference points; tests use a few well scaled fronts", "anchors": ["desdeo_mcdm/interactive/NautilusNavigator.py: NautilusNavigator.update, solve_nautilus_asf_problem"]}
{"id": "C108", "title": "Asking NAUTILUS Navigator for more of one objective does not worsen it", "statement": "Consider any request of NAUTILUS Navigator and two forward responses to it whose reference points differ only in that the second asks for a better value of one objective (both changes large enough to be noticed). The navigation point reached with the second response is not worse in that objective than the one reached with the first, apart from an allowance of one millionth of the objective's range per objective (the weight of the augmentation term), divided by the steps remaining. With two objectives there is no allowance.", "quantifier": "every front, every history, every request, every pair of reference points differing in one component, every objective", "why_tests_cant": "compares two continuations of the same arbitrary history for all fronts and reference points; tests run single sequences", "anchors": ["desdeo_mcdm/interactive/NautilusNavigator.py: NautilusNavigator.update, solve_nautilus_asf_problem, calculate_navigation_point"]}
{"id": "C109", "title": "E-NAUTILUS ends exactly on the front in floating-point arithmetic", "statement": "In floating-point arithmetic, whatever its rounding, with one iteration left every point E-NAUTILUS shows is to the last bit a row of the supplied front, its distance is exactly 100 percent (NaN for the nadir point), and the stop request returns that row with the decision vector of a row with exactly these objective values. The bounds shown for a point are always the exact ranges for the point as shown.", "quantifier": "all rounding modes and precisions without overflow and underflow, all fronts of machine numbers, all histories of calls (restarts, steps back, older requests and failed calls included), all results of k-means", "why_tests_cant": "depends on rounding errors of every operation for all inputs; tests check a few numbers with a tolerance", "anchors": ["desdeo_mcdm/interactive/ENautilus.py:ENautilus.calculate_intermediate_points", "desdeo_mcdm/interactive/ENautilus.py:ENautilus.calculate_distances", "desdeo_mcdm/interactive/ENautilus.py:ENautilus.handle_request"]}
{"id": "C110", "title": "E-NAUTILUS does not lose solutions by rounding", "statement": "In floating-point arithmetic, the front solution a shown point heads for, if it is at least as good as the point the step started from, is within the bounds shown for that point, and an accepted response does not make the method raise an exception.", "quantifier": "all roundings, fronts of machine numbers, numbers of iterations and calls", "why_tests_cant": "off-by-one-ulp effects occur only for particular numbers and numbers of iterations", "anchors": ["desdeo_mcdm/interactive/ENautilus.py:ENautilus.calculate_intermediate_points", "desdeo_mcdm/interactive/ENautilus.py:ENautilus.calculate_bounds"]}
{"id": "C111", "title": "NAUTILUS Navigator keeps its promises in floating-point arithmetic", "statement": "Also when every arithmetic operation is rounded (IEEE doubles), in every history: step_number and steps_remaining stay between 1 and 100 and sum to 101; a forward step taken when one step remains puts the navigation point bit for bit on a row of the front and shows a distance of exactly 100 (unless the row is the nadir); so does every process of 100 or more forward steps; bounds never widen, the reachable set never grows on forward steps, and the bounds are exactly the extreme values over the rows the rounded navigation point allows. With one reference point the navigation point after h steps is h percent of the straight way up to about 3h rounding errors.", "quantifier": "all roundings that are monotone, idempotent, exact on 0 and 1 and of relative error at most e; all fronts of machine numbers; all histories", "why_tests_cant": "Tests compare with a tolerance; the claim is bit-for-bit and for every rounding and history.", "anchors": ["desdeo_mcdm/interactive/NautilusNavigator.py:NautilusNavigator.update", "desdeo_mcdm/interactive/NautilusNavigator.py:NautilusNavigator.calculate_navigation_point", "desdeo_mcdm/interactive/NautilusNavigator.py:NautilusNavigator.calculate_distance"]}
{"id": "C112", "title": "NAUTILUS Navigator does not lose the solution it navigates to by rounding", "statement": "In a navigation with one reference point whose user bounds allow the solution navigated to, that solution stays reachable at every step and stopping at the end returns it, also in floating-point arithmetic.", "quantifier": "all fronts, nadir points, reference points and numbers of steps; IEEE doubles", "why_tests_cant": "Whether a solution is lost depends on the last bit of the computed navigation point; a test on a few fronts passes although others fail.", "anchors": ["desdeo_mcdm/interactive/NautilusNavigator.py:NautilusNavigator.calculate_navigation_point", "desdeo_mcdm/interactive/NautilusNavigator.py:NautilusNavigator.calculate_bounds", "desdeo_mcdm/interactive/NautilusNavigator.py:NautilusNavigator.update"]}
{"id": "C113", "title": "The front representation covers the front with the resolution of its step", "statement": "If every optimization succeeds and is exact and the ideal point is a lower bound, then for every solution that is nowhere worse than the nadir point - hence for every Pareto optimal one, if the nadir is right - the returned representation contains a solution that is in no objective worse than it by more than one step (relative to the range) plus k*1e-6 of the range. For two objectives without constraints this holds from start to end, with ideal and nadir from the payoff table.", "quantifier": "all objective functions, steps (one or one per objective), ranges, numbers of objectives, solvers that are exact; all solutions to be represented", "why_tests_cant": "A test can only look at the representation of some fronts; the claim is about every solution of every problem.", "anchors": ["desdeo_mcdm/utilities/solvers.py:solve_pareto_front_representation_general", "desdeo_mcdm/utilities/solvers.py:solve_pareto_front_representation", "desdeo_mcdm/utilities/solvers.py:payoff_table_method"]}
{"id": "C114", "title": "NAUTILUS Navigator: the order of the objectives does not matter", "statement": "Listing the objectives in another order, consistently in the front, the ideal and nadir points, the reference points and the user bounds, changes nothing but that order: whatever the decision maker answers, to whichever earlier request, every returned request, stop result and exception is the same with the objectives reordered.", "quantifier": "every front, every permutation of the objectives, every norm that does not depend on the order, every sequence of responses to any of the issued requests, refused and failing ones included", "why_tests_cant": "Needs two whole interactions to be compared for all data and all histories; a test compares two runs on one front.", "anchors": ["desdeo_mcdm/interactive/NautilusNavigator.py:NautilusNavigator.iterate", "desdeo_mcdm/interactive/NautilusNavigator.py:NautilusNavigator.update", "desdeo_mcdm/interactive/NautilusNavigator.py:NautilusNavigator.solve_nautilus_asf_problem"]}
{"id": "C115", "title": "NAUTILUS Navigator: the origins of the objectives do not matter", "statement": "Measuring the objectives from other origins (adding a constant per objective to the front, the ideal and nadir points, the reference points and the bounds) gives the same interaction with the constants added. (Violated: whether a reference point counts as changed is decided with np.allclose, whose tolerance is relative to the value, so far from the origin a new reference point can go unnoticed.)", "quantifier": "every front, every vector of constants, every sequence of responses to any of the issued requests", "why_tests_cant": "Compares whole interactions for all data and all shifts.", "anchors": ["desdeo_mcdm/interactive/NautilusNavigator.py:NautilusNavigator.update", "desdeo_mcdm/interactive/NautilusNavigator.py:NautilusNavigator.solve_nautilus_asf_problem"]}
{"id": "C116", "title": "NAUTILUS Navigator: the units of the objectives do not matter", "statement": "Measuring each objective in another unit (a positive factor per objective) gives the same interaction in the new units, the distances excepted unless the factor is common. (Violated: the achievement function adds an absolute 1e-6 to the ranges, so an objective whose values are small in the chosen unit is practically ignored and another row of the front is chosen.)", "quantifier": "every front, every positive factor per objective, every sequence of responses to any of the issued requests", "why_tests_cant": "Compares whole interactions for all data and all units; the failure needs unusual magnitudes.", "anchors": ["desdeo_mcdm/interactive/NautilusNavigator.py:NautilusNavigator.update", "desdeo_mcdm/interactive/NautilusNavigator.py:NautilusNavigator.solve_nautilus_asf_problem"]}
{"id": "C117", "title": "NAUTILUS ends exactly at the solution in floating-point arithmetic", "statement": "In floating-point arithmetic, whatever its rounding, the point NAUTILUS shows in the last iteration is to the last bit the objective vector of the solution found, its distance is exactly 100 percent, and the stop request returns that solution with that objective vector. Every other forward step is the convex step of C31 up to three roundings, and after h of N iterations with the same preferences the point is the h-th of N even steps up to 3h roundings relative to the larger end point.", "quantifier": "All problems whose objectives are machine numbers, all roundings, all histories of responses and solver outcomes in which no accepted response raised an exception.", "why_tests_cant": "Floating-point formulas of the form ((n-1)/n)*a + (1/n)*b usually do not end exactly at b, and a test sees a few numbers.", "anchors": ["desdeo_mcdm/interactive/Nautilus.py:calculate_iteration_point", "desdeo_mcdm/interactive/Nautilus.py:calculate_distance", "desdeo_mcdm/interactive/Nautilus.py:handle_request"]}
{"id": "C118", "title": "NAUTILUS accepts percentages that sum up to 100", "statement": "A response that gives one percentage per objective, percentages that sum up to 100, and a usable number of iterations is accepted; and percentages that are accepted sum up to 100 (up to rounding errors).", "quantifier": "All lists of percentages (as stored in doubles), all orders in which the additions are made.", "why_tests_cant": "Whether the computed sum is exactly 100 depends on the decimals of all percentages and on the order of summation.", "anchors": ["desdeo_mcdm/interactive/Nautilus.py:validate_preferences"]}
{"id": "C119", "title": "Rounding does not put the points of NAUTILUS out of order", "statement": "In floating-point arithmetic a forward step of NAUTILUS towards a solution at least as good as the point shown last shows a point that is nowhere worse than the point shown last and nowhere better than the solution, so that the solution stays within the bounds shown; and a short step back shows a point between the last and the previous one.", "quantifier": "All problems, roundings and histories as in C117.", "why_tests_cant": "Depends on the last bits of every coordinate and on the number of iterations left.", "anchors": ["desdeo_mcdm/interactive/Nautilus.py:calculate_iteration_point", "desdeo_mcdm/interactive/Nautilus.py:handle_request"]}
{"id": "C120", "title": "The order of the objectives does not matter in NAUTILUS", "statement": "Listing the objectives in another order (in the problem, the ideal and nadir points and the ranks or percentages) changes nothing in a whole use of NAUTILUS but the order in which things are listed: every request (point, bounds, distance), stop result, missing result and exception is the same.", "quantifier": "All problems, permutations of the objectives, numbers of iterations, and all sequences of responses (valid or not) given to any of the requests issued so far, with nonzero ranks or percentages, and any minimizers whose choice depends only on the scalar problem they are given (same admitted vectors, values equal up to a positive affine map).", "why_tests_cant": "Relates two whole runs on two different inputs, for all histories.", "anchors": ["desdeo_mcdm/interactive/Nautilus.py:calculate_preferential_factors", "desdeo_mcdm/interactive/Nautilus.py:solve_asf", "desdeo_mcdm/interactive/Nautilus.py:calculate_bounds", "desdeo_mcdm/interactive/Nautilus.py:calculate_distance"]}
{"id": "C121", "title": "The origins of the objectives do not matter in NAUTILUS", "statement": "Measuring the objectives from other origins (adding a constant to every objective, and to the ideal and nadir points) changes nothing in a whole use of NAUTILUS but that everything shown is measured from the new origins: solutions, points, bounds, distances and exceptions correspond.", "quantifier": "All problems and shifts; histories and minimizers as in C120.", "why_tests_cant": "Relates two whole runs on two different inputs, for all histories.", "anchors": ["desdeo_mcdm/interactive/Nautilus.py:__init__", "desdeo_mcdm/interactive/Nautilus.py:calculate_preferential_factors", "desdeo_mcdm/interactive/Nautilus.py:calculate_iteration_point"]}
{"id": "C122", "title": "The units of the objectives do not matter in NAUTILUS", "statement": "Measuring the objectives in other units (multiplying every objective, and its ideal and nadir values, by a positive factor) changes nothing in a whole use of NAUTILUS but the units in which points, bounds and solutions are shown, except for the distances, which are computed with the Euclidean norm.", "quantifier": "All problems and positive factors; histories and minimizers as in C120.", "why_tests_cant": "Relates two whole runs on two different inputs, for all histories.", "anchors": ["desdeo_mcdm/interactive/Nautilus.py:__init__", "desdeo_mcdm/interactive/Nautilus.py:calculate_preferential_factors", "desdeo_mcdm/interactive/Nautilus.py:solve_asf"]}
{"id": "C123", "title": "The order of the objectives does not matter in the reference point method", "statement": "Listing the objectives in another order (in the problem, the ideal and nadir points and the reference points) changes nothing in a whole use of the reference point method but the order in which objectives, and the additional solutions (one per objective), are listed: every request, stop result and exception is the same, when the same additional solution is chosen.", "quantifier": "All problems, permutations of the objectives, and all sequences of responses (valid or not) given to any of the requests issued so far, and any minimizer whose choice depends only on the function it is given.", "why_tests_cant": "Relates two whole runs on two different inputs, for all histories.", "anchors": ["desdeo_mcdm/interactive/ReferencePointMethod.py:handle_request", "desdeo_mcdm/interactive/ReferencePointMethod.py:calculate_prp", "desdeo_mcdm/interactive/ReferencePointMethod.py:solve_asf"]}
{"id": "C124", "title": "The origins of the objectives do not matter in the reference point method", "statement": "Measuring the objectives from other origins (adding a constant to every objective, its ideal and nadir values and the reference points) changes nothing in a whole use of the reference point method but that everything shown is measured from the new origins.", "quantifier": "All problems and shifts; histories and minimizers as in C123.", "why_tests_cant": "Relates two whole runs on two different inputs, for all histories.", "anchors": ["desdeo_mcdm/interactive/ReferencePointMethod.py:handle_initial_request", "desdeo_mcdm/interactive/ReferencePointMethod.py:handle_request"]}
{"id": "C125", "title": "The units of the objectives do not matter in the reference point method", "statement": "Measuring the objectives in other units (multiplying every objective, its ideal and nadir values and the reference points by a positive factor) changes nothing in a whole use of the reference point method but the units in which solutions are shown.", "quantifier": "All problems and positive factors; histories and minimizers as in C123.", "why_tests_cant": "Relates two whole runs on two different inputs, for all histories.", "anchors": ["desdeo_mcdm/interactive/ReferencePointMethod.py:handle_initial_request", "desdeo_mcdm/interactive/ReferencePointMethod.py:calculate_prp"]}
{"id": "C126", "title": "NAUTILUS 2: the order of the objectives does not matter", "statement": "Let the objectives of the problem be listed in another order, consistently in the problem, the starting, ideal and nadir points, the improvements and the numbers in the pairs. Then whatever responses are given, to whichever of the requests issued so far, every request, stop result, None and exception of NAUTILUS 2 is the same, with the objectives in the new order. Violated for improvements given by pairs: calculate_doi makes the improvement of the objective listed first 1, so another order multiplies the whole direction by a factor, which changes the weight of the achievement function's augmentation term and with it the solution. It holds for all other preferences, and for pairs if the first objective stays first; the direction is always the same up to a factor.", "quantifier": "all problems with any number of objectives, all orders, all sequences of responses (to any earlier request, refused ones included), all minimizers that depend only on the problem they are given", "why_tests_cant": "a relation between two whole uses of the method for every order and every history; a test compares a few", "anchors": ["desdeo_mcdm/interactive/NautilusV2.py: calculate_doi, calculate_preferential_factors, solve_asf, handle_request"]}
{"id": "C127", "title": "NAUTILUS 2: the origins of the objectives do not matter", "statement": "Adding constants to the objectives (consistently in the problem and in the starting, ideal and nadir points) changes every request and stop result of NAUTILUS 2 by these constants only, whatever responses are given; the distances, refusals, None and exceptions are the same.", "quantifier": "all problems, all constants, all sequences of responses to any earlier request, all minimizers that depend only on the problem they are given", "why_tests_cant": "a relation between two whole uses for all constants and histories", "anchors": ["desdeo_mcdm/interactive/NautilusV2.py: solve_asf, calculate_iteration_point, calculate_bounds, calculate_distance"]}
{"id": "C128", "title": "NAUTILUS 2: the units of the objectives do not matter", "statement": "Measuring the objectives in other units (positive factors, consistently in the problem, the points and the improvements asked for) changes every request and stop result of NAUTILUS 2 by these factors only, except for the distances. Violated with the default epsilon, which is a number and not a share of the range, and violated for improvements given by pairs even with epsilon = 0. It holds with epsilon = 0 for improvements given directly, and with one common unit (epsilon included) together with the distances.", "quantifier": "all problems, all positive factors, all sequences of responses, all minimizers that depend only on the problem they are given", "why_tests_cant": "a relation between two whole uses for all units and histories; the violation shows only with units far apart", "anchors": ["desdeo_mcdm/interactive/NautilusV2.py: __init__ (utopian), calculate_doi, solve_asf"]}
{"id": "C129", "title": "NAUTILUS 2: only the direction of improvement matters, not its length", "statement": "Multiplying the components of a direction of improvement given directly by a positive number does not change anything NAUTILUS 2 shows. Violated: the augmentation term of the achievement function is not multiplied, so a longer direction may lead to another solution. What holds, with exact minimizers, is that the first point shown reaches the direction up to a negligible amount.", "quantifier": "all problems, all directions, all positive factors, all minimizers that depend only on the problem they are given", "why_tests_cant": "a relation between two uses for all factors; with moderate factors the difference is below the tolerances of tests", "anchors": ["desdeo_mcdm/interactive/NautilusV2.py: calculate_preferential_factors, solve_asf"]}
{"id": "C130", "title": "Objectives declared for maximization are maximized", "statement": "The constructors of NAUTILUS, NAUTILUS 2 and the reference point method take a list 'minimize' with a multiplier per objective, documented as '-1' for maximization and '1' for minimization. Whatever list is given and accepted, with minimizers that solve what they are asked and a problem without constraints, the solution in the stop request is optimal in the declared directions: no feasible solution is at least as good in every objective and better in one, where 'better' means larger for objectives declared '-1'.", "quantifier": "every accepted list of multipliers, problem, ideal and nadir point, history of responses and solutions found by exact minimizers", "why_tests_cant": "a test uses one list of directions; that an argument has the documented effect in every session (or none at all) is a statement about all sessions with all lists", "anchors": ["desdeo_mcdm/interactive/Nautilus.py: Nautilus.__init__ (minimize, _minimize), solve_asf", "desdeo_mcdm/interactive/NautilusV2.py: NautilusV2.__init__, solve_asf", "desdeo_mcdm/interactive/ReferencePointMethod.py: ReferencePointMethod.__init__, solve_asf"]}
{"id": "C131", "title": "NAUTILUS 2 ends exactly at the solution in floating-point arithmetic", "statement": "In floating-point arithmetic, whatever its rounding, the point NAUTILUS 2 shows in the last iteration is to the last bit the objective vector of the solution found, its distance is exactly 100 percent, and the stop request returns that solution with that objective vector. Every other forward step is the convex step from the point shown last up to three roundings, the achievement function is minimized with the reciprocals of the preferences given (of a direction with the ratios given, up to rounding errors, for pairwise ratios), and after h of N iterations with the same preferences the point is the h-th of N even steps from the starting point up to 3h roundings relative to the larger end point.", "quantifier": "All problems whose objectives are machine numbers, all roundings, all histories of responses and solver outcomes in which no accepted response raised an exception.", "why_tests_cant": "Floating-point formulas of the form ((n-1)/n)*a + (1/n)*b usually do not end exactly at b, and a test sees a few numbers.", "anchors": ["desdeo_mcdm/interactive/NautilusV2.py:calculate_iteration_point", "desdeo_mcdm/interactive/NautilusV2.py:calculate_distance", "desdeo_mcdm/interactive/NautilusV2.py:handle_request", "desdeo_mcdm/interactive/NautilusV2.py:solve_asf"]}
{"id": "C132", "title": "Rounding does not put the points of NAUTILUS 2 out of order", "statement": "In floating-point arithmetic a forward step of NAUTILUS 2 towards a solution at least as good as the point shown last shows a point that is nowhere worse than the point shown last and nowhere better than the solution, so that the solution stays within the bounds shown; and a short step back shows a point between the last and the previous one.", "quantifier": "All problems, roundings and histories as in C131, with starting points of machine numbers.", "why_tests_cant": "Depends on the last bits of every coordinate and on the number of iterations left.", "anchors": ["desdeo_mcdm/interactive/NautilusV2.py:calculate_iteration_point", "desdeo_mcdm/interactive/NautilusV2.py:handle_request"]}
{"id": "C133", "title": "The direction of improvement in floating-point arithmetic", "statement": "In floating-point arithmetic the search of NAUTILUS 2 for the direction of improvement ends for exactly the same accepted lists of pairwise ratios as in exact arithmetic (those that connect all objectives; for the others it never ends); when it ends, every entry is positive, the entry of the first objective is exactly 1, and for k objectives every entry is within 2k^2 relative rounding errors of the entry of the direction that has exactly the ratios given, although entries already found are recomputed from their neighbours in every pass.", "quantifier": "All numbers of objectives, all accepted lists of pairs with ratios, all roundings.", "why_tests_cant": "The number of passes and the order in which rounded values are fed into each other depend on the list of pairs; a test sees a few lists.", "anchors": ["desdeo_mcdm/interactive/NautilusV2.py:calculate_doi", "desdeo_mcdm/interactive/NautilusV2.py:validate_n2_preferences"]}
{"id": "C134", "title": "NIMBUS plots show the solutions of the request", "statement": "In every history of a NIMBUS session, the rows of every plot request are exactly the objective vectors of the request returned with it, in the same order (so that index i in a response means row i of the plot), its ideal and nadir are those that bound the levels accepted in classifications, and every row is the objective vector of a solution of the problem. Every request except classification requests is returned with a plot request; classification requests never are.", "quantifier": "every problem, starting point, history of answered requests (also old ones), responses and solutions found by the minimizers", "why_tests_cant": "row order and completeness must agree after any number of saves, intermediate solutions and repeated answers", "anchors": ["desdeo_mcdm/interactive/NIMBUS.py: NIMBUS.create_plot_request, request_stop, request_most_preferred_solution, compute_intermediate_solutions, save_solutions_to_archive, calculate_new_solutions, iterate"]}
{"id": "C135", "title": "NIMBUS optimizes in the directions it plots", "statement": "The plots of NIMBUS state for every objective whether it is to be minimized (1) or maximized (-1), as declared by the problem. With scalarizing functions that strictly prefer dominating vectors and a minimizer that solves what it is asked for, no feasible solution is better in these directions than a plotted solution.", "quantifier": "every problem and declared directions, history and exact minimizer", "why_tests_cant": "that declared directions have an effect is a statement about all problems and sessions", "anchors": ["desdeo_mcdm/interactive/NIMBUS.py: NIMBUS.create_plot_request (_max_multiplier), calculate_new_solutions, compute_intermediate_solutions, __init__ (evaluate(x).objectives)"]}
{"id": "C136", "title": "NIMBUS accepts the current values as levels when it computes ideal and nadir", "statement": "If the problem comes without ideal or nadir and NIMBUS computes both, then with exact solvers the objective values shown for classification lie between ideal and nadir, and every valid classification that gives the current values as levels of objectives classified '<=' or '>=' is accepted.", "quantifier": "every analytic problem with any number of objectives and constraints, starting point, exact solver and history", "why_tests_cant": "depends on the payoff table of every problem and on which Pareto optimal solutions are reached", "anchors": ["desdeo_mcdm/interactive/NIMBUS.py: NIMBUS.__init__, NimbusClassificationRequest.validator", "desdeo_mcdm/utilities/solvers.py: payoff_table_method"]}
{"id": "C137", "title": "NIMBUS uses the ideal and nadir supplied with the problem", "statement": "An ideal point supplied with the problem is the ideal point NIMBUS uses, and so for the nadir.", "quantifier": "every analytic problem with or without ideal and nadir", "why_tests_cant": "the four combinations of missing points must all be handled, for all problems", "anchors": ["desdeo_mcdm/interactive/NIMBUS.py: NIMBUS.__init__"]}
{"id": "C138", "title": "NIMBUS: order and origins of the objectives do not matter", "statement": "Listing the objectives in another order, or measuring them from other origins (in the problem, the ideal, the nadir, the starting point, the classes and the levels given), gives the same interaction: the same errors, the same solutions shown, saved and returned, with the objective vectors presented in the new way. (Violated: a classification list that is too short is accepted and the reference point is then 0 in the objectives without a class, wherever their origin is.)", "quantifier": "every problem (data-based or analytic), every permutation and origin shift, every starting point with one number per objective, every sequence of responses to any of the issued requests, malformed ones included, every minimizer that only depends on how the candidates rank", "why_tests_cant": "Compares two whole interactions for all problems, presentations and sequences of responses.", "anchors": ["desdeo_mcdm/interactive/NIMBUS.py:NIMBUS.handle_classification_request", "desdeo_mcdm/interactive/NIMBUS.py:NIMBUS.calculate_new_solutions", "desdeo_mcdm/interactive/NIMBUS.py:NIMBUS.compute_intermediate_solutions"]}
{"id": "C139", "title": "NIMBUS: the units of the objectives do not matter", "statement": "Measuring each objective in another unit (a positive factor per objective, applied to the problem, the ideal, the nadir, the starting point and the levels given) gives the same interaction in the new units. (Violated: the achievement function adds an absolute 1e-6 to the ranges, so an objective whose values are small in the chosen unit is practically ignored and another solution is proposed.)", "quantifier": "every problem, every positive factor per objective, every sequence of responses to any of the issued requests", "why_tests_cant": "Compares two whole interactions for all problems and units; the failure needs unusual magnitudes.", "anchors": ["desdeo_mcdm/interactive/NIMBUS.py:NIMBUS.__init__", "desdeo_mcdm/interactive/NIMBUS.py:NIMBUS.calculate_new_solutions"]}
{"id": "C140", "title": "Pareto Navigator: order and origins of the objectives do not matter", "statement": "Listing the objectives in another order, or measuring them from other origins (in the table or problem, the Pareto optimal solutions given and the preferences), gives the same interaction: the same errors, the same navigation steps and the same solution shown, with the objective vectors presented in the new way. (Violated twice: one class is accepted for several objectives and the number it stands for is broadcast to all of them; and for an analytic problem a start from a reference point takes the decision vector found as the current objective vector.)", "quantifier": "every problem (data-based or analytic), every permutation and origin shift, every sequence of responses, malformed ones included, to any of the issued requests, every external hull, linear programme and projection code that answers the two presentations alike", "why_tests_cant": "Compares two whole interactions for all histories, problems and presentations.", "anchors": ["desdeo_mcdm/interactive/ParetoNavigator.py:ParetoNavigator.handle_request", "desdeo_mcdm/interactive/ParetoNavigator.py:ParetoNavigator.classification_to_ref_point", "desdeo_mcdm/interactive/ParetoNavigator.py:ParetoNavigator.handle_initial_request", "desdeo_mcdm/interactive/ParetoNavigator.py:ParetoNavigator.solve_linear_parametric_problem"]}
{"id": "C141", "title": "Pareto Navigator: the units of the objectives do not matter", "statement": "Measuring each objective in another unit (a positive factor per objective, applied to the table or problem, the Pareto optimal solutions given and the preferences) gives the same interaction in the new units. (Navigation itself is free of units; violated when the Pareto optimal solution nearest to the navigated point is shown: the projection compares the objectives without weights, so another solution is shown.)", "quantifier": "every problem, every positive factor per objective, every sequence of responses to any of the issued requests", "why_tests_cant": "Compares two whole interactions for all problems and units.", "anchors": ["desdeo_mcdm/interactive/ParetoNavigator.py:ParetoNavigator.calculate_weights", "desdeo_mcdm/interactive/ParetoNavigator.py:ParetoNavigator.construct_lppp_A", "desdeo_mcdm/interactive/ParetoNavigator.py:ParetoNavigator.solve_asf"]}
{"id": "C142", "title": "The reference points of a front representation span the box from ideal to nadir", "statement": "If the step divides the range of every objective, the reference points used are all between ideal and nadir and both ideal and nadir are among them (the purpose of eps according to the docstring). (Violated: with steps below eps, by default 1e-6, reference points lie far beyond the nadir; in double precision large values absorb eps and the nadir is not among the points.)", "quantifier": "every number of objectives, ideal and nadir, positive step or steps, positive eps", "why_tests_cant": "Grid boundaries depend on the arithmetic relation of range, step and eps; tests try a few values.", "anchors": ["desdeo_mcdm/utilities/solvers.py:solve_pareto_front_representation_general"]}
{"id": "C143", "title": "Front representations cover the front in floating-point arithmetic", "statement": "Computed with rounded arithmetic the representation still contains, for every solution that is nowhere worse than the nadir, one that is in no objective worse by more than the step, the rounding errors of the grid and 1e-6 of the range per objective, if all optimizations succeed with global minima. (Violated if ideal and nadir agree in an objective of large absolute value: there is no reference point and the representation is empty.)", "quantifier": "every rounding mode with relative error at most 1/8 (binary64 included), every problem, every ideal, nadir, step and eps that are machine numbers, every solver", "why_tests_cant": "The number of grid points is a rounded-up rounded quotient; errors appear only for special magnitudes.", "anchors": ["desdeo_mcdm/utilities/solvers.py:solve_pareto_front_representation_general"]}
{"id": "C144", "title": "E-NAUTILUS: the order of the objectives does not matter", "statement": "Listing the objectives in another order (in the front, the ideal, the nadir and the previous points sent back) gives the same interaction: the same points, bounds, distances, iterations left, exceptions and the same decision vector at the end, with objective vectors in the new order, provided k-means groups the same rows.", "quantifier": "every front, permutation of the objectives, number of iterations and points, every sequence of responses (malformed ones included), every k-means result, every norm that treats the objectives alike", "why_tests_cant": "Compares two whole interactions for all histories and all permutations.", "anchors": ["desdeo_mcdm/interactive/ENautilus.py:ENautilus.iterate", "desdeo_mcdm/interactive/ENautilus.py:ENautilus.calculate_bounds", "desdeo_mcdm/interactive/ENautilus.py:ENautilus.calculate_reachable_point_indices"]}
{"id": "C145", "title": "The two arrays of a front representation belong together even if objective values are undefined", "statement": "Whatever the objective values of the solutions found are, NaN included, the i-th objective vector returned belongs to the i-th decision vector returned. (Violated: if all objectives of a solution are NaN, its decision vector is returned without objective vector and the following rows are shifted; if it is the first solution found, nothing else is returned.)", "quantifier": "every number of objectives, every objective function with NaN values, every list of reference points, every outcome of the minimizations", "why_tests_cant": "Which rows are dropped depends on the history of all previous rows; NaN comparisons are easily overlooked by tests.", "anchors": ["desdeo_mcdm/utilities/solvers.py:solve_pareto_front_representation_general"]}
{"id": "C146", "title": "Payoff table and front representation: origins do not matter", "statement": "Measuring the objectives of a problem from other origins moves the ideal and nadir of `payoff_table_method` by these origins, and `solve_pareto_front_representation` (with ideal and nadir, if given, moved too) returns the same solutions in the same order with objective vectors measured from the new origins, or raises the same exception.", "quantifier": "all problems, origins, steps, eps, given or computed bounds and all minimizers that go by how the candidates rank", "why_tests_cant": "quantifies over all problems, bounds and translations; tests compare a few numbers", "anchors": ["desdeo_mcdm/utilities/solvers.py:payoff_table_method_general", "desdeo_mcdm/utilities/solvers.py:solve_pareto_front_representation_general"]}
{"id": "C147", "title": "Payoff table and front representation: the order of the objectives does not matter", "statement": "Listing the objectives (and the steps, if there is one for each) in another order permutes ideal and nadir of the payoff table, and the front representation returns the same solutions, possibly in another order, with objective vectors in the new order.", "quantifier": "all problems, permutations, positive steps, nonnegative eps, ordered bounds, all repeatable minimizers whose successes are global minima", "why_tests_cant": "quantifies over all permutations and problems", "anchors": ["desdeo_mcdm/utilities/solvers.py:payoff_table_method_general", "desdeo_mcdm/utilities/solvers.py:solve_pareto_front_representation_general"]}
{"id": "C148", "title": "Payoff table and front representation: units do not matter", "statement": "Measuring the objectives in other units (steps and bounds included) rescales ideal and nadir of the payoff table, and the front representation returns the same solutions with objective vectors in the new units.", "quantifier": "all problems, positive unit factors, steps, bounds and minimizers that go by how the candidates rank", "why_tests_cant": "quantifies over all unit factors and problems", "anchors": ["desdeo_mcdm/utilities/solvers.py:payoff_table_method_general", "desdeo_mcdm/utilities/solvers.py:solve_pareto_front_representation_general"]}
{"id": "C149", "title": "NIMBUS: numbers of solutions that are not integers", "statement": "The requests of NIMBUS refuse a number of new solutions that is not an integer between 1 and 4 and a number of intermediate solutions that is not an integer greater or equal to 1 (as documented), and an accepted number is the number of solutions shown.", "quantifier": "all floats as numbers of solutions, NaN and infinities included, all states and responses", "why_tests_cant": "tests use small integers only", "anchors": ["desdeo_mcdm/interactive/NIMBUS.py:NimbusClassificationRequest.validator", "desdeo_mcdm/interactive/NIMBUS.py:NimbusIntermediateSolutionsRequest.validator", "desdeo_mcdm/interactive/NIMBUS.py:NIMBUS.handle_classification_request", "desdeo_mcdm/interactive/NIMBUS.py:NIMBUS.handle_intermediate_solutions_request"]}
{"id": "C150", "title": "The decision maker can always finish NIMBUS", "statement": "At every point of a NIMBUS session the decision maker can bring about a stop request by at most four answers to the last request, whatever the minimizers return.", "quantifier": "all problems with another number of objectives than one, all histories, all outcomes of the minimizers", "why_tests_cant": "a reachability statement over all histories", "anchors": ["desdeo_mcdm/interactive/NIMBUS.py:NIMBUS.iterate"]}
{"id": "C151", "title": "Asking for more of one objective in the reference point method does not worsen it", "statement": "With exact minimizers, if two answers to the same request differ only in that the second reference point asks for a better value of one objective (no component being positive, see C48), the second answer does not lead to a solution that is worse in that objective. (Violated: the weights are the reference values over the ranges, so a better reference value also weighs the objective more, and for solutions much better than the reference point the weighted distance becomes smaller: of (-1, -3/5) and (-1/2, -13/20) the reference point (-1/10, -1/2) yields the first, (-1/5, -1/2) the second.)", "quantifier": "every problem with any number of objectives, every history, every pair of reference points without positive components that differ in one component, every exact minimizer", "why_tests_cant": "Compares two runs, for every feasible set and pair of reference points; a test compares two particular optima.", "anchors": ["desdeo_mcdm/interactive/ReferencePointMethod.py: handle_initial_request, handle_navigation_request, solve_asf"]}
{"id": "C152", "title": "NAUTILUS Navigator: the order of the rows of the front does not matter", "statement": "If the rows of the front (with their decision vectors) are listed in another order, or some of them repeatedly, the same responses given to the same requests lead to the same results throughout: the same navigation points, bounds, distances and errors, the same reachable solutions up to their numbers, the same final solutions. (Violated when two different rows have the same achievement value for a reference point: the first one listed is taken.)", "quantifier": "every front and every relisting of its rows, every sequence of responses, each to any request issued before, every achievement function", "why_tests_cant": "Compares two whole uses of the method for every permutation and multiplicity of the rows; a test shuffles a few tables.", "anchors": ["desdeo_mcdm/interactive/NautilusNavigator.py: NautilusNavigator.iterate, handle_request, update, solve_nautilus_asf_problem, calculate_bounds"]}
{"id": "C153", "title": "Pareto Navigator refuses reference points with infinite or undefined components", "statement": "A reference point with an infinite or undefined (NaN) component is refused by Pareto Navigator with the library's exception and has no effect; reference points consisting of numbers keep working.", "quantifier": "all problems, states, responses, external results", "why_tests_cant": "Which special values slip through comparisons, and how long they then stay in the object, depends on the combination of components and on the rest of the session.", "anchors": ["desdeo_mcdm/interactive/ParetoNavigator.py:handle_request", "desdeo_mcdm/interactive/ReferencePointMethod.py:validate_reference_point"]}
{"id": "C154", "title": "Pareto Navigator refuses a preferred solution that is not the number of a row", "statement": "The preferred solution given to Pareto Navigator must be the number of one of the solutions shown; anything else is refused and the session can go on.", "quantifier": "all problems, states, kinds of preferred solutions, later calls and external results", "why_tests_cant": "The consequences of an accepted wrong value appear only in later calls, for every continuation of the session.", "anchors": ["desdeo_mcdm/interactive/ParetoNavigator.py:ParetoNavigatorInitialRequest.response", "desdeo_mcdm/interactive/ParetoNavigator.py:handle_initial_request"]}
{"id": "C155", "title": "The payoff table minimizes every objective by itself", "statement": "The ideal point computed by the payoff table method is found by minimizing every objective independently of the values of the other objectives, also where these are infinite or undefined; ideal is at most nadir wherever both are defined.", "quantifier": "all objective functions with values in the doubles including infinities and NaN, all solvers, any number of objectives", "why_tests_cant": "Multiplying by weights zero and one looks harmless; whether special values of one objective leak into the minimization of another depends on every decision vector and on every solver.", "anchors": ["desdeo_mcdm/utilities/solvers.py:weighted_scalarizer", "desdeo_mcdm/utilities/solvers.py:payoff_table_method_general"]}
{"id": "C156", "title": "NIMBUS intermediate points stay between the two chosen solutions in floating-point arithmetic", "statement": "With every operation rounded: answering an intermediate request with two different solutions and a number n shows n solutions projected from points that in every variable lie between the two chosen solutions (so inside the variable bounds), in order from the second to the first, each within six roundings of the evenly spaced point, distinct from the two and from each other.", "quantifier": "every problem, pair of different floating-point solutions, number n (up to 2^50 for doubles), rounding mode that is monotone and idempotent, minimizer result and computed norm that is zero only for zero vectors", "why_tests_cant": "A test can compare one rounded result; it cannot show that no pair of floats and no n pushes a point out of the segment.", "anchors": ["desdeo_mcdm/interactive/NIMBUS.py:NIMBUS.compute_intermediate_solutions", "desdeo_mcdm/interactive/NIMBUS.py:NIMBUS.handle_intermediate_solutions_request"]}
{"id": "C157", "title": "Perturbed reference points of the reference point method in floating-point arithmetic", "statement": "With every operation rounded: whenever the reference point method shows new solutions for a reference point q, the weights have the sign of the exact ones and are within two roundings of them; the i-th additional solution is found for a point that equals q exactly in every objective except the i-th, where it is not better than q and within two roundings of q plus the distance between q and the solution; these points differ from q unless the solution is q. With exact minimizers and no positive component in q, all shown solutions are Pareto optimal.", "quantifier": "every problem, history, floating-point reference point, monotone idempotent rounding, computed norm that is zero only for zero vectors and minimizer result", "why_tests_cant": "A test sees a few floats; that no rounding error ever leaks into the other objectives or turns the perturbation into an improvement is a statement about all of them.", "anchors": ["desdeo_mcdm/interactive/ReferencePointMethod.py:ReferencePointMethod.calculate_prp", "desdeo_mcdm/interactive/ReferencePointMethod.py:ReferencePointMethod.handle_initial_request", "desdeo_mcdm/interactive/ReferencePointMethod.py:ReferencePointMethod.handle_request"]}
{"id": "C158", "title": "Pareto Navigator moves between the current solution and the reference point in floating-point arithmetic", "statement": "With every operation of Pareto Navigator rounded and a linear solver that is exact on the problem it is given: whenever navigation goes on, the new solution lies inside the approximation and between ideal and nadir, is nearest there to a target point (so nothing in the approximation is better in every objective), and the target lies in every objective between the current solution and the reference point when stepping forward, on the opposite side when stepping backward, within three roundings of the exact target; the step length is within two roundings of a fiftieth of the given speed.", "quantifier": "every problem, set of solutions, history (including failed calls), floating-point current solution and reference point, speed, and rounding that is monotone, idempotent and has relative error at most 1/2", "why_tests_cant": "Tests compare a few rounded numbers with tolerances; they cannot exclude a reference point for which the rounded target overshoots.", "anchors": ["desdeo_mcdm/interactive/ParetoNavigator.py:ParetoNavigator.solve_linear_parametric_problem", "desdeo_mcdm/interactive/ParetoNavigator.py:ParetoNavigator.calculate_speed", "desdeo_mcdm/interactive/ParetoNavigator.py:ParetoNavigator.construct_lppp_A", "desdeo_mcdm/interactive/ParetoNavigator.py:ParetoNavigator.calculate_weights"]}
{"id": "C159", "title": "PAINT: order, origins and units of the objectives do not matter", "statement": "If the objectives are listed in another order, or measured in other units or from other origins, and the triangulation consists of the same simplices, then PAINT with numerically exact polytope tests returns the same array of indices (or the same exception), and the approximation it denotes is the same set of points in the new presentation, whatever epsilon and method are.", "quantifier": "all arrays of outcomes, all triangulations, all permutations, positive scales and origins, all options", "why_tests_cant": "universal over data and over all conversions; tests compare only single pairs of runs", "anchors": ["desdeo_mcdm/approximation/PAINT.py: PAINT.approximate"]}
{"id": "C160", "title": "PAINT: the order of the outcomes does not matter", "statement": "If the same outcomes are supplied in another order and the triangulation consists of the same polytopes, approximate returns an array that denotes the same approximation of the Pareto front.", "quantifier": "all arrays of outcomes, all permutations of their rows, all triangulations, exact polytope tests", "why_tests_cant": "universal over data and permutations; the known small examples have two objectives, where it holds", "anchors": ["desdeo_mcdm/approximation/PAINT.py: PAINT.approximate, PAINT.sort_wrt_entries"]}
{"id": "C161", "title": "PAINT uses the epsilon and method of the caller in all tests", "statement": "No two polytopes returned by approximate(epsilon=e, method=m) conflict according to polytope_dominates with e and m, and every returned polytope passes rule 1 with e and m.", "quantifier": "all outcomes, triangulations, results of the polytope tests, options", "why_tests_cant": "depends on thresholds that concrete tests do not hit", "anchors": ["desdeo_mcdm/approximation/PAINT.py: PAINT.approximate"]}
{"id": "C162", "title": "The decision maker can always finish", "statement": "From every state the method can be in, also after refused responses and after exceptions, the decision maker can answer the current request such that, within a few answers, the method returns a stop request, whatever the solvers return in between.", "quantifier": "all problems, all histories of responses (valid or not, followed by exceptions or not), all outcomes of the minimizers and of k-means in the calls to come, for the reference point method, NAUTILUS, NAUTILUS 2, NAUTILUS Navigator, E-NAUTILUS and Pareto Navigator", "why_tests_cant": "A liveness claim about every reachable state, including those after exceptions, with an adversarial solver; tests only run the sessions they script.", "anchors": ["desdeo_mcdm/interactive/ReferencePointMethod.py: iterate, handle_request", "desdeo_mcdm/interactive/Nautilus.py: handle_request", "desdeo_mcdm/interactive/NautilusV2.py: handle_request", "desdeo_mcdm/interactive/NautilusNavigator.py: handle_request", "desdeo_mcdm/interactive/ENautilus.py: handle_request", "desdeo_mcdm/interactive/ParetoNavigator.py: iterate, handle_request"]}
{"id": "C163", "title": "NIMBUS: allowing an objective to get worse is used for something", "statement": "Take two complete classifications of the same NIMBUS request that differ only in that the second allows the objectives classified '>=' to get worse. The first solution shown for the second is at least as good in terms of the first scalarizing function (which uses the levels of '<=' only), and for data-based problems it is the same row as for the first unless it exceeds one of the old levels and is better than the first one in some objective. With two objectives the objective to be improved is never worse. With an exact minimizer the analytic case is the same up to ties.", "quantifier": "all histories, problems, current solutions, classifications, pairs of level vectors and numbers of solutions; all scalarizing functions that ignore the levels of '>=' (and prefer dominating vectors, for the last parts)", "why_tests_cant": "It compares the outcomes of two different answers for every problem and every reachable state.", "anchors": ["desdeo_mcdm/interactive/NIMBUS.py: NIMBUS.calculate_new_solutions, NIMBUS.handle_classification_request"]}
{"id": "C164", "title": "NAUTILUS: giving an objective more weight does not worsen it", "statement": "With exact minimizers, and ideal and nadir enclosing the Pareto optimal solutions, take two answers to the same NAUTILUS request that differ only in that the second ranks one objective higher (or gives it more percentage points, the others sharing the rest in the same proportions). As long as the point shown for the second answer does not give up that objective (for percentages: any objective), it is not worse in it than the point shown for the first, apart from an allowance of one millionth of the range times the number of objectives and the rank (share), over the iterations left - or the two solutions are (for percentages: nearly) tied for the minimizer.", "quantifier": "all problems, histories, requests, ranks and percentages, numbers of objectives and iterations", "why_tests_cant": "It compares the outcomes of two different answers for every problem and every reachable state; the allowance comes from the augmentation term and is invisible in examples.", "anchors": ["desdeo_mcdm/interactive/Nautilus.py: Nautilus.calculate_preferential_factors, Nautilus.solve_asf, Nautilus.handle_request, Nautilus.handle_initial_request"]}
{"id": "C165", "title": "NAUTILUS 2: asking for more improvement of an objective does not make it worse", "statement": "With exact minimizers, of two answers to the same request of NAUTILUS 2 that give degrees of improvement (directly or relative to another objective) and differ only in that the second asks for more improvement of one objective, the second does not lead to a point that is worse in that objective than the point for the first, unless it is worse there than the point started from; except for 1e-5 times the number of objectives and the degree of improvement, divided by the number of iterations left, or when both solutions found are best for both answers. This holds for the first answer, when moving on and when stepping back.", "quantifier": "every problem with ideal below nadir that enclose the Pareto optimal solutions, every run, every pair of positive degrees of improvement that differ in one objective, every number of iterations left", "why_tests_cant": "The claim compares two minimizers of two different scalarizations over an arbitrary feasible set.", "anchors": ["desdeo_mcdm/interactive/NautilusV2.py:NautilusV2.calculate_preferential_factors", "desdeo_mcdm/interactive/NautilusV2.py:NautilusV2.solve_asf", "desdeo_mcdm/interactive/NautilusV2.py:NautilusV2.handle_request"]}
{"id": "C166", "title": "Pareto Navigator: asking for more of one objective does not worsen it", "statement": "With an exact linear solver and exact facets, of two answers to the same navigation request that give reference points and differ only in that the second asks for a better value of one objective, the second does not lead to a solution that is worse in that objective when moving forward, and not to a better one when stepping back, unless both solutions are optimal for both answers.", "quantifier": "every problem, every history, every current solution, speed and pair of reference points that differ in one objective; every choice of optimal solutions by the linear solver", "why_tests_cant": "The claim compares optimal solutions of two linear problems over an arbitrary approximation and holds for every one of them.", "anchors": ["desdeo_mcdm/interactive/ParetoNavigator.py:ParetoNavigator.calculate_direction", "desdeo_mcdm/interactive/ParetoNavigator.py:ParetoNavigator.solve_linear_parametric_problem", "desdeo_mcdm/interactive/ParetoNavigator.py:ParetoNavigator.handle_request"]}
{"id": "C167", "title": "NIMBUS: asking for more of one objective does not worsen it", "statement": "Of two answers to the same classification request that differ only in that the second demands more of one objective - improve it instead of keeping it, improve it as much as possible instead of up to a level, or up to a better level - the first solution offered for the second is not worse in that objective than the first solution offered for the first, apart from the small augmentation term of the scalarizing function (and, for analytic problems, a tie).", "quantifier": "every problem, history, current solution, pair of classifications that differ in one objective, any number of other '<', '<=', '=', '>=' and '0' objectives, any requested numbers of solutions, any ties", "why_tests_cant": "It compares the optima of two scalarized problems over an arbitrary set of solutions; a test compares two classifications of one problem.", "anchors": ["desdeo_mcdm/interactive/NIMBUS.py:NIMBUS.calculate_new_solutions", "desdeo_mcdm/interactive/NIMBUS.py:NIMBUS.handle_classification_request"]}
{"id": "C168", "title": "NIMBUS: the order of the rows of data-based problems does not matter", "statement": "For a data-based problem, listing the same rows (objective vectors with their decision vectors) in another order, or some of them repeatedly, leads to the same requests and the same errors in the whole use of the method, for the same starting point and the same responses.", "quantifier": "every table, every relisting of its rows, every starting point, every sequence of responses to any of the issued requests", "why_tests_cant": "The claim compares two whole histories for every permutation of every table.", "anchors": ["desdeo_mcdm/interactive/NIMBUS.py:NIMBUS.calculate_new_solutions", "desdeo_mcdm/interactive/NIMBUS.py:NIMBUS.compute_intermediate_solutions", "desdeo_mcdm/interactive/NIMBUS.py:NIMBUS.__init__"]}
{"id": "C169", "title": "E-NAUTILUS: the order of the rows of the front does not matter", "statement": "Used with the same rows listed in another order and with a k-means that picks the same points, the method shows the same points with the same bounds and distances (possibly listed in another order) in every request, fails with the same errors, and returns the same final solution with the same decision vector, for the same responses (the same point chosen, wherever it is listed), unless rows with different decision vectors are equally near to the final point; if the final point is a row of a front without repeated rows, they are not.", "quantifier": "every front, every order of its rows, every sequence of responses to any of the issued requests, step backs and restarts included", "why_tests_cant": "The claim compares two whole histories for every permutation of every front.", "anchors": ["desdeo_mcdm/interactive/ENautilus.py:ENautilus.handle_request", "desdeo_mcdm/interactive/ENautilus.py:ENautilus.handle_initial_request", "desdeo_mcdm/interactive/ENautilus.py:ENautilus.calculate_bounds", "desdeo_mcdm/interactive/ENautilus.py:ENautilus.calculate_reachable_point_indices"]}
{"id": "C170", "title": "A finer front representation keeps every solution of a coarser one", "statement": "If solve_pareto_front_representation(_general) is called again with the step of every objective divided by a whole number (not necessarily the same for all objectives) and the same or a larger eps, then every solution and every objective vector of the first result is also in the second one: refining the grid only adds solutions.", "quantifier": "all problems, given or computed ideal and nadir points in the right order, positive steps (float or array), nonnegative eps, and repeatable minimizers whose successes are global minima, with any pattern of failures", "why_tests_cant": "tests compare a few grids on a few problems with a stochastic minimizer; the inclusion has to hold for every problem, every step, every divisor and every pattern of failed optimizations", "anchors": ["desdeo_mcdm/utilities/solvers.py: solve_pareto_front_representation_general, solve_pareto_front_representation"]}
{"id": "C171", "title": "From the problem to NAUTILUS Navigator: the navigation ends in a Pareto optimal solution of the problem", "statement": "Give the ideal and nadir points of payoff_table_method and the objective and decision vectors of solve_pareto_front_representation to NautilusNavigator. The constructor accepts them; all rows are reachable at the start; whatever the decision maker does, a forward step with one step remaining leads to the objective vector of a decision vector that is Pareto optimal for the problem, and stopping returns decision vectors that are Pareto optimal for the problem with their objective vectors. With one reference point throughout the 100 steps, the achievement value of the solution reached is worse than that of the best Pareto optimal solution of the problem by at most one step of the representation (relative to the range) and some millionths.", "quantifier": "all problems without constraints - with two objectives everything computed from the problem, with more objectives if the nadir bounds the Pareto optimal solutions -, all positive steps and eps, all exact minimizers, all navigation histories and reference points", "why_tests_cant": "the property spans three components and arbitrary interaction; tests run one problem with one navigation", "anchors": ["desdeo_mcdm/utilities/solvers.py: payoff_table_method, solve_pareto_front_representation", "desdeo_mcdm/interactive/NautilusNavigator.py: NautilusNavigator.__init__, iterate, update, solve_nautilus_asf_problem"]}
{"id": "C172", "title": "From the problem to E-NAUTILUS: the final solution is a Pareto optimal solution of the problem", "statement": "Give the ideal and nadir points of payoff_table_method and the objective and decision vectors of solve_pareto_front_representation to ENautilus. The constructor accepts them, and whatever the decision maker does, when E-NAUTILUS stops, the solution it returns is a Pareto optimal decision vector of the problem whose objective vector is exactly the one returned with it.", "quantifier": "all problems without constraints, positive steps and eps, exact minimizers, all interaction histories with any results of k-means", "why_tests_cant": "the property spans three components and arbitrary interaction; tests run one problem with one history", "anchors": ["desdeo_mcdm/utilities/solvers.py: payoff_table_method, solve_pareto_front_representation", "desdeo_mcdm/interactive/ENautilus.py: ENautilus.__init__, iterate, handle_request"]}
{"id": "C173", "title": "Pareto Navigator: the order of the given solutions does not matter", "statement": "Listing the Pareto optimal solutions given to Pareto Navigator in another order, or some of them repeatedly, leads to the same requests and the same errors in the whole use of the method (up to the order of the list shown in the first request), when the decision maker prefers the same solution and answers alike, the descriptions of the convex hull are exact and the minimizers and the linear solver do the same.", "quantifier": "every problem, every two lists with the same members, every sequence of responses to any of the issued requests", "why_tests_cant": "The claim compares two whole histories for every pair of lists.", "anchors": ["desdeo_mcdm/interactive/ParetoNavigator.py:ParetoNavigator.__init__", "desdeo_mcdm/interactive/ParetoNavigator.py:ParetoNavigator.handle_initial_request", "desdeo_mcdm/interactive/ParetoNavigator.py:ParetoNavigator.handle_solution_request", "desdeo_mcdm/interactive/ParetoNavigator.py:ParetoNavigator.handle_request"]}
{"id": "C174", "title": "NAUTILUS Navigator: every solution of the front can be reached", "statement": "Whatever solution of the front the decision maker has in mind, there are responses, all of them usable, that lead there: after them the navigation point is the objective vector of the solution, the solutions still reachable are exactly those with this objective vector, and stopping returns them with their decision vectors. This holds whatever achievement function picks the solution to head for.", "quantifier": "every front of mutually nondominated solutions within the ideal and nadir points, every one of its solutions, every achievement function", "why_tests_cant": "The claim is about the existence of a whole history of 101 responses for each solution of each front.", "anchors": ["desdeo_mcdm/interactive/NautilusNavigator.py:NautilusNavigator.iterate", "desdeo_mcdm/interactive/NautilusNavigator.py:NautilusNavigator.handle_request", "desdeo_mcdm/interactive/NautilusNavigator.py:NautilusNavigator.update", "desdeo_mcdm/interactive/NautilusNavigator.py:NautilusNavigator.solve_nautilus_asf_problem"]}
{"id": "C175", "title": "E-NAUTILUS: every solution can be reached in the planned number of iterations", "statement": "Whatever number of iterations is planned and whatever solution of the front the decision maker has in mind, if at least as many points are asked for as the front has rows, there is a choice at every iteration such that none of the answers fails and the last one ends the method with the objective vector of this solution and a decision vector with these objective values.", "quantifier": "every front of mutually nondominated solutions not worse than the nadir point, every one of its rows, every positive number of iterations, every number of points not below the number of rows, every outcome of k-means", "why_tests_cant": "The claim is about the existence of a whole history of any length for each solution of each front.", "anchors": ["desdeo_mcdm/interactive/ENautilus.py:ENautilus.handle_initial_request", "desdeo_mcdm/interactive/ENautilus.py:ENautilus.handle_request", "desdeo_mcdm/interactive/ENautilus.py:ENautilus.calculate_intermediate_points", "desdeo_mcdm/interactive/ENautilus.py:ENautilus.calculate_reachable_point_indices"]}
{"id": "C176", "title": "NIMBUS: every balanced solution can be reached in one round", "statement": "Whenever a classification is asked for, whatever solution the decision maker has in mind, as long as no other solution gains very much by giving up little (less than the augmentation term of the scalarizing function is worth): asking the objectives in which it is better to be improved up to its values and the others to be impaired up to its values, keeping nothing and choosing the new solution leads to a solution with exactly these objective values, from which the decision maker can continue or at which the method stops.", "quantifier": "every problem with at least two objectives, every history, every row of the data or feasible decision vector (with an exact minimizer) that is balanced among the others and within the ideal and nadir points", "why_tests_cant": "The claim is about the existence of four responses after any history, for each solution of each problem.", "anchors": ["desdeo_mcdm/interactive/NIMBUS.py:NIMBUS.calculate_new_solutions", "desdeo_mcdm/interactive/NIMBUS.py:NIMBUS.save_solutions_to_archive", "desdeo_mcdm/interactive/NIMBUS.py:NIMBUS.update_current_solution", "desdeo_mcdm/interactive/NIMBUS.py:NIMBUS.iterate"]}
{"id": "C177", "title": "NAUTILUS: every balanced solution can be reached, with suitable percentages", "statement": "Whatever solution the decision maker has in mind, as long as it is better than the nadir point in every objective and no other solution gains very much by giving up little (less than the augmentation term of the achievement function is worth): there are percentages (the shares of the objectives in the total improvement) that are accepted and with which, for every number of iterations, the points shown move in even steps from the nadir point to the objective vector of this solution, and the method stops with a solution with exactly these objective values.", "quantifier": "every problem with exact minimizers, every solution within the bounds that is balanced among the others, every number of iterations, everything the minimizers return later", "why_tests_cant": "The claim is about the existence of a response for each solution of each problem, and about runs of any length.", "anchors": ["desdeo_mcdm/interactive/Nautilus.py:Nautilus.calculate_preferential_factors", "desdeo_mcdm/interactive/Nautilus.py:Nautilus.solve_asf", "desdeo_mcdm/interactive/Nautilus.py:Nautilus.handle_initial_request", "desdeo_mcdm/interactive/Nautilus.py:Nautilus.handle_request"]}
{"id": "C178", "title": "NAUTILUS 2: every balanced solution can be reached, with suitable degrees of improvement", "statement": "Whatever solution the decision maker has in mind, as long as it is better than the starting point in every objective and no other solution gains very much by giving up little: the degrees of improvement in the proportions of the improvements wanted, suitably scaled, are accepted, and with them, for every number of iterations, the points shown move in even steps from the starting point to the objective vector of this solution, and the method stops with a solution with exactly these objective values.", "quantifier": "every problem with exact minimizers, every starting point, every solution within the bounds that is balanced among the others, every number of iterations, everything the minimizers return later", "why_tests_cant": "The claim is about the existence of a response for each solution of each problem, and about runs of any length.", "anchors": ["desdeo_mcdm/interactive/NautilusV2.py:NautilusV2.calculate_doi", "desdeo_mcdm/interactive/NautilusV2.py:NautilusV2.calculate_preferential_factors", "desdeo_mcdm/interactive/NautilusV2.py:NautilusV2.solve_asf", "desdeo_mcdm/interactive/NautilusV2.py:NautilusV2.handle_initial_request", "desdeo_mcdm/interactive/NautilusV2.py:NautilusV2.handle_request"]}
{"id": "C179", "title": "Reference point method: every balanced solution can be reached in two answers", "statement": "Whenever a reference point is asked for, whatever solution the decision maker has in mind, as long as its objective values are not positive and no other solution gains very much by giving up little (less than the augmentation term of the achievement function, with the weights the method uses, is worth): giving its objective vector as reference point is accepted, the current solution and all additional solutions then shown have exactly these objective values, and being satisfied with the current solution makes the method stop with a solution with these objective values.", "quantifier": "every problem with exact minimizers, every history, every request issued (also older ones), every solution within the bounds without positive objective values that is balanced among the others, everything the minimizers return later", "why_tests_cant": "The claim is about the existence of responses after any history, for each solution of each problem.", "anchors": ["desdeo_mcdm/interactive/ReferencePointMethod.py:ReferencePointMethod.handle_initial_request", "desdeo_mcdm/interactive/ReferencePointMethod.py:ReferencePointMethod.handle_request", "desdeo_mcdm/interactive/ReferencePointMethod.py:ReferencePointMethod.calculate_prp", "desdeo_mcdm/interactive/ReferencePointMethod.py:ReferencePointMethod.solve_asf"]}
{"id": "C180", "title": "From the problem to NAUTILUS: the computed points serve, and every balanced solution can be reached", "statement": "For a problem without constraints, with ideal and nadir computed by payoff_table_method with a solver that finds a minimum of each objective, a positive epsilon and exact minimizers: the constructor of Nautilus accepts the points; in every run with positive preferences the solution returned is Pareto optimal for the problem, comes with its own objective vector and is not better than the ideal (and, for two objectives, not worse than the nadir); and every solution that is balanced and better than the nadir is Pareto optimal and can be reached, in any number of iterations.", "quantifier": "every problem without constraints (finitely or infinitely many decision vectors), every positive epsilon, every run, every number of iterations, every balanced solution", "why_tests_cant": "The guarantees have to hold across modules, for all problems, all runs and all solutions aimed at.", "anchors": ["desdeo_mcdm/utilities/solvers.py:payoff_table_method", "desdeo_mcdm/interactive/Nautilus.py:Nautilus.__init__", "desdeo_mcdm/interactive/Nautilus.py:Nautilus.iterate"]}
{"id": "C181", "title": "From the problem to NAUTILUS 2: the computed points serve, and every balanced solution can be reached", "statement": "For a problem without constraints, with ideal and nadir computed by payoff_table_method with a solver that finds a minimum of each objective, a positive epsilon, a starting point that is nowhere worse than this nadir, and exact minimizers: the constructor of NautilusV2 accepts the points; in every run the solution returned is Pareto optimal for the problem, comes with its own objective vector and is not better than the ideal (and, for two objectives, not worse than the nadir); and every solution that is balanced and better than the starting point is Pareto optimal and can be reached, in any number of iterations.", "quantifier": "every problem without constraints (finitely or infinitely many decision vectors), every positive epsilon, every starting point not worse than the nadir, every run, every number of iterations, every balanced solution", "why_tests_cant": "The guarantees have to hold across modules, for all problems, all runs and all solutions aimed at.", "anchors": ["desdeo_mcdm/utilities/solvers.py:payoff_table_method", "desdeo_mcdm/interactive/NautilusV2.py:NautilusV2.__init__", "desdeo_mcdm/interactive/NautilusV2.py:NautilusV2.iterate"]}
{"id": "C182", "title": "From the problem to the reference point method: the computed points serve, and every balanced solution can be reached", "statement": "For a problem without constraints, with ideal and nadir computed by payoff_table_method with a solver that finds a minimum of each objective, a positive epsilon and exact minimizers: the constructor of ReferencePointMethod accepts the points; in every history without positive components in the reference points every objective vector shown belongs to a Pareto optimal solution and the solution returned is Pareto optimal, with its own objective vector; and in every history, whenever a reference point is asked for, every balanced solution without positive objective values is Pareto optimal, its objective vector is accepted as reference point, and it is reached with the next two answers.", "quantifier": "every problem without constraints (finitely or infinitely many decision vectors), every positive epsilon, every history, every request issued, every balanced solution without positive objective values", "why_tests_cant": "The guarantees have to hold across modules, for all problems, all histories and all solutions aimed at; in particular, that the reference point is never refused depends on the payoff table for any number of objectives.", "anchors": ["desdeo_mcdm/utilities/solvers.py:payoff_table_method", "desdeo_mcdm/interactive/ReferencePointMethod.py:ReferencePointMethod.__init__", "desdeo_mcdm/interactive/ReferencePointMethod.py:ReferencePointMethod.handle_request"]}
{"id": "C183", "title": "From the problem: a solution near every Pareto optimal one can be reached with NAUTILUS Navigator", "statement": "When a problem without constraints is represented with solve_pareto_front_representation, with bounds of the objective vectors and a minimizer that finds the minima, and NAUTILUS Navigator works on the representation, then for every Pareto optimal solution of the problem - whether in the representation or not - there is a Pareto optimal solution of the problem that is in no objective worse than it by more than one step and some millionths of the range, and acceptable responses that lead the navigation to exactly its objective vector; stopping there returns it, and only Pareto optimal solutions with the same objective values.", "quantifier": "every problem without constraints, every number of objectives, every step, every Pareto optimal solution of the problem", "why_tests_cant": "The claim is about the existence of responses for each Pareto optimal solution of each problem, across the solver and the navigation.", "anchors": ["desdeo_mcdm/utilities/solvers.py:solve_pareto_front_representation", "desdeo_mcdm/interactive/NautilusNavigator.py:NautilusNavigator.__init__", "desdeo_mcdm/interactive/NautilusNavigator.py:NautilusNavigator.handle_request"]}
{"id": "C184", "title": "From the problem: a solution near every Pareto optimal one can be reached with E-NAUTILUS", "statement": "When a problem with two objectives and without constraints is represented with solve_pareto_front_representation, with bounds of the objective vectors and a minimizer that finds the minima, and E-NAUTILUS works on the representation, then for every Pareto optimal solution of the problem there is a Pareto optimal solution of the problem that is in no objective worse than it by more than one step and some millionths of the range, and E-NAUTILUS, asked to show at least as many points as the representation has rows, can be led to it in any number of iterations, ending with its objective vector and a Pareto optimal solution with these objective values.", "quantifier": "every problem with two objectives and without constraints, every step, every Pareto optimal solution of the problem, every number of iterations, every clustering", "why_tests_cant": "The claim is about the existence of choices for each Pareto optimal solution of each problem and any number of iterations, across the solver and the method.", "anchors": ["desdeo_mcdm/utilities/solvers.py:solve_pareto_front_representation", "desdeo_mcdm/interactive/ENautilus.py:ENautilus.__init__", "desdeo_mcdm/interactive/ENautilus.py:ENautilus.iterate"]}
{"id": "C185", "title": "From the problem: every balanced solution can be reached with NIMBUS", "statement": "When NIMBUS is given an analytic problem that lacks ideal or nadir, so that it computes both itself with a minimizer that finds the minima of the objectives, and its scalarizing functions prefer dominating vectors, then in every history with exact minimizers in which a classification is asked for, every feasible solution that no other feasible one improves much while giving up little, and that is not worse than the computed nadir, is Pareto optimal, and four acceptable answers - its objective values as levels, nothing saved, no intermediate solutions, the new solution as the preferred one - lead to a feasible solution with its objective values. With two objectives no Pareto optimal solution is worse than the computed nadir. The first solution shown is Pareto optimal, and without a starting point there is one if the start-up problem has a solution.", "quantifier": "every analytic problem with constraints or without, every history, every balanced solution (two or more objectives; the last sentence for two)", "why_tests_cant": "The claim is about the existence of answers in every history of every problem, across the payoff table and the method.", "anchors": ["desdeo_mcdm/interactive/NIMBUS.py:NIMBUS.__init__", "desdeo_mcdm/interactive/NIMBUS.py:NIMBUS.handle_classification_request", "desdeo_mcdm/utilities/solvers.py:payoff_table_method"]}
{"id": "C186", "title": "NIMBUS: a solution near any Pareto optimal one can be reached", "statement": "With the first scalarizing function of synchronous NIMBUS, in every history in which a classification is asked for, whatever Pareto optimal solution between ideal and nadir the decision maker has in mind, four acceptable answers - its objective values as levels, nothing saved, no intermediate solutions, the new solution as the preferred one - lead to a solution that is in no objective worse than it by more than rho (a millionth) times the number of objectives, in units of the range, and that is Pareto optimal itself. The method continues from it, or stops and returns it with its own objective values.", "quantifier": "every problem with two or more objectives, data-based or analytic, every history, every Pareto optimal solution", "why_tests_cant": "The claim is about the existence of answers in every history for each solution; tests try a few.", "anchors": ["desdeo_mcdm/interactive/NIMBUS.py:NIMBUS.handle_classification_request", "desdeo_mcdm/interactive/NIMBUS.py:NIMBUS.calculate_new_solutions", "desdeo_mcdm/interactive/NIMBUS.py:NIMBUS.handle_most_preferred_request"]}
{"id": "C187", "title": "From the problem: a solution near any Pareto optimal one can be reached with NIMBUS", "statement": "When NIMBUS is given an analytic problem that lacks ideal or nadir, so that it computes both itself with a minimizer that finds the minima of the objectives, and its scalarizing functions prefer dominating vectors, then in every history with exact minimizers in which a classification is asked for, four acceptable answers lead near any Pareto optimal solution not worse than the computed nadir, to a Pareto optimal solution worse in no objective by more than rho times the number of objectives, in units of the range. With two objectives these are all Pareto optimal solutions.", "quantifier": "every analytic problem, every history, every Pareto optimal solution", "why_tests_cant": "The claim is about the existence of answers in every history of every problem, across the payoff table and the method.", "anchors": ["desdeo_mcdm/interactive/NIMBUS.py:NIMBUS.__init__", "desdeo_mcdm/interactive/NIMBUS.py:NIMBUS.handle_classification_request", "desdeo_mcdm/utilities/solvers.py:payoff_table_method"]}
{"id": "C188", "title": "The reference point method shows a solution near any wanted one", "statement": "In every history with exact minimizers, whatever Pareto optimal solution without positive objective values and not worse than the nadir the decision maker has in mind, its objective vector, given as reference point in answer to any request but the last, is accepted, and the current solution shown in answer is Pareto optimal and in no objective worse by more than a ten-thousandth of the range times the number of objectives, divided by the absolute value of that objective. If the decision maker is satisfied with it, the method stops and returns it with its objective vector. The ideal and nadir may come from the payoff table.", "quantifier": "every problem, every history, every such solution", "why_tests_cant": "The claim is about every history and every solution wanted; tests try a few reference points.", "anchors": ["desdeo_mcdm/interactive/ReferencePointMethod.py:ReferencePointMethod.handle_request", "desdeo_mcdm/interactive/ReferencePointMethod.py:ReferencePointMethod.solve_asf", "desdeo_mcdm/utilities/solvers.py:payoff_table_method"]}
{"id": "C189", "title": "NAUTILUS can be led near any Pareto optimal solution", "statement": "With exact minimizers, for every solution within the bounds that is better than the nadir in every objective there are percentages that are accepted with any number of iterations, and going on with the same preferences moves evenly to, and stops with, a solution that no other within the bounds dominates and that is in no objective worse than the one wanted by more than a millionth of the range times the number of objectives. The ideal and nadir may come from the payoff table.", "quantifier": "every problem, every such solution, every number of iterations", "why_tests_cant": "The claim is about the existence of preferences for each solution of each problem and any number of iterations.", "anchors": ["desdeo_mcdm/interactive/Nautilus.py:Nautilus.handle_initial_request", "desdeo_mcdm/interactive/Nautilus.py:Nautilus.handle_request", "desdeo_mcdm/utilities/solvers.py:payoff_table_method"]}
{"id": "C190", "title": "NAUTILUS 2 can be led near any Pareto optimal solution", "statement": "With exact minimizers, for every solution within the bounds that is better than the starting point and not worse than the nadir in every objective there are degrees of improvement, in the proportions of the improvements wanted, that are accepted with any number of iterations, and going on with the same preferences moves evenly from the starting point to, and stops with, a solution that no other within the bounds dominates and that is in no objective worse than the one wanted by more than a hundred-thousandth of the range times the number of objectives. The ideal and nadir may come from the payoff table.", "quantifier": "every problem, every starting point, every such solution, every number of iterations", "why_tests_cant": "The claim is about the existence of preferences for each solution of each problem and any number of iterations.", "anchors": ["desdeo_mcdm/interactive/NautilusV2.py:NautilusV2.handle_initial_request", "desdeo_mcdm/interactive/NautilusV2.py:NautilusV2.handle_request", "desdeo_mcdm/utilities/solvers.py:payoff_table_method"]}
{"id": "C191", "title": "NIMBUS on a data table", "statement": "When NIMBUS is given a table of objective vectors with at least two objectives, with the column minima as ideal and the column maxima as nadir, and the scalarizing functions of synchronous NIMBUS, construction succeeds whatever the data, with or without a starting point, and the first solution shown is a row that no row dominates; and in every history in which a classification is asked for, four acceptable answers lead near any row that no row dominates: to a row that no row dominates either and that is in no objective worse by more than rho times the number of objectives, in units of the range of the column, from which the method continues or with which it stops.", "quantifier": "every nonempty table, every history, every undominated row", "why_tests_cant": "The claim is about every table and every history; tests use a few tables and sessions.", "anchors": ["desdeo_mcdm/interactive/NIMBUS.py:NIMBUS.__init__", "desdeo_mcdm/interactive/NIMBUS.py:NIMBUS.handle_classification_request", "desdeo_mcdm/interactive/NIMBUS.py:NIMBUS.handle_most_preferred_request"]}
