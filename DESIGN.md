# Formal model of desdeo-mcdm in Lean 4

## Trusted base

* Lean 4.33.0's kernel. No axioms of our own; every theorem named in MANIFEST.json depends on a subset of
  `propext`, `Classical.choice`, `Quot.sound` (checked with `#print axioms` for all of them; table at the end of this section).
  No `native_decide`, no `bv_decide`; concrete evaluations use `decide +kernel` over `ℚ`.
* Fidelity of the model: every definition cites the Python file and lines it models. Nothing was executed;
  where library behaviour matters (numpy broadcasting, `mgrid`, negative indexing, NaN comparisons, `nanargmin`,
  ragged `np.concatenate`) the model follows the documentation of the versions in poetry.lock (numpy 1.23.5).
* Numbers: the code computes with IEEE doubles; the model computes exactly in an arbitrary linearly ordered
  field `K` (executable at `K = ℚ`; `FloorRing` where `ceil` is used). NaN and infinities that the code *relies on*
  (masked rows, missing user bounds, 0/0 distances, NaN entries of responses) are modelled explicitly
  (`Option`, `Fl`). Rounding is modelled separately: `Rounding.lean` (what IEEE roundings have in common, and binary64) and the
  `Rounded*.lean` files (the same functions with every float operation rounded; with `rnd = id` they are the exact models).
  Overflow, underflow and negative zero are not modelled.
* `np.linalg.norm` is a parameter with a specification (`NormSpec`: nonnegative, zero only at zero, homogeneous, monotone in
  the absolute values), shown to hold for the Euclidean norm over ℝ in `Norms.lean`; witnesses over `ℚ` use vectors with rational norms.
* External calls are parameters of the model, arbitrary in every call, so theorems hold for every result they
  might return; each theorem that needs more lists it as a hypothesis:

  | call | assumption, where one is made |
  |---|---|
  | `sklearn` k-means (E-NAUTILUS) | none (any `closest` array with entries in range) |
  | `DiscreteMinimizer` (desdeo-tools) | modelled as `nanargmin` over the feasible rows, from its source's documentation |
  | `ScalarMinimizer` (NAUTILUS, V2, RPM, NIMBUS) | none for bookkeeping; `MinimizesEach`, `Trusty`/minimality hypotheses for optimality and bounds (C31, C39, C48, C64, C68) |
  | `linprog`, Qhull (Pareto Navigator) | `lp` feasible/optimal when it reports success (C50, C51, C72); `HullWorks` only where stated |
  | polytope tests (PAINT) | none for C57-C60, C76, C77; `Exact` for C74 and C75 |
  | solvers of `utilities/solvers.py` | none for C63, C79, C87; `Trusty` / global minima for C61, C62, C78 |

* The statements themselves. `Verif/Spec.lean` and the small inductive predicates next to the theorems
  (`Kept`, `GoodReference`, `GoodPreference`, ...) are the specification to be read; `Reached` relations define
  "every history": any already issued request may be answered with any response and any oracle results, errors
  included, and the state after an error is the partly changed one.

## What is modelled and what is not

| file in /repo/desdeo_mcdm | modelled | not modelled |
|---|---|---|
| `interactive/ENautilus.py` | validators, `start`, `iterate`, both handlers, the five `calculate_*` functions; constructor checks by shapes (`Constructors`) | k-means itself, plots, messages |
| `interactive/NautilusNavigator.py` | validator, `start`, `iterate`, `handle_request`, `update`, all helpers; constructor checks by shapes | plots, messages |
| `interactive/NIMBUS.py` | four validators, state machine, all handlers, archive, intermediate points, subproblems, constructor (1-D starting points) with the computation of a missing ideal/nadir for analytic problems, plot requests | column names and messages of plots |
| `interactive/Nautilus.py` | both validators, `start`, `iterate`, both handlers, storage, factors, bounds, distance, constructor | attributes never read; messages |
| `interactive/NautilusV2.py` | the same, with the search for the direction of improvement (fuel; non-termination proved where it occurs) | the same; broadcasting for one objective |
| `interactive/ReferencePointMethod.py` | validators, `start`, `iterate`, both handlers, the six storage lists and their expansion, weights, perturbation, constructor | attributes never read by another call |
| `interactive/ParetoNavigator.py` | constructor, four validators, `start`, `iterate`, three handlers, extremes, speed, weights, LP matrix and bounds, classification; NaN/infinite reference points and arbitrary `preferred_solution` in `Special` | tuples and arrays as `preferred_solution` |
| `approximation/PAINT.py` | constructor, `perturbate`, `sort_wrt_entries`, `approximate` with both rules | triangulation and polytope predicates (parameters, deterministic, only Qhull may fail), printing, timers, `atleast_2d` of one-dimensional outcomes |
| `utilities/solvers.py` | scalarizer, both payoff functions, both front representations, `mgrid` reference points, acceptance test | ideal/nadir of different lengths; infinite or undefined objective values in the front representation (payoff table: `PayoffSpecial`) |
| `interactive/InteractiveMethod.py` | base class without logic of its own | - |

Decision-maker data are structures with `Option` fields (a missing key is `none`), lists and integers with Python's
indexing (negative indices included). Type confusions are modelled where the validators make them observable (string or
float speeds, float indices, lists in place of arrays, non-boolean flags) and otherwise excluded by the types.

## Disagreements between the code and the properties (all proved by witness)

The unchanged code violates these; each has a `_fails` theorem (or the name given) and a `_partial` theorem for what remains true.

* C06/C15: with three objectives an iteration point may get worse; E-NAUTILUS may even reach a dead end (`C06_dead_end_three_objectives`).
* C08: the validator accepts the index one past the shown points. C09: zero iterations are accepted and divide by zero.
* C16: bounds given in a response are ignored when the reference point of the same response is projected.
* C17: returning to an earlier request keeps a stale projection.
* C20: NaN entries and single-number reference points are accepted; a non-boolean flag raises `TypeError`.
* C24, C27, C28, C30: NIMBUS accepts a single index, levels below the current value, and classification lists of wrong
  length; intermediate solutions are not centred and identical endpoints give NaN. C82: one-component starting points.
* C33 (outside its statement): a restart of NAUTILUS, answering the initial request again with fewer iterations than already done, runs out of storage.
* C35-C38, C40, C41, C44, C66, C67, C69: NAUTILUS and NAUTILUS V2 (zero ranks, `None` returned, KeyError, total versus
  remaining iterations, storage overrun, non-termination for unconnected pairs, starting point checks).
* C97: NAUTILUS and NAUTILUS 2 do not hand the constraints of the problem to the minimizer of the achievement function, so they may end
  with an infeasible solution and show lower bounds above upper bounds. C98: the augmentation term may make a shown point (slightly) worse.
* C99: neither does the reference point method; it shows and returns infeasible solutions of problems with constraints.
* C103: for three or more objectives the nadir of the payoff table need not bound the Pareto front (a known defect of payoff tables).
* C104: malformed responses raise KeyError, TypeError or IndexError instead of the documented exception in five methods.
* C102: the augmentation term of the reference point method may (slightly) miss an attainable reference point.
* C100: Pareto Navigator projects with an achievement function without augmentation term; the solution shown may be dominated.
* C93: NIMBUS passes contradictory constraints to the minimizer for levels below the current value.
* C95, C96: failed calls change the state, and starting over is not a fresh start, in several methods.
* C46, C48, C49, C53, C54, C56, C60, C62, C70, C71, C73, C78-C80, C84: see the notes in MANIFEST.json.
* C106: E-NAUTILUS computes the distances shown (ENautilus.py:453-471) and picks the final decision vector (313-319) with the Euclidean norm of unscaled objectives, so they depend on the units of each objective.
* C107: NAUTILUS Navigator decides with np.allclose (NautilusNavigator.py:429) whether the reference point changed; on fronts whose values are large compared to their ranges no change is ever noticed.
* C110: in double precision E-NAUTILUS loses solutions: `(2/3)*7 + (1/3)*7` is computed as 6.999999999999999, so with three iterations the
  front (7,0), (0,7) leads to a request without points, and (7,7,0), (7,0,7), (0,7,7) to a ValueError.
* C112: in double precision NAUTILUS Navigator loses the solution it navigates to: `0.99*3 + 0.01*3` is computed as 2.9999999999999996, so on
  the front `(3,0), (0,3)` with nadir `(3,3)` the first step towards `(3,0)` leaves no reachable solution; after 100 steps the navigation
  point is `(3,0)`, but stopping returns nothing, and a changed reference point raises `ValueError`.
* C115: `NautilusNavigator.update` decides with `np.allclose` whether the reference point changed; the
  tolerance is relative to the stored value, so with objective values around 1e9 a reference point at the
  other end of the front goes unnoticed (`C115_fails`).
* C116: `PointMethodASF` adds an absolute 1e-6 to the range of every objective; in a unit in which the
  range is about 1e-9 the objective is ignored and another row is chosen (`C116_fails`).
* C118: `np.sum(preference_info) != 100` compares a computed sum exactly, so the percentages 0.1, 64.1 and 35.8 are refused with the message that their sum is 99.99999999999999.
* C119: the rounded convex step does not reproduce a coordinate in which the point and the solution agree: an objective that is 3 everywhere is shown as 3.0000000000000004 after the first of five iterations (worse than the nadir) and as 2.9999999999999996 after the first of seven (no solution is within the bounds shown).
* C122: `epsilon` (default `1e-6`) is subtracted from the ideal values whatever their unit, so the weights
  `1 / (rank * (nadir - utopian))` are not invariant under a change of units. With four solutions and the
  first objective measured in a unit a million times as large, the same ranks lead to another solution
  (`C122_fails`).
* C124, C125: the weights of the reference point method are `ref / (utopian - nadir)`
  (`ReferencePointMethod.py:364, 468`), the reference point itself instead of a difference. They depend on the
  origin of the objectives, and the achievement function multiplies these unit-free weights with `f - ref`.
  Shifting all values by -10, or measuring one objective in a unit ten times as small, leads to another
  solution for the same reference point (`C124_fails`, `C125_fails`).
* C126: NAUTILUS 2 with improvements given by pairs depends on which objective is listed first (`C126_fails`).
* C128: the units of the objectives matter in NAUTILUS 2 with the default `epsilon` (`C128_fails`), and for pairs
  with any `epsilon` (`C128_fails_pairs`).
* C129: a longer direction of improvement may lead NAUTILUS 2 to another solution (`C129_fails`).
* C130: the argument `minimize` of NAUTILUS, NAUTILUS 2 and the reference point method is stored and never read: declaring an objective for maximization has no effect (`C130_no_effect`), the solution returned may be worse in every declared direction (`C130_fails_nautilus`, `_nautilusV2`, `_rpm`).
* C132: as C119, for NAUTILUS 2: rounding can make a point shown worse than the last one, or better than the solution, by units in the last place (`C132_fails_worse`, `C132_fails_lost`).
* C135: NIMBUS uses the raw objective values (`evaluate(x).objectives`) and minimizes all of them, also those the problem declares for maximization; its plots nevertheless say `-1` for these (`C135_fails`, `C135_directions_have_no_effect`).
* C136: with three objectives the nadir computed by NIMBUS can be better than the current solution in an objective; keeping its current value as a level is then refused (`C136_fails`).
* C137: a supplied ideal is discarded when the problem has no nadir, and vice versa (`C137_discarded`, `C137_fails`).
* C138: a NIMBUS classification list that is too short is accepted and the missing components of the
  reference point are 0, so the origin of the objectives matters (`C138_fails`).
* C139: `PointMethodASF` adds an absolute 1e-6 to the ranges; in another unit NIMBUS takes another solution
  (`C139_fails`).
* C140: one class given for several objectives is accepted by Pareto Navigator and its value is used for every
  objective, and with an analytic problem a start from a reference point takes the decision vector found as the
  current objective vector; both depend on the order and the origins of the objectives.
* C141: Pareto Navigator projects with `SimpleASF` and unit weights, so the solution shown depends on the units.
* C142: `eps` (1e-6) is added to the nadir in absolute terms: steps below it give reference points far beyond the nadir, and in
  double precision it is absorbed by large values, so that the nadir is not among the reference points. C143: if moreover
  ideal and nadir agree in such an objective, the representation is empty.
* C145: NaN rows are removed from the two arrays of a front representation separately; a solution with only NaN objectives keeps its
  decision vector, which shifts the rows. C80: bounds of which only some components are infinite are not completed, the call raises.
* C148: `eps` of the front representation and the `1e-6` inside `PointMethodASF` are absolute numbers, so the number of
  solutions returned depends on the units of the objectives: 4 rows become 121 when the unit is ten million times larger
  (`C148_fails`).
* C149: the validators of NIMBUS compare the numbers of solutions without checking their type, and the handlers truncate them
  with `int`: 2.7 solutions are two, NaN is accepted and makes `iterate` raise `ValueError`, and half an intermediate solution
  is accepted and yields a save request without solutions (`C149_fails`).
* C150: after that save request, with an empty archive, the decision maker is stuck: the only accepted responses lead to an
  intermediate request without solutions, whose only accepted response makes the plot raise (`C150_fails`).
* C151: ReferencePointMethod.py:364, 468 divides the reference point itself by `utopian - nadir`, so the weight of an objective grows with the magnitude of its reference value. For solutions better than the reference point the weighted distance gets smaller when more is asked for: (-1/10, -1/2) yields (-1, -3/5), (-1/5, -1/2) yields (-1/2, -13/20).
* C152: ties of the achievement function are broken by the position of the row (`nanargmin`, NautilusNavigator.py:552), so shuffling the table can change the navigation: with the rows (0, 1), (1, 0) and the reference point (1/2, 1/2) the first row listed is navigated to.
* C153: Pareto Navigator accepts a reference point with NaN or infinite components unless all components are worse than the
  nadir; `linprog` then raises, and the point stays stored until another one is given.
* C154: Pareto Navigator does not check `preferred_solution`; after `None`, a Boolean or a list every navigation step raises
  until the first request is answered again.
* C155: the payoff table multiplies the other objectives by zero; where one of them is infinite or NaN the objective being
  minimized becomes NaN, so the ideal can be missed by every solver.
* C156: between two neighbouring doubles the intermediate points of NIMBUS coincide with one of the chosen solutions; distinctness (C28) holds only in exact arithmetic.
* C157: in double precision the distance added to a component of the reference point can be lost completely, so all perturbed reference points can be the reference point itself although the solution found is different (C47 holds only in exact arithmetic).
* C160: rule 2 of PAINT keeps, of two conflicting polytopes with the same number of vertices, the one whose smallest outcome number is larger, so with three or more objectives the approximation depends on the order in which the outcomes are supplied (`C160_fails`).
* C161: rule 2 calls `polytope_dominates` without the caller's `epsilon` and `method` (`C161_fails`).
* C162: NAUTILUS 2: asking for more iterations than the storage holds is accepted and raises IndexError after the iteration number was advanced; after three such answers no response to the last request leads to a request any more, so the session cannot be finished (`C162_nautilusV2_fails`). E-NAUTILUS with three or more objectives can show a request without any point (C06).
* C168: NIMBUS takes the first of several equally good rows, so the order of the rows of a table matters when there is a tie (`C168_fails`).
* C173: started from a reference point, a data-based problem takes the number of the best row as the current solution, so what is shown depends on the order of the rows (`C173_fails`); everything else does not.

## Axioms

* `propext, Classical.choice, Quot.sound`: all theorems of MANIFEST.json not listed below.
* `propext, Quot.sound`: ENautilus.C03_reachable_exact, ENautilus.C05_stop_is_the_chosen_point, ENautilus.C09_refused_changes_nothing, Nimbus.C28_fails_same_solution, Nautilus.C34_no_step_back_from_nadir, NautilusV2.C40_fixed_number, Rpm.validateRefFl_finite, Paint.C60_perturbation_partial, NautilusV2.C65_no_step_back_from_nadir, ParetoNav.C73_supplied_partial, Nimbus.C82_wrong_dimension_refused_partial, Constructors.C84_nautilus_partial, Constructors.C84_rpm_partial, Constructors.C84_nautilusV2_partial, Nautilus.C85_refused_no_effect, NautilusV2.C85_refused_no_effect, Rpm.C86_refused_no_effect.
* `propext`: Paint.C77_refused.

## Method

`Verif/Spec.lean` contains the vocabulary of the properties (dominance, between, box membership...).
For each Python module `X` there is a model file `Verif/X/Model.lean`, helper lemmas and a `Verif/X/Props.lean`
with the property theorems and a non-vacuity `example` beside each. Exceptions are values; state changes
made before an exception is raised are kept in the model.

## Plan per property

- **C01** E-NAUTILUS intermediate points lie between the preferred point and a reachable front point: Model ENautilus representative + intermediate points; prove betweenness componentwise and the n=1 case for every accepted interaction.
- **C02** E-NAUTILUS bounds are exact and keep every attainable solution reachable: Model calculate_bounds as min/max over a filtered list with ValueError on empty; prove exactness, attainment, completeness and the failure characterisation.
- **C03** E-NAUTILUS reachable indices are exactly the rows inside the bounds, in order and without repetition: Model calculate_reachable_point_indices as a filter of List.finRange; prove membership iff, strictly increasing, and monotone bounds.
- **C04** E-NAUTILUS ends after exactly the requested number of iterations: Induct over the list of responses of a run.
- **C05** E-NAUTILUS stop request returns the chosen point with its own decision vector: Model argmin of the norms of the differences; norm is a parameter with spec norm v = 0 <-> v = 0, norm >= 0.
- **C06** E-NAUTILUS never makes the decision maker give something up: Prove for two objectives over all histories; prove the negation for three objectives with a concrete front (_partial + counterexample).
- **C07** E-NAUTILUS stepping back restores the supplied iteration: Prove equality of the returned request and equality of all continuations.
- **C08** E-NAUTILUS accepts only indices of shown points: Negation with witness (off-by-one in validator) and partial theorem for index < number of points.
- **C09** E-NAUTILUS accepted responses do not crash the method: KeyError freedom for all accepted responses; negation for ZeroDivisionError.
- **C10** E-NAUTILUS distances are percentages of the way to the front: Norm homogeneity from the spec; NaN as a value of an extended number type.
- **C11** NAUTILUS Navigator step bookkeeping is consistent in every history: Invariant by induction over operations, with the set of previously issued requests in the history.
- **C12** NAUTILUS Navigator arrives on the Pareto front: One-step identity and induction over 100 steps.
- **C13** NAUTILUS Navigator moves at constant pace with constant preferences: Induction over the step number, exact field arithmetic.
- **C14** NAUTILUS Navigator reachable bounds never widen on forward steps: Invariant reach = box(lb,ub) by induction.
- **C15** NAUTILUS Navigator navigation point never worsens: Two-objective theorem over histories; negation for three.
- **C16** NAUTILUS Navigator respects user bounds: Negation with witness; partial theorem for the stored bounds.
- **C17** NAUTILUS Navigator returning to an earlier request restores it: Field-wise restoration; negation for continuation (stale projection); partial theorem when the reference point is changed.
- **C18** NAUTILUS Navigator stop returns the reachable solutions with matching decision vectors: Direct theorem over all states.
- **C19** NAUTILUS Navigator projects on the best reachable solution: Model DiscreteMinimizer as nanargmin of PointMethodASF; prove optimality and nondominance.
- **C20** NAUTILUS Navigator accepts only usable responses: Model raw responses with optional entries; prove soundness of acceptance.
- **C21** NIMBUS phases follow the documented order: FSM invariant over all request sequences.
- **C22** NIMBUS archive is append-only and aligned: Invariant over histories.
- **C23** NIMBUS loses no solution between saving and comparing: List theorem.
- **C24** NIMBUS accepted indices denote shown solutions: Validator soundness; negation where it fails.
- **C25** NIMBUS computes the requested number of solutions: Count theorem.
- **C26** NIMBUS reference point stays between ideal and nadir: Pointwise theorem.
- **C27** NIMBUS first solution honours the classification: Model cons_1 of the discrete case and the minimizer on feasible rows.
- **C28** NIMBUS intermediate solutions are spread evenly between the two chosen ones: Negation (uneven) and partial (on the segment).
- **C29** NIMBUS most preferred solution becomes the current one: Step theorem.
- **C30** NIMBUS accepts only complete classifications: Negation with witness and partial.
- **C31** NAUTILUS iteration point moves towards the found solution without worsening: Convex combination lemmas on the step function.
- **C32** NAUTILUS reaches the solution in N even steps if preferences are kept: Induction over N.
- **C33** NAUTILUS never runs out of storage: Storage invariant by induction over all responses.
- **C34** NAUTILUS stepping back replaces the last iteration only: Step theorem.
- **C35** NAUTILUS preference weights are positive: Partial for ranks >= 1; negation for 0.
- **C36** NAUTILUS answers every accepted response with a request: Negation (None / KeyError) and partial.
- **C37** NAUTILUS stop returns the last found solution: Invariant.
- **C38** NAUTILUS number of iterations can be changed: Negation with witness; partial for the first iteration.
- **C39** NAUTILUS lower bounds never get worse: Bounds as minima over feasible sets given an exact solver.
- **C40** NAUTILUS V2 never runs out of storage: Negation with a concrete history; partial for histories that do not raise the number of iterations.
- **C41** NAUTILUS V2 degrees of improvement satisfy the given pairwise ratios: Model the relaxation loop with fuel; prove termination and ratios if connected; negation if disconnected.
- **C42** NAUTILUS V2 moves from the starting point to the solution in even steps: As C32.
- **C43** NAUTILUS V2 preference weights are positive: As C35.
- **C44** NAUTILUS V2 answers every accepted response with a request: As C36.
- **C45** Reference point method storage is never exhausted: Invariant len - h > 2 before each step.
- **C46** Reference point method stops with the solution the decision maker pointed at: Step theorem.
- **C47** Reference point method perturbs one objective at a time: Pointwise theorem.
- **C48** Reference point method solutions are Pareto optimal: Negation for positive reference components; partial for nonpositive.
- **C49** Reference point method validates reference points: Negation (only all-worse is refused) and partial.
- **C50** Pareto Navigator direction problem is the achievement problem over the hull: Matrix rows to inequalities equivalence.
- **C51** Pareto Navigator shows solutions between ideal and nadir: Consequence of C50.
- **C52** Pareto Navigator box contains every known solution: Invariant over histories.
- **C53** Pareto Navigator speed maps to the step length: Arithmetic.
- **C54** Pareto Navigator stepping back moves backwards: Negation for two step backs; partial for one.
- **C55** Pareto Navigator classification becomes a reference point within the box: Pointwise.
- **C56** Pareto Navigator navigation can start from any accepted response: Negation with witness; partial.
- **C57** PAINT keeps exactly the simplices that pass the first rule: Loop model with the same index arithmetic; permutation + predicate proof.
- **C58** PAINT result has no conflicting simplices: Loop model and proof.
- **C59** PAINT simplices are processed in order: Stable sort theorem.
- **C60** PAINT perturbation is applied to the outcomes used: Negation and frame theorem.
- **C61** Payoff table method returns consistent ideal and nadir: Model the diag / column max; prove order and exactness.
- **C62** Pareto front representation returns aligned nondominated solutions: Alignment by induction; negation for nondominance.
- **C63** Pareto front representation validates its step and its bounds: Case analysis + grid membership.
- **C64** NAUTILUS V2 iteration points never worsen: As C31, with the starting point.
- **C65** NAUTILUS V2 stepping back replaces the last iteration only: As C34.
- **C66** NAUTILUS V2 stop returns the last found solution: As C37.
- **C67** NAUTILUS V2 number of remaining iterations can be changed: Negation (one point less) and the exact number.
- **C68** NAUTILUS V2 lower bounds: As C39.
- **C69** NAUTILUS V2 starting points: Characterise the constructor; negation for points partly outside.
- **C70** Reference point method answers every accepted response: Step theorem on all histories; negation for float indices.
- **C71** Pareto Navigator ends with the solution shown: Invariant linking the solution shown last to the state; negation for older requests.
- **C72** Pareto Navigator adds rejected solutions: Step theorem on the same invariant.
- **C73** Pareto Navigator navigates the supplied solutions: Characterise the constructor; negation for tables.
- **C74** PAINT approximation is inherently nondominated: Convex hulls (Mathlib) with exact tests; from C57 and C58.
- **C75** PAINT approximation contains the outcomes: A vertex that conflicts with a kept polytope contradicts rule 1.
- **C76** PAINT approximation is maximal: From the converse parts of C57 and C58.
- **C77** PAINT returns polytopes of the triangulation: Sub-permutation from the loop invariants.
- **C78** Front representation respects the constraints: Negation with witness; partial without constraints.
- **C79** Failed optimizations: Loop invariant; negation if the first one fails.
- **C80** Missing ideal and nadir: Negation for None; partial for infinite points.
- **C81** NAUTILUS Navigator speed has no influence on the navigation: Simulation relation 'equal up to the speed' over runs; stored speed by case analysis of every call.
- **C82** NIMBUS starts from the requested point: constructor modelled with an arbitrary minimizer; a starting point with one component slips through the check (`_fails`).
- **C83** NIMBUS only shows Pareto optimal rows of data-based problems: invariant over all histories; the classification constraints are upper bounds, so dominating rows satisfy them too; the assumption is proved for the function of the constructor and the intermediate solutions.
- **C84** Constructors accept exactly consistent arguments: checks modelled on shapes and lengths; exact acceptance conditions; negations for the minimize list and the partial comparison with the nadir.
- **C85** Which responses NAUTILUS and NAUTILUS v2 accept: equivalence of the validators with specifications GoodNumber, GoodPreference, GoodPair by case analysis.
- **C86** Which responses the reference point method and Pareto Navigator accept: equivalence of the validators with specifications GoodReference, GoodSpeed, IsNumber by case analysis.
- **C87** Which solutions a front representation returns: Model the loop with its preallocated NaN rows; specify the kept indices by an inductive predicate and prove by induction over the reference points that exactly these are returned.
- **C88** E-NAUTILUS requests are consistent in every history: Inductive relation of all uses of the object with partial state changes; invariants by induction.
- **C89** E-NAUTILUS stops only at solutions on the front: Negation by a history in which an older request is answered; proved for answered requests that report one iteration left.
- **C90** E-NAUTILUS can be started over: Negation (the reachable rows of the first run are kept); proved as long as no point was chosen, and a description of what is shown otherwise.
- **C91** A failed E-NAUTILUS call has no effect: Negation (zero iterations); proved for refused responses and indices past the end; a failed step back changes at most the number of iterations left.
- **C92** Which responses E-NAUTILUS, NAUTILUS Navigator and NIMBUS accept: equivalence of the validators with the specifications by case analysis.
- **C93** NIMBUS honours classifications on analytic problems: model: Nimbus/Model.lean with the minimizer's tasks (Task: reference point, scalarized objective, admitted vectors) as input of the oracle. Proof: case analysis of the answer step; exactness of the minimizer as hypothesis; satisfiable only if no '>=' level is below the current value (counterexample proved).
- **C94** NIMBUS only shows Pareto optimal solutions of analytic problems: model: Nimbus/Model.lean. Proof: induction over the histories in which all tasks asked for are solved (asked, proved to be complete by C94_asked_complete); the classification constraint is closed under domination.
- **C95** A failed call has no effect (other methods): frame theorems about the error results of `answer` in every method (Robust.lean); what an exception may change is listed exactly, with counterexamples where the full claim is false.
- **C96** Methods can be started over (other methods): simulation between the method with a history and a new one, over the list of all later answers (`play`); counterexamples where state is carried over.
- **C97** NAUTILUS and NAUTILUS 2 end with a Pareto optimal solution: The scalar problems as Task values (value, admitted vectors); exact minimizers as a hypothesis on the oracles; invariant over runs that the stored solution minimizes the last achievement problem. The achievement problem ignores the constraints: counterexample; partial theorem over the bounds.
- **C98** NAUTILUS and NAUTILUS 2 never make the decision maker give something up: Bound on the loss from minimality of the achievement function and its augmentation term; exact statement refuted on a problem with two outcomes.
- **C99** The reference point method shows and returns Pareto optimal solutions: The achievement problem of the minimizers as a task over the variable bounds; invariant of all histories on the current storage place; refuted on a one-variable problem with a constraint, which the minimizers are not given.
- **C100** Pareto Navigator shows Pareto optimal solutions near the current one: The projection as exact minimization of the unaugmented achievement function over the feasible set; invariant of all histories; Pareto optimality refuted on a problem with a nonconvex front and exact hull, LP and minimizer.
- **C101** Going on in Pareto Navigator approaches an attainable reference point: Invariant 1/50 <= |speed| < 6/50 over all histories (frame predicate on the monadic steps); induction over the number of steps with the invariant that the current solution satisfies the facets and box, the convex combination of current and attainable point being a feasible point of the linear problem with value 0.
- **C102** The reference point method reaches attainable reference points: Compare the minimizer's value with that of the attaining vector (nonpositive), which bounds each weighted deviation by the augmentation term; perturbed reference points are attainable too. The exact claim is refuted by a two-solution problem with an extreme trade-off.
- **C103** The nadir of the payoff table bounds the Pareto front: For two objectives the minimizer of the other objective would dominate a Pareto optimal solution beyond the nadir; a four-solution problem with three objectives refutes the claim in general, and a tie shows that the nadir may also be too large.
- **C104** Unusable responses are refused with the documented exception: Case analysis over the validators; full for E-NAUTILUS and Pareto Navigator, for the other methods the exact malformed responses that raise something else, each with a witness.
- **C105** E-NAUTILUS: origins and a common unit do not matter: Verif/ENautilus/Units.lean: each calculation commutes with the conversion, then induction over the session
- **C106** E-NAUTILUS: units chosen per objective do not matter: Verif/ENautilus/Units2.lean: everything but the distances and the decision vector, by composing the conversion with a change of norm; the distances fail (Euclidean norm of unscaled objectives)
- **C107** NAUTILUS Navigator takes every new reference point into account: Verif/Navigator/Fresh.lean: invariant of forward navigation on the stored projection; exact for distinguishable reference points, within an explicit tolerance otherwise; np.allclose makes the full claim false
- **C108** Asking NAUTILUS Navigator for more of one objective does not worsen it: Verif/Navigator/Monotone.lean: exchange argument on the two minimizers; ties are excluded because nanargmin takes the first index; a witness shows that the allowance is needed with three objectives
- **C109** E-NAUTILUS ends exactly on the front in floating-point arithmetic: E-NAUTILUS model with every float operation rounded (ENautilus/Rounded.lean; equal to the exact model for rnd = id), IsRounding as the only assumption, binary64 as an instance (Rounding.lean); induction over histories
- **C110** E-NAUTILUS does not lose solutions by rounding: violated in binary64 (witnesses with nadir 7 and three iterations: empty request, ValueError); proved under NotLost: at most two iterations, a margin of a few ulps, or values the formula reproduces
- **C111** NAUTILUS Navigator keeps its promises in floating-point arithmetic: rounded model (Navigator/Rounded.lean) equal to the exact one for the identity rounding; the invariants of C11, C12, C14 redone for every rounding; induction on the number of steps with error (1+e)^(3h)-1 for the pace
- **C112** NAUTILUS Navigator does not lose the solution it navigates to by rounding: violated in binary64 (front (3,0),(0,3): lost after the first step, empty stop request, ValueError on a changed reference point); proved when the rounded formula reproduces the values of the row, and step by step under NotLost
- **C113** The front representation covers the front with the resolution of its step: grid point just below the solution (C63), comparison of the achievement values of the minimizer and of the solution, all successes are kept (C79); C103 and C80 for the two-objective chain
- **C114** NAUTILUS Navigator: the order of the objectives does not matter: Recast.lean: one simulation for data presented with another order, other units and origins (`use_recast`, induction over the history); Units.lean instantiates it with a permutation, under which the achievement function is invariant.
- **C115** NAUTILUS Navigator: the origins of the objectives do not matter: Units.lean: `use_recast` with a shift; the achievement values change by a constant. Partial: assumes that closeness of the given reference points is decided in the same way; `C115_fails` shows that this is needed.
- **C116** NAUTILUS Navigator: the units of the objectives do not matter: Units.lean: `use_recast` with factors. Partial: rows that the reference points separate by more than an explicit margin are ranked alike in both units (`asf_near`); `C116_fails` is a front on which the choice depends on the unit.
- **C117** NAUTILUS ends exactly at the solution in floating-point arithmetic: Rounded copy of the NAUTILUS model (Rounded.lean, equal to the exact model without rounding: `answer_exact`), its histories and invariants; one-step error bound and its accumulation by induction over the run.
- **C118** NAUTILUS accepts percentages that sum up to 100: Violated: `C118_fails` (0.1, 64.1 and 35.8 are refused). Proved for percentages that are multiples of a power of two, for any order of summation (`Summed`), and the converse with an error bound.
- **C119** Rounding does not put the points of NAUTILUS out of order: Violated: `C119_fails_worse` (five iterations), `C119_fails_lost` (seven iterations). Proved up to three roundings, exactly where rounding does no harm (`NotOver`, `NotLost`), and exactly for short steps.
- **C120** The order of the objectives does not matter in NAUTILUS: Nautilus/Recast.lean: commutation of every statement of the method with the change of presentation (scale, origin, permutation), lifted to whole traces; Nautilus/Units.lean: instances.
- **C121** The origins of the objectives do not matter in NAUTILUS: As C120, with the recast `shift`; the utopian point is shifted with the ideal point.
- **C122** The units of the objectives do not matter in NAUTILUS: As C120, with the recast `rescale`: epsilon = 0, and a common factor with epsilon converted, are proved; a counterexample with the default epsilon.
- **C123** The order of the objectives does not matter in the reference point method: Rpm/Recast.lean: commutation of every statement of the method with the change of presentation, lifted to whole traces; Rpm/Units.lean: instances.
- **C124** The origins of the objectives do not matter in the reference point method: As C123 with the recast `shift`: correspondence if the minimizers find the same solutions; counterexample otherwise, because the weights are quotients of the reference point itself.
- **C125** The units of the objectives do not matter in the reference point method: As C123 with the recast `rescale`: correspondence for a common factor if the minimizers find the same solutions; counterexample otherwise.
- **C126** NAUTILUS 2: the order of the objectives does not matter: Two uses related by a renaming of the objectives (Recast), commutation of every handler; theorem about directions of improvement from connected pairs up to a factor; counterexample with two objectives and exact minimizers.
- **C127** NAUTILUS 2: the origins of the objectives do not matter: Recast with shifted origins, same commutation theorem.
- **C128** NAUTILUS 2: the units of the objectives do not matter: Recast with other units; counterexamples with exact minimizers over the reals.
- **C129** NAUTILUS 2: only the direction of improvement matters, not its length: Comparison of the minimizers of two achievement functions whose weights differ by a factor; counterexample with a factor of a million.
- **C130** Objectives declared for maximization are maximized: model the constructors with the list (Verif/Directions.lean); optimality in the declared directions as an independent predicate; the list is read nowhere, so two methods differing in it are equal; fails by a witness with exact minimizers, holds for lists of ones by C97 and C99
- **C131** NAUTILUS 2 ends exactly at the solution in floating-point arithmetic: Rounded copy of the NAUTILUS 2 model (NautilusV2/Rounded.lean), equal to the exact model without rounding (answer_exact); the invariants of the exact model are proved again; NautilusV2/RoundedProps.lean.
- **C132** Rounding does not put the points of NAUTILUS 2 out of order: As C119: monotonicity of the rounded step; NautilusV2/RoundedOrder.lean. The code violates it by units in the last place (counterexamples in double precision).
- **C133** The direction of improvement in floating-point arithmetic: The rounded loop has the same zeros as the exact one (simulation), pairs that connect all objectives form a tree (no pair compares an objective with itself), and each pass adds at most two roundings per objective; NautilusV2/RoundedDoi.lean.
- **C134** NIMBUS plots show the solutions of the request: handlers modelled again with both components of their result (Verif/Nimbus/Plot.lean), proved to agree with the model without plots; histories with plots; invariant that every reply carries the plot of its request
- **C135** NIMBUS optimizes in the directions it plots: Verif/Nimbus/PlotProps.lean: independent 'better in the plotted directions'; holds when all objectives are minimized (C94) and for discrete problems (C83); requests do not depend on the declared directions; fails by a witness history with exact minimizers
- **C136** NIMBUS accepts the current values as levels when it computes ideal and nadir: Verif/Nimbus/Bounds.lean: constructor from the problem on, with the payoff table of Verif/Solvers; C94 (shown solutions are Pareto optimal) with C61 and C103; two objectives proved, three fail by a witness
- **C137** NIMBUS uses the ideal and nadir supplied with the problem: Verif/Nimbus/Bounds.lean: holds if both are supplied; if one is missing the other is discarded, witness
- **C138** NIMBUS: order and origins of the objectives do not matter: Relate the traces of two uses of the method through a presentation map; prove by induction over the responses that every handler commutes with it.
- **C139** NIMBUS: the units of the objectives do not matter: The same simulation as for C138, for scalarizing functions that rank vectors as before; counterexample with PointMethodASF.
- **C140** Pareto Navigator: order and origins of the objectives do not matter: relational simulation between the two presentations of every function up to construction, start and any number of answers (ParetoNav/Recast); two counterexamples with exact external code.
- **C141** Pareto Navigator: the units of the objectives do not matter: the simulation of C140 covers positive factors; restricted to histories that never show a projected solution it needs no assumption on the projection; counterexample for the projection.
- **C142** The reference points of a front representation span the box from ideal to nadir: exact grid characterization (C63) plus divisibility argument; model of the grid with every operation rounded (Solvers/Rounded), counterexamples in exact and in double precision arithmetic.
- **C143** Front representations cover the front in floating-point arithmetic: error analysis of numpy's mgrid for arbitrary monotone roundings, largest computed grid value below the solution, achievement function argument of C113; counterexample with double.
- **C144** E-NAUTILUS: the order of the objectives does not matter: every function commutes with the permutation (ENautilus/Order), induction over the history; the Euclidean norm qualifies.
- **C145** The two arrays of a front representation belong together even if objective values are undefined: model of the loop with NaN entries (Solvers/Special), shown to agree with the model without NaN; invariant of the two arrays by induction; counterexamples.
- **C146** Payoff table and front representation: origins do not matter: Model of both functions with the minimizer as a parameter; commutation of axes, mesh and acceptance loop with translations, by induction on the axes and on the reference points.
- **C147** Payoff table and front representation: the order of the objectives does not matter: Both grids have no duplicates and the same members (C63), so they are permutations of each other; the solutions returned are those of the successful optimizations (C79), if the first one succeeds, which is at the same reference point in both orders.
- **C148** Payoff table and front representation: units do not matter: Proved for the payoff table; for the front representation under two conditions (eps covers the same grid values, the achievement function ranks alike), with a counterexample: eps and the constant 1e-6 in PointMethodASF are absolute.
- **C149** NIMBUS: numbers of solutions that are not integers: Extension of the NIMBUS model by float numbers of solutions (`Nimbus/Numbers.lean`), equal to the integer model on integers; case analysis. The claim is false for fractions and NaN, by witness; proved: what is shown is the integral part.
- **C150** The decision maker can always finish NIMBUS: Game-like inductive predicate (exists an answer, for all outcomes of the minimizers); invariant that every request shows at least one solution, by induction over histories; false if half an intermediate solution is asked for: by induction over all continuations, the session never gets out again.
- **C151** Asking for more of one objective in the reference point method does not worsen it: Rpm/Monotone.lean: comparison of the two exact minima (`raised_component`); the claim holds up to the augmentation if no feasible value of the objective is below the sum of the two reference values; counterexample with two solutions.
- **C152** NAUTILUS Navigator: the order of the rows of the front does not matter: Navigator/Rows.lean: simulation between the states on the two tables (same rows reachable, projections onto equal objective vectors), lifted to whole uses; counterexample with two rows and a tie.
- **C153** Pareto Navigator refuses reference points with infinite or undefined components: `ParetoNav/Special.lean` extends the model by such reference points; fails: accepted as soon as one component is not worse than the nadir (NaN and -inf are not), then `ValueError`/`TypeError`, and the point stays until another one is given; agreement with the ordinary model proved by a simulation.
- **C154** Pareto Navigator refuses a preferred solution that is not the number of a row: Same file: numpy indexing of a two-dimensional array by integers, `None`, Booleans, lists, floats and strings; fails: nothing is checked, and after `None`, a Boolean or a list every navigation step raises in every continuation until the first request is answered again (invariant over all later calls).
- **C155** The payoff table minimizes every objective by itself: `Solvers/PayoffSpecial.lean`: IEEE multiplication, addition and maximum on numbers, infinities and NaN; exact description of what is minimized; fails for every solver because 0 * inf = NaN (two problems that no solver can tell apart); agreement with the exact model where all values are numbers.
- **C156** NIMBUS intermediate points stay between the two chosen solutions in floating-point arithmetic: Rounded variant of the intermediate-point computation (Nimbus/Rounded.lean), equal to the exact model when rounding is the identity; monotone rounding and relative-error composition. Distinctness fails for neighbouring floats.
- **C157** Perturbed reference points of the reference point method in floating-point arithmetic: Rounded copy of the method (Rpm/Rounded.lean), equal to the exact model when rounding is the identity; storage invariant over histories; monotone rounding. The points can coincide with q although the solution differs (absorption), shown in double precision.
- **C158** Pareto Navigator moves between the current solution and the reference point in floating-point arithmetic: Rounded copy of the model (ParetoNav/Rounded.lean), equal to the exact model when rounding is the identity; invariant over histories (facets stored, step length); monotone rounding and relative-error composition.
- **C159** PAINT: order, origins and units of the objectives do not matter: Tests that agree on converted vertices give equal runs (induction over both loops); affine image of convex hulls; dominance is preserved by the conversion.
- **C160** PAINT: the order of the outcomes does not matter: Proved for two objectives (convexity in the plane: polytopes that pass rule 1 never conflict) and whenever no two such polytopes conflict; refuted for three objectives by a tetrahedron with two crossing edges.
- **C161** PAINT uses the epsilon and method of the caller in all tests: Loop invariants of both rules with separate option records for rule 1 and rule 2; witness with two crossing edges at distance 1e-7.
- **C162** The decision maker can always finish: A shared inductive predicate `Finishes` (Verif/Finish.lean): the decision maker has an answer to which every admissible solver outcome gives a request from which he can finish. Proved per method with the invariants of the histories (storage lengths, counts, a current point exists). Violated by NAUTILUS 2: after three accepted requests for more iterations that raise IndexError the last request cannot be answered at all any more.
- **C163** NIMBUS: allowing an objective to get worse is used for something: Nimbus.Relax: the discrete minimizer takes the first of the best feasible rows; the feasible rows for the higher levels include those for the lower ones; a row outside the old ones exceeds an old level. Analytic case through the tasks given to the minimizer (C93).
- **C164** NAUTILUS: giving an objective more weight does not worsen it: Nautilus.Monotone: both solutions minimize weighted maxima that differ in one weight (ranks) or in one weight and a common factor of the others (percentages); exchange argument on the two optimality conditions, augmentation bounded by the number of objectives.
- **C165** NAUTILUS 2: asking for more improvement of an objective does not make it worse: The two minimizers are compared by the exchange argument of C151 and C164 (`raised_component`) with the weights `1/degree`; C64 and C65 give the points as convex steps; first answer, moving on and stepping back.
- **C166** Pareto Navigator: asking for more of one objective does not worsen it: As C50 the solution shown minimizes the largest relative difference to the moved reference point over the hull and the box; the two moved reference points differ in one component, and the exchange argument of C151 applies without an augmentation term.
- **C167** NIMBUS: asking for more of one objective does not worsen it: The two classifications have the same honouring solutions; the scalarizing functions differ in the term of the one objective. `MaxOfTwoASF` is specified by its documented formula; exchange argument with the first minimal row (data-based) or an exact minimizer (analytic).
- **C168** NIMBUS: the order of the rows of data-based problems does not matter: Simulation along `replay`: construction, new solutions and intermediate solutions choose the same row (decision and objective vector) of the relisted table if the best scalarized value belongs to one row; counterexample with a tie.
- **C169** E-NAUTILUS: the order of the rows of the front does not matter: Paired histories (every call on one table accompanied by the same call on the other); invariant: same state up to the numbers of the rows, requests equal up to a permutation of the points with their bounds and distances.
- **C170** A finer front representation keeps every solution of a coarser one: the coarse grid is a subset of the fine one (C63) and has the same first point; by C79 exactly the successes are returned; Verif/Solvers/Finer.lean
- **C171** From the problem to NAUTILUS Navigator: the navigation ends in a Pareto optimal solution of the problem: composition of C61, C62, C80, C84, C103, C113 (utilities) with C12, C13, C18 (navigation) and an estimate of the achievement function; Verif/Pipeline.lean
- **C172** From the problem to E-NAUTILUS: the final solution is a Pareto optimal solution of the problem: composition of C62, C84 and C05; Verif/Pipeline.lean
- **C173** Pareto Navigator: the order of the given solutions does not matter: ParetoNav/Rows.lean: simulation of two objects that differ in the list of solutions and in the facets, whose convex hulls agree because convex combinations depend on the members only. Partial: a data-based problem started from a reference point takes a row number as current solution.
- **C174** NAUTILUS Navigator: every solution of the front can be reached: Navigator/Reach.lean: the bounds are the objective vector of the solution, given first with a step back to the start and then with every step; an invariant of the state while heading for the solution, by induction on the steps.
- **C175** E-NAUTILUS: every solution can be reached in the planned number of iterations: ENautilus/Reach.lean: invariant that the point a fraction (h+1)/N of the way from the nadir point to the row is offered after h choices; induction on the choices. Partial: proved for two objectives; with three or more the points offered for other rows may make the method fail (C06).
- **C176** NIMBUS: every balanced solution can be reached in one round: Nimbus/Reach.lean: among the solutions that honour this classification the target is the unique minimizer of the first scalarizing function (specified by IsMaxOfTwo); the other three answers are computed.
- **C177** NAUTILUS: every balanced solution can be reached, with suitable percentages: Nautilus/Reach.lean: with these percentages all terms of the achievement function are equal at the target, so that a vector at least as good would be worse in no objective by more than the augmentation term; then the even steps of C32.
- **C178** NAUTILUS 2: every balanced solution can be reached, with suitable degrees of improvement: NautilusV2/Reach.lean: as C177, with the degrees of improvement gain/total times the range; then the even steps of C42.
- **C179** Reference point method: every balanced solution can be reached in two answers: Rpm/Reach.lean: with its own objective vector as reference point, the target is the unique minimizer of the achievement function; the perturbed reference points coincide with it; the solution stored is returned.
- **C180** From the problem to NAUTILUS: the computed points serve, and every balanced solution can be reached: PipelineN.lean: composition of C61, C103, C97 and C177; the payoff table over the decision vectors within the bounds gives utopian < nadir.
- **C181** From the problem to NAUTILUS 2: the computed points serve, and every balanced solution can be reached: PipelineN.lean: composition of C61, C103, C97 and C178.
- **C182** From the problem to the reference point method: the computed points serve, and every balanced solution can be reached: PipelineR.lean: composition of C61, C99 and C179; no Pareto optimal solution is worse than the payoff nadir in all objectives, for any number of objectives.
- **C183** From the problem: a solution near every Pareto optimal one can be reached with NAUTILUS Navigator: PipelineReach.lean: composition of C62, C113 and C174; the rows are Pareto optimal, hence mutually nondominated.
- **C184** From the problem: a solution near every Pareto optimal one can be reached with E-NAUTILUS: PipelineReach.lean: composition of C62, C113 and C175.
- **C185** From the problem: every balanced solution can be reached with NIMBUS: PipelineNimbus.lean: composition of C61, C103, C94, C29 and C176.
- **C186** NIMBUS: a solution near any Pareto optimal one can be reached: Nimbus/Near.lean: the minimizer of the scalarizing function is compared with the solution wanted, which has the largest term zero; the sum of the ranges bounds what the augmentation can give away; what dominates the minimizer would honour the classification too and be better. For analytic problems the scalarized problems are assumed to have solutions and the minimizer to find them.
- **C187** From the problem: a solution near any Pareto optimal one can be reached with NIMBUS: PipelineNimbus.lean: composition of C61, C103 (C185_two_objectives), C94, C29 and C186.
- **C188** The reference point method shows a solution near any wanted one: Rpm/Near.lean: the minimizer of the achievement function is compared with the solution wanted, for which the maximum is zero; the weights are the absolute objective values in units of the range; what is shown is undominated by C99. PipelineR.lean: composition with C61.
- **C189** NAUTILUS can be led near any Pareto optimal solution: Nautilus/Near.lean: the percentages are the shares of the improvement wanted; all terms of the achievement function are then equal for the solution wanted, and the sum of the ranges bounds what the augmentation can give away. PipelineNNear.lean: composition with C61.
- **C190** NAUTILUS 2 can be led near any Pareto optimal solution: NautilusV2/Near.lean, PipelineNNear.lean: as C189.
- **C191** NIMBUS on a data table: Nimbus/Table.lean: composition of the existence and optimality of discrete minimizers with C186; the column minima and maxima give all bounds that C186 assumes.
