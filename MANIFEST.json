{
 "claims": [
  {
   "property": "C01",
   "status": "proved",
   "theorems": [
    "Verif.ENautilus.C01_initial_points_between",
    "Verif.ENautilus.C01_points_between"
   ],
   "note": ""
  },
  {
   "property": "C02",
   "status": "proved",
   "theorems": [
    "Verif.ENautilus.C02_bounds_exact",
    "Verif.ENautilus.C02_attainable_rows_stay_reachable",
    "Verif.ENautilus.C02_bounds_fail_iff"
   ],
   "note": ""
  },
  {
   "property": "C03",
   "status": "proved",
   "theorems": [
    "Verif.ENautilus.C03_reachable_exact",
    "Verif.ENautilus.C03_bounds_monotone"
   ],
   "note": ""
  },
  {
   "property": "C04",
   "status": "proved",
   "theorems": [
    "Verif.ENautilus.C04_exactly_N_iterations",
    "Verif.ENautilus.C04_changed_iterations",
    "Verif.ENautilus.C04_change_ignored_on_last_iteration"
   ],
   "note": ""
  },
  {
   "property": "C05",
   "status": "proved",
   "theorems": [
    "Verif.ENautilus.C05_stop_is_the_chosen_point",
    "Verif.ENautilus.C05_stop_solution_matches"
   ],
   "note": ""
  },
  {
   "property": "C06",
   "status": "partial",
   "theorems": [
    "Verif.ENautilus.C06_never_worsens_two_objectives_partial",
    "Verif.ENautilus.C06_never_fails_two_objectives_partial",
    "Verif.ENautilus.C06_worsens_three_objectives",
    "Verif.ENautilus.C06_dead_end_three_objectives"
   ],
   "note": "The claim is false for three objectives (proved by witness sessions); proved for two objectives over all histories."
  },
  {
   "property": "C07",
   "status": "proved",
   "theorems": [
    "Verif.ENautilus.C07_step_back_restores"
   ],
   "note": ""
  },
  {
   "property": "C08",
   "status": "partial",
   "theorems": [
    "Verif.ENautilus.C08_index_in_range_partial",
    "Verif.ENautilus.C08_accepts_index_past_the_end"
   ],
   "note": "The claim is false: the validator accepts the index one past the end (proved); what the validator does guarantee is proved."
  },
  {
   "property": "C09",
   "status": "partial",
   "theorems": [
    "Verif.ENautilus.C09_accepted_never_keyError",
    "Verif.ENautilus.C09_refused_changes_nothing",
    "Verif.ENautilus.C09_zero_iterations_accepted_and_crashes"
   ],
   "note": "No KeyError for any accepted response; but an accepted response with zero iterations crashes with ZeroDivisionError (proved)."
  },
  {
   "property": "C10",
   "status": "proved",
   "theorems": [
    "Verif.ENautilus.C10_first_distances",
    "Verif.ENautilus.C10_after_choice",
    "Verif.ENautilus.C10_every_history",
    "Verif.ENautilus.C10_distances_are_percentages"
   ],
   "note": "For any number of objectives; with two objectives and mutually nondominated rows the conditions on the points hold in every history (C10_distances_are_percentages)."
  },
  {
   "property": "C100",
   "status": "partial",
   "theorems": [
    "Verif.ParetoNav.C100_shown_partial",
    "Verif.ParetoNav.C100_fails"
   ],
   "note": "The achievement function has no augmentation term, so a shown solution may be dominated (C100_fails); proved: it is weakly Pareto optimal and nearest to the current solution, and stop requests return shown solutions."
  },
  {
   "property": "C101",
   "status": "proved",
   "theorems": [
    "Verif.ParetoNav.C101_approaches"
   ],
   "note": "Exact LP and hull solvers assumed (Exact); the stored solutions meant are those for which Qhull last succeeded."
  },
  {
   "property": "C102",
   "status": "partial",
   "theorems": [
    "Verif.Rpm.C102_reaches_partial",
    "Verif.Rpm.C102_fails"
   ],
   "note": "The exact claim is false because of the augmentation term (C102_fails, loss 1e-6); proved: the loss times |q_i| is at most 1e-4 times the number of objectives times the range, and a similar bound for the additional solutions."
  },
  {
   "property": "C103",
   "status": "partial",
   "theorems": [
    "Verif.Solvers.C103_two_objectives_partial",
    "Verif.Solvers.C103_fails",
    "Verif.Solvers.C103_overestimates"
   ],
   "note": "True for two objectives, and exact there if the minimizers found are Pareto optimal; false for three (C103_fails); it may also be too large (C103_overestimates)."
  },
  {
   "property": "C104",
   "status": "partial",
   "theorems": [
    "Verif.ENautilus.C104_documented",
    "Verif.ParetoNav.C104_documented",
    "Verif.Navigator.C104_documented_partial",
    "Verif.Navigator.C104_fails",
    "Verif.Nimbus.C104_documented_partial",
    "Verif.Nimbus.C104_fails",
    "Verif.Nautilus.C104_documented_partial",
    "Verif.Nautilus.C104_fails",
    "Verif.NautilusV2.C104_documented_partial",
    "Verif.NautilusV2.C104_fails",
    "Verif.Rpm.C104_documented_partial",
    "Verif.Rpm.C104_fails"
   ],
   "note": "Full for E-NAUTILUS and Pareto Navigator; in the other methods missing keys, single levels, surplus classes, non-boolean flags, preference information of another shape and string indices raise KeyError, TypeError or IndexError (C104_fails). Within the response types of the model (values of other Python types are excluded by the types)."
  },
  {
   "property": "C105",
   "status": "proved",
   "theorems": [
    "Verif.ENautilus.C105_run_similar"
   ],
   "note": ""
  },
  {
   "property": "C106",
   "status": "partial",
   "theorems": [
    "Verif.ENautilus.C106_run_units_partial",
    "Verif.ENautilus.C106_run_units_fails"
   ],
   "note": "Points, bounds, iterations left, final objective vector and exceptions are unit independent. The distances are not: calculate_distances takes the Euclidean norm of unscaled objectives (C106_run_units_fails: 1875/34 percent becomes 255/4 percent), and the decision vector is also chosen by that norm."
  },
  {
   "property": "C107",
   "status": "partial",
   "theorems": [
    "Verif.Navigator.C107_moves_to_best_partial",
    "Verif.Navigator.C107_moves_to_almost_best_partial",
    "Verif.Navigator.C107_change_ignored_fails"
   ],
   "note": "The full claim is false: np.allclose (NautilusNavigator.py:429) ignores changes up to 1e-8 + 1e-5 times the value, which on a front with values near 1e6 and ranges of 10 is every change (C107_change_ignored_fails). Proved: exact when reference points are equal or differ visibly, and within an explicit tolerance always, while navigating forward with kept or tightened user bounds (after loosening the bounds or going back the projection is not recomputed for an unchanged reference point, cf. C17_continues_differently)."
  },
  {
   "property": "C108",
   "status": "proved",
   "theorems": [
    "Verif.Navigator.C108_asking_more",
    "Verif.Navigator.C108_asking_more_two",
    "Verif.Navigator.C108_allowance_needed"
   ],
   "note": ""
  },
  {
   "property": "C109",
   "status": "proved",
   "theorems": [
    "Verif.ENautilus.C109_requests_rounded",
    "Verif.ENautilus.C109_stop_rounded",
    "Verif.ENautilus.C109_distances_rounded"
   ],
   "note": "Every rounding without overflow and underflow; isRounding_double is the binary64 instance. The computed norm is assumed to be zero only for the zero vector."
  },
  {
   "property": "C11",
   "status": "proved",
   "theorems": [
    "Verif.Navigator.C11_step_bookkeeping",
    "Verif.Navigator.C11_forward_counts"
   ],
   "note": ""
  },
  {
   "property": "C110",
   "status": "partial",
   "theorems": [
    "Verif.ENautilus.C110_fails",
    "Verif.ENautilus.C110_fails_crash",
    "Verif.ENautilus.C110_start_partial",
    "Verif.ENautilus.C110_choice_partial",
    "Verif.ENautilus.C110_starts_partial"
   ],
   "note": "False in double precision: with three iterations and a nadir value of 7 the point is computed as 6.999999999999999, the solution it heads for is outside its bounds, the next request is empty (C110_fails) or the first call raises ValueError (C110_fails_crash). Proved for one or two iterations, for values better than the current point by a few ulps, and for values the formula reproduces."
  },
  {
   "property": "C111",
   "status": "proved",
   "theorems": [
    "Verif.Navigator.C111_steps_rounded",
    "Verif.Navigator.C111_forward_counts_rounded",
    "Verif.Navigator.C111_last_step_rounded",
    "Verif.Navigator.C111_hundred_steps_rounded",
    "Verif.Navigator.C111_bounds_never_widen_rounded",
    "Verif.Navigator.C111_bounds_exact_rounded",
    "Verif.Navigator.C111_pace_rounded"
   ],
   "note": "Every rounding without overflow and underflow. The achievement function, the norm and allclose are taken as computed (arbitrary functions; the norm is assumed zero only for the zero vector where the distance is concerned)."
  },
  {
   "property": "C112",
   "status": "partial",
   "theorems": [
    "Verif.Navigator.C112_fails",
    "Verif.Navigator.C112_fails_crash",
    "Verif.Navigator.C112_target_kept_partial",
    "Verif.Navigator.C112_step_partial"
   ],
   "note": "False in double precision: 0.99*3 + 0.01*3 is computed below 3, so on the front (3,0),(0,3) the navigation towards (3,0) loses it in the first step: no solution is reachable, stopping returns nothing, and changing the reference point raises ValueError. Proved for rows whose values the rounded formula reproduces, and for each step under NotLost."
  },
  {
   "property": "C113",
   "status": "proved",
   "theorems": [
    "Verif.Solvers.C113_covers",
    "Verif.Solvers.C113_covers_two"
   ],
   "note": "Exact arithmetic and exact, always successful optimizations (Trusty). Without the hypothesis on the ideal the augmentation term could be arbitrarily large."
  },
  {
   "property": "C114",
   "status": "proved",
   "theorems": [
    "Verif.Navigator.C114_order"
   ],
   "note": "Exact arithmetic. The norm must be invariant under the permutation (euclid_perm: the Euclidean norm is)."
  },
  {
   "property": "C115",
   "status": "partial",
   "theorems": [
    "Verif.Navigator.C115_origins_partial",
    "Verif.Navigator.C115_fails"
   ],
   "note": "Violated by the code far from the origin (np.allclose is relative). Partial: proved for all uses in which closeness of the given reference points is decided alike in both origins."
  },
  {
   "property": "C116",
   "status": "partial",
   "theorems": [
    "Verif.Navigator.C116_units_partial",
    "Verif.Navigator.C116_common_factor_partial",
    "Verif.Navigator.C116_fails"
   ],
   "note": "Violated by the code when a range is not large compared with 1e-6. Partial: proved for all uses whose reference points separate different rows by an explicit margin; with a common factor the distances agree too."
  },
  {
   "property": "C117",
   "status": "proved",
   "theorems": [
    "Verif.Nautilus.Rounded.C117_first",
    "Verif.Nautilus.Rounded.C117_forward",
    "Verif.Nautilus.Rounded.C117_even_steps",
    "Verif.Nautilus.Rounded.C117_stop_pair",
    "Verif.Nautilus.Rounded.C117_stop_at_last_point"
   ],
   "note": "Rounding, norm and objectives as computed are parameters; double precision (without underflow and overflow) is an instance."
  },
  {
   "property": "C118",
   "status": "partial",
   "theorems": [
    "Verif.Nautilus.Rounded.C118_accepted_partial",
    "Verif.Nautilus.Rounded.C118_accepted_later_partial",
    "Verif.Nautilus.Rounded.C118_only_sums_near_100",
    "Verif.Nautilus.Rounded.C118_fails"
   ],
   "note": "Violated by the code for decimal fractions (C118_fails); proved for percentages on a binary grid and for the converse."
  },
  {
   "property": "C119",
   "status": "partial",
   "theorems": [
    "Verif.Nautilus.Rounded.C119_forward_partial",
    "Verif.Nautilus.Rounded.C119_short_step",
    "Verif.Nautilus.Rounded.C119_fails_worse",
    "Verif.Nautilus.Rounded.C119_fails_lost"
   ],
   "note": "Violated by the code by units in the last place (C119_fails_*); proved up to three roundings and exactly under NotOver/NotLost; short steps proved."
  },
  {
   "property": "C12",
   "status": "proved",
   "theorems": [
    "Verif.Navigator.C12_last_step_on_front",
    "Verif.Navigator.C12_hundred_steps_reach_front"
   ],
   "note": ""
  },
  {
   "property": "C120",
   "status": "proved",
   "theorems": [
    "Verif.Nautilus.C120_order"
   ],
   "note": "Whole traces, including refused responses and exceptions. Minimizers that are random or look at more than the scalar problem are not covered."
  },
  {
   "property": "C121",
   "status": "proved",
   "theorems": [
    "Verif.Nautilus.C121_origins"
   ],
   "note": "As C120."
  },
  {
   "property": "C122",
   "status": "partial",
   "theorems": [
    "Verif.Nautilus.C122_units_partial",
    "Verif.Nautilus.C122_common_unit_partial",
    "Verif.Nautilus.C122_fails"
   ],
   "note": "The full claim is false for the default epsilon = 1e-6, an absolute number: C122_fails. Proved for epsilon = 0 (everything but the distances) and for a common factor with epsilon converted (everything)."
  },
  {
   "property": "C123",
   "status": "proved",
   "theorems": [
    "Verif.Rpm.C123_order"
   ],
   "note": "Whole traces, including refused responses and exceptions, for problems with variables and for tables. Random minimizers are not covered."
  },
  {
   "property": "C124",
   "status": "partial",
   "theorems": [
    "Verif.Rpm.C124_origins_partial",
    "Verif.Rpm.C124_fails"
   ],
   "note": "The full claim is false: the weights are ref / (utopian - nadir), so they depend on the origin (C124_fails, exact minimizer, table). Proved: apart from the solutions found, nothing depends on the origins."
  },
  {
   "property": "C125",
   "status": "partial",
   "theorems": [
    "Verif.Rpm.C125_units_partial",
    "Verif.Rpm.C125_fails"
   ],
   "note": "The full claim is false: the weights have no unit and multiply differences that have one (C125_fails). Proved: for a common factor, nothing depends on the unit apart from the solutions found."
  },
  {
   "property": "C126",
   "status": "partial",
   "theorems": [
    "Verif.NautilusV2.C126_order_partial",
    "Verif.NautilusV2.C126_direction_partial",
    "Verif.NautilusV2.C126_fails"
   ],
   "note": "Violated for pairs when another objective is listed first. Proved for all other preferences and histories, and for pairs if the first objective stays first; the direction from pairs is the same up to a factor in any order."
  },
  {
   "property": "C127",
   "status": "proved",
   "theorems": [
    "Verif.NautilusV2.C127_origins"
   ],
   "note": "Whole uses, all preferences."
  },
  {
   "property": "C128",
   "status": "partial",
   "theorems": [
    "Verif.NautilusV2.C128_units_partial",
    "Verif.NautilusV2.C128_common_unit_partial",
    "Verif.NautilusV2.C128_fails",
    "Verif.NautilusV2.C128_fails_pairs",
    "Verif.NautilusV2.C128_fails_units"
   ],
   "note": "Violated with the default epsilon and, for pairs, with any. Proved for epsilon = 0 and improvements given directly, and for one common unit."
  },
  {
   "property": "C129",
   "status": "partial",
   "theorems": [
    "Verif.NautilusV2.C129_first_partial",
    "Verif.NautilusV2.C129_fails"
   ],
   "note": "Violated: a direction a million times as long leads to another solution. Proved: the first point shown changes only by the augmentation term."
  },
  {
   "property": "C13",
   "status": "proved",
   "theorems": [
    "Verif.Navigator.C13_constant_pace"
   ],
   "note": ""
  },
  {
   "property": "C130",
   "status": "partial",
   "theorems": [
    "Verif.Directions.C130_nautilus_partial",
    "Verif.Directions.C130_nautilusV2_partial",
    "Verif.Directions.C130_rpm_partial",
    "Verif.Directions.C130_no_effect",
    "Verif.Directions.C130_fails_nautilus",
    "Verif.Directions.C130_fails_nautilusV2",
    "Verif.Directions.C130_fails_rpm"
   ],
   "note": "proved for lists of ones and for the default; fails for lists with -1: the list is stored and never read, so it has no effect (C130_no_effect), and with exact minimizers each of the three methods returns a solution that is worse in both declared directions (C130_fails_*)."
  },
  {
   "property": "C131",
   "status": "proved",
   "theorems": [
    "Verif.NautilusV2.Rounded.C131_first",
    "Verif.NautilusV2.Rounded.C131_forward",
    "Verif.NautilusV2.Rounded.C131_even_steps",
    "Verif.NautilusV2.Rounded.C131_stop_pair",
    "Verif.NautilusV2.Rounded.C131_stop_at_last_point"
   ],
   "note": "Rounding, norm and objectives as computed are parameters; double precision (without underflow and overflow) is an instance."
  },
  {
   "property": "C132",
   "status": "partial",
   "theorems": [
    "Verif.NautilusV2.Rounded.C132_forward_partial",
    "Verif.NautilusV2.Rounded.C132_short_step",
    "Verif.NautilusV2.Rounded.C132_fails_worse",
    "Verif.NautilusV2.Rounded.C132_fails_lost"
   ],
   "note": "Violated by the code by units in the last place (C132_fails_*); proved up to three roundings and exactly under NotOver/NotLost; short steps proved."
  },
  {
   "property": "C133",
   "status": "proved",
   "theorems": [
    "Verif.NautilusV2.Rounded.C133_direction_rounded"
   ],
   "note": "Without underflow and overflow."
  },
  {
   "property": "C134",
   "status": "proved",
   "theorems": [
    "Verif.Nimbus.C134_plots_show_the_request",
    "Verif.Nimbus.C134_every_request_plotted",
    "Verif.Nimbus.C134_plotted_box_bounds_levels"
   ],
   "note": "histories with plot requests; column names and messages are not modelled"
  },
  {
   "property": "C135",
   "status": "partial",
   "theorems": [
    "Verif.Nimbus.C135_plotted_solutions_optimal_partial",
    "Verif.Nimbus.C135_directions_plotted",
    "Verif.Nimbus.C135_directions_have_no_effect",
    "Verif.Nimbus.C135_fails"
   ],
   "note": "holds when everything is minimized and for discrete problems; violated by the code for objectives declared for maximization: the declared directions reach only the plots"
  },
  {
   "property": "C136",
   "status": "partial",
   "theorems": [
    "Verif.Nimbus.C136_current_levels_accepted_partial",
    "Verif.Nimbus.C136_ideal_bounds_shown",
    "Verif.Nimbus.C136_fails"
   ],
   "note": "two objectives proved; the lower bound for any number; violated by the code for three objectives (the payoff table underestimates the nadir)"
  },
  {
   "property": "C137",
   "status": "partial",
   "theorems": [
    "Verif.Nimbus.C137_supplied_points_used_partial",
    "Verif.Nimbus.C137_discarded",
    "Verif.Nimbus.C137_fails"
   ],
   "note": "holds if both points are supplied; violated by the code otherwise: a supplied ideal is discarded when the nadir is missing and vice versa"
  },
  {
   "property": "C138",
   "status": "partial",
   "theorems": [
    "Verif.Nimbus.C138_presentation_partial",
    "Verif.Nimbus.C138_order_partial",
    "Verif.Nimbus.C138_origins_partial",
    "Verif.Nimbus.C138_fails"
   ],
   "note": "Whole interactions commute with the presentation for full classification lists; false for classification lists that are too short (C138_fails)."
  },
  {
   "property": "C139",
   "status": "partial",
   "theorems": [
    "Verif.Nimbus.C139_units_partial",
    "Verif.Nimbus.C139_fails"
   ],
   "note": "Holds for scalarizing functions that rank vectors as before (e.g. without absolute terms); false with PointMethodASF (C139_fails)."
  },
  {
   "property": "C14",
   "status": "proved",
   "theorems": [
    "Verif.Navigator.C14_bounds_never_widen",
    "Verif.Navigator.C14_bounds_exact"
   ],
   "note": ""
  },
  {
   "property": "C140",
   "status": "partial",
   "theorems": [
    "Verif.ParetoNav.C140_presentation_partial",
    "Verif.ParetoNav.C140_projection",
    "Verif.ParetoNav.C140_fails_classes",
    "Verif.ParetoNav.C140_fails_start"
   ],
   "note": "Whole interactions commute with the presentation for full classification lists when no decision vector is taken as current solution; C140_projection: order and origins do not change the projection's ranking. False for one class for several objectives (C140_fails_classes) and for a start from a reference point of an analytic problem (C140_fails_start)."
  },
  {
   "property": "C141",
   "status": "partial",
   "theorems": [
    "Verif.ParetoNav.C141_navigation_partial",
    "Verif.ParetoNav.C141_fails"
   ],
   "note": "Navigation does not depend on the units; the projected solution shown at the end does (C141_fails)."
  },
  {
   "property": "C142",
   "status": "partial",
   "theorems": [
    "Verif.Solvers.C142_spans_partial",
    "Verif.Solvers.C142_fails",
    "Verif.Solvers.C142_fails_rounding"
   ],
   "note": "Holds exactly if no step is smaller than eps; false for smaller steps (C142_fails) and in double precision for large values (C142_fails_rounding)."
  },
  {
   "property": "C143",
   "status": "partial",
   "theorems": [
    "Verif.Solvers.C143_covers_partial",
    "Verif.Solvers.C143_fails_empty"
   ],
   "note": "For every rounding with u <= 1/8, unless ideal and nadir agree in an objective and eps is absorbed (C143_fails_empty)."
  },
  {
   "property": "C144",
   "status": "proved",
   "theorems": [
    "Verif.ENautilus.C144_run_order"
   ],
   "note": "Whole interactions commute with the permutation."
  },
  {
   "property": "C145",
   "status": "partial",
   "theorems": [
    "Verif.Solvers.C145_aligned_partial",
    "Verif.Solvers.C145_fails"
   ],
   "note": "Proved if no solution found has only NaN objectives; false otherwise (C145_fails)."
  },
  {
   "property": "C146",
   "status": "proved",
   "theorems": [
    "Verif.Solvers.C146_origins"
   ],
   "note": ""
  },
  {
   "property": "C147",
   "status": "proved",
   "theorems": [
    "Verif.Solvers.C147_order"
   ],
   "note": ""
  },
  {
   "property": "C148",
   "status": "partial",
   "theorems": [
    "Verif.Solvers.C148_payoff_partial",
    "Verif.Solvers.C148_units_partial",
    "Verif.Solvers.C148_fails"
   ],
   "note": "Holds for the payoff table. For the front representation it is false: eps (1e-6 by default) and the 1e-6 in PointMethodASF are absolute numbers, so the same problem in another unit gives 121 rows instead of 4 (C148_fails). Proved if eps covers the same grid values in both units and the achievement function ranks the solutions alike."
  },
  {
   "property": "C149",
   "status": "partial",
   "theorems": [
    "Verif.Nimbus.C149_integers_partial",
    "Verif.Nimbus.C149_classification_partial",
    "Verif.Nimbus.C149_intermediate_partial",
    "Verif.Nimbus.C149_fails"
   ],
   "note": "Fractional numbers and NaN are accepted by both requests (C149_fails). Proved: integer-valued floats act as integers, and what is shown is the integral part of a number in range."
  },
  {
   "property": "C15",
   "status": "partial",
   "theorems": [
    "Verif.Navigator.C15_never_worsens_two_objectives_partial",
    "Verif.Navigator.C15_never_worsens_constant_reference_partial",
    "Verif.Navigator.C15_worsens_iff_projection_worse",
    "Verif.Navigator.C15_worsens_three_objectives",
    "Verif.Navigator.C15_worsens_with_user_bounds",
    "Verif.Navigator.C15_worsens_after_returning"
   ],
   "note": "The claim is false in general (three witness histories proved); proved for two objectives without user bounds and for a constant reference point, with an exact characterisation of a worsening step."
  },
  {
   "property": "C150",
   "status": "partial",
   "theorems": [
    "Verif.Nimbus.C150_can_finish_partial",
    "Verif.Nimbus.C150_fails"
   ],
   "note": "Proved for integer numbers of solutions. Asking for half an intermediate solution while nothing is saved leads to a request that shows nothing, after which no continuation ever gets to choosing, classifying or stopping (C150_fails)."
  },
  {
   "property": "C151",
   "status": "partial",
   "theorems": [
    "Verif.Rpm.C151_asking_more_partial",
    "Verif.Rpm.C151_fails"
   ],
   "note": "Proved for every history when the objective does not fall below the sum of the two reference values, up to the augmentation (1e-4 times objectives times range over |q|) or an exact tie. Missing because false: objectives below that sum, where raising the weight outweighs raising the aspiration (C151_fails, two solutions both better than the reference points)."
  },
  {
   "property": "C152",
   "status": "partial",
   "theorems": [
    "Verif.Navigator.C152_rows_partial",
    "Verif.Navigator.C152_fails"
   ],
   "note": "Whole uses of the method, any surjective relisting of the rows (order and repetitions). Missing because false: reference points for which two different rows have the same achievement value (C152_fails)."
  },
  {
   "property": "C153",
   "status": "partial",
   "theorems": [
    "Verif.ParetoNav.C153_ordinary_partial",
    "Verif.ParetoNav.C153_accepted",
    "Verif.ParetoNav.C153_fails",
    "Verif.ParetoNav.C153_stuck",
    "Verif.ParetoNav.C153_recovers"
   ],
   "note": "The code violates the claim: accepted, then ValueError/TypeError until another point is given. Proved: exact acceptance condition, unchanged behaviour for numbers, and that it stays and how it ends."
  },
  {
   "property": "C154",
   "status": "partial",
   "theorems": [
    "Verif.ParetoNav.C154_accepted",
    "Verif.ParetoNav.C154_index_partial",
    "Verif.ParetoNav.C154_fails",
    "Verif.ParetoNav.C154_stuck"
   ],
   "note": "The code violates the claim: nothing is checked. Proved: integers, floats and strings behave as numpy indexing; None, Booleans and lists make all further navigation raise."
  },
  {
   "property": "C155",
   "status": "partial",
   "theorems": [
    "Verif.Solvers.C155_separate_partial",
    "Verif.Solvers.C155_minimized",
    "Verif.Solvers.C155_order_partial",
    "Verif.Solvers.C155_numbers",
    "Verif.Solvers.C155_fails"
   ],
   "note": "The code violates the claim: an infinite or undefined value of one objective makes the scalarization of all others undefined there (0 * inf), for every solver. Proved: exactly what is minimized, when the nadir is undefined, order of ideal and nadir, agreement with the exact model."
  },
  {
   "property": "C156",
   "status": "partial",
   "theorems": [
    "Verif.Nimbus.C156_between_partial",
    "Verif.Nimbus.C156_fails",
    "Verif.Nimbus.rAnswer_exact",
    "Verif.Nimbus.double_many"
   ],
   "note": "Between, order and error bound proved for all roundings; distinctness is false in floating-point arithmetic (neighbouring doubles), shown by C156_fails."
  },
  {
   "property": "C157",
   "status": "partial",
   "theorems": [
    "Verif.Rpm.C157_perturbed_partial",
    "Verif.Rpm.C157_optimal",
    "Verif.Rpm.C157_fails",
    "Verif.Rpm.rAnswer_exact"
   ],
   "note": "Everything but \"the perturbed points differ from q unless the solution is q\" is proved for all roundings; that part is false in floating-point arithmetic (C157_fails, doubles near 2^53)."
  },
  {
   "property": "C158",
   "status": "proved",
   "theorems": [
    "Verif.ParetoNav.C158_navigation",
    "Verif.ParetoNav.C158_weak",
    "Verif.ParetoNav.rAnswer_exact",
    "Verif.ParetoNav.rConstruct_exact"
   ],
   "note": "Overflow, underflow to zero, NaN not modelled here (see C153 for NaN and infinities)."
  },
  {
   "property": "C159",
   "status": "proved",
   "theorems": [
    "Verif.Paint.C159_presentation"
   ],
   "note": "Exact polytope tests; the triangulation is assumed to have the same simplices (Delaunay is not invariant under different scales per objective)."
  },
  {
   "property": "C16",
   "status": "partial",
   "theorems": [
    "Verif.Navigator.C16_moves_to_row_exceeding_bounds",
    "Verif.Navigator.C16_respects_previous_bounds_partial",
    "Verif.Navigator.C16_shows_the_given_bounds",
    "Verif.Navigator.C16_respects_bounds_of_previous_response_partial"
   ],
   "note": "The claim is false (witness proved): bounds of the same response are ignored when projecting; those of the previous response are respected (proved)."
  },
  {
   "property": "C160",
   "status": "partial",
   "theorems": [
    "Verif.Paint.C160_two_objectives",
    "Verif.Paint.C160_outcomes_partial",
    "Verif.Paint.C160_fails"
   ],
   "note": "The full claim is proved for two objectives and, for any number, if no two polytopes that pass rule 1 conflict; violated for three objectives (C160_fails): of two conflicting polytopes of the same size rule 2 removes the one with the smaller outcome numbers."
  },
  {
   "property": "C161",
   "status": "partial",
   "theorems": [
    "Verif.Paint.C161_options_partial",
    "Verif.Paint.C161_rule1_partial",
    "Verif.Paint.C161_fails"
   ],
   "note": "Violated by the code: rule 2 ignores epsilon and method (C161_fails); proved for the default options, and for rule 1 with any options."
  },
  {
   "property": "C162",
   "status": "partial",
   "theorems": [
    "Verif.Rpm.C162_rpm",
    "Verif.Navigator.C162_navigator",
    "Verif.Nautilus.C162_nautilus",
    "Verif.Nautilus.C162_nautilus_solution",
    "Verif.Nautilus.C162_nautilus_start",
    "Verif.NautilusV2.C162_nautilusV2_partial",
    "Verif.NautilusV2.C162_nautilusV2_solution",
    "Verif.NautilusV2.C162_nautilusV2_start",
    "Verif.NautilusV2.C162_nautilusV2_fails",
    "Verif.ENautilus.C162_enautilus_partial",
    "Verif.ENautilus.C162_enautilus_start",
    "Verif.ParetoNav.C162_paretonav",
    "Verif.ParetoNav.C162_paretonav_solution"
   ],
   "note": "Proved for every reachable state of the reference point method, NAUTILUS, NAUTILUS Navigator and Pareto Navigator, for NAUTILUS 2 as long as the numbers of iterations fit the storage or no exception was raised, for E-NAUTILUS with two objectives and from its start in general. False for NAUTILUS 2 after repeated IndexErrors (C162_nautilusV2_fails). NIMBUS is covered by C150."
  },
  {
   "property": "C163",
   "status": "proved",
   "theorems": [
    "Verif.Nimbus.C163_room",
    "Verif.Nimbus.C163_paid",
    "Verif.Nimbus.C163_two_objectives",
    "Verif.Nimbus.C163_room_analytic"
   ],
   "note": "The scalarizing function is external; what is assumed of it (ignores '>=' levels, prefers dominating vectors) is stated as hypotheses and met by the documented function in the examples."
  },
  {
   "property": "C164",
   "status": "proved",
   "theorems": [
    "Verif.Nautilus.C164_first",
    "Verif.Nautilus.C164_forward",
    "Verif.Nautilus.C164_percent"
   ],
   "note": "Optimization itself is external: the minimizers are assumed exact. The allowance and the tie are part of the claim."
  },
  {
   "property": "C165",
   "status": "proved",
   "theorems": [
    "Verif.NautilusV2.C165_first",
    "Verif.NautilusV2.C165_forward",
    "Verif.NautilusV2.C165_step_back"
   ],
   "note": "Exact minimizers; degrees of improvement given as an array (methods 1 and 2); the ideal point minus epsilon and the nadir enclose the Pareto optimal solutions."
  },
  {
   "property": "C166",
   "status": "proved",
   "theorems": [
    "Verif.ParetoNav.C166_asking_more"
   ],
   "note": "Exact linear solver and facets assumed (external). A tie (both solutions optimal for both answers) is part of the claim."
  },
  {
   "property": "C167",
   "status": "proved",
   "theorems": [
    "Verif.Nimbus.C167_demanding",
    "Verif.Nimbus.C167_demanding_analytic"
   ],
   "note": "The documented form of MaxOfTwoASF is assumed (desdeo_tools is external); exact minimizer for analytic problems, where a tie is part of the claim."
  },
  {
   "property": "C168",
   "status": "partial",
   "theorems": [
    "Verif.Nimbus.C168_rows_partial",
    "Verif.Nimbus.C168_fails"
   ],
   "note": "Proved for histories without ties between different rows; with a tie the first row listed is taken (counterexample). The row closest to a decision vector is found by the external library, assumed to be the same row of both tables."
  },
  {
   "property": "C169",
   "status": "proved",
   "theorems": [
    "Verif.ENautilus.C169_start",
    "Verif.ENautilus.C169_iterate",
    "Verif.ENautilus.C169_on_front"
   ],
   "note": "k-means is external: assumed to pick the same points. Every row has a decision vector (or there are none)."
  },
  {
   "property": "C17",
   "status": "partial",
   "theorems": [
    "Verif.Navigator.C17_shows_the_same",
    "Verif.Navigator.C17_continues_the_same_partial",
    "Verif.Navigator.C17_continues_differently"
   ],
   "note": "Shown data are restored (proved); continuing may differ because the projection is stale (witness proved); it does not differ when the reference point is projected anew (proved)."
  },
  {
   "property": "C170",
   "status": "proved",
   "theorems": [
    "Verif.Solvers.C170_finer"
   ],
   "note": "Minimizer repeatable, successes global minima (may fail); steps positive; ideal not worse than nadir."
  },
  {
   "property": "C171",
   "status": "proved",
   "theorems": [
    "Verif.Pipeline.C171_two_objectives",
    "Verif.Pipeline.C171_rows",
    "Verif.Pipeline.C171_arrives",
    "Verif.Pipeline.C171_stop",
    "Verif.Pipeline.C171_quality"
   ],
   "note": "Problems without constraints (the front representation ignores constraints, see C78); exact minimizers; the hypothesis that the nadir bounds the Pareto optimal solutions is proved for two objectives and false in general for more (C103)."
  },
  {
   "property": "C172",
   "status": "proved",
   "theorems": [
    "Verif.Pipeline.C172_stop",
    "Verif.Pipeline.C171_two_objectives"
   ],
   "note": "Problems without constraints, exact minimizers."
  },
  {
   "property": "C173",
   "status": "partial",
   "theorems": [
    "Verif.ParetoNav.C173_rows_partial",
    "Verif.ParetoNav.C173_fails"
   ],
   "note": "Missing: a data-based problem started from a reference point, where the minimizer returns a row number and the number depends on the order (C173_fails)."
  },
  {
   "property": "C174",
   "status": "proved",
   "theorems": [
    "Verif.Navigator.C174_navigator"
   ],
   "note": ""
  },
  {
   "property": "C175",
   "status": "partial",
   "theorems": [
    "Verif.ENautilus.C175_two_objectives_partial"
   ],
   "note": "Proved for two objectives. For one iteration and any number of objectives see C162_enautilus_start. Missing: three or more objectives and several iterations, where the points offered for other rows may make the method fail (C06)."
  },
  {
   "property": "C176",
   "status": "proved",
   "theorems": [
    "Verif.Nimbus.C176_data",
    "Verif.Nimbus.C176_analytic"
   ],
   "note": ""
  },
  {
   "property": "C177",
   "status": "proved",
   "theorems": [
    "Verif.Nautilus.C177_nautilus"
   ],
   "note": ""
  },
  {
   "property": "C178",
   "status": "proved",
   "theorems": [
    "Verif.NautilusV2.C178_nautilus2"
   ],
   "note": ""
  },
  {
   "property": "C179",
   "status": "proved",
   "theorems": [
    "Verif.Rpm.C179_rpm"
   ],
   "note": ""
  },
  {
   "property": "C18",
   "status": "proved",
   "theorems": [
    "Verif.Navigator.C18_stop_returns_reachable"
   ],
   "note": ""
  },
  {
   "property": "C180",
   "status": "proved",
   "theorems": [
    "Verif.PipelineN.C180_nautilus",
    "Verif.PipelineN.C180_two_objectives"
   ],
   "note": ""
  },
  {
   "property": "C181",
   "status": "proved",
   "theorems": [
    "Verif.PipelineN.C181_nautilus2",
    "Verif.PipelineN.C180_two_objectives"
   ],
   "note": ""
  },
  {
   "property": "C182",
   "status": "proved",
   "theorems": [
    "Verif.PipelineN.C182_rpm"
   ],
   "note": ""
  },
  {
   "property": "C183",
   "status": "proved",
   "theorems": [
    "Verif.Pipeline.C183_navigator"
   ],
   "note": ""
  },
  {
   "property": "C184",
   "status": "proved",
   "theorems": [
    "Verif.Pipeline.C184_enautilus"
   ],
   "note": ""
  },
  {
   "property": "C185",
   "status": "proved",
   "theorems": [
    "Verif.Nimbus.C185_two_objectives",
    "Verif.Nimbus.C185_nimbus",
    "Verif.Nimbus.C185_starts"
   ],
   "note": ""
  },
  {
   "property": "C186",
   "status": "proved",
   "theorems": [
    "Verif.Nimbus.C186_data",
    "Verif.Nimbus.C186_analytic"
   ],
   "note": ""
  },
  {
   "property": "C187",
   "status": "proved",
   "theorems": [
    "Verif.Nimbus.C187_nimbus",
    "Verif.Nimbus.C185_two_objectives"
   ],
   "note": ""
  },
  {
   "property": "C188",
   "status": "proved",
   "theorems": [
    "Verif.Rpm.C188_rpm",
    "Verif.PipelineN.C188_from_problem"
   ],
   "note": ""
  },
  {
   "property": "C189",
   "status": "proved",
   "theorems": [
    "Verif.Nautilus.C189_nautilus",
    "Verif.PipelineN.C189_from_problem"
   ],
   "note": ""
  },
  {
   "property": "C19",
   "status": "proved",
   "theorems": [
    "Verif.Navigator.C19_projection_is_best",
    "Verif.Navigator.C19_projection_fails_only_without_candidates"
   ],
   "note": ""
  },
  {
   "property": "C190",
   "status": "proved",
   "theorems": [
    "Verif.NautilusV2.C190_nautilus2",
    "Verif.PipelineN.C190_from_problem"
   ],
   "note": ""
  },
  {
   "property": "C191",
   "status": "proved",
   "theorems": [
    "Verif.Nimbus.C191_data_table"
   ],
   "note": "The computation of column minima and maxima is done by the caller of DiscreteDataProblem and is a hypothesis."
  },
  {
   "property": "C20",
   "status": "partial",
   "theorems": [
    "Verif.Navigator.C20_usable_is_accepted",
    "Verif.Navigator.C20_accepted_is_usable_partial",
    "Verif.Navigator.C20_refused_changes_nothing",
    "Verif.Navigator.C20_accepts_unusable"
   ],
   "note": "NaN entries and single-number reference points are accepted and non-boolean flags raise TypeError (witnesses proved); everything else proved."
  },
  {
   "property": "C21",
   "status": "proved",
   "theorems": [
    "Verif.Nimbus.C21_documented_order",
    "Verif.Nimbus.C21_wrong_kind_refused",
    "Verif.Nimbus.C21_stopped"
   ],
   "note": "All histories, any issued request answered with any response."
  },
  {
   "property": "C22",
   "status": "proved",
   "theorems": [
    "Verif.Nimbus.C22_archive_aligned",
    "Verif.Nimbus.C22_archive_append_only"
   ],
   "note": ""
  },
  {
   "property": "C23",
   "status": "proved",
   "theorems": [
    "Verif.Nimbus.C23_offered_after_save",
    "Verif.Nimbus.C23_nothing_lost"
   ],
   "note": ""
  },
  {
   "property": "C24",
   "status": "partial",
   "theorems": [
    "Verif.Nimbus.C24_accepted_in_range",
    "Verif.Nimbus.C24_accepted_does_not_raise_partial",
    "Verif.Nimbus.C24_fails_single_index"
   ],
   "note": "Violated by the code for an intermediate request answered with one index (IndexError)."
  },
  {
   "property": "C25",
   "status": "proved",
   "theorems": [
    "Verif.Nimbus.C25_shown_pairs_genuine",
    "Verif.Nimbus.C25_number_of_solutions",
    "Verif.Nimbus.C25_mo_never_raises"
   ],
   "note": ""
  },
  {
   "property": "C26",
   "status": "partial",
   "theorems": [
    "Verif.Nimbus.C26_reference_point_partial",
    "Verif.Nimbus.C26_current_in_box",
    "Verif.Nimbus.C26_fails_short_list"
   ],
   "note": "Proved for complete classifications; violated for accepted lists that are too short."
  },
  {
   "property": "C27",
   "status": "partial",
   "theorems": [
    "Verif.Nimbus.C27_first_solution_honours",
    "Verif.Nimbus.C27_solution_found_partial",
    "Verif.Nimbus.C27_fails_level_below_current"
   ],
   "note": "A '>=' level below the current value is accepted and can leave no feasible row (ValueError)."
  },
  {
   "property": "C28",
   "status": "partial",
   "theorems": [
    "Verif.Nimbus.C28_intermediate_points_partial",
    "Verif.Nimbus.C28_fails_not_centred",
    "Verif.Nimbus.C28_fails_same_solution"
   ],
   "note": "Points are at fractions i/(n+2): not evenly spread between the two solutions; the same solution twice gives NaN."
  },
  {
   "property": "C29",
   "status": "proved",
   "theorems": [
    "Verif.Nimbus.C29_preferred_becomes_current",
    "Verif.Nimbus.C29_current_shown",
    "Verif.Nimbus.C29_others_keep_current"
   ],
   "note": ""
  },
  {
   "property": "C30",
   "status": "partial",
   "theorems": [
    "Verif.Nimbus.C30_accepted_classification_partial",
    "Verif.Nimbus.C30_fails_short_and_long",
    "Verif.Nimbus.C30_long_list_raises"
   ],
   "note": "The number of classes is not checked by the code."
  },
  {
   "property": "C31",
   "status": "proved",
   "theorems": [
    "Verif.Nautilus.C31_first",
    "Verif.Nautilus.C31_forward",
    "Verif.Nautilus.C31_never_worse",
    "Verif.refPointASF_strict",
    "Verif.refPointASF_pareto",
    "Verif.refPointASF_reaches",
    "Verif.refPointASF_augmented_exceeds"
   ],
   "note": "Convex combination for every answer; over histories for solvers that reach what can be reached. With the augmentation term the scalarized optimum can be slightly worse than a reachable reference point (refPointASF_augmented_exceeds)."
  },
  {
   "property": "C32",
   "status": "proved",
   "theorems": [
    "Verif.Nautilus.C32_even_steps"
   ],
   "note": ""
  },
  {
   "property": "C33",
   "status": "proved",
   "theorems": [
    "Verif.Nautilus.C33_no_index_error",
    "Verif.Nautilus.C33_fails_restart"
   ],
   "note": "Answering the initial request a second time after a run can overrun the storage (C33_fails_restart)."
  },
  {
   "property": "C34",
   "status": "proved",
   "theorems": [
    "Verif.Nautilus.C34_step_back",
    "Verif.Nautilus.C34_no_step_back_from_nadir"
   ],
   "note": ""
  },
  {
   "property": "C35",
   "status": "partial",
   "theorems": [
    "Verif.Nautilus.C35_weights_positive_partial",
    "Verif.Nautilus.C35_weight_formula",
    "Verif.Nautilus.C35_more_important_smaller_weight",
    "Verif.Nautilus.C35_fails"
   ],
   "note": "Accepted preferences may contain zero or negative entries; proved for positive entries and nadir above utopian."
  },
  {
   "property": "C36",
   "status": "partial",
   "theorems": [
    "Verif.Nautilus.C36_answered_partial",
    "Verif.Nautilus.C36_first_answered_partial",
    "Verif.Nautilus.C36_fails",
    "Verif.Nautilus.C36_fails_broken_state"
   ],
   "note": "None is returned for step back with the previous preference; KeyError for a missing short_step; TypeError for percentages in a Python list."
  },
  {
   "property": "C37",
   "status": "partial",
   "theorems": [
    "Verif.Nautilus.C37_stop_pair",
    "Verif.Nautilus.C37_stop_iff",
    "Verif.Nautilus.C37_stop_at_last_point_partial",
    "Verif.Nautilus.C37_fails"
   ],
   "note": "Reducing the number of iterations stops at a solution other than the point shown last."
  },
  {
   "property": "C38",
   "status": "partial",
   "theorems": [
    "Verif.Nautilus.C38_new_total_partial",
    "Verif.Nautilus.C38_fails"
   ],
   "note": "The supplied number is taken as the total number, not the remaining number."
  },
  {
   "property": "C39",
   "status": "proved",
   "theorems": [
    "Verif.Nautilus.C39_lower_bounds",
    "Verif.Nautilus.C39_monotone",
    "Verif.Nautilus.C39_upper_bounds"
   ],
   "note": ""
  },
  {
   "property": "C40",
   "status": "partial",
   "theorems": [
    "Verif.NautilusV2.C40_no_index_error_partial",
    "Verif.NautilusV2.C40_fails",
    "Verif.NautilusV2.C40_fixed_number"
   ],
   "note": "Asking for at least as many remaining iterations as storage is left overruns it (C40_fails); proved for numbers that fit."
  },
  {
   "property": "C41",
   "status": "partial",
   "theorems": [
    "Verif.NautilusV2.C41_terminates_iff",
    "Verif.NautilusV2.C41_direction_partial",
    "Verif.NautilusV2.C41_unique",
    "Verif.NautilusV2.C41_fails"
   ],
   "note": "Terminates exactly for pairs that connect all objectives; the validator accepts others, for which the call never returns."
  },
  {
   "property": "C42",
   "status": "proved",
   "theorems": [
    "Verif.NautilusV2.C42_even_steps"
   ],
   "note": ""
  },
  {
   "property": "C43",
   "status": "proved",
   "theorems": [
    "Verif.NautilusV2.C43_factors_positive",
    "Verif.NautilusV2.C43_factors_given"
   ],
   "note": "For every accepted preference for which the factors exist (C41)."
  },
  {
   "property": "C44",
   "status": "partial",
   "theorems": [
    "Verif.NautilusV2.C44_answered_partial",
    "Verif.NautilusV2.C44_first_answered_partial",
    "Verif.NautilusV2.C44_fails",
    "Verif.NautilusV2.C44_fails_broken_state"
   ],
   "note": "None, KeyError, ValueError, IndexError and non-termination occur for accepted responses."
  },
  {
   "property": "C45",
   "status": "proved",
   "theorems": [
    "Verif.Rpm.C45_storage",
    "Verif.Rpm.C45_history"
   ],
   "note": ""
  },
  {
   "property": "C46",
   "status": "partial",
   "theorems": [
    "Verif.Rpm.C46_choice_partial",
    "Verif.Rpm.C46_fails"
   ],
   "note": "True for the request issued last; an older request yields a solution of the current iteration, which it need not show."
  },
  {
   "property": "C47",
   "status": "proved",
   "theorems": [
    "Verif.Rpm.C47_perturbed"
   ],
   "note": ""
  },
  {
   "property": "C48",
   "status": "partial",
   "theorems": [
    "Verif.Rpm.C48_optimal_partial",
    "Verif.Rpm.C48_fails"
   ],
   "note": "The weights are the reference point divided by a negative range, so true for nonpositive reference points only; with positive components dominated solutions minimize."
  },
  {
   "property": "C49",
   "status": "partial",
   "theorems": [
    "Verif.Rpm.C49_reference_partial",
    "Verif.Rpm.C49_fails",
    "Verif.Rpm.validateRefFl_finite"
   ],
   "note": "Only points worse than the nadir in all objectives are refused; NaN is accepted."
  },
  {
   "property": "C50",
   "status": "proved",
   "theorems": [
    "Verif.ParetoNav.C50_constraints",
    "Verif.ParetoNav.C50_navigation",
    "Verif.ParetoNav.Nearest.weak"
   ],
   "note": "The linear solver is assumed exact (LpExact)."
  },
  {
   "property": "C51",
   "status": "proved",
   "theorems": [
    "Verif.ParetoNav.C51_shown_inside"
   ],
   "note": "The linear solver is assumed to return feasible points."
  },
  {
   "property": "C52",
   "status": "proved",
   "theorems": [
    "Verif.ParetoNav.C52_monotone",
    "Verif.ParetoNav.C52_encloses",
    "Verif.ParetoNav.C52_after_addition"
   ],
   "note": "Before the first added solution the bounds are those of the problem, which are assumed to enclose the initial solutions; after an addition for which Qhull does not fail no assumption is needed."
  },
  {
   "property": "C53",
   "status": "partial",
   "theorems": [
    "Verif.ParetoNav.C53_speed_partial",
    "Verif.ParetoNav.C53_fails",
    "Verif.ParetoNav.C53_fails_string_speed"
   ],
   "note": "For whole-number speeds. A float such as 5.9 passes validation and gives a step above 0.1. A numeric string passes validation and makes navigation raise TypeError."
  },
  {
   "property": "C54",
   "status": "partial",
   "theorems": [
    "Verif.ParetoNav.C54_step_back_partial",
    "Verif.ParetoNav.C54_fails"
   ],
   "note": "Only the first of several consecutive steps back moves backwards; the second moves forward."
  },
  {
   "property": "C55",
   "status": "proved",
   "theorems": [
    "Verif.ParetoNav.C55_classification"
   ],
   "note": ""
  },
  {
   "property": "C56",
   "status": "partial",
   "theorems": [
    "Verif.ParetoNav.C56_first_step_partial",
    "Verif.ParetoNav.C56_started",
    "Verif.ParetoNav.C56_fails",
    "Verif.ParetoNav.C56_fails_reference_start"
   ],
   "note": "For a start from a stored solution and a first response with a reference point. Without a direction TypeError is raised; a start with a reference point stores the decision vector as current solution."
  },
  {
   "property": "C57",
   "status": "proved",
   "theorems": [
    "Verif.Paint.C57_rule1"
   ],
   "note": ""
  },
  {
   "property": "C58",
   "status": "proved",
   "theorems": [
    "Verif.Paint.C58_no_conflicts"
   ],
   "note": "The dominance tests are arbitrary functions of the vertices."
  },
  {
   "property": "C59",
   "status": "proved",
   "theorems": [
    "Verif.Paint.C59_sorted"
   ],
   "note": ""
  },
  {
   "property": "C60",
   "status": "partial",
   "theorems": [
    "Verif.Paint.C60_perturbation_partial",
    "Verif.Paint.C60_fails"
   ],
   "note": "perturbate writes an attribute that approximate does not read; true only if the perturbed outcomes are passed explicitly."
  },
  {
   "property": "C61",
   "status": "proved",
   "theorems": [
    "Verif.Solvers.C61_payoff"
   ],
   "note": "The lower bound clause assumes an exact solver, as the property says."
  },
  {
   "property": "C62",
   "status": "partial",
   "theorems": [
    "Verif.Solvers.C62_aligned_partial",
    "Verif.Solvers.C62_fails"
   ],
   "note": "Alignment is unconditional; nondominance is proved for solvers whose successes are global minima. The acceptance test itself lets dominated vectors pass."
  },
  {
   "property": "C63",
   "status": "proved",
   "theorems": [
    "Verif.Solvers.C63_grid"
   ],
   "note": "Grid statement for positive steps and nonnegative eps."
  },
  {
   "property": "C64",
   "status": "proved",
   "theorems": [
    "Verif.NautilusV2.C64_first",
    "Verif.NautilusV2.C64_forward",
    "Verif.NautilusV2.C64_never_worse"
   ],
   "note": ""
  },
  {
   "property": "C65",
   "status": "proved",
   "theorems": [
    "Verif.NautilusV2.C65_step_back",
    "Verif.NautilusV2.C65_no_step_back_from_nadir"
   ],
   "note": ""
  },
  {
   "property": "C66",
   "status": "partial",
   "theorems": [
    "Verif.NautilusV2.C66_stop_pair",
    "Verif.NautilusV2.C66_stop_iff",
    "Verif.NautilusV2.C66_stop_at_last_point_partial",
    "Verif.NautilusV2.C66_fails"
   ],
   "note": "Reducing the number of iterations stops at a solution other than the point shown last."
  },
  {
   "property": "C67",
   "status": "partial",
   "theorems": [
    "Verif.NautilusV2.C67_one_less_partial",
    "Verif.NautilusV2.C67_fails"
   ],
   "note": "One point less than supplied is shown."
  },
  {
   "property": "C68",
   "status": "proved",
   "theorems": [
    "Verif.NautilusV2.C68_lower_bounds",
    "Verif.NautilusV2.C68_upper_bounds",
    "Verif.NautilusV2.C68_monotone"
   ],
   "note": ""
  },
  {
   "property": "C69",
   "status": "partial",
   "theorems": [
    "Verif.NautilusV2.C69_accepts_iff_partial",
    "Verif.NautilusV2.C69_fails"
   ],
   "note": "A starting point is refused only if it is worse than the nadir point in all objectives."
  },
  {
   "property": "C70",
   "status": "partial",
   "theorems": [
    "Verif.Rpm.C70_answered_partial",
    "Verif.Rpm.C70_fails"
   ],
   "note": "An index given as a nonzero float passes validation and raises TypeError."
  },
  {
   "property": "C71",
   "status": "partial",
   "theorems": [
    "Verif.ParetoNav.C71_satisfied_partial",
    "Verif.ParetoNav.C71_fails"
   ],
   "note": "For the solution shown last; an older solution request ends with the solution shown last."
  },
  {
   "property": "C72",
   "status": "proved",
   "theorems": [
    "Verif.ParetoNav.C72_rejected"
   ],
   "note": "If Qhull succeeds."
  },
  {
   "property": "C73",
   "status": "partial",
   "theorems": [
    "Verif.ParetoNav.C73_supplied_partial",
    "Verif.ParetoNav.C73_fails"
   ],
   "note": "For problems that are not a DiscreteDataProblem; for those the argument is ignored."
  },
  {
   "property": "C74",
   "status": "proved",
   "theorems": [
    "Verif.Paint.C74_nondominated"
   ],
   "note": "Exactness of the polytope tests of desdeo_tools is assumed (Exact)."
  },
  {
   "property": "C75",
   "status": "proved",
   "theorems": [
    "Verif.Paint.C75_interpolates"
   ],
   "note": "Exactness of the polytope tests is assumed."
  },
  {
   "property": "C76",
   "status": "proved",
   "theorems": [
    "Verif.Paint.C76_maximal"
   ],
   "note": "Exactness of the polytope tests is assumed."
  },
  {
   "property": "C77",
   "status": "proved",
   "theorems": [
    "Verif.Paint.C77_subset",
    "Verif.Paint.C77_refused"
   ],
   "note": ""
  },
  {
   "property": "C78",
   "status": "partial",
   "theorems": [
    "Verif.Solvers.C78_feasible_partial",
    "Verif.Solvers.C78_fails"
   ],
   "note": "The constraints never reach the solver of the achievement problems; true for problems without constraints."
  },
  {
   "property": "C79",
   "status": "partial",
   "theorems": [
    "Verif.Solvers.C79_successes_partial",
    "Verif.Solvers.C79_fails"
   ],
   "note": "If the first optimization fails the result is empty; proved if it succeeds."
  },
  {
   "property": "C80",
   "status": "partial",
   "theorems": [
    "Verif.Solvers.C80_bounds_partial",
    "Verif.Solvers.C80_fails",
    "Verif.Solvers.C80_fails_partly"
   ],
   "note": "The default None raises TypeError (C80_fails); if only some components are infinite the call always raises (C80_fails_partly); proved for infinite bounds."
  },
  {
   "property": "C81",
   "status": "proved",
   "theorems": [
    "Verif.Navigator.C81_speed_does_not_influence",
    "Verif.Navigator.C81_reported_speed",
    "Verif.Navigator.C81_stored_speed"
   ],
   "note": ""
  },
  {
   "property": "C82",
   "status": "partial",
   "theorems": [
    "Verif.Nimbus.C82_discrete_start",
    "Verif.Nimbus.C82_continuous_start",
    "Verif.Nimbus.C82_wrong_dimension_refused_partial",
    "Verif.Nimbus.C82_fails_single_component"
   ],
   "note": "a starting point with a single component is accepted whatever the number of objectives"
  },
  {
   "property": "C83",
   "status": "proved",
   "theorems": [
    "Verif.Nimbus.C83_shown_solutions_pareto_optimal",
    "Verif.Nimbus.pointAsf_prefersDominating"
   ],
   "note": "strictness of the scalarizing functions is a hypothesis; proved for PointMethodASF"
  },
  {
   "property": "C84",
   "status": "partial",
   "theorems": [
    "Verif.Constructors.C84_enautilus",
    "Verif.Constructors.C84_navigator",
    "Verif.Constructors.C84_nautilus_partial",
    "Verif.Constructors.C84_rpm_partial",
    "Verif.Constructors.C84_nautilusV2_partial",
    "Verif.Constructors.C84_fails_minimize",
    "Verif.Constructors.C84_fails_starting_point"
   ],
   "note": "minimize lists are not checked (TypeError without names, wrong lengths accepted); a starting point worse than the nadir in some objectives is accepted"
  },
  {
   "property": "C85",
   "status": "proved",
   "theorems": [
    "Verif.Nautilus.C85_first_response",
    "Verif.Nautilus.C85_later_response",
    "Verif.Nautilus.C85_refused_no_effect",
    "Verif.NautilusV2.C85_first_response",
    "Verif.NautilusV2.C85_later_response",
    "Verif.NautilusV2.C85_refused_no_effect"
   ],
   "note": "ranks: the code checks the largest rank only, as GoodPreference says"
  },
  {
   "property": "C86",
   "status": "proved",
   "theorems": [
    "Verif.Rpm.C86_first_response",
    "Verif.Rpm.C86_later_response",
    "Verif.Rpm.C86_refused_no_effect",
    "Verif.ParetoNav.C86_first_response",
    "Verif.ParetoNav.C86_later_response",
    "Verif.ParetoNav.C86_refused_no_effect"
   ],
   "note": "finite components; all doubles for reference points in C49"
  },
  {
   "property": "C87",
   "status": "proved",
   "theorems": [
    "Verif.Solvers.C87_kept",
    "Verif.Solvers.C87_first_fails"
   ],
   "note": "Exact arithmetic; the solvers are arbitrary functions of the call number; \"kept\" is an inductive predicate independent of the loop."
  },
  {
   "property": "C88",
   "status": "proved",
   "theorems": [
    "Verif.ENautilus.C88_issued_requests_consistent",
    "Verif.ENautilus.C88_region"
   ],
   "note": "Histories with restarts, older requests and failing calls; exact arithmetic."
  },
  {
   "property": "C89",
   "status": "partial",
   "theorems": [
    "Verif.ENautilus.C89_stop_on_front_partial",
    "Verif.ENautilus.C89_fails"
   ],
   "note": "Answering an older request can stop at a point off the front; proved if the answered request reports one iteration left."
  },
  {
   "property": "C90",
   "status": "partial",
   "theorems": [
    "Verif.ENautilus.C90_restart_partial",
    "Verif.ENautilus.C90_restart_region_partial",
    "Verif.ENautilus.C90_fails"
   ],
   "note": "The reachable rows of the earlier run are kept; proved as long as no point was chosen, with a description of what is shown otherwise."
  },
  {
   "property": "C91",
   "status": "partial",
   "theorems": [
    "Verif.ENautilus.C91_failed_call_partial",
    "Verif.ENautilus.C91_failed_back_partial",
    "Verif.ENautilus.C91_fails"
   ],
   "note": "A ZeroDivisionError leaves zero iterations and a new region behind; refused responses and indices past the end change nothing."
  },
  {
   "property": "C92",
   "status": "proved",
   "theorems": [
    "Verif.ENautilus.C92_first_response",
    "Verif.ENautilus.C92_later_response",
    "Verif.ENautilus.C92_refused_no_effect",
    "Verif.Navigator.C92_response",
    "Verif.Navigator.C92_refused_no_effect",
    "Verif.Nimbus.C92_classification",
    "Verif.Nimbus.C92_save",
    "Verif.Nimbus.C92_intermediate",
    "Verif.Nimbus.C92_preferred",
    "Verif.Nimbus.C92_refused_no_effect"
   ],
   "note": "Types of entries as modelled in the response structures."
  },
  {
   "property": "C93",
   "status": "partial",
   "theorems": [
    "Verif.Nimbus.C93_first_task",
    "Verif.Nimbus.C93_first_solution_honours",
    "Verif.Nimbus.C93_current_admitted_partial",
    "Verif.Nimbus.C93_fails_contradictory"
   ],
   "note": "What is asked of the minimizer and, for an exact one, that the classification is honoured are proved in full; that the constraints are satisfiable is proved if no '>=' level is below the current value and fails otherwise (C93_fails_contradictory). The optimization itself is external."
  },
  {
   "property": "C94",
   "status": "proved",
   "theorems": [
    "Verif.Nimbus.C94_shown_solutions_pareto_optimal",
    "Verif.Nimbus.C94_asked_complete"
   ],
   "note": "Under the stated hypothesis that the external minimizer is exact; C94_asked_complete shows that the tasks assumed to be solved are all that are used."
  },
  {
   "property": "C95",
   "status": "partial",
   "theorems": [
    "Verif.Rpm.C95_failed_call",
    "Verif.Nimbus.C95_failed_call",
    "Verif.Navigator.C95_failed_call_partial",
    "Verif.Navigator.C95_fails_speed",
    "Verif.ParetoNav.C95_failed_call_partial",
    "Verif.ParetoNav.C95_fails_direction",
    "Verif.ParetoNav.C95_fails_added",
    "Verif.Nautilus.C95_failed_call_partial",
    "Verif.NautilusV2.C95_failed_call_partial"
   ],
   "note": "Full for the reference point method and NIMBUS. False in the other methods: what may change is bounded by the partial theorems; counterexamples C95_fails_speed, C95_fails_direction, C95_fails_added, Nautilus.C36_fails_broken_state, NautilusV2.C44_fails_broken_state."
  },
  {
   "property": "C96",
   "status": "partial",
   "theorems": [
    "Verif.Rpm.C96_restart",
    "Verif.Rpm.C96_memoryless",
    "Verif.Nimbus.C96_start_partial",
    "Verif.Nimbus.C96_fails_start",
    "Verif.Navigator.C96_restart_partial",
    "Verif.Navigator.C96_fails_start",
    "Verif.ParetoNav.C96_restart_partial",
    "Verif.ParetoNav.C96_restart_reference",
    "Verif.ParetoNav.C96_restart_preferred",
    "Verif.ParetoNav.C96_fails_kept_solutions",
    "Verif.ParetoNav.C96_fails_old_reference",
    "Verif.Nautilus.C96_restart_partial",
    "Verif.NautilusV2.C96_restart_partial",
    "Verif.NautilusV2.C96_fails_restart"
   ],
   "note": "Full for the reference point method. In the other methods it holds under the conditions in the partial theorems and is false otherwise (C96_fails_*, Nautilus.C33_fails_restart)."
  },
  {
   "property": "C97",
   "status": "partial",
   "theorems": [
    "Verif.Nautilus.C97_optimal_partial",
    "Verif.Nautilus.C97_fails_constraints",
    "Verif.Nautilus.C97_fails_bounds",
    "Verif.NautilusV2.C97_optimal_partial",
    "Verif.NautilusV2.C97_fails_constraints",
    "Verif.NautilusV2.C97_fails_bounds",
    "Verif.Nautilus.C39_exact_minimizers",
    "Verif.NautilusV2.C68_exact_minimizers"
   ],
   "note": "False for problems with constraints: the achievement problem is solved over the variable bounds only (C97_fails_constraints; the bounds shown then contradict each other, C97_fails_bounds). Proved: nondominated within the bounds, hence Pareto optimal if the constraints happen to hold; in NAUTILUS for positive ranks and percentages."
  },
  {
   "property": "C98",
   "status": "partial",
   "theorems": [
    "Verif.Nautilus.C98_first_partial",
    "Verif.Nautilus.C98_forward_partial",
    "Verif.Nautilus.C98_fails",
    "Verif.NautilusV2.C98_first_partial",
    "Verif.NautilusV2.C98_forward_partial",
    "Verif.NautilusV2.C98_fails"
   ],
   "note": "The exact statement is false because of the augmentation term (C98_fails). Proved: the loss in each objective, times the iterations left, is at most 1e-6 (NAUTILUS 2: 1e-5) times the number of objectives times the share of the range (the preferential factor). If the minimizers return non-worsening solutions, C31_never_worse and C64_never_worse hold exactly."
  },
  {
   "property": "C99",
   "status": "partial",
   "theorems": [
    "Verif.Rpm.C99_optimal_partial",
    "Verif.Rpm.C99_unconstrained",
    "Verif.Rpm.C99_fails_constraints"
   ],
   "note": "Full for problems without constraints (C99_unconstrained). With constraints it is false: the minimizers get the variable bounds only (C99_fails_constraints); then the solutions are nondominated within the bounds (C99_optimal_partial)."
  }
 ]
}