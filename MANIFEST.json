{
 "claims": [
  {
   "property": "C01",
   "status": "proved",
   "theorems": [
    "Verif.c01_same_slot_iff",
    "Verif.c01_slots_dense",
    "Verif.c01_read"
   ],
   "note": "Packed cubic index: order-independent, injective on multisets, gap-free."
  },
  {
   "property": "C02",
   "status": "proved",
   "theorems": [
    "Verif.c02_same_slot_iff",
    "Verif.c02_slots_dense",
    "Verif.c02_write_read"
   ],
   "note": "Packed quartic index, including write-then-read."
  },
  {
   "property": "C03",
   "status": "proved",
   "theorems": [
    "Verif.c03_same_slot_iff",
    "Verif.c03_slots_dense",
    "Verif.c03_ioff_underflow"
   ],
   "note": "Triangular pair index."
  },
  {
   "property": "C04",
   "status": "proved",
   "theorems": [
    "Verif.c04_values",
    "Verif.c04_symmetric",
    "Verif.c04_wrong_length"
   ],
   "note": "Values, full symmetry, and rejection of other lengths."
  },
  {
   "property": "C05",
   "status": "proved",
   "theorems": [
    "Verif.c05_values",
    "Verif.c05_symmetric",
    "Verif.c05_wrong_length"
   ],
   "note": "Values, full symmetry, and rejection of other lengths."
  },
  {
   "property": "C06",
   "status": "partial",
   "theorems": [
    "Verif.c06_violated",
    "Verif.c06_transposed_partial",
    "Verif.c06_wrong_length"
   ],
   "note": "Violated: the header and no-header branches use opposite storage orders; proved that the results are exactly transposes of each other."
  },
  {
   "property": "C07",
   "status": "proved",
   "theorems": [
    "Verif.c07_form",
    "Verif.c07_symmetric",
    "Verif.c07_identity",
    "Verif.c07_inverse"
   ],
   "note": "Real arithmetic."
  },
  {
   "property": "C08",
   "status": "proved",
   "theorems": [
    "Verif.c08_form",
    "Verif.c08_symmetric",
    "Verif.c08_identity",
    "Verif.c08_inverse"
   ],
   "note": "Real arithmetic."
  },
  {
   "property": "C09",
   "status": "proved",
   "theorems": [
    "Verif.c09_form",
    "Verif.c09_symmetric",
    "Verif.c09_identity",
    "Verif.c09_inverse"
   ],
   "note": "Real arithmetic."
  },
  {
   "property": "C10",
   "status": "proved",
   "theorems": [
    "Verif.c10_symmetric",
    "Verif.c10_entry",
    "Verif.c10_upper_only"
   ],
   "note": "For every arithmetic (no laws used)."
  },
  {
   "property": "C11",
   "status": "proved",
   "theorems": [
    "Verif.c11_pairs_rearranged",
    "Verif.c11_relation",
    "Verif.c11_sorted",
    "Verif.c11_orthonormal"
   ],
   "note": "The eigensolver itself is an input; NaN is outside the model."
  },
  {
   "property": "C12",
   "status": "proved",
   "theorems": [
    "Verif.c12_sign_odd_square",
    "Verif.c12_strictMono",
    "Verif.c12_order"
   ],
   "note": "Real arithmetic."
  },
  {
   "property": "C13",
   "status": "proved",
   "theorems": [
    "Verif.c13_contraction",
    "Verif.c13_unsymmetric_differs"
   ],
   "note": "Real arithmetic."
  },
  {
   "property": "C14",
   "status": "proved",
   "theorems": [
    "Verif.c14_contraction",
    "Verif.c14_order_irrelevant"
   ],
   "note": "Real arithmetic."
  },
  {
   "property": "C15",
   "status": "proved",
   "theorems": [
    "Verif.c15_angular",
    "Verif.c15_antisymmetric",
    "Verif.c15_bounded"
   ],
   "note": "Real arithmetic."
  },
  {
   "property": "C16",
   "status": "proved",
   "theorems": [
    "Verif.c16_diagonalises"
   ],
   "note": "Real arithmetic; the eigensolver output is the hypothesis."
  },
  {
   "property": "C62",
   "status": "proved",
   "theorems": [
    "Verif.c62_derivative",
    "Verif.c62_trace"
   ],
   "note": "Off-diagonal components need the rotational Eckart condition, stated as hypothesis."
  },
  {
   "property": "C17",
   "status": "partial",
   "theorems": [
    "Verif.c17_covers",
    "Verif.c17_asymmetric",
    "Verif.c17_kinds_disjoint",
    "Verif.c17_kinds_sound",
    "Verif.c17_exactly_once_partial",
    "Verif.c17_exactly_once_violated_chain",
    "Verif.c17_exactly_once_violated_four"
   ],
   "note": "\"Exactly once\" is violated by chains and clusters of four; proved for transitive clusters of at most three."
  },
  {
   "property": "C18",
   "status": "proved",
   "theorems": [
    "Verif.c18_count",
    "Verif.c18_order",
    "Verif.c18_complete"
   ],
   "note": ""
  },
  {
   "property": "C19",
   "status": "proved",
   "theorems": [
    "Verif.c19_order",
    "Verif.c19_length",
    "Verif.c19_distinct",
    "Verif.c19_combinations"
   ],
   "note": ""
  },
  {
   "property": "C20",
   "status": "proved",
   "theorems": [
    "Verif.c20_fundamental",
    "Verif.c20_overtone",
    "Verif.c20_combination"
   ],
   "note": ""
  },
  {
   "property": "C21",
   "status": "partial",
   "theorems": [
    "Verif.c21_states_iff",
    "Verif.c21_restst_iff",
    "Verif.c21_asymmetric",
    "Verif.c21_symmetric_partial",
    "Verif.c21_violated"
   ],
   "note": "Violated by five equal frequencies; success characterised exactly."
  },
  {
   "property": "C22",
   "status": "proved",
   "theorems": [
    "Verif.c22_iff"
   ],
   "note": ""
  },
  {
   "property": "C23",
   "status": "partial",
   "theorems": [
    "Verif.c23_iff",
    "Verif.c23_different_partial",
    "Verif.c23_self_violated"
   ],
   "note": "A mode with a frequency below the tolerance resonates with itself; exact characterisation proved."
  },
  {
   "property": "C24",
   "status": "proved",
   "theorems": [
    "Verif.c24_iff",
    "Verif.c24_largest",
    "Verif.c24_meaning"
   ],
   "note": ""
  },
  {
   "property": "C25",
   "status": "proved",
   "theorems": [
    "Verif.c25_iff"
   ],
   "note": ""
  },
  {
   "property": "C26",
   "status": "partial",
   "theorems": [
    "Verif.c26_coriolis_iff",
    "Verif.c26_coriolis_sound",
    "Verif.c26_coriolis_complete",
    "Verif.c26_fermi1_iff",
    "Verif.c26_fermi2_iff",
    "Verif.c26_fermi2_sound",
    "Verif.c26_fermi2_complete",
    "Verif.c26_darling_iff",
    "Verif.c26_darling_sound",
    "Verif.c26_fermi2_duplicate_violated",
    "Verif.c26_coriolis_both_orders"
   ],
   "note": "exact characterisations proved; \"reported once\" violated."
  },
  {
   "property": "C63",
   "status": "partial",
   "theorems": [
    "Verif.c63_darling_complete_partial",
    "Verif.c63_violated"
   ],
   "note": "Violated for the first non-degenerate mode against degenerate ones; every other pair proved."
  },
  {
   "property": "C64",
   "status": "partial",
   "theorems": [
    "Verif.c64_asymmetric_partial",
    "Verif.c64_repeated_violated",
    "Verif.c64_orders_violated"
   ],
   "note": "Asymmetric tops proved; violated for symmetric tops."
  },
  {
   "property": "C27",
   "status": "proved",
   "theorems": [
    "Verif.c27_check_table",
    "Verif.c27_type1",
    "Verif.c27_type2",
    "Verif.c27_either"
   ],
   "note": ""
  },
  {
   "property": "C28",
   "status": "partial",
   "theorems": [
    "Verif.c28_lookup",
    "Verif.c28_regular_iff_listed_partial",
    "Verif.c28_violated"
   ],
   "note": "Violated when a pair is resonant about two axes; otherwise proved."
  },
  {
   "property": "C29",
   "status": "partial",
   "theorems": [
    "Verif.c29_unique_axis_partial",
    "Verif.c29_perpendicular_partial",
    "Verif.c29_prolate_violated",
    "Verif.c29_degenerate_violated"
   ],
   "note": "Proved for non-degenerate modes of oblate and linear tops; violated for prolate tops and for pairs of degenerate modes."
  },
  {
   "property": "C40",
   "status": "proved",
   "theorems": [
    "Verif.c40_averaged",
    "Verif.c40_reported"
   ],
   "note": ""
  },
  {
   "property": "C41",
   "status": "proved",
   "theorems": [
    "Verif.c41_identity",
    "Verif.c41_listing_removes"
   ],
   "note": ""
  },
  {
   "property": "C42",
   "status": "proved",
   "theorems": [
    "Verif.c42_axes"
   ],
   "note": ""
  },
  {
   "property": "C43",
   "status": "partial",
   "theorems": [
    "Verif.c43_oblate_partial",
    "Verif.c43_linear",
    "Verif.c43_prolate_swapped",
    "Verif.c43_prolate_violated"
   ],
   "note": "Proved for oblate and linear; violated for prolate tops."
  },
  {
   "property": "C44",
   "status": "proved",
   "theorems": [
    "Verif.c44_value",
    "Verif.c44_symmetric",
    "Verif.c44_diagonal",
    "Verif.c44_prime_symmetric",
    "Verif.c44_sign"
   ],
   "note": ""
  },
  {
   "property": "C45",
   "status": "proved",
   "theorems": [
    "Verif.c45_sums",
    "Verif.c45_relations",
    "Verif.c45_sub"
   ],
   "note": ""
  },
  {
   "property": "C47",
   "status": "proved",
   "theorems": [
    "Verif.c47_inverse",
    "Verif.c47_distinct"
   ],
   "note": ""
  },
  {
   "property": "C46",
   "status": "proved",
   "theorems": [
    "Verif.c46_sums",
    "Verif.c46_sums_sym",
    "Verif.c46_symmetric",
    "Verif.c46_relabelled"
   ],
   "note": ""
  },
  {
   "property": "C30",
   "status": "proved",
   "theorems": [
    "Verif.c30_asymmetric",
    "Verif.c30_fundamentals",
    "Verif.c30_symmetric_top",
    "Verif.c30_symmetric_top_fundamentals"
   ],
   "note": "symmetry of x and g, fundamentals, for asymmetric and symmetric tops"
  },
  {
   "property": "C31",
   "status": "proved",
   "theorems": [
    "Verif.c31_diagonal",
    "Verif.c31_offdiagonal",
    "Verif.c31_local",
    "Verif.c31_detected"
   ],
   "note": "partial fractions over the reals; c31_detected shows the hypothesis for detected tables"
  },
  {
   "property": "C32",
   "status": "partial",
   "theorems": [
    "Verif.c32_partial",
    "Verif.c32_two_mode_violated",
    "Verif.c32_three_mode_violated",
    "Verif.c32_overwritten_violated",
    "Verif.c32_degenerate_violated",
    "Verif.c32_degenerate_pair_violated"
   ],
   "note": "no listed resonance: proved; listed resonances: refuted with witnesses"
  },
  {
   "property": "C33",
   "status": "partial",
   "theorems": [
    "Verif.c33_diagonal",
    "Verif.c33_nondegenerate_partial",
    "Verif.c33_mixed_partial",
    "Verif.c33_degenerate_partial",
    "Verif.c33_nondegenerate_violated",
    "Verif.c33_mixed_violated",
    "Verif.c33_degenerate_violated"
   ],
   "note": "diagonal proved; off-diagonal when only the third index is resonant; other branches refuted"
  },
  {
   "property": "C34",
   "status": "partial",
   "theorems": [
    "Verif.c34_exact",
    "Verif.c34_partial",
    "Verif.c34_triples_violated",
    "Verif.c34_pairs_violated",
    "Verif.c109_linear_violated"
   ],
   "note": "at most two degenerate modes (one for linear molecules): proved; otherwise refuted (triples never contribute, for every molecule; linear molecules get no such terms at all); for any number of degenerate modes c34_exact states the terms that are missing"
  },
  {
   "property": "C65",
   "status": "proved",
   "theorems": [
    "Verif.c65_components"
   ],
   "note": "every entry of both matrices"
  },
  {
   "property": "C66",
   "status": "partial",
   "theorems": [
    "Verif.c66_diagonal_partial",
    "Verif.c66_offdiagonal_partial",
    "Verif.c66_diagonal_violated",
    "Verif.c66_offdiagonal_violated"
   ],
   "note": "no listed resonance proved, listed ones refuted"
  },
  {
   "property": "C35",
   "status": "proved",
   "theorems": [
    "Verif.c35_expansion",
    "Verif.c35_shift"
   ],
   "note": "The expansion is stated for symmetric constants (C30 shows the program produces such); the shift includes all resonance mixing and holds for any eigensolver."
  },
  {
   "property": "C36",
   "status": "proved",
   "theorems": [
    "Verif.c36_asymmetric"
   ],
   "note": "Holds for every molecule that is not a symmetric top."
  },
  {
   "property": "C37",
   "status": "proved",
   "theorems": [
    "Verif.c37_symmetric_top"
   ],
   "note": "Any mode list without triply degenerate modes."
  },
  {
   "property": "C38",
   "status": "proved",
   "theorems": [
    "Verif.c38_type1",
    "Verif.c38_type2",
    "Verif.c38_levels"
   ],
   "note": "The eigensolver is a parameter; only its defining equations (IsEigen2) are assumed."
  },
  {
   "property": "C39",
   "status": "proved",
   "theorems": [
    "Verif.c39_initial"
   ],
   "note": "Any arithmetic, any eigensolver."
  },
  {
   "property": "C67",
   "status": "proved",
   "theorems": [
    "Verif.c67_ground"
   ],
   "note": "Any arithmetic, any eigensolver."
  },
  {
   "property": "C48",
   "status": "proved",
   "theorems": [
    "Verif.c48_sizes",
    "Verif.c48_slots",
    "Verif.c48_underflow"
   ],
   "note": "Sizes are numbers of unordered tuples (cardinality of Sym), equal to the slots used by the packed indices; underflow exactly below two atoms."
  },
  {
   "property": "C49",
   "status": "proved",
   "theorems": [
    "Verif.c49_chosen_off_axis",
    "Verif.c49_rigid_rotation"
   ],
   "note": "Exact arithmetic. The point group and the coordinates before alignment come from the symm crate and are inputs; the main axis of the group is assumed to be z."
  },
  {
   "property": "C68",
   "status": "proved",
   "theorems": [
    "Verif.c68_rotational_constants"
   ],
   "note": "Exact arithmetic."
  },
  {
   "property": "C69",
   "status": "proved",
   "theorems": [
    "Verif.c69_linear_axes"
   ],
   "note": "Exact arithmetic."
  },
  {
   "property": "C50",
   "status": "proved",
   "theorems": [
    "Verif.c50_orthonormal",
    "Verif.c50_untouched",
    "Verif.c50_span",
    "Verif.c50_eigenvectors",
    "Verif.c50_mass_scaled"
   ],
   "note": "Exact arithmetic; the symmetry-related atom comes from the symm crate and is an input."
  },
  {
   "property": "C51",
   "status": "partial",
   "theorems": [
    "Verif.c51_first_x_partial",
    "Verif.c51_second_x_partial",
    "Verif.c51_out_of_plane_partial",
    "Verif.c51_linear_sign_partial",
    "Verif.c51_violated"
   ],
   "note": "Violated when both x components vanish: c51_violated. The other branches are proved. The relative sign of nonlinear molecules is not specified."
  },
  {
   "property": "C70",
   "status": "partial",
   "theorems": [
    "Verif.c70_aligned_partial",
    "Verif.c70_violated"
   ],
   "note": "Violated for symmetric tops with frequencies between 0.05 and 0.1 apart."
  },
  {
   "property": "C60",
   "status": "proved",
   "theorems": [
    "Verif.c60_deleted",
    "Verif.c60_kept",
    "Verif.c60_zero_iff",
    "Verif.c60_permute",
    "Verif.c60_flip"
   ],
   "note": "init_res_denom and Denom::denom over the reals"
  },
  {
   "property": "C61",
   "status": "partial",
   "theorems": [
    "Verif.c61_symmetric",
    "Verif.c61_too_far",
    "Verif.c61_many_modes",
    "Verif.c61_one_mode",
    "Verif.c61_four_modes_unimplemented",
    "Verif.c61_fermi1",
    "Verif.c61_fermi2",
    "Verif.c61_cubic_partial",
    "Verif.c61_violated"
   ],
   "note": "violated: cubic couplings ignore the direction of the changes"
  },
  {
   "property": "C71",
   "status": "proved",
   "theorems": [
    "Verif.c71_darling",
    "Verif.c71_one_one",
    "Verif.c71_kaabc"
   ],
   "note": "res2a over the reals"
  },
  {
   "property": "C72",
   "status": "proved",
   "theorems": [
    "Verif.c72_energy",
    "Verif.c72_ground",
    "Verif.c72_matrix",
    "Verif.c72_table_panics"
   ],
   "note": "resona; printed eigenvalues left out"
  },
  {
   "property": "C73",
   "status": "proved",
   "theorems": [
    "Verif.c73_rows",
    "Verif.c73_panics"
   ],
   "note": "make_resin for every hash order"
  },
  {
   "property": "C56",
   "status": "proved",
   "theorems": [
    "Verif.c56_answers",
    "Verif.c56_unique",
    "Verif.c56_terminates",
    "Verif.c56_four_rounds",
    "Verif.c56_nonpositive_stuck"
   ],
   "note": "The symmetry code is an arbitrary function of mode and tolerance; the loop is modelled with fuel, c56_terminates shows enough fuel exists."
  },
  {
   "property": "C57",
   "status": "proved",
   "theorems": [
    "Verif.c57_same",
    "Verif.c57_harmonic_completes",
    "Verif.c57_cubic"
   ],
   "note": "Any arithmetic; eigensolvers and symmetry code are parameters."
  },
  {
   "property": "C58",
   "status": "partial",
   "theorems": [
    "Verif.c58_table",
    "Verif.c58_aligned",
    "Verif.c58_symmetric_partial",
    "Verif.c58_label_violated",
    "Verif.c58_harmonic_print_violated"
   ],
   "note": "Violated for symmetric tops (labels) and for printing harmonic-only results."
  },
  {
   "property": "C59",
   "status": "proved",
   "theorems": [
    "Verif.c59_columns",
    "Verif.c59_panics"
   ],
   "note": "to_vec and chunks for every size."
  },
  {
   "property": "C74",
   "status": "proved",
   "theorems": [
    "Verif.c74_completes",
    "Verif.c74_any",
    "Verif.c74_header_panics"
   ],
   "note": "eigensolvers and symmetry code are parameters; c74_any holds in any arithmetic"
  },
  {
   "property": "C75",
   "status": "proved",
   "theorems": [
    "Verif.c75_normal_modes",
    "Verif.eigen_exists"
   ],
   "note": "Exact arithmetic; the eigensolver is a parameter assumed correct (eigen_exists shows one exists)."
  },
  {
   "property": "C52",
   "status": "proved",
   "theorems": [
    "Verif.c52_decompose",
    "Verif.c52_contents",
    "Verif.c52_order",
    "Verif.c52_accepts"
   ],
   "note": "Every file splits into text before the first title, sections and perhaps a cut-off title; what is read is the fields of the sections, it depends only on the contents of the sections, and well-formed rows are accepted. Numbers are exact rationals instead of f64."
  },
  {
   "property": "C53",
   "status": "partial",
   "theorems": [
    "Verif.c53_partial",
    "Verif.c53_exact_partial",
    "Verif.c53_violated",
    "Verif.c53_violated_degmode",
    "Verif.c53_nocurvil"
   ],
   "note": "Proved for inputs that fit the columns; the code violates the claim for integers of five or more characters and for an empty list of degenerate modes. Dummy coordinates are not claimed, see C54."
  },
  {
   "property": "C54",
   "status": "partial",
   "theorems": [
    "Verif.c54_exact",
    "Verif.c54_partial",
    "Verif.c54_violated"
   ],
   "note": "Exact value of every dummy coordinate; the claim holds when the text of the coordinate was last shown on the same axis. The code violates it otherwise."
  },
  {
   "property": "C55",
   "status": "proved",
   "theorems": [
    "Verif.c55_weights",
    "Verif.c55_panics"
   ],
   "note": "Last listed weight, exactly when the second header number is -1; missing header numbers and numbers outside 1..N panic."
  },
  {
   "property": "C76",
   "status": "proved",
   "theorems": [
    "Verif.c76_partition",
    "Verif.c76_len"
   ],
   "note": "Found missing when a wrong partition of triply degenerate states passed."
  },
  {
   "property": "C77",
   "status": "proved",
   "theorems": [
    "Verif.c77_reads",
    "Verif.c77_reads_back",
    "Verif.c77_exact",
    "Verif.c77_cubic_file",
    "Verif.c77_quartic_file",
    "Verif.c77_run_files"
   ],
   "note": "text of files as characters, numbers as exact rationals; opening files is not modelled"
  },
  {
   "property": "C78",
   "status": "partial",
   "theorems": [
    "Verif.c78_runs_iff_partial",
    "Verif.c78_cubic_partial",
    "Verif.c78_quartic_partial",
    "Verif.c78_lines_partial",
    "Verif.c78_all_frequencies_violated"
   ],
   "note": "content, order and text of the listing proved; violated: the number of modes is the length of the frequency list, so a saved state with all 3N frequencies, as run hands them to finish, panics"
  },
  {
   "property": "C79",
   "status": "proved",
   "theorems": [
    "Verif.c79_runs_iff",
    "Verif.c79_rows",
    "Verif.c79_lines"
   ],
   "note": "the text part needs indices up to 9999 and values that fit the columns"
  },
  {
   "property": "C80",
   "status": "proved",
   "theorems": [
    "Verif.c80_resonances",
    "Verif.c80_fundamentals",
    "Verif.c80_zero_point"
   ],
   "note": "end to end over the model of run; uses the partial theorem of C32 for runs without Fermi resonances, where it is complete"
  },
  {
   "property": "C81",
   "status": "partial",
   "theorems": [
    "Verif.c81_corrected",
    "Verif.c81_untouched",
    "Verif.c81_every_violated"
   ],
   "note": "exact value of every corrected fundamental; violated: a resonance whose overtone or combination is also listed with a higher mode is ignored"
  },
  {
   "property": "C82",
   "status": "proved",
   "theorems": [
    "Verif.c82_rotational",
    "Verif.c82_ground",
    "Verif.c82_quartic"
   ],
   "note": "the hypothesis on pairs resonant about two axes is needed because of C28"
  },
  {
   "property": "C83",
   "status": "partial",
   "theorems": [
    "Verif.c83_closed",
    "Verif.c83_average_partial",
    "Verif.c83_linear",
    "Verif.c83_averaged",
    "Verif.c83_fundamentals",
    "Verif.c83_fourfold_violated",
    "Verif.c83_plane_deficit",
    "Verif.c83_plane_violated"
   ],
   "note": "closed forms for all four kinds of constants; equality with the component average for tops whose non-degenerate vibrations do not distinguish the perpendicular axes and for linear molecules; violated for fourfold axes and for oblate tops that are not planar, where the code takes the derivative of the wrong product of inertia (exact difference in c83_plane_deficit)"
  },
  {
   "property": "C84",
   "status": "proved",
   "theorems": [
    "Verif.c84_prints",
    "Verif.c84_frequencies",
    "Verif.c84_rotational",
    "Verif.c84_linear",
    "Verif.c84_run",
    "Verif.c84_asymmetric",
    "Verif.c84_symmetric"
   ],
   "note": "the geometry printed at the top is a parameter; for symmetric tops c84_symmetric asks for at most as many modes as vibrations"
  },
  {
   "property": "C85",
   "status": "partial",
   "theorems": [
    "Verif.c85_numbers_partial",
    "Verif.c85_violated"
   ],
   "note": "every resonance is listed in order with its axis; violated: modes numbered from zero in the lists, from one in the frequency table"
  },
  {
   "property": "C86",
   "status": "partial",
   "theorems": [
    "Verif.c86_quartic",
    "Verif.c86_sextic",
    "Verif.c86_small_violated"
   ],
   "note": "every constant is on the one line with its name; violated: quartic constants below 5e-13 are printed as zero"
  },
  {
   "property": "C87",
   "status": "partial",
   "theorems": [
    "Verif.c87_prints",
    "Verif.c87_rows_partial",
    "Verif.c87_label_violated",
    "Verif.c87_triple_violated"
   ],
   "note": "rows with energies and quanta; violated: panics for triply degenerate modes, degenerate states called non-degenerate"
  },
  {
   "property": "C88",
   "status": "proved",
   "theorems": [
    "Verif.c88_equilibrium"
   ],
   "note": "the two geometries printed are parameters"
  },
  {
   "property": "C89",
   "status": "partial",
   "theorems": [
    "Verif.c89_report",
    "Verif.c89_json_partial",
    "Verif.c89_json_violated",
    "Verif.c89_dump_violated"
   ],
   "note": "violated: dump in front of the JSON text; --dump-fcs ignored with --finish and --to-gauss"
  },
  {
   "property": "C90",
   "status": "partial",
   "theorems": [
    "Verif.c90_partial",
    "Verif.c90_violated"
   ],
   "note": "Proved for rotational constants that differ by more than 1/200; constants within the tolerances of the code lose terms, shown by a witness."
  },
  {
   "property": "C91",
   "status": "proved",
   "theorems": [
    "Verif.c91_reduction"
   ],
   "note": ""
  },
  {
   "property": "C92",
   "status": "proved",
   "theorems": [
    "Verif.c92_reduction"
   ],
   "note": ""
  },
  {
   "property": "C93",
   "status": "proved",
   "theorems": [
    "Verif.c93_signs",
    "Verif.c93_solver"
   ],
   "note": ""
  },
  {
   "property": "C94",
   "status": "proved",
   "theorems": [
    "Verif.c94_a_reduction",
    "Verif.c94_s_reduction"
   ],
   "note": ""
  },
  {
   "property": "C95",
   "status": "proved",
   "theorems": [
    "Verif.c95_linear",
    "Verif.c95_diatomic"
   ],
   "note": ""
  },
  {
   "property": "C96",
   "status": "partial",
   "theorems": [
    "Verif.c96_tensor_partial",
    "Verif.c96_prolate_partial",
    "Verif.c96_oblate_partial",
    "Verif.c96_planar_partial",
    "Verif.c96_prolate_violated",
    "Verif.c96_oblate_violated"
   ],
   "note": "The tensors describe the transformed Hamiltonian of both kinds of tops; for prolate tops the S-reduced sextic and the Wilson quartic constants, for oblate tops all quartic constants are its coefficients. Violated: the other quartic constants of prolate tops refer to axis 0 instead of the unique axis; the sextic constants of an oblate top with exactly equal constants are NaN (proved with IEEE rules for division by zero). Axes of order four are left out."
  },
  {
   "property": "C97",
   "status": "proved",
   "theorems": [
    "Verif.c97_harmonic",
    "Verif.c97_quartic"
   ],
   "note": ""
  },
  {
   "property": "C98",
   "status": "proved",
   "theorems": [
    "Verif.c98_same_molecule"
   ],
   "note": ""
  },
  {
   "property": "C99",
   "status": "partial",
   "theorems": [
    "Verif.c99_diatomic",
    "Verif.c99_run_iff",
    "Verif.c99_align_iff",
    "Verif.c99_completes_partial",
    "Verif.c99_violated",
    "Verif.c99_cluster_violated"
   ],
   "note": "diatomic runs complete; runs of symmetric tops and linear molecules whose near-degenerate modes form separate pairs complete exactly when the reference atom moves in each aligned pair; violated by a linear molecule whose first atom is at rest in a degenerate vibration (todo! in bdegnl) and by large clusters"
  },
  {
   "property": "C100",
   "status": "proved",
   "theorems": [
    "Verif.c100_normal_modes",
    "Verif.c100_signs",
    "Verif.c100_linear",
    "Verif.c100_symmetric_top"
   ],
   "note": ""
  },
  {
   "property": "C101",
   "status": "partial",
   "theorems": [
    "Verif.c101_finite_partial",
    "Verif.c101_no_resonance_partial",
    "Verif.c101_weak_type1_violated",
    "Verif.c101_weak_type2_violated",
    "Verif.c101_shadowed_violated",
    "Verif.c101_equal_violated"
   ],
   "note": "whole runs give the real numbers of exact arithmetic when frequencies differ and exact Fermi resonances are strong and not shadowed; violated by exact resonances with a cubic constant below the tolerance, by two resonances with the same overtone, and by exactly equal frequencies"
  },
  {
   "property": "C102",
   "status": "proved",
   "theorems": [
    "Verif.c102_levels",
    "Verif.c102_exists",
    "Verif.c102_run"
   ],
   "note": "perturbation theory is derived from the Schr\u00f6dinger equation on polynomial times Gaussian wave functions; the term of the energy that does not depend on the state is not part of what the program computes"
  },
  {
   "property": "C103",
   "status": "proved",
   "theorems": [
    "Verif.c103_tensor",
    "Verif.c103_levels",
    "Verif.c103_exists",
    "Verif.c103_constants",
    "Verif.c103_run"
   ],
   "note": "the components of the angular momentum are numbers, so terms which only arise because they do not commute are not covered; the rounded constants of the code are accounted for exactly"
  },
  {
   "property": "C104",
   "status": "proved",
   "theorems": [
    "Verif.c104_levels",
    "Verif.c104_exists",
    "Verif.c104_effective_exists",
    "Verif.c104_fundamentals",
    "Verif.c104_corrected"
   ],
   "note": "polyads of more than two states, and resonances of a mode with its own overtone, are excluded by hypothesis"
  },
  {
   "property": "C105",
   "status": "partial",
   "theorems": [
    "Verif.c105_fundamentals_partial",
    "Verif.c105_exists",
    "Verif.c105_run_partial",
    "Verif.c105_violated",
    "Verif.c105_axis_violated"
   ],
   "note": "the coupling of an odd non-degenerate mode with two degenerate ones is left out by the code, and the Coriolis coupling of pairs if the code takes the wrong axis (proved witnesses); everything else proved; C106 derives the symmetry from that of the molecule"
  },
  {
   "property": "C106",
   "status": "partial",
   "theorems": [
    "Verif.c106_threefold",
    "Verif.c106_run_partial"
   ],
   "note": "the symmetry of the modes is proved in full; the fundamentals are covered except where the code is wrong, see c105_violated and c105_axis_violated"
  },
  {
   "property": "C107",
   "status": "proved",
   "theorems": [
    "Verif.c107_nearest",
    "Verif.c107_constants",
    "Verif.c107_fundamentals",
    "Verif.c107_growth",
    "Verif.c107_energy",
    "Verif.c107_run"
   ],
   "note": "overflow and underflow are excluded by the rounding model; errors of the frequencies, force constants and Coriolis constants themselves are not covered"
  },
  {
   "property": "C108",
   "status": "proved",
   "theorems": [
    "Verif.c108_scalar_product",
    "Verif.c108_response_exists",
    "Verif.c108_two_two",
    "Verif.c108_two_one_one",
    "Verif.c108_one_one",
    "Verif.c108_fermi1",
    "Verif.c108_fermi2",
    "Verif.c108_effective_two_two",
    "Verif.c108_effective_two_one_one",
    "Verif.c108_effective_one_one"
   ],
   "note": "Matrix elements between the oscillator states for any scalar product; the resonances that the code does not treat (four different modes, three quanta against one) are outside, see C61."
  },
  {
   "property": "C109",
   "status": "partial",
   "theorems": [
    "Verif.c109_exact",
    "Verif.c109_run_exact",
    "Verif.c109_zero_point_partial",
    "Verif.c109_run_partial",
    "Verif.c109_linear_violated",
    "Verif.c109_violated"
   ],
   "note": "proved for at most two degenerate modes, or one for linear molecules; refuted by witnesses for linear molecules with two and symmetric tops with three degenerate modes; the exact difference is proved for any number of degenerate modes; odd non-degenerate modes that couple with two degenerate ones excluded as in C105"
  },
  {
   "property": "C110",
   "status": "partial",
   "theorems": [
    "Verif.c110_levels_partial",
    "Verif.c110_rotating_partial",
    "Verif.c110_linear",
    "Verif.c110_tensor",
    "Verif.c110_run_linear",
    "Verif.c110_run_partial",
    "Verif.c110_run_rotating_partial",
    "Verif.c110_symmetry",
    "Verif.c110_molecule_partial",
    "Verif.c110_molecule_rotating_partial",
    "Verif.c110_molecule_linear"
   ],
   "note": "proved for linear molecules and for three-fold and six-fold axes without Coriolis resonance, for whole runs of linear molecules and oblate tops (a run reports wrong axes for prolate tops, c43_prolate_violated), and for molecules given by geometry, masses and an invariant force field (symmetry of the computed data is proved, c110_symmetry; an oblate top has to be planar or its degenerate modes must not change the product of inertia, because of c83_plane_violated); four-fold axes are refuted by c83_fourfold_violated, spherical tops left out; rounded constants of the code stated explicitly"
  },
  {
   "property": "C111",
   "status": "proved",
   "theorems": [
    "Verif.c111_run",
    "Verif.c111_harmonic",
    "Verif.c111_energies",
    "Verif.c111_resona",
    "Verif.c111_element",
    "Verif.c111_cubic"
   ],
   "note": "exact: for every input the run with the feature equals the run without it, or panics, and it is stated when; what the feature computes for the states of its table is stated too"
  },
  {
   "property": "C112",
   "status": "partial",
   "theorems": [
    "Verif.c112_doubly",
    "Verif.c112_single_partial",
    "Verif.c112_lengths_violated",
    "Verif.c112_quanta_violated"
   ],
   "note": "doubly degenerate modes: proved for all lists; non-degenerate modes: proved for states of the same length and less than 100000 quanta, otherwise refuted"
  },
  {
   "property": "C113",
   "status": "proved",
   "theorems": [
    "Verif.c113_coriolis",
    "Verif.c113_normalised",
    "Verif.c113_inertia",
    "Verif.c113_derivative"
   ],
   "note": "for all sizes and all rounding functions of bounded relative error; overflow and underflow are not modelled"
  },
  {
   "property": "C114",
   "status": "proved",
   "theorems": [
    "Verif.c114_alpha",
    "Verif.c114_averaged",
    "Verif.c114_run"
   ],
   "note": "for all sizes and all rounding functions of bounded relative error; overflow and underflow are not modelled"
  },
  {
   "property": "C115",
   "status": "proved",
   "theorems": [
    "Verif.c115_tau",
    "Verif.c115_relative",
    "Verif.c115_prime",
    "Verif.c115_reduction",
    "Verif.c115_sreduction",
    "Verif.c115_linear"
   ],
   "note": "for all sizes and all rounding functions of bounded relative error; overflow and underflow are not modelled"
  },
  {
   "property": "C116",
   "status": "proved",
   "theorems": [
    "Verif.c116_energies"
   ],
   "note": "for all sizes and all rounding functions of bounded relative error; overflow and underflow are not modelled"
  },
  {
   "property": "C117",
   "status": "proved",
   "theorems": [
    "Verif.c117_zero_point",
    "Verif.c117_levels",
    "Verif.c117_run"
   ],
   "note": "for all sizes and all rounding functions of bounded relative error; asymmetric tops without Fermi resonances; overflow and underflow are not modelled"
  },
  {
   "property": "C118",
   "status": "proved",
   "theorems": [
    "Verif.c118_quartic",
    "Verif.c118_sextic",
    "Verif.c118_rot",
    "Verif.c118_nan"
   ],
   "note": "over exact reals; not-a-number over reals extended by infinities and NaN"
  }
 ]
}
