{
 "claims": [
  {
   "property": "C01",
   "status": "proved",
   "theorems": [
    "Verif.C01_wrapPhase_canonical",
    "Verif.C01_wrapPhase_idempotent",
    "Verif.C01_wrapPhase_eq_iff",
    "Verif.C01_wrapPhase_double"
   ],
   "note": "Over the reals for every phase; the range part also for IEEE doubles under every round-to-nearest mode."
  },
  {
   "property": "C02",
   "status": "partial",
   "theorems": [
    "Verif.C02_range_double",
    "Verif.C02_refuted",
    "Verif.C02_wrong_direction",
    "Verif.C02_phaseDifference_partial",
    "Verif.C02_phaseDifference_range",
    "Verif.C02_fails_on_special"
   ],
   "note": "False as stated: refuted for the pairs (0, 3π/2) and (3π/2, 0). Proved for all other pairs, and the range for all pairs, also in doubles."
  },
  {
   "property": "C03",
   "status": "proved",
   "theorems": [
    "Verif.C03_coherence_eq_orderParameter",
    "Verif.C03_coherence_range",
    "Verif.C03_coherence_eq_one_iff",
    "Verif.C03_coherence_nil",
    "Verif.C03_coherence_double"
   ],
   "note": "For every list of real phases, against the complex mean of unit vectors."
  },
  {
   "property": "C04",
   "status": "proved",
   "theorems": [
    "Verif.C04_perm_double",
    "Verif.C04_rotate_double",
    "Verif.C04_coherence_perm",
    "Verif.C04_coherence_rotate",
    "Verif.C04_coherence_turns"
   ],
   "note": "For every list of real phases; in doubles reordering and rotating change the value by no more than the bound proved."
  },
  {
   "property": "C05",
   "status": "proved",
   "theorems": [
    "Verif.C05_overflow_double",
    "Verif.C05_weighted_eq",
    "Verif.C05_weighted_range",
    "Verif.C05_weighted_const",
    "Verif.C05_weighted_truncates",
    "Verif.C05_weighted_zero",
    "Verif.C05_mixed_sign_out_of_range"
   ],
   "note": "For every pair of lists; the out-of-range behaviour with mixed signs and the overflow of doubles with huge weights are shown by witnesses."
  },
  {
   "property": "C06",
   "status": "proved",
   "theorems": [
    "Verif.C06_range_double",
    "Verif.C06_distance_formula",
    "Verif.C06_distance_nonneg",
    "Verif.C06_distance_le_one",
    "Verif.C06_distance_eq_zero_iff",
    "Verif.C06_distance_self",
    "Verif.C06_distance_nil"
   ],
   "note": "For all real patterns; the exact formula outside the special pairs of C02, bounds and zero set everywhere; the range also in doubles."
  },
  {
   "property": "C07",
   "status": "proved",
   "theorems": [
    "Verif.C07_self_double",
    "Verif.C07_severity_double",
    "Verif.C07_gap_types",
    "Verif.C07_gap_fields",
    "Verif.C07_no_gap_self",
    "Verif.C07_nil_panics"
   ],
   "note": "For all real patterns, including the special pairs; missing patterns panic. In doubles: no gap to itself (C07_self_double), positive severities for all inputs including NaN and infinities (C07_severity_double)."
  },
  {
   "property": "C08",
   "status": "proved",
   "theorems": [
    "Verif.C08_validate_iff",
    "Verif.C08_validate_messages"
   ],
   "note": "For all IEEE states, and each message separately."
  },
  {
   "property": "C09",
   "status": "proved",
   "theorems": [
    "Verif.C09_normalize_real",
    "Verif.C09_normalize_f64"
   ],
   "note": "Over the reals with termination; over IEEE doubles for every execution that returns (termination is C10)."
  },
  {
   "property": "C10",
   "status": "partial",
   "theorems": [
    "Verif.C10_terminates_iff",
    "Verif.C10_refuted",
    "Verif.C10_terminates_partial"
   ],
   "note": "False as stated: the loop never exits for finite phases above 2^56 in magnitude. Exact characterisation proved."
  },
  {
   "property": "C11",
   "status": "proved",
   "theorems": [
    "Verif.C11_decide_optimal",
    "Verif.C11_decide_hopeless",
    "Verif.C11_decide_nil",
    "Verif.C11_decide_confidence",
    "Verif.C11_double"
   ],
   "note": "For all real options; first maximal ratio, given one option above -MaxFloat64, and the complementary case; in doubles the chosen ratio is best up to rounding."
  },
  {
   "property": "C12",
   "status": "proved",
   "theorems": [
    "Verif.C12_decide_total"
   ],
   "note": "For all IEEE option lists."
  },
  {
   "property": "C13",
   "status": "proved",
   "theorems": [
    "Verif.C13_clampRate",
    "Verif.C13_propose_sane",
    "Verif.C13_propose_sane_double",
    "Verif.C13_clampRate_double",
    "Verif.C13_nan_rate"
   ],
   "note": "For all built-in strategies with parameters as established by the constructors, over the reals, and the ranges in doubles; a NaN rate is a finding."
  },
  {
   "property": "C14",
   "status": "proved",
   "theorems": [
    "Verif.C14_nudge_contracts",
    "Verif.C14_nudge_iterate",
    "Verif.C14_nudge_iterate_any",
    "Verif.C14_nudge_quarter",
    "Verif.C14_nudge_wrong_way"
   ],
   "note": "One step outside the special pairs of C02; n steps for every target as long as no nudge starts within 2e-10 of a quarter turn from it, in particular from less than a quarter turn away; the wrong-way case is proved as well."
  },
  {
   "property": "C15",
   "status": "proved",
   "theorems": [
    "Verif.C15_pulse_spacing",
    "Verif.C15_pulse_due"
   ],
   "note": "For every call sequence with non-decreasing times, in any number type."
  },
  {
   "property": "C16",
   "status": "proved",
   "theorems": [
    "Verif.C16_adaptive_total",
    "Verif.C16_defaultSelector_valid",
    "Verif.C16_agent"
   ],
   "note": "For arbitrary strategies and selectors, in any number type; C16_agent for the strategy of an agent."
  },
  {
   "property": "C17",
   "status": "partial",
   "theorems": [
    "Verif.C17_range_double",
    "Verif.C17_blend",
    "Verif.C17_blend_clamps",
    "Verif.C17_blend_zero",
    "Verif.C17_blend_one_partial",
    "Verif.C17_blend_special",
    "Verif.C17_refuted"
   ],
   "note": "Over the reals, the range also in doubles; the shortest-arc and end-point parts hold outside the special pairs of C02 only; at such a pair the end-point part is refuted."
  },
  {
   "property": "C18",
   "status": "proved",
   "theorems": [
    "Verif.C18_scale_roundtrip",
    "Verif.C18_fromCount",
    "Verif.C18_scale_monotone",
    "Verif.C18_default_target_achievable",
    "Verif.C18_unknown",
    "Verif.C18_neighbors",
    "Verif.C18_achievable_double",
    "Verif.C18_monotone_double"
   ],
   "note": "For every count and every scale value, including values outside the enumeration and the numbers of neighbours."
  },
  {
   "property": "C19",
   "status": "partial",
   "theorems": [
    "Verif.C19_goal_names",
    "Verif.C19_goal_keys",
    "Verif.C19_trait_names",
    "Verif.C19_scale_names",
    "Verif.C19_pattern_names",
    "Verif.C19_pattern_keys",
    "Verif.C19_refuted",
    "Verif.C19_goal_keys_partial",
    "Verif.C19_events_reachable"
   ],
   "note": "False as stated: the key of MaintainRhythm is the reset key. All other collisions are excluded."
  },
  {
   "property": "C20",
   "status": "proved",
   "theorems": [
    "Verif.C20_limits_ordered",
    "Verif.C20_limits_monotone",
    "Verif.C20_limits_trivial",
    "Verif.C20_ordered_double",
    "Verif.C20_monotone_double"
   ],
   "note": "For every integer size and all pairs of sizes, over the reals."
  },
  {
   "property": "C21",
   "status": "partial",
   "theorems": [
    "Verif.C21_minimum_size_sufficient_iff",
    "Verif.C21_refuted",
    "Verif.C21_minimum_size_partial",
    "Verif.C21_minimum_size_monotone",
    "Verif.C21_not_minimal",
    "Verif.C21_sufficient_iff_double",
    "Verif.C21_monotone_double"
   ],
   "note": "False as stated: exact set of sufficient targets proved; monotone; not minimal."
  },
  {
   "property": "C22",
   "status": "proved",
   "theorems": [
    "Verif.C22_adjusted",
    "Verif.C22_warning_iff",
    "Verif.C22_timeFactor_values",
    "Verif.C22_timeFactor_monotone",
    "Verif.C22_timeFactor_thresholds",
    "Verif.C22_adjusted_double",
    "Verif.C22_warning_iff_double",
    "Verif.C22_nan",
    "Verif.C22_values_double",
    "Verif.C22_monotone_double"
   ],
   "note": "For every size and target, over the reals and in doubles; C22_nan is the NaN case."
  },
  {
   "property": "C23",
   "status": "proved",
   "theorems": [
    "Verif.C23_preset_valid",
    "Verif.C23_withSize_valid_iff",
    "Verif.C23_preset_withSize",
    "Verif.C23_tolerances_positive",
    "Verif.C23_preset_withSize_double"
   ],
   "note": "Every goal value, every integer size, over the reals and (C23_preset_withSize_double) in doubles; WithSize keeps validity exactly under the stated interval condition."
  },
  {
   "property": "C24",
   "status": "partial",
   "theorems": [
    "Verif.C24_tune_valid_iff",
    "Verif.C24_tune_preset_iff_partial",
    "Verif.C24_latency_throughput",
    "Verif.C24_refuted",
    "Verif.C24_tune_withSize_partial",
    "Verif.C24_repeated_tuning_rejected",
    "Verif.C24_tune_withSize_double_partial"
   ],
   "note": "False for one cell (latency tuned for throughput) and for repeated tuning; exact table proved over the reals and in doubles (C24_tune_withSize_double_partial)."
  },
  {
   "property": "C25",
   "status": "proved",
   "theorems": [
    "Verif.C25_fails_iff",
    "Verif.C25_fails_iff_real",
    "Verif.C25_result_validates",
    "Verif.C25_valid_unchanged",
    "Verif.C25_idempotent",
    "Verif.C25_repairs"
   ],
   "note": "Proved over reals and over IEEE values including NaN: failure condition, result validates, valid unchanged up to auto-filled sizes, idempotent."
  },
  {
   "property": "C26",
   "status": "proved",
   "theorems": [
    "Verif.C26_valid_iff",
    "Verif.C26_documented_ranges",
    "Verif.C26_never_repaired",
    "Verif.C26_too_large",
    "Verif.C26_coupling"
   ],
   "note": "Every integer size, over reals and IEEE values."
  },
  {
   "property": "C27",
   "status": "partial",
   "theorems": [
    "Verif.C27_goal_validate_real",
    "Verif.C27_swarm_validate_iff_partial",
    "Verif.C27_swarm_validate_real",
    "Verif.C27_goal_validate_iff_partial",
    "Verif.C27_nan_accepted",
    "Verif.C27_refuted"
   ],
   "note": "False for NaN (witness); exact meaning of validation proved for reals and for IEEE values."
  },
  {
   "property": "C28",
   "status": "proved",
   "theorems": [
    "Verif.C28_valid_iff",
    "Verif.C28_small_rejected",
    "Verif.C28_normalizes",
    "Verif.C28_coupling"
   ],
   "note": "Every workload count, over reals and IEEE values."
  },
  {
   "property": "C29",
   "status": "proved",
   "theorems": [
    "Verif.C29_request",
    "Verif.C29_release",
    "Verif.C29_bounded_and_conserved",
    "Verif.C29_exact_balance",
    "Verif.C29_request_f64",
    "Verif.C29_release_f64",
    "Verif.C29_bounded_f64"
   ],
   "note": "Exact arithmetic and IEEE doubles (any round-to-nearest), every history."
  },
  {
   "property": "C30",
   "status": "partial",
   "theorems": [
    "Verif.C30_refuted",
    "Verif.C30_poisoned_forever",
    "Verif.C30_step_partial",
    "Verif.C30_infinite_budget"
   ],
   "note": "False: a NaN amount makes the balance NaN for ever; an infinite budget with an infinite request gives NaN. Step invariant proved for non-NaN amounts and a finite budget."
  },
  {
   "property": "C31",
   "status": "proved",
   "theorems": [
    "Verif.C31_panics_iff",
    "Verif.C31_in_range",
    "Verif.C31_equal_shares",
    "Verif.C31_acceptance",
    "Verif.C31_uniform"
   ],
   "note": "Range, equal shares, at least half accepted, panics exactly as stated; rejection loop over a stream of raw 32-bit words."
  },
  {
   "property": "C32",
   "status": "proved",
   "theorems": [
    "Verif.C32_float_exact",
    "Verif.C32_float_range",
    "Verif.C32_phase"
   ],
   "note": "IEEE doubles, every 64-bit word; uses the exact double nearest 2*pi."
  },
  {
   "property": "C33",
   "status": "proved",
   "theorems": [
    "Verif.C33_store",
    "Verif.C33_load",
    "Verif.C33_delete",
    "Verif.C33_clear",
    "Verif.C33_count",
    "Verif.C33_range",
    "Verif.C33_range_stop",
    "Verif.C33_all",
    "Verif.C33_refines"
   ],
   "note": "Refinement to a bounded finite map, one theorem per operation and one for operation sequences."
  },
  {
   "property": "C34",
   "status": "partial",
   "theorems": [
    "Verif.C34_exact",
    "Verif.C34_connected_partial",
    "Verif.C34_others_kept",
    "Verif.C34_disconnected",
    "Verif.C34_refuted",
    "Verif.C34_unlimited"
   ],
   "note": "Exact behaviour proved for every history. False as claimed: the 21st peer is silently dropped (fixed capacity 20)."
  },
  {
   "property": "C35",
   "status": "partial",
   "theorems": [
    "Verif.C35_refuted",
    "Verif.C35_frequency_refuted",
    "Verif.C35_ranges_partial",
    "Verif.C35_frequency_partial",
    "Verif.C35_new_frequency"
   ],
   "note": "IEEE doubles, whole population, every operation sequence. False for infinite arguments (SetPhase(+Inf) stores NaN) and for SetFrequency(0); partial excludes exactly these."
  },
  {
   "property": "C36",
   "status": "proved",
   "theorems": [
    "Verif.C36_outcome",
    "Verif.C36_failure_unchanged",
    "Verif.C36_success_frame",
    "Verif.C36_success",
    "Verif.C36_phase_double"
   ],
   "note": "Exact outcome, failure leaves the agent unchanged, success changes only phase, energy and the token balance. C36_phase_double is the new phase in doubles."
  },
  {
   "property": "C37",
   "status": "partial",
   "theorems": [
    "Verif.C37_accounting",
    "Verif.C37_refuted",
    "Verif.C37_spend_partial",
    "Verif.C37_tokens_track"
   ],
   "note": "Exact accounting for every sequence of actions. False with negative costs, which create energy; proved for non-negative costs."
  },
  {
   "property": "C38",
   "status": "proved",
   "theorems": [
    "Verif.C38_accepted_applies",
    "Verif.C38_acceptance",
    "Verif.C38_stubborn",
    "Verif.C38_stubborn_f64"
   ],
   "note": "Every accepted proposal can be applied; a fully stubborn agent never proposes. The decision maker is the one of the repository."
  },
  {
   "property": "C39",
   "status": "partial",
   "theorems": [
    "Verif.C39_local_coherence",
    "Verif.C39_ranges",
    "Verif.C39_unanimous_goal",
    "Verif.C39_refuted",
    "Verif.C39_density_partial",
    "Verif.C39_density_double"
   ],
   "note": "Local coherence is the order parameter; goal in range. Density is false without swarm information (-1) or with more neighbours than assumed; exact characterisation over the reals (C39_density_partial) and in doubles, where a division by zero gives infinity (C39_density_double)."
  },
  {
   "property": "C40",
   "status": "proved",
   "theorems": [
    "Verif.C40_single_update",
    "Verif.C40_past_is_history",
    "Verif.C40_invariant",
    "Verif.C40_agent_state",
    "Verif.C40_agent_behavior"
   ],
   "note": "Every number of goroutines and every schedule of atomic loads and stores; instantiated for state and behaviour in IEEE doubles."
  },
  {
   "property": "C41",
   "status": "partial",
   "theorems": [
    "Verif.C41_lost_update",
    "Verif.C41_refuted",
    "Verif.C41_overspend",
    "Verif.C41_serial_partial",
    "Verif.C41_energy_partial"
   ],
   "note": "False: lost update and check-then-act overspend, both with concrete schedules. Proved for all non-overlapping schedules."
  },
  {
   "property": "C42",
   "status": "partial",
   "theorems": [
    "Verif.C42_first_get_panics",
    "Verif.C42_connections_survive",
    "Verif.C42_leftovers",
    "Verif.C42_statistics_partial",
    "Verif.C42_refuted",
    "Verif.C42_stale_refuted",
    "Verif.C42_fields_partial"
   ],
   "note": "False: the first Get panics on the nil state of a fresh object, and connections, tokens and strategy survive reuse. Proved: reset fields in range (IEEE doubles), statistics of every history."
  },
  {
   "property": "C43",
   "status": "proved",
   "theorems": [
    "Verif.C43_succeeds",
    "Verif.C43_new",
    "Verif.C43_fromConfig",
    "Verif.C43_fromConfig_succeeds",
    "Verif.C43_goalConfig_succeeds"
   ],
   "note": "Every size, option list without topology/builder, draws and map order; both storages. Also: construction of a valid swarm succeeds when the index picks are fair."
  },
  {
   "property": "C44",
   "status": "partial",
   "theorems": [
    "Verif.C44_graph_partial",
    "Verif.C44_fromConfig_partial",
    "Verif.C44_isolated",
    "Verif.C44_refuted_real",
    "Verif.C44_refuted"
   ],
   "note": "Symmetric, loop-free, members only: proved for every random stream. The minimum degree holds on the probabilistic path; false on the minimal path (n > 1000), where every agent can stay isolated."
  },
  {
   "property": "C45",
   "status": "partial",
   "theorems": [
    "Verif.C45_hub",
    "Verif.C45_average_partial",
    "Verif.C45_nineteen",
    "Verif.C45_refuted",
    "Verif.C45_refuted_real"
   ],
   "note": "False: the last agents can exceed the maximum (19 neighbours with maximum 4 at n = 20). Proved: only initiated connections are bounded, hence the average is at most twice max(maximum, minimum)."
  },
  {
   "property": "C46",
   "status": "partial",
   "theorems": [
    "Verif.C46_refuted",
    "Verif.C46_invisible"
   ],
   "note": "False for every new swarm with a connection: swarm connections are stored where IsConnectedTo and UpdateContext of the agent do not look."
  },
  {
   "property": "C47",
   "status": "proved",
   "theorems": [
    "Verif.C47_full_exact",
    "Verif.C47_star_exact",
    "Verif.C47_ring",
    "Verif.C47_star",
    "Verif.C47_full",
    "Verif.C47_truncated"
   ],
   "note": "Exact edge sets for every number of agents and order; the truncation of star and complete graph beyond 21 agents is characterised."
  },
  {
   "property": "C48",
   "status": "partial",
   "theorems": [
    "Verif.C48_ring_star_fail",
    "Verif.C48_full_isolated",
    "Verif.C48_large_isolated",
    "Verif.C48_builder_first_partial",
    "Verif.C48_ring_partial",
    "Verif.C48_builder_last",
    "Verif.C48_refuted"
   ],
   "note": "False: the option runs before the agents exist. Proved: ring and star fail, complete gives isolated agents, n > 100 is always isolated; with a builder option first and n <= 100 the topology is realised, with the builder last it is not."
  },
  {
   "property": "C49",
   "status": "partial",
   "theorems": [
    "Verif.C49_none",
    "Verif.C49_real_partial",
    "Verif.C49_disrupt_partial",
    "Verif.C49_refuted"
   ],
   "note": "False above 100 agents: nothing is perturbed. Up to 100 agents: exactly floor(p n) over the reals, floor or ceiling in doubles (the product is rounded), phases in range, nothing else changes."
  },
  {
   "property": "C50",
   "status": "partial",
   "theorems": [
    "Verif.C50_coherence_double_partial",
    "Verif.C50_reads_partial",
    "Verif.C50_coherence_order_partial",
    "Verif.C50_forEach",
    "Verif.C50_refuted",
    "Verif.C50_coherence_real_partial"
   ],
   "note": "Look-up, Agents and coherence agree (coherence exactly over the reals, in doubles up to twice the error of C133, exactly when visited in the same order). False for ForEachAgent, which sees no agent in slice storage."
  },
  {
   "property": "C51",
   "status": "proved",
   "theorems": [
    "Verif.C51_honest",
    "Verif.C51_complete",
    "Verif.C51_no_agents_panics",
    "Verif.C51_iteration_ends",
    "Verif.C51_iteration_ends_double"
   ],
   "note": "Both directions, all number types, any behaviour of other goroutines, map orders, random numbers and clock. Also: an iteration of a swarm with agents neither panics nor hangs (exact arithmetic; doubles with proper phases and up to 10^14 agents). Without agents a stuck monitor leads to a panic (C51_no_agents_panics)."
  },
  {
   "property": "C52",
   "status": "partial",
   "theorems": [
    "Verif.C52_fromConfig_partial",
    "Verif.C52_gives_up",
    "Verif.C52_saturating",
    "Verif.C52_new_partial",
    "Verif.C52_zero_factor",
    "Verif.C52_presets",
    "Verif.C52_refuted_new",
    "Verif.C52_refuted"
   ],
   "note": "C52_claim (every swarm made by a public constructor gets a first iteration) is false: C52_refuted (NewSwarmFromConfig, goal above the practical limit, machines where int(+Inf) is not positive), C52_gives_up is the general form and C52_saturating the opposite case; C52_refuted_new / C52_zero_factor (New with a zero MaxIterationsFactor, which validation accepts). What holds: C52_fromConfig_partial, C52_new_partial and C52_presets. All in doubles with any rounding."
  },
  {
   "property": "C53",
   "status": "partial",
   "theorems": [
    "Verif.C53_adjustments",
    "Verif.C53_perturbations",
    "Verif.C53_run",
    "Verif.C53_achieve",
    "Verif.C53_run_double_partial",
    "Verif.C53_presets_moderate",
    "Verif.C53_nan_noise",
    "Verif.C53_refuted",
    "Verif.C53_amount"
   ],
   "note": "Over the reals every adjustment, perturbation and whole run keeps phases in [0, 2pi) and frequencies positive, for every configuration, measurement and random stream. In doubles the claim is false: Validate does not look at the magnitudes, and a NaN noise magnitude makes the phase of a perturbed agent NaN. With finite magnitudes up to 1000 (all presets), a finite target and at most ten million agents it holds."
  },
  {
   "property": "C54",
   "status": "partial",
   "theorems": [
    "Verif.C54_one_sync",
    "Verif.C54_spacing",
    "Verif.C54_restart_iff",
    "Verif.C54_exit_partial",
    "Verif.C54_failure_ends",
    "Verif.C54_recovery_config",
    "Verif.C54_refuted"
   ],
   "note": "The event-driven run is a nondeterministic machine (context, one goroutine per synchronisation, buffered result channel, ticker). C54_claim (exit only after the context is done) is false: C54_refuted builds a complete run of the default configuration that exits because a synchronisation used up its iterations (C54_failure_ends is the general form). C54_exit_partial says exactly when it exits. At most one synchronisation is live (C54_one_sync), restarts are more than 500 ms apart (C54_spacing), and a tick restarts exactly under the stated condition (C54_restart_iff). Missing: real time, fairness of the scheduler."
  },
  {
   "property": "C55",
   "status": "partial",
   "theorems": [
    "Verif.C55_exact",
    "Verif.C55_stuck_rule_dead",
    "Verif.C55_low_targets",
    "Verif.C55_refuted",
    "Verif.C55_at_target_partial",
    "Verif.C55_oversynchronised",
    "Verif.C55_nan_ignored"
   ],
   "note": "C55_exact gives the decision as a disjunction of thresholds for every number type; the documented stuck rule has no effect (C55_stuck_rule_dead). C55_claim (never at or above target) is false for targets below 0.2 (C55_low_targets); from 0.2 on only sharp drops trigger it (C55_at_target_partial). Too much coherence (C55_oversynchronised) and NaN (C55_nan_ignored) never do."
  },
  {
   "property": "C56",
   "status": "partial",
   "theorems": [
    "Verif.C56_silent_partial",
    "Verif.C56_refuted"
   ],
   "note": "C56_claim is false: C56_silent_partial shows that the client reports 0 and not converged after every sequence of operations, for every number type; C56_refuted exhibits a successful run."
  },
  {
   "property": "C57",
   "status": "partial",
   "theorems": [
    "Verif.C57_convergence",
    "Verif.C57_no_agents",
    "Verif.C57_refuted",
    "Verif.C57_variance",
    "Verif.C57_variance_in_range",
    "Verif.C57_convergence_double",
    "Verif.C57_variance_double"
   ],
   "note": "Exact arithmetic in full; doubles: range of both measures and termination of the normalising loops. Refuted for goal phases outside one turn, which validation accepts."
  },
  {
   "property": "C58",
   "status": "partial",
   "theorems": [
    "Verif.C58_monotone_double_partial",
    "Verif.C58_decision",
    "Verif.C58_refuted",
    "Verif.C58_frequency_counts",
    "Verif.C58_monotone_partial"
   ],
   "note": "C58_decision gives the exact condition for all number types. Refuted as stated: the pattern distance (phase, frequency, coherence) is a further condition and punishes coherence above the target; what holds of the monotonicity is proved over the reals and in doubles."
  },
  {
   "property": "C59",
   "status": "proved",
   "theorems": [
    "Verif.C59_history",
    "Verif.C59_average",
    "Verif.C59_average_double"
   ],
   "note": "C59_history holds for every number type. The average is the mean over the reals; in doubles it stays in [0, 1] for samples in [0, 1]."
  },
  {
   "property": "C60",
   "status": "proved",
   "theorems": [
    "Verif.C60_tracks",
    "Verif.C60_reports",
    "Verif.C60_last",
    "Verif.C60_nan_sticks",
    "Verif.C60_extremes",
    "Verif.C60_time_nonneg"
   ],
   "note": "C60_tracks and C60_reports hold for every number type, where converged means: some sample since the last reset reached the threshold and none after it was below. Over the reals this is the last sample at or above the threshold (C60_last); a NaN sample changes nothing (C60_nan_sticks)."
  },
  {
   "property": "C61",
   "status": "proved",
   "theorems": [
    "Verif.C61_rate",
    "Verif.C61_denominator",
    "Verif.C61_rate_linear",
    "Verif.C61_rate_reflect",
    "Verif.C61_stability",
    "Verif.C61_stability_double",
    "Verif.C61_stability_exact",
    "Verif.C61_deviation"
   ],
   "note": "Rate: least-squares slope over the reals, with uniqueness. Stability exactly, over the reals; in [0, 1] in doubles."
  },
  {
   "property": "C62",
   "status": "partial",
   "theorems": [
    "Verif.C62_exclusion",
    "Verif.C62_simple_partial",
    "Verif.C62_readers_partial",
    "Verif.C62_deadlock_predict",
    "Verif.C62_deadlock_statistics",
    "Verif.C62_refuted"
   ],
   "note": "C62_claim (no deadlock) is false: two nested read locks with a queued writer. C62_simple_partial (all methods that do not nest) and C62_readers_partial (all methods, no writer) hold for any number of goroutines and any schedule. The lock is modelled as a writer-preferring RWMutex; the Go scheduler is any interleaving."
  },
  {
   "property": "C63",
   "status": "partial",
   "theorems": [
    "Verif.C63_history",
    "Verif.C63_stuck",
    "Verif.C63_converging",
    "Verif.C63_tiny_window",
    "Verif.C63_trend",
    "Verif.C63_progress_real",
    "Verif.C63_progress_partial",
    "Verif.C63_refuted",
    "Verif.C63_stuck_example",
    "Verif.C63_progress_forgets"
   ],
   "note": "History, stuck and trend parts hold for every number type or the reals; progress in [0,1] over the reals. False in doubles when the distance is NaN (progress is NaN); partial for non-NaN distances."
  },
  {
   "property": "C64",
   "status": "partial",
   "theorems": [
    "Verif.C64_similarity_partial",
    "Verif.C64_self",
    "Verif.C64_symm",
    "Verif.C64_amplitude",
    "Verif.C64_new_self",
    "Verif.C64_range_double",
    "Verif.C64_self_double",
    "Verif.C64_nan",
    "Verif.C64_refuted",
    "Verif.C64_library_blind",
    "Verif.C64_identify"
   ],
   "note": "C64_claim is false (NaN for flat patterns). Range, symmetry and self-similarity proved over the reals; range in doubles for every rounding and math library, self-similarity for a library with exact sin 0, cos 0 and atan2 at (0,1)."
  },
  {
   "property": "C65",
   "status": "partial",
   "theorems": [
    "Verif.C65_total",
    "Verif.C65_between",
    "Verif.C65_refuted",
    "Verif.C65_empty",
    "Verif.C65_endpoints_partial",
    "Verif.C65_filled",
    "Verif.C65_endpoints_double",
    "Verif.C65_infinite"
   ],
   "note": "Totality and length for every number type; pointwise between over the reals, end points over the reals and in finite doubles for non-empty waveforms. False at the end points when one waveform is empty (the other is returned at every progress) and in doubles for infinite samples (C65_infinite)."
  },
  {
   "property": "C66",
   "status": "partial",
   "theorems": [
    "Verif.C66_matching_unchanged",
    "Verif.C66_nearest",
    "Verif.C66_order_independent",
    "Verif.C66_phase_range",
    "Verif.C66_half_gap_partial",
    "Verif.C66_template_step",
    "Verif.C66_refuted",
    "Verif.C66_moves_away",
    "Verif.C66_frequency_overshoot",
    "Verif.C66_phase_range_double"
   ],
   "note": "Nearest template, order independence, phase range (reals and doubles) and no change without gaps hold. The half-gap step is false when a template matches: the phase moves towards the template (phase 0), possibly away from the target, and frequencies can overshoot below zero."
  },
  {
   "property": "C67",
   "status": "partial",
   "theorems": [
    "Verif.C67_distance",
    "Verif.C67_force_partial",
    "Verif.C67_boosted",
    "Verif.C67_adjustment_partial",
    "Verif.C67_closer",
    "Verif.C67_refuted",
    "Verif.C67_converges",
    "Verif.C67_rate",
    "Verif.C67_force_double",
    "Verif.C67_radius_zero",
    "Verif.C67_new",
    "Verif.C67_inside"
   ],
   "note": "C67_claim is false for boosted states. Everything else proved over the reals, including convergence of repeated adjustment from every state; bounds also in doubles; NaN at radius 0 proved."
  },
  {
   "property": "C68",
   "status": "partial",
   "theorems": [
    "Verif.C68_order",
    "Verif.C68_conserved",
    "Verif.C68_once",
    "Verif.C68_bounds",
    "Verif.C68_no_exit",
    "Verif.C68_quiescent",
    "Verif.C68_terminates",
    "Verif.C68_submit",
    "Verif.C68_stop",
    "Verif.C68_after_stop",
    "Verif.C68_drain_refuted",
    "Verif.C68_new",
    "Verif.C68_workerCount",
    "Verif.C68_workerCount_mono"
   ],
   "note": "C68_drain_claim (all submitted tasks run even if the pool is stopped) is false; the rest, including order, at-most-once, termination and quiescence, is proved for every number of workers and schedule."
  },
  {
   "property": "C69",
   "status": "proved",
   "theorems": [
    "Verif.C69_split",
    "Verif.C69_count",
    "Verif.C69_least"
   ],
   "note": "All parts proved for lists of every length."
  },
  {
   "property": "C70",
   "status": "proved",
   "theorems": [
    "Verif.C70_counts",
    "Verif.C70_distribution",
    "Verif.C70_process",
    "Verif.C70_savings",
    "Verif.C70_converged",
    "Verif.C70_peak",
    "Verif.C70_savings_double",
    "Verif.C70_totals"
   ],
   "note": "Totals, distribution, peak and savings proved over every history; savings over the reals and, in doubles, for every rounding (costs stay finite, the percentage stays in [0,100])."
  },
  {
   "property": "C71",
   "status": "proved",
   "theorems": [
    "Verif.C71_conserved",
    "Verif.C71_once",
    "Verif.C71_losses",
    "Verif.C71_limits",
    "Verif.C71_drained",
    "Verif.C71_overflow"
   ],
   "note": "Proved for every schedule, any number of workloads and tasks; C71_overflow exhibits a run in which a full queue loses tasks."
  },
  {
   "property": "C72",
   "status": "partial",
   "theorems": [
    "Verif.C72_refuted",
    "Verif.C72_modifier_range",
    "Verif.C72_modifier_partial",
    "Verif.C72_double_partial",
    "Verif.C72_double_refuted"
   ],
   "note": "False as stated: 0.48 occurs; the sharp range is 0.48 to 1.3 for every goal, count and pattern."
  },
  {
   "property": "C73",
   "status": "proved",
   "theorems": [
    "Verif.C73_client",
    "Verif.C73_build",
    "Verif.C73_options",
    "Verif.C73_shorthands"
   ],
   "note": "C73_build: success exactly for a number not above 1, in doubles, with fair draws in the connection loop. C73_client describes the client built, for every number type; C73_options the option list."
  },
  {
   "property": "C74",
   "status": "partial",
   "theorems": [
    "Verif.C74_consistent",
    "Verif.C74_success",
    "Verif.C74_levels",
    "Verif.C74_speed_bounds",
    "Verif.C74_diagnose",
    "Verif.C74_levels_double",
    "Verif.C74_refuted",
    "Verif.C74_excellent_partial",
    "Verif.C74_speed"
   ],
   "note": "Levels, descriptions, speeds and diagnoses are proved monotone and consistent, over the reals and in doubles. C74_claim (only 0.8 and more is excellent) is false for NaN; proved for every other double."
  },
  {
   "property": "C75",
   "status": "partial",
   "theorems": [
    "Verif.C75_oscillator",
    "Verif.C75_agree_iff",
    "Verif.C75_refuted",
    "Verif.C75_agree_partial",
    "Verif.C75_from_swarm",
    "Verif.C75_zero_differs",
    "Verif.C75_from_swarm_double"
   ],
   "note": "False in general: token budget, frequency_lock and energy_aware rates and zero values are treated differently. Exact agreement condition proved, and agreement for swarm-derived configurations, the latter also in doubles and for the whole state."
  },
  {
   "property": "C76",
   "status": "partial",
   "theorems": [
    "Verif.C76_select",
    "Verif.C76_control",
    "Verif.C76_other",
    "Verif.C76_ends",
    "Verif.C76_last",
    "Verif.C76_refuted",
    "Verif.C76_pattern_partial"
   ],
   "note": "The effect of every key in every state is proved exactly, as is that scale and goal are always those selected last. C76_claim (the same for patterns) is false while the pattern is selected automatically."
  },
  {
   "property": "C77",
   "status": "partial",
   "theorems": [
    "Verif.C77_space",
    "Verif.C77_keys_partial",
    "Verif.C77_refuted",
    "Verif.C77_orphan",
    "Verif.C77_paused_partial",
    "Verif.C77_race_refuted",
    "Verif.C77_single_partial",
    "Verif.C77_stop",
    "Verif.C77_calls",
    "Verif.C77_return"
   ],
   "note": "C77_claim is false, and so is the version for histories in which resume only follows pause (C77_race_claim). Proved: no run is live while paused in such histories; at most one run if goroutines start before the next call; orphans stay live; stopping ends all; which keys lead to which calls."
  },
  {
   "property": "C78",
   "status": "partial",
   "theorems": [
    "Verif.C78_best_pattern_partial",
    "Verif.C78_refuted",
    "Verif.C78_qualifier_monotone",
    "Verif.C78_double_partial",
    "Verif.C78_double_refuted",
    "Verif.C78_qualifier_double"
   ],
   "note": "False for at least 1000 or at most 50 agents; proved in between and for the qualifier."
  },
  {
   "property": "C79",
   "status": "partial",
   "theorems": [
    "Verif.C79_predict_double_partial",
    "Verif.C79_predict",
    "Verif.C79_predict_line",
    "Verif.C79_refuted"
   ],
   "note": "Over the reals C79_predict and C79_predict_line hold. C79_claim (never negative, in doubles) is false on amd64 (C79_refuted); C79_predict_double_partial: it holds if the remaining coherence is at most 9e10 times the rate."
  },
  {
   "property": "C80",
   "status": "partial",
   "theorems": [
    "Verif.C80_perfect",
    "Verif.C80_client",
    "Verif.C80_default_partial",
    "Verif.C80_refuted",
    "Verif.C80_perfect_double",
    "Verif.C80_client_double",
    "Verif.C80_default_double_partial",
    "Verif.C80_double_refuted",
    "Verif.C80_tie"
   ],
   "note": "C80_claim is false. C80_client gives the exact condition for every goal, scale and coherence; C80_default_partial the exact table for the default coherence over the reals, C80_default_double_partial the table in doubles, which differs in one entry (C80_tie)."
  },
  {
   "property": "C81",
   "status": "partial",
   "theorems": [
    "Verif.C81_complete_double",
    "Verif.C81_detect",
    "Verif.C81_unfilled_partial",
    "Verif.C81_refuted",
    "Verif.C81_jump_circle",
    "Verif.C81_complete"
   ],
   "note": "C81_claim is false. Detection characterised exactly (panic included); completion has exactly as many phases as the gap has interior samples, none for a detected gap; where there is an interior, the phases advance in equal steps, also in doubles."
  },
  {
   "property": "C82",
   "status": "partial",
   "theorems": [
    "Verif.C82_refuted",
    "Verif.C82_stuck",
    "Verif.C82_reset_partial",
    "Verif.C82_length"
   ],
   "note": "C82_claim is false: Reset can deadlock. The stuck states are characterised exactly; Reset never blocks in runs in which the processor does not receive between its test and its receive."
  },
  {
   "property": "C83",
   "status": "partial",
   "theorems": [
    "Verif.C83_refuted",
    "Verif.C83_later_partial",
    "Verif.C83_undisturbed"
   ],
   "note": "C83_claim is false: batches held by the processor are processed after the reset. What can be processed later is characterised; an undisturbed reset leaves nothing behind."
  },
  {
   "property": "C84",
   "status": "partial",
   "theorems": [
    "Verif.C84_ids_partial",
    "Verif.C84_refuted"
   ],
   "note": "C84_claim is false after a reset. Proved for every run without one."
  },
  {
   "property": "C85",
   "status": "partial",
   "theorems": [
    "Verif.C85_refuted",
    "Verif.C85_signal_partial"
   ],
   "note": "C85_claim is false after a restart; the exact condition is proved."
  },
  {
   "property": "C86",
   "status": "partial",
   "theorems": [
    "Verif.C86_refuted",
    "Verif.C86_exact_partial"
   ],
   "note": "C86_claim is false; the exact condition is proved."
  },
  {
   "property": "C87",
   "status": "partial",
   "theorems": [
    "Verif.C87_coherence",
    "Verif.C87_frame",
    "Verif.C87_reset_partial",
    "Verif.C87_reset_met",
    "Verif.C87_refuted",
    "Verif.C87_coherence_double",
    "Verif.C87_reset_double_partial"
   ],
   "note": "C87_claim is false for goals 6 and 7; the coherence after reset is computed exactly for every goal over the reals and with an error bound in doubles, where the same goals miss and meet their targets."
  },
  {
   "property": "C88",
   "status": "partial",
   "theorems": [
    "Verif.C88_disrupt",
    "Verif.C88_effect",
    "Verif.C88_synchronised",
    "Verif.C88_first_look",
    "Verif.C88_flag_partial",
    "Verif.C88_refuted",
    "Verif.C88_disrupt_double",
    "Verif.C88_effect_double"
   ],
   "note": "C88_claim (the flag) is false; the exact condition and the effect of the disruption are proved, the effect also in doubles."
  },
  {
   "property": "C89",
   "status": "proved",
   "theorems": [
    "Verif.C89_reset",
    "Verif.C89_high",
    "Verif.C89_sparse",
    "Verif.C89_steady",
    "Verif.C89_mixed",
    "Verif.C89_paused",
    "Verif.C89_burst_sizes",
    "Verif.C89_burst"
   ],
   "note": "All parts proved for every sequence of ticks and draws, paused or not."
  },
  {
   "property": "C90",
   "status": "partial",
   "theorems": [
    "Verif.C90_float32",
    "Verif.C90_range_partial",
    "Verif.C90_refuted",
    "Verif.C90_chances",
    "Verif.C90_intn"
   ],
   "note": "C90_claim (below 1) is false for 128 words; range, chances and uniformity are proved exactly. The random source itself is not modelled."
  },
  {
   "property": "C91",
   "status": "partial",
   "theorems": [
    "Verif.C91_frozen",
    "Verif.C91_consistent_partial",
    "Verif.C91_refuted",
    "Verif.C91_sequence",
    "Verif.C91_consistent_double_partial"
   ],
   "note": "C91_claim is false if the swarm moves between the two reads; proved if it does not (exactly over the reals, up to twice the error of C133 in doubles), and that nothing changes until resume."
  },
  {
   "property": "C92",
   "status": "proved",
   "theorems": [
    "Verif.C92_shorthand",
    "Verif.C92_builds",
    "Verif.C92_target"
   ],
   "note": "Proved for every goal and scale, in doubles; building needs fair draws of neighbours (C92_builds)."
  },
  {
   "property": "C93",
   "status": "partial",
   "theorems": [
    "Verif.C93_partial",
    "Verif.C93_mixed",
    "Verif.C93_refuted",
    "Verif.C93_burst",
    "Verif.C93_flag",
    "Verif.C93_mixed_age"
   ],
   "note": "C93_claim is false for Mixed, which is always quiet; proved for all other patterns."
  },
  {
   "property": "C94",
   "status": "proved",
   "theorems": [
    "Verif.C94_interpolated",
    "Verif.C94_template",
    "Verif.C94_adjustment",
    "Verif.C94_add",
    "Verif.C94_latest"
   ],
   "note": "All parts proved; the template path may overshoot beyond a relative error of 1 (C66_frequency_overshoot)."
  },
  {
   "property": "C95",
   "status": "proved",
   "theorems": [
    "Verif.C95_velocity",
    "Verif.C95_rate_few",
    "Verif.C95_rate",
    "Verif.C95_switch",
    "Verif.C95_approaching",
    "Verif.C95_stalling",
    "Verif.C95_sample",
    "Verif.C95_switch_double",
    "Verif.C95_ten_double",
    "Verif.C95_ninety",
    "Verif.C95_stalling_double",
    "Verif.C95_ten"
   ],
   "note": "All parts proved over the reals for every history of records and resets. In doubles the switch is exact unless 7n = 10k (C95_switch_double), and for windows of ten (C95_ten_double); C95_ninety shows where it is not."
  },
  {
   "property": "C96",
   "status": "partial",
   "theorems": [
    "Verif.C96_best",
    "Verif.C96_records",
    "Verif.C96_refuted",
    "Verif.C96_no_success_partial"
   ],
   "note": "C96_claim (successes at most attempts) is false; the choice and the exact contents of the records are proved."
  },
  {
   "property": "C97",
   "status": "partial",
   "theorems": [
    "Verif.C97_no_effect",
    "Verif.C97_refuted"
   ],
   "note": "C97_claim is false: proved that the selection never affects a run."
  },
  {
   "property": "C98",
   "status": "partial",
   "theorems": [
    "Verif.C98_forward",
    "Verif.C98_converges",
    "Verif.C98_closer_partial",
    "Verif.C98_sent_round",
    "Verif.C98_refuted",
    "Verif.C98_forward_double",
    "Verif.C98_converges_double"
   ],
   "note": "C98_claim (closer on the circle) is false; proved exactly when it holds, and that the forward distance shrinks geometrically, also in doubles."
  },
  {
   "property": "C99",
   "status": "partial",
   "theorems": [
    "Verif.C99_own_double",
    "Verif.C99_matches",
    "Verif.C99_own",
    "Verif.C99_anything",
    "Verif.C99_identified_partial",
    "Verif.C99_wrong_template",
    "Verif.C99_refuted"
   ],
   "note": "C99_claim (identified as a template that matches) is false; proved what Matches accepts, that a template matches itself (also in doubles) and, under equal tolerances without variations, the claim."
  },
  {
   "property": "C100",
   "status": "partial",
   "theorems": [
    "Verif.C100_regions",
    "Verif.C100_deviation",
    "Verif.C100_status",
    "Verif.C100_evenly_partial",
    "Verif.C100_refuted",
    "Verif.C100_regions_double"
   ],
   "note": "C100_claim is false; the loads and the status are determined exactly."
  },
  {
   "property": "C101",
   "status": "partial",
   "theorems": [
    "Verif.C101_range",
    "Verif.C101_green_partial",
    "Verif.C101_percents",
    "Verif.C101_refuted",
    "Verif.C101_green_double_partial"
   ],
   "note": "Range proved; C101_claim (green iff target reached) is false, the exact condition is proved for each goal, over the reals and in doubles."
  },
  {
   "property": "C102",
   "status": "partial",
   "theorems": [
    "Verif.C102_refuted",
    "Verif.C102_agree_partial",
    "Verif.C102_energy",
    "Verif.C102_traffic",
    "Verif.C102_steady",
    "Verif.C102_agree_double_partial",
    "Verif.C102_double_refuted",
    "Verif.C102_energy_double",
    "Verif.C102_traffic_double"
   ],
   "note": "C102_claim is false; agreement proved for the goals where it holds. In doubles there is one further exception, the double just below 0.8 (C102_double_refuted, C102_agree_double_partial)."
  },
  {
   "property": "C103",
   "status": "partial",
   "theorems": [
    "Verif.C103_votes",
    "Verif.C103_shown",
    "Verif.C103_coherent",
    "Verif.C103_unanimous",
    "Verif.C103_split",
    "Verif.C103_refuted",
    "Verif.C103_double"
   ],
   "note": "One direction proved (announced implies coherent), the other is false. C103_double: the panel shows the same in doubles."
  },
  {
   "property": "C104",
   "status": "partial",
   "theorems": [
    "Verif.C104_timing",
    "Verif.C104_latency",
    "Verif.C104_histogram",
    "Verif.C104_health",
    "Verif.C104_resilient",
    "Verif.C104_resilient_coherent",
    "Verif.C104_indicator",
    "Verif.C104_sides",
    "Verif.C104_refuted",
    "Verif.C104_timing_double",
    "Verif.C104_health_double",
    "Verif.C104_dot_double",
    "Verif.C104_resilient_double",
    "Verif.C104_nan_healthy",
    "Verif.C104_latency_double",
    "Verif.C104_latency_rounded",
    "Verif.C104_indicator_double"
   ],
   "note": "C104_claim (symmetry around phase 0) is false; every panel is characterised exactly over the reals, and in doubles exactly or up to 1e-12."
  },
  {
   "property": "C105",
   "status": "proved",
   "theorems": [
    "Verif.C105_history",
    "Verif.C105_series",
    "Verif.C105_covered"
   ],
   "note": "All parts proved for every history; history, series and coverage for every number type."
  },
  {
   "property": "C106",
   "status": "partial",
   "theorems": [
    "Verif.C106_scattered_double",
    "Verif.C106_field",
    "Verif.C106_scattered",
    "Verif.C106_green_partial",
    "Verif.C106_always_green",
    "Verif.C106_synchronised",
    "Verif.C106_sides",
    "Verif.C106_refuted"
   ],
   "note": "Mean field proved; C106_claim is false, it holds for agents less than a turn ahead of the computed mean phase. Scattered swarms also in doubles."
  },
  {
   "property": "C107",
   "status": "partial",
   "theorems": [
    "Verif.C107_bounds_double",
    "Verif.C107_bounds",
    "Verif.C107_drawn",
    "Verif.C107_drawn_partial",
    "Verif.C107_missing",
    "Verif.C107_refuted"
   ],
   "note": "C107_claim is false above coherence 0.92; bounds (also in doubles) and the exact condition are proved."
  },
  {
   "property": "C108",
   "status": "partial",
   "theorems": [
    "Verif.C108_once",
    "Verif.C108_scale",
    "Verif.C108_settled",
    "Verif.C108_refuted"
   ],
   "note": "C108_once is the first half; C108_claim (alike in a settled swarm) is false, C108_settled says what happens."
  },
  {
   "property": "C109",
   "status": "partial",
   "theorems": [
    "Verif.C109_forward",
    "Verif.C109_rest",
    "Verif.C109_closer_partial",
    "Verif.C109_sent_round",
    "Verif.C109_refuted",
    "Verif.C109_double"
   ],
   "note": "C109_claim is false; it holds for agents whose way forward is the shorter (C109_closer_partial); forward contraction proved for all, in doubles too."
  },
  {
   "property": "C110",
   "status": "partial",
   "theorems": [
    "Verif.C110_once_double",
    "Verif.C110_change_double",
    "Verif.C110_once",
    "Verif.C110_change",
    "Verif.C110_synchronised",
    "Verif.C110_three",
    "Verif.C110_refuted"
   ],
   "note": "C110_claim (coherence does not rise) is false; step and change (also in doubles) and iteration bounds are proved."
  },
  {
   "property": "C111",
   "status": "proved",
   "theorems": [
    "Verif.C111_contracts_double",
    "Verif.C111_synchronises_double",
    "Verif.C111_contracts",
    "Verif.C111_synchronises",
    "Verif.C111_no_gap"
   ],
   "note": "The coherence is shown to exceed 0.8 at least once, over the reals and in doubles (given a bound for the errors of the library sine and cosine); that it stays there is not claimed. Runs without phase gap (C111_no_gap says when the completion asks for no shift)."
  },
  {
   "property": "C112",
   "status": "partial",
   "theorems": [
    "Verif.C112_default_double",
    "Verif.C112_built",
    "Verif.C112_default",
    "Verif.C112_randomised",
    "Verif.C112_test_partial",
    "Verif.C112_refuted"
   ],
   "note": "C112_claim (test agents are predictable) is false; everything but the local goal is. The default agent also in doubles."
  },
  {
   "property": "C113",
   "status": "proved",
   "theorems": [
    "Verif.C113_double",
    "Verif.C113_wave",
    "Verif.C113_templates"
   ],
   "note": "Proved over the reals for every number of points, and in doubles up to 20 roundings and the accuracy of the library for fewer than 2^52 points; a negative number panics."
  },
  {
   "property": "C114",
   "status": "partial",
   "theorems": [
    "Verif.C114_recommended",
    "Verif.C114_between",
    "Verif.C114_scales",
    "Verif.C114_refuted"
   ],
   "note": "C114_claim (tiny swarms fully connected) is false; the other parts are proved."
  },
  {
   "property": "C115",
   "status": "proved",
   "theorems": [
    "Verif.C115_statistics",
    "Verif.C115_derived"
   ],
   "note": "All parts proved over the reals for every history."
  },
  {
   "property": "C116",
   "status": "partial",
   "theorems": [
    "Verif.C116_height_double",
    "Verif.C116_nan",
    "Verif.C116_height",
    "Verif.C116_mirror",
    "Verif.C116_refuted"
   ],
   "note": "C116_claim (equal bars mean close phases) is false; C116_height characterises the bars, C116_height_double up to 1e-12 in doubles."
  },
  {
   "property": "C117",
   "status": "partial",
   "theorems": [
    "Verif.C117_levers",
    "Verif.C117_presets",
    "Verif.C117_stability",
    "Verif.C117_refuted",
    "Verif.C117_precision_partial",
    "Verif.C117_precision_refuted",
    "Verif.C117_size",
    "Verif.C117_size_spread",
    "Verif.C117_size_rest",
    "Verif.C117_size_refuted",
    "Verif.C117_extremes",
    "Verif.C117_levers_double",
    "Verif.C117_presets_double"
   ],
   "note": "The levers, the monotonicity in the size and the extremes are proved, the levers also in doubles and for all presets; the three claims taken from comments are false."
  },
  {
   "property": "C118",
   "status": "partial",
   "theorems": [
    "Verif.C118_rates_double",
    "Verif.C118_energy_double",
    "Verif.C118_rates",
    "Verif.C118_energy",
    "Verif.C118_dearer",
    "Verif.C118_arrives",
    "Verif.C118_refuted"
   ],
   "note": "Costs, gains and arrival are proved, prices and gains of one proposal also in doubles; that the energy-aware strategy saves energy is false."
  },
  {
   "property": "C119",
   "status": "partial",
   "theorems": [
    "Verif.C119_full",
    "Verif.C119_ring",
    "Verif.C119_star",
    "Verif.C119_unnoticed",
    "Verif.C119_count",
    "Verif.C119_never",
    "Verif.C119_refuted"
   ],
   "note": "The maps hold exactly the named graphs; that the agents are connected is false for two or more agents."
  },
  {
   "property": "C120",
   "status": "partial",
   "theorems": [
    "Verif.C120_near_double",
    "Verif.C120_near",
    "Verif.C120_together",
    "Verif.C120_refuted"
   ],
   "note": "The decision (also in doubles) and its unanimity are proved; that a synchronised swarm sends is false."
  },
  {
   "property": "C121",
   "status": "proved",
   "theorems": [
    "Verif.C121_parse",
    "Verif.C121_title",
    "Verif.C121_lines",
    "Verif.C121_flood"
   ],
   "note": "All parts proved for all strings, scales and times."
  },
  {
   "property": "C122",
   "status": "partial",
   "theorems": [
    "Verif.C122_request_double",
    "Verif.C122_release_double",
    "Verif.C122_blend_same",
    "Verif.C122_blend_differs",
    "Verif.C122_propose",
    "Verif.C122_request",
    "Verif.C122_release",
    "Verif.C122_decide",
    "Verif.C122_refuted"
   ],
   "note": "Where the doubles agree and where they differ is proved, for energy also in float64; that they always agree is false."
  },
  {
   "property": "C123",
   "status": "partial",
   "theorems": [
    "Verif.C123_perceived_goal",
    "Verif.C123_gathered_partial",
    "Verif.C123_refuted"
   ],
   "note": "Proved for arcs up to 1.57 radians; between a quarter and half a turn the special case of PhaseDifference breaks it."
  },
  {
   "property": "C124",
   "status": "partial",
   "theorems": [
    "Verif.C124_context",
    "Verif.C124_out_of_reach",
    "Verif.C124_moves_iff_partial",
    "Verif.C124_accepted_step",
    "Verif.C124_frozen",
    "Verif.C124_pair_never_meets",
    "Verif.C124_refuted",
    "Verif.C124_far_double",
    "Verif.C124_frozen_double",
    "Verif.C124_pair_double"
   ],
   "note": "The exact condition for moving is proved, and that agents out of reach stay put for ever, in doubles too; the claim itself is false."
  },
  {
   "property": "C125",
   "status": "proved",
   "theorems": [
    "Verif.C125_plain",
    "Verif.C125_energy_aware_still",
    "Verif.C125_small_steps",
    "Verif.C125_plain_double",
    "Verif.C125_small_steps_double",
    "Verif.C125_accurate_double"
   ],
   "note": "Proved over the reals for every built-in strategy and all parameters, and in doubles up to 1e-9 for libraries accurate to 1/50."
  },
  {
   "property": "C126",
   "status": "partial",
   "theorems": [
    "Verif.C126_types",
    "Verif.C126_assignment",
    "Verif.C126_rotation",
    "Verif.C126_labels",
    "Verif.C126_refuted",
    "Verif.C126_list_partial"
   ],
   "note": "All parts proved except that the list of agents tells the kinds apart, which is false for load distribution only."
  },
  {
   "property": "C127",
   "status": "partial",
   "theorems": [
    "Verif.C127_never",
    "Verif.C127_refuted",
    "Verif.C127_totals_partial",
    "Verif.C127_pulse"
   ],
   "note": "Totals and pulse proved; the peak coherence in the summary is proved to be always 0, so the claim about it is false."
  },
  {
   "property": "C128",
   "status": "partial",
   "theorems": [
    "Verif.C128_hidden",
    "Verif.C128_refuted",
    "Verif.C128_shown_partial"
   ],
   "note": "What the number shown really is is proved; that it counts tasks is false."
  },
  {
   "property": "C129",
   "status": "partial",
   "theorems": [
    "Verif.C129_double",
    "Verif.C129_good_double",
    "Verif.C129_keys",
    "Verif.C129_counts",
    "Verif.C129_good",
    "Verif.C129_marks",
    "Verif.C129_refuted",
    "Verif.C129_reason_given",
    "Verif.C129_table",
    "Verif.C129_reasons_partial",
    "Verif.C129_specific",
    "Verif.C129_scale"
   ],
   "note": "All parts proved except that the reasons fit, which is false for one entry of the table only. Grades are the same in doubles."
  },
  {
   "property": "C130",
   "status": "partial",
   "theorems": [
    "Verif.C130_resetting_partial",
    "Verif.C130_disrupted_partial",
    "Verif.C130_goes_out",
    "Verif.C130_can_end",
    "Verif.C130_refuted"
   ],
   "note": "Proved for a reset or disruption not overtaken by the goroutine of an earlier one; the full claim is false, with witnesses."
  },
  {
   "property": "C131",
   "status": "partial",
   "theorems": [
    "Verif.C131_order",
    "Verif.C131_every_key_partial",
    "Verif.C131_refuted",
    "Verif.C131_full"
   ],
   "note": "Order and capacity proved; that every key counts is proved for histories in which nothing is lost, and false in general."
  },
  {
   "property": "C132",
   "status": "partial",
   "theorems": [
    "Verif.C132_when",
    "Verif.C132_one_run_partial",
    "Verif.C132_forever",
    "Verif.C132_refuted"
   ],
   "note": "Proved for one run; false for the program, since every switch begins a new run."
  },
  {
   "property": "C133",
   "status": "proved",
   "theorems": [
    "Verif.C133_accurate",
    "Verif.C133_range",
    "Verif.C133_order",
    "Verif.C133_decision"
   ],
   "note": "Doubles against the exact order parameter, for any library whose sine and cosine are within a given error."
  },
  {
   "property": "C134",
   "status": "proved",
   "theorems": [
    "Verif.C134_wrap"
   ],
   "note": "All finite doubles, any rounding to nearest."
  },
  {
   "property": "C135",
   "status": "proved",
   "theorems": [
    "Verif.C135_difference"
   ],
   "note": "Phases up to 14 in size, outside the two pairs that the code special-cases."
  },
  {
   "property": "C136",
   "status": "proved",
   "theorems": [
    "Verif.C136_nudge",
    "Verif.C136_converges",
    "Verif.C136_eventually"
   ],
   "note": "Doubles, any number of nudges; targets at which the code special-cases the difference are excluded."
  },
  {
   "property": "C137",
   "status": "proved",
   "theorems": [
    "Verif.C137_measured",
    "Verif.C137_swarm"
   ],
   "note": "Doubles, any swarm size below 2^53 and any number of nudges."
  },
  {
   "property": "C138",
   "status": "proved",
   "theorems": [
    "Verif.C138_order",
    "Verif.C138_complete",
    "Verif.C138_time",
    "Verif.C138_exact",
    "Verif.C138_progress",
    "Verif.C138_leak",
    "Verif.C138_ends"
   ],
   "note": "All interleavings of goroutine, receiver and clock; the goroutine without an end is a finding."
  },
  {
   "property": "C139",
   "status": "proved",
   "theorems": [
    "Verif.C139_budget",
    "Verif.C139_total",
    "Verif.C139_range",
    "Verif.C139_exhausted",
    "Verif.C139_budget_double",
    "Verif.C139_range_double"
   ],
   "note": "Real numbers: all histories of networks of any size. Doubles: all histories of an agent with energy in [0, 1000] and a finite phase, the bound grows by 10^-11 per act."
  },
  {
   "property": "C140",
   "status": "partial",
   "theorems": [
    "Verif.C140_health",
    "Verif.C140_latency",
    "Verif.C140_cells",
    "Verif.C140_filled",
    "Verif.C140_capacity",
    "Verif.C140_capacity_refuted",
    "Verif.C140_load_refuted",
    "Verif.C140_load_partial",
    "Verif.C140_schedule",
    "Verif.C140_health_double",
    "Verif.C140_schedule_double_partial",
    "Verif.C140_schedule_double_refuted",
    "Verif.C140_counts"
   ],
   "note": "Reals and doubles; three of the expected parts are refuted, with what holds instead."
  },
  {
   "property": "C141",
   "status": "partial",
   "theorems": [
    "Verif.C141_colour_double",
    "Verif.C141_colour_partial",
    "Verif.C141_refuted",
    "Verif.C141_shade"
   ],
   "note": "Refuted by a batch of one task; the exact colours over all sequences of events are proved over the reals and, with ties to even and batches of at most 100, in doubles."
  },
  {
   "property": "C142",
   "status": "partial",
   "theorems": [
    "Verif.C142_duration",
    "Verif.C142_time",
    "Verif.C142_clock_partial",
    "Verif.C142_refuted"
   ],
   "note": "Every rounding to nearest; quotients exact. The expected clock is refuted, with what is shown instead."
  },
  {
   "property": "C143",
   "status": "proved",
   "theorems": [
    "Verif.C143_all",
    "Verif.C143_clear"
   ],
   "note": "Full; values are given as printed."
  },
  {
   "property": "C144",
   "status": "partial",
   "theorems": [
    "Verif.C144_insight",
    "Verif.C144_agree_partial",
    "Verif.C144_refuted",
    "Verif.C144_agree_double_partial"
   ],
   "note": "Refuted for the scale tiny; the exact range of targets is proved over the reals, agreement for targets from 0.6 to 0.88 in doubles."
  },
  {
   "property": "C145",
   "status": "proved",
   "theorems": [
    "Verif.C145_local",
    "Verif.C145_goal"
   ],
   "note": "In doubles, for every rounding to nearest and every library of accuracy ε; the goal for up to 2^40 neighbours within 1/4 of an angle."
  },
  {
   "property": "C146",
   "status": "partial",
   "theorems": [
    "Verif.C146_coherence_partial",
    "Verif.C146_order",
    "Verif.C146_green",
    "Verif.C146_whole_partial",
    "Verif.C146_share_partial",
    "Verif.C146_coherence_refuted",
    "Verif.C146_refuted"
   ],
   "note": "Refuted by 0.29 for every rounding to nearest; what is shown instead is proved in doubles."
  },
  {
   "property": "C147",
   "status": "proved",
   "theorems": [
    "Verif.C147_wave",
    "Verif.C147_bin",
    "Verif.C147_histogram",
    "Verif.C147_picture"
   ],
   "note": "In doubles, for every rounding to nearest; the picture for every library of accuracy 1/10000."
  },
  {
   "property": "C148",
   "status": "partial",
   "theorems": [
    "Verif.C148_nan",
    "Verif.C148_nan_cost",
    "Verif.C148_accounting",
    "Verif.C148_free",
    "Verif.C148_refuted",
    "Verif.C148_spend_partial"
   ],
   "note": "Refuted by rounding: adjustments below half a unit in the last place cost nothing; the error is bounded by one rounding per successful action. C148_nan and C148_nan_cost are the NaN cases."
  },
  {
   "property": "C149",
   "status": "partial",
   "theorems": [
    "Verif.C149_colour",
    "Verif.C149_refuted",
    "Verif.C149_percent_partial",
    "Verif.C149_latency",
    "Verif.C149_drift",
    "Verif.C149_battery",
    "Verif.C149_load",
    "Verif.C149_rounds",
    "Verif.C149_empty",
    "Verif.C149_recovery_refuted",
    "Verif.C149_recovery_partial",
    "Verif.C149_flags",
    "Verif.C149_spread",
    "Verif.C149_shares"
   ],
   "note": "Percentage beside status and recovery time are refuted; what holds instead is proved."
  },
  {
   "property": "C150",
   "status": "partial",
   "theorems": [
    "Verif.C150_first",
    "Verif.C150_adaptive_partial",
    "Verif.C150_refuted",
    "Verif.C150_threshold",
    "Verif.C150_rate_partial",
    "Verif.C150_rate_refuted"
   ],
   "note": "All three parts are refuted; exact behaviour proved for every history in doubles, the rate at the reals."
  },
  {
   "property": "C151",
   "status": "partial",
   "theorems": [
    "Verif.C151_coherence_double",
    "Verif.C151_agents",
    "Verif.C151_pending",
    "Verif.C151_counts",
    "Verif.C151_state",
    "Verif.C151_costs",
    "Verif.C151_coherence",
    "Verif.C151_refuted",
    "Verif.C151_frozen_partial"
   ],
   "note": "That a paused display stands still is refuted; what stands still is proved, and everything else that is shown; the coherence also in doubles."
  },
  {
   "property": "C152",
   "status": "partial",
   "theorems": [
    "Verif.C152_clamp",
    "Verif.C152_lattice",
    "Verif.C152_clamp_double",
    "Verif.C152_nan",
    "Verif.C152_symmetric_partial",
    "Verif.C152_refuted"
   ],
   "note": "Symmetry is refuted for NaN in doubles; proved for everything else."
  },
  {
   "property": "C153",
   "status": "partial",
   "theorems": [
    "Verif.C153_texts",
    "Verif.C153_gauge_partial",
    "Verif.C153_reversed",
    "Verif.C153_blind",
    "Verif.C153_refuted",
    "Verif.C153_best_worst",
    "Verif.C153_topic"
   ],
   "note": "Refuted for the recovery from failures, where it is reversed, and not meaningful for two goals whose gauge ignores phases; proved for the other five."
  },
  {
   "property": "C154",
   "status": "proved",
   "theorems": [
    "Verif.C154_configuration",
    "Verif.C154_workloads"
   ],
   "note": "For every start and every sequence of keys."
  },
  {
   "property": "C155",
   "status": "partial",
   "theorems": [
    "Verif.C155_always",
    "Verif.C155_figures",
    "Verif.C155_refuted",
    "Verif.C155_percent_partial"
   ],
   "note": "Refuted: the praise is unconditional. Proved: agreement of the figures of both displays, and when savings exceed one half."
  },
  {
   "property": "C156",
   "status": "proved",
   "theorems": [
    "Verif.C156_panel",
    "Verif.C156_words"
   ],
   "note": "For every start and every sequence of keys."
  },
  {
   "property": "C157",
   "status": "partial",
   "theorems": [
    "Verif.C157_rejects",
    "Verif.C157_named",
    "Verif.C157_optimized_partial",
    "Verif.C157_refuted"
   ],
   "note": "Refuted for the constructor of large swarms, which is characterised; proved for the usual constructor."
  },
  {
   "property": "C158",
   "status": "proved",
   "theorems": [
    "Verif.C158_touches",
    "Verif.C158_born",
    "Verif.C158_born_config",
    "Verif.C158_stays",
    "Verif.C158_nan",
    "Verif.C158_nan_accepted",
    "Verif.C158_busy",
    "Verif.C158_size",
    "Verif.C158_size_config"
   ],
   "note": "In doubles; swarms of at most ten million agents for the part about synchronisation."
  },
  {
   "property": "C159",
   "status": "partial",
   "theorems": [
    "Verif.C159_shown_partial",
    "Verif.C159_refuted",
    "Verif.C159_taken",
    "Verif.C159_estimate"
   ],
   "note": "Refuted: the figure counts batches. Proved: bounds, when it is positive, and exactly when it is right."
  }
 ]
}
