{
 "claims": [
  {
   "property": "C01",
   "status": "partial",
   "theorems": [
    "Ama.C01_read_clean",
    "Ama.C01_round_trip_partial",
    "Ama.C01_blank_refuted",
    "Ama.addToCondition_join"
   ],
   "note": "Round trip holds for every order and both separators except for the set {''}; the excluded case is refuted by a witness."
  },
  {
   "property": "C02",
   "status": "partial",
   "theorems": [
    "Ama.C02_add_is_union",
    "Ama.C02_concat_partial",
    "Ama.C02_concat_refuted"
   ],
   "note": "Union, monotone, idempotent, commutative in full; the concatenation law needs non-empty parts (refuted otherwise)."
  },
  {
   "property": "C03",
   "status": "proved",
   "theorems": [
    "Ama.C03_most_specific_variant",
    "Ama.C03_unique_order_independent",
    "Ama.C03_dropoff"
   ],
   "note": "C03_dropoff covers damage tables with AoE drop-off for the first target; C07 covers the further targets."
  },
  {
   "property": "C04",
   "status": "partial",
   "theorems": [
    "Ama.C04_ambiguity_refuted",
    "Ama.C04_never_reported_partial",
    "Ama.C04_last_declared_wins_partial"
   ],
   "note": "The property is false of the code: ambiguity is never reported."
  },
  {
   "property": "C05",
   "status": "partial",
   "theorems": [
    "Ama.C05_total_with_default_partial",
    "Ama.C05_keyError_iff",
    "Ama.C05_dropoff",
    "Ama.C05_channeling_refuted"
   ],
   "note": "False for channeling specifications; proved for all the others, with or without AoE drop-off."
  },
  {
   "property": "C06",
   "status": "proved",
   "theorems": [
    "Ama.C06_irrelevant_condition",
    "Ama.C06_single"
   ],
   "note": ""
  },
  {
   "property": "C07",
   "status": "partial",
   "theorems": [
    "Ama.C07_dropoff_partial",
    "Ama.C07_tenth_target_refuted",
    "Ama.C07_single_spec_refuted"
   ],
   "note": "Proved for tables and targets 2..9; false for target 10 and for single specifications."
  },
  {
   "property": "C08",
   "status": "proved",
   "theorems": [
    "Ama.C08_window",
    "Ama.C08_not_before",
    "Ama.trackers_wellFormed"
   ],
   "note": "Stated for any history of operations that does not re-apply, end or clear the effect."
  },
  {
   "property": "C09",
   "status": "proved",
   "theorems": [
    "Ama.C09_first_n_uses",
    "Ama.C09_at_most_n"
   ],
   "note": "For effects outside the priority list; inside it C12 applies as well."
  },
  {
   "property": "C10",
   "status": "proved",
   "theorems": [
    "Ama.C10_reapplication",
    "Ama.C10_extend_only"
   ],
   "note": ""
  },
  {
   "property": "C11",
   "status": "proved",
   "theorems": [
    "Ama.C11_product_and_sum",
    "Ama.C11_order_independent"
   ],
   "note": "Which effects are valid is C12_priority."
  },
  {
   "property": "C12",
   "status": "partial",
   "theorems": [
    "Ama.C12_priority",
    "Ama.C12_at_most_one",
    "Ama.C12_only_first_partial",
    "Ama.C12_duplicate_refuted"
   ],
   "note": "False for a priority list that names an effect twice; proved otherwise."
  },
  {
   "property": "C13",
   "status": "partial",
   "theorems": [
    "Ama.C13_other_targets",
    "Ama.C13_expiry_local",
    "Ama.C13_buffs_partial",
    "Ama.C13_buffs_refuted"
   ],
   "note": "Other targets: proved. Buffs: a debuff with an expire list ends buffs too, so that part is false in general and proved for debuffs without one."
  },
  {
   "property": "C14",
   "status": "proved",
   "theorems": [
    "Ama.C14_lists_respected"
   ],
   "note": ""
  },
  {
   "property": "C15",
   "status": "proved",
   "theorems": [
    "Ama.C15_expires_listed",
    "Ama.C15_clear_all"
   ],
   "note": ""
  },
  {
   "property": "C16",
   "status": "proved",
   "theorems": [
    "Ama.C16_gauge_bounds"
   ],
   "note": ""
  },
  {
   "property": "C17",
   "status": "proved",
   "theorems": [
    "Ama.C17_queries_read_only",
    "Ama.C17_insertion_order"
   ],
   "note": ""
  },
  {
   "property": "C18",
   "status": "proved",
   "theorems": [
    "Ama.C18_clear_all"
   ],
   "note": ""
  },
  {
   "property": "C19",
   "status": "partial",
   "theorems": [
    "Ama.C19_expiry_partial",
    "Ama.C19_zero_refuted"
   ],
   "note": "False when the last refreshing gain is at time exactly 0 (then the gauge never expires); proved otherwise."
  },
  {
   "property": "C20",
   "status": "partial",
   "theorems": [
    "Ama.C20_future_partial",
    "Ama.C20_future_refuted"
   ],
   "note": "For gauges with an expiry a later gain can make the gauge appear empty now, so the claim is false; proved in one direction for all gauges and fully for gauges without expiry."
  },
  {
   "property": "C21",
   "status": "proved",
   "theorems": [
    "Ama.C21_combo_rule",
    "Ama.C21_total"
   ],
   "note": ""
  },
  {
   "property": "C22",
   "status": "proved",
   "theorems": [
    "Ama.C22_other_groups",
    "Ama.C22_no_combo",
    "Ama.C22_own_group",
    "Ama.C22_break_all"
   ],
   "note": ""
  },
  {
   "property": "C23",
   "status": "proved",
   "theorems": [
    "Ama.C23_windows",
    "Ama.C23_sane",
    "Ama.C23_any_order"
   ],
   "note": "Durations are assumed non-negative for the exact form."
  },
  {
   "property": "C24",
   "status": "proved",
   "theorems": [
    "Ama.C24_drain",
    "Ama.C24_next_is_least",
    "Ama.C24_total",
    "Ama.C24_get_q"
   ],
   "note": ""
  },
  {
   "property": "C25",
   "status": "proved",
   "theorems": [
    "Ama.C25_ids",
    "Ama.C25_times"
   ],
   "note": ""
  },
  {
   "property": "C26",
   "status": "partial",
   "theorems": [
    "Ama.C26_snapshot_first",
    "Ama.C26_snapshot_first_partial",
    "Ama.C26_whole_partial",
    "Ama.C26_aligned_refuted"
   ],
   "note": "Proved without tick alignment, and with alignment when dots are applied at whole milliseconds; with alignment and fractional milliseconds it is false by less than one millisecond."
  },
  {
   "property": "C27",
   "status": "proved",
   "theorems": [
    "Ama.C27_earliest",
    "Ama.C27_spacing"
   ],
   "note": ""
  },
  {
   "property": "C28",
   "status": "partial",
   "theorems": [
    "Ama.C28_once_in_order",
    "Ama.C28_order_irrelevant_partial",
    "Ama.C28_autos_refuted"
   ],
   "note": "Processing order proved; independence of the order of add calls proved without auto-attacks and false with them."
  },
  {
   "property": "C29",
   "status": "proved",
   "theorems": [
    "Ama.C29_presses"
   ],
   "note": ""
  },
  {
   "property": "C55",
   "status": "partial",
   "theorems": [
    "Ama.C55_add_next",
    "Ama.C55_add",
    "Ama.C55_known_targets_partial",
    "Ama.C55_late_target_refuted"
   ],
   "note": "Queued arguments proved; windows for all targets do not reach targets named after the first get_skill_timing."
  },
  {
   "property": "C30",
   "status": "partial",
   "theorems": [
    "Ama.C30_ticks_partial",
    "Ama.C30_unaligned",
    "Ama.C30_aligned_refuted",
    "Ama.C30_recorded"
   ],
   "note": "Proved without alignment to server ticks, and with alignment at whole milliseconds; false with alignment and fractional milliseconds (a tick can precede its application)."
  },
  {
   "property": "C58",
   "status": "proved",
   "theorems": [
    "Ama.C58_events"
   ],
   "note": ""
  },
  {
   "property": "C31",
   "status": "partial",
   "theorems": [
    "Ama.C31_cut_partial",
    "Ama.C31_zero_refuted"
   ],
   "note": "False when the last other event happens at time exactly 0 (falsy, so nothing is cut); proved otherwise."
  },
  {
   "property": "C32",
   "status": "proved",
   "theorems": [
    "Ama.C32_shift",
    "Ama.C32_order",
    "Ama.C32_timeline"
   ],
   "note": ""
  },
  {
   "property": "C33",
   "status": "proved",
   "theorems": [
    "Ama.C33_filter",
    "Ama.C33_timeline"
   ],
   "note": ""
  },
  {
   "property": "C36",
   "status": "proved",
   "theorems": [
    "Ama.C36_hits",
    "Ama.C36_all_damage",
    "Ama.C36_no_damage"
   ],
   "note": ""
  },
  {
   "property": "C37",
   "status": "proved",
   "theorems": [
    "Ama.C37_times"
   ],
   "note": ""
  },
  {
   "property": "C38",
   "status": "proved",
   "theorems": [
    "Ama.C38_snapshots"
   ],
   "note": ""
  },
  {
   "property": "C39",
   "status": "partial",
   "theorems": [
    "Ama.C39_chronological_partial",
    "Ama.C39_multi_target_refuted"
   ],
   "note": "False for delayed skills on several targets (all but the first are applied up to 135 ms per target late but processed at once); proved otherwise."
  },
  {
   "property": "C40",
   "status": "partial",
   "theorems": [
    "Ama.C40_terminates",
    "Ama.C40_no_raise_partial",
    "Ama.C40_type_error_refuted"
   ],
   "note": "Termination in full. Absence of exceptions is false when two damaging hits of a skill coincide; proved when no two damaging hits with the same skill name fall at the same time and no two different skills force critical or direct hits of the same skill; lookups are only required to succeed under conditions that include those of the event."
  },
  {
   "property": "C41",
   "status": "proved",
   "theorems": [
    "Ama.C41_no_damage",
    "Ama.C41_base"
   ],
   "note": ""
  },
  {
   "property": "C42",
   "status": "proved",
   "theorems": [
    "Ama.C42_monotone"
   ],
   "note": "Monotone in the potency, in every stat and in the roles of the party at once, for every damage class."
  },
  {
   "property": "C43",
   "status": "proved",
   "theorems": [
    "Ama.C43_conflicts",
    "Ama.C43_rates"
   ],
   "note": ""
  },
  {
   "property": "C44",
   "status": "partial",
   "theorems": [
    "Ama.C44_steps_partial",
    "Ama.C44_steps_refuted",
    "Ama.C44_recast_refuted",
    "Ama.C44_speed",
    "Ama.C44_base_partial",
    "Ama.C44_base_refuted",
    "Ama.C44_haste_recast",
    "Ama.C44_haste_cast"
   ],
   "note": "Steps of 10 ms: false because of floating point rounding (2.03 s becomes 2029 ms, and after the haste step 2020 ms); proved up to one millisecond for whole inputs. Monotonicity in the speed and under haste: proved. Monotonicity in the base time is false for speeds far beyond the game's limits and proved up to 15000."
  },
  {
   "property": "C45",
   "status": "proved",
   "theorems": [
    "Ama.C45_supported",
    "Ama.C45_monotone"
   ],
   "note": ""
  },
  {
   "property": "C46",
   "status": "proved",
   "theorems": [
    "Ama.C46_distribution"
   ],
   "note": ""
  },
  {
   "property": "C47",
   "status": "partial",
   "theorems": [
    "Ama.C47_range_partial",
    "Ama.C47_refuted"
   ],
   "note": "True for all draws of the samples when the draws made for the report are positive; false if a report draws exactly 0, since a rate of 0 is then counted as a hit."
  },
  {
   "property": "C48",
   "status": "partial",
   "theorems": [
    "Ama.C48_expected_partial",
    "Ama.C48_expected_refuted",
    "Ama.C48_variance",
    "Ama.C48_totals",
    "Ama.C48_reports_agree"
   ],
   "note": "Variance and totals are proved in full. The bounds on the expected damage are proved for reports made with positive draws, and false if a report draws exactly 0."
  },
  {
   "property": "C49",
   "status": "partial",
   "theorems": [
    "Ama.C49_succeeds_partial",
    "Ama.C49_refuted"
   ],
   "note": "True for 1 to 5000 instances; the empty list raises AxisError and more than 5000 instances raise IndexError."
  },
  {
   "property": "C59",
   "status": "proved",
   "theorems": [
    "Ama.C59_totals",
    "Ama.C59_dps"
   ],
   "note": ""
  },
  {
   "property": "C60",
   "status": "partial",
   "theorems": [
    "Ama.C60_rates_partial",
    "Ama.C60_refuted"
   ],
   "note": "False of the code: rates are not limited to 1; then a probability is negative and the variance is not a number. Proved when the sums are in [0,1]."
  },
  {
   "property": "C61",
   "status": "proved",
   "theorems": [
    "Ama.C61_frequency"
   ],
   "note": ""
  },
  {
   "property": "C62",
   "status": "proved",
   "theorems": [
    "Ama.C62_report",
    "Ama.C62_snapshots"
   ],
   "note": ""
  },
  {
   "property": "C50",
   "status": "proved",
   "theorems": [
    "Ama.C50_first_crossing"
   ],
   "note": ""
  },
  {
   "property": "C51",
   "status": "proved",
   "theorems": [
    "Ama.C51_order_free",
    "Ama.C51_tie_order",
    "Ama.C51_monotone"
   ],
   "note": ""
  },
  {
   "property": "C63",
   "status": "proved",
   "theorems": [
    "Ama.C63_limit_breaks",
    "Ama.C63_error"
   ],
   "note": ""
  },
  {
   "property": "C52",
   "status": "partial",
   "theorems": [
    "Ama.C52_before",
    "Ama.C52_monotone",
    "Ama.C52_report",
    "Ama.C52_last_partial",
    "Ama.C52_complete_partial",
    "Ama.C52_last_refuted"
   ],
   "note": "Monotonicity and the rows of the report are proved with floating point rounding. The last row can miss the damage of the latest snapshot, because its time does not survive the conversion to seconds and back (1001 ms); proved for everything before the latest snapshot, and in full when the time survives."
  },
  {
   "property": "C64",
   "status": "proved",
   "theorems": [
    "Ama.C64_bounds",
    "Ama.C64_monotone",
    "Ama.C64_mean",
    "Ama.C64_distribution"
   ],
   "note": ""
  },
  {
   "property": "C53",
   "status": "partial",
   "theorems": [
    "Ama.C53_newest",
    "Ama.C53_listed",
    "Ama.C53_potency",
    "Ama.C53_added",
    "Ama.C53_monotone",
    "Ama.C53_numeric_partial",
    "Ama.C53_numeric_refuted"
   ],
   "note": "Proved in full for versions compared as text, as the code does. Read with versions as numbers it is false once a version has two digits before the point ('10.0' sorts before '7.0'); proved for one digit before the point."
  },
  {
   "property": "C54",
   "status": "proved",
   "theorems": [
    "Ama.C54_get_skill",
    "Ama.C54_unknown",
    "Ama.C54_kept",
    "Ama.C54_duplicates",
    "Ama.C54_jobs",
    "Ama.C54_settings"
   ],
   "note": ""
  },
  {
   "property": "C56",
   "status": "proved",
   "theorems": [
    "Ama.C56_import",
    "Ama.C56_presses",
    "Ama.C56_missing"
   ],
   "note": ""
  },
  {
   "property": "C57",
   "status": "proved",
   "theorems": [
    "Ama.C57_conditions",
    "Ama.C57_no_bonus"
   ],
   "note": ""
  },
  {
   "property": "C65",
   "status": "proved",
   "theorems": [
    "Ama.C65_explained",
    "Ama.C65_zero"
   ],
   "note": ""
  },
  {
   "property": "C66",
   "status": "proved",
   "theorems": [
    "Ama.C66_running",
    "Ama.C66_window"
   ],
   "note": "Stated for effects outside the priority list (an effect in the list can be outranked, see C12); hits decided at the very moment of an application depend on the order of the queue and are left open."
  },
  {
   "property": "C67",
   "status": "proved",
   "theorems": [
    "Ama.C67_uses"
   ],
   "note": "Events decided at the same moment as the hit or as the giving event are counted so that each direction holds in any order of the ties; without ties the two directions are each other's converse."
  },
  {
   "property": "C68",
   "status": "proved",
   "theorems": [
    "Ama.C68_conditions",
    "Ama.C68_untouched"
   ],
   "note": ""
  },
  {
   "property": "C69",
   "status": "proved",
   "theorems": [
    "Ama.C69_combos"
   ],
   "note": "The order of the checks is by time for events at whole milliseconds whose delayed skills have one target (see C39)."
  },
  {
   "property": "C70",
   "status": "proved",
   "theorems": [
    "Ama.C70_gauges"
   ],
   "note": "The order of the changes is by time for events at whole milliseconds whose delayed skills have one target (see C39)."
  },
  {
   "property": "C71",
   "status": "proved",
   "theorems": [
    "Ama.C71_presses"
   ],
   "note": ""
  },
  {
   "property": "C72",
   "status": "partial",
   "theorems": [
    "Ama.C72_never",
    "Ama.C72_once",
    "Ama.C72_refreshed_partial",
    "Ama.C72_gap_refuted"
   ],
   "note": "Proved for an effect applied once (with limited or unlimited uses) and for effects that each application refreshes to their full duration. False of the code if an effect is pressed again before its end but applied after it: the presses in the gap count as having it (C72_gap_refuted). Effects whose applications do not restore exactly the full duration, or with both re-application and limited uses, are covered by C71 only."
  },
  {
   "property": "C73",
   "status": "proved",
   "theorems": [
    "Ama.C73_combos"
   ],
   "note": ""
  },
  {
   "property": "C74",
   "status": "proved",
   "theorems": [
    "Ama.C74_gauges"
   ],
   "note": "For gauges that expire, later refreshes can matter, see C20."
  },
  {
   "property": "C35",
   "status": "partial",
   "theorems": [
    "Ama.C35_timeline",
    "Ama.C35_spacing",
    "Ama.C35_order",
    "Ama.C35_outside_partial",
    "Ama.C35_first_refuted",
    "Ama.C35_sequence_refuted",
    "Ama.C35_overlap_refuted",
    "Ama.C35_allowlist_refuted"
   ],
   "note": "Start, spacing, targets and end are proved for every rotation. That no auto-attack is inside a cast or channel is false for the first auto-attack, for presses queued with add_next and for overlapping periods; it is proved for the later auto-attacks when the periods do not overlap. The delay is also not shortened as it should be by effects limited to auto-attacks."
  },
  {
   "property": "C34",
   "status": "partial",
   "theorems": [
    "Ama.C34_partial",
    "Ama.C34_refuted"
   ],
   "note": "Proved for any number of calls on any builder reached through the public methods, if dots are not snapped to server ticks or are applied at whole milliseconds, and if no effect, trait or weapon makes auto-attacks come before the previous one. False of the code for snapped dots applied at fractions of a millisecond: the second call raises (C34_refuted)."
  },
  {
   "property": "C75",
   "status": "partial",
   "theorems": [
    "Ama.C75_created",
    "Ama.C75_jobs",
    "Ama.C75_waits",
    "Ama.C75_generic",
    "Ama.C75_auto_partial",
    "Ama.C75_viper_refuted",
    "Ama.C75_defaults_refuted"
   ],
   "note": "False only of Viper at versions strictly between 7.01 and 7.05, where the ValueError of a missing skill is swallowed and the class is left without skills (C75_viper_refuted). The default arguments of create_skill_library are not a supported pair and raise (C75_defaults_refuted)."
  },
  {
   "property": "C76",
   "status": "partial",
   "theorems": [
    "Ama.C76_answers",
    "Ama.C76_followups_partial",
    "Ama.C76_automaton_queen_refuted"
   ],
   "note": "False only of the follow-ups of the Machinist's Automaton Queen, which have no default variant."
  },
  {
   "property": "C77",
   "status": "proved",
   "theorems": [
    "Ama.C77_sane",
    "Ama.C77_delays",
    "Ama.C77_moderate"
   ],
   "note": ""
  },
  {
   "property": "C78",
   "status": "partial",
   "theorems": [
    "Ama.C78_gauges",
    "Ama.C78_combos_partial",
    "Ama.C78_moulinet_refuted"
   ],
   "note": "Combo actions: false only of the Red Mage's Enchanted Moulinet Trois, which continues 'Enchanted Deux'."
  },
  {
   "property": "C79",
   "status": "partial",
   "theorems": [
    "Ama.C79_useful_partial",
    "Ama.C79_swiftcast_refuted"
   ],
   "note": "False of Swiftcast of Astrologian, Scholar and Sage (allow-list copied from the White Mage) and, at level 90, of Rainbow Bright and Poised for Twinfang."
  },
  {
   "property": "C80",
   "status": "partial",
   "theorems": [
    "Ama.C80_dropoff",
    "Ama.C80_foul_refuted"
   ],
   "note": "False of the skills listed in Spec.dropoffLost, which give a single damage spec; C80_dropoff says which skills drop off and which do not, without exceptions."
  },
  {
   "property": "C81",
   "status": "partial",
   "theorems": [
    "Ama.C81_between_patches_partial",
    "Ama.C81_monk_refuted",
    "Ama.C75_viper_refuted"
   ],
   "note": "False of Monk between 7.0 and 7.01 (Dragon Kick) and of Viper between 7.01 and 7.05."
  },
  {
   "property": "C82",
   "status": "partial",
   "theorems": [
    "Ama.C82_sharpcast_partial",
    "Ama.C82_fire_refuted"
   ],
   "note": "False of Fire at version 6.55: a missing f-prefix makes Sharpcast replace the Astral Fire and Umbral Ice variants."
  },
  {
   "property": "C83",
   "status": "proved",
   "theorems": [
    "Ama.C83_no_raise",
    "Ama.C83_start_refuted",
    "Ama.C83_forcing_refuted",
    "Ama.C83_names_refuted",
    "Ama.C83_harmless_autos_refuted",
    "Ama.C83_empty_autos_refuted"
   ],
   "note": "Includes termination of the loop over auto-attacks. The conditions on the start of the fight, on forcing effects, on names and, with auto-attacks, on damage are needed: without them there are rotations that raise (the _refuted theorems)."
  },
  {
   "property": "C84",
   "status": "proved",
   "theorems": [
    "Ama.C84_no_raise",
    "Ama.C84_guest_refuted"
   ],
   "note": "With and without auto-attacks. Borrowed skills that move a gauge of their own job raise KeyError on every other job (C84_guest_refuted)."
  },
  {
   "property": "C85",
   "status": "partial",
   "theorems": [
    "Ama.C85_damage_partial",
    "Ama.C85_shipped_partial"
   ],
   "note": "Missing: timelines in which two damaging hits of the same skill name coincide, for which the damage builder can raise a TypeError (C40_type_error_refuted)."
  },
  {
   "property": "C86",
   "status": "partial",
   "theorems": [
    "Ama.C86_simulated_partial",
    "Ama.C86_shipped_partial",
    "Ama.C86_tank_refuted",
    "Ama.C86_healer_refuted",
    "Ama.C86_opposed_refuted"
   ],
   "note": "Missing: timelines in which two damaging hits of the same skill name coincide (C40_type_error_refuted), and those with no damage instance or more than 5000 (C49_refuted). The refutations show that the conditions on tenacity, strength and contradictions are needed."
  },
  {
   "property": "C87",
   "status": "proved",
   "theorems": [
    "Ama.C87_stats",
    "Ama.C87_offence",
    "Ama.C87_library",
    "Ama.C87_version",
    "Ama.C87_instances"
   ],
   "note": ""
  },
  {
   "property": "C88",
   "status": "partial",
   "theorems": [
    "Ama.C88_examples",
    "Ama.C88_test_refuted"
   ],
   "note": "False of version 'test', for which a library can be created but the stats raise KeyError; proved for all other versions and levels."
  },
  {
   "property": "C89",
   "status": "partial",
   "theorems": [
    "Ama.C89_timeline_partial",
    "Ama.C89_simulated_partial"
   ],
   "note": "Missing: the rotations for Machinists (the Automaton Queen's follow-ups depend on the battery gauge), and whether two damaging hits of the same name coincide."
  },
  {
   "property": "C90",
   "status": "partial",
   "theorems": [
    "Ama.C90_level_partial",
    "Ama.C90_level_refuted"
   ],
   "note": "False at level 100: get_stats passes no level, so that all example rotations of level 100 have stats of level 90."
  },
  {
   "property": "C91",
   "status": "partial",
   "theorems": [
    "Ama.C91_party_partial",
    "Ama.C91_party_refuted"
   ],
   "note": "False of party skills with a modifier: they are pressed twice, with and without it."
  },
  {
   "property": "C92",
   "status": "partial",
   "theorems": [
    "Ama.C92_covered_partial",
    "Ama.C92_astrologian_refuted",
    "Ama.C92_early_refuted"
   ],
   "note": "False at level 90 (Astrologians) and at level 100 before 7.05 (nothing)."
  },
  {
   "property": "C93",
   "status": "proved",
   "theorems": [
    "Ama.C93_base",
    "Ama.C93_expected",
    "Ama.C93_samples"
   ],
   "note": "For stats of at least what a character has without gear; expected damage for hit rates at most 1 (C60) and draws that are not zero (C47)."
  },
  {
   "property": "C94",
   "status": "partial",
   "theorems": [
    "Ama.C94_reuse_partial",
    "Ama.C94_reuse_refuted"
   ],
   "note": "False in general: the trackers of effects, gauges and combos keep their contents between calls.  Proved when no skill of the first timeline grants effects, changes gauges or takes part in combos."
  },
  {
   "property": "C95",
   "status": "partial",
   "theorems": [
    "Ama.C95_shift_partial",
    "Ama.C95_shipped",
    "Ama.C95_simulated",
    "Ama.C95_shift_refuted"
   ],
   "note": "False when a gauge that expires is refilled at time 0, which the tracker takes for never (C95_shift_refuted).  Proved for all timelines whose times are whole microseconds or not negative, if no gauge of the job expires or no event happens at time 0; in the shipped libraries only gauges of Black Mage expire (C95_shipped)."
  },
  {
   "property": "C96",
   "status": "partial",
   "theorems": [
    "Ama.C96_later_partial",
    "Ama.C96_later_refuted"
   ],
   "note": "False in general: events at the same place of the queue leave it in an order that depends on what else is in the queue, so that adding a hit at the end changes which earlier targets use up a buff (C96_later_refuted). C96_later_partial proves it for every builder, every timeline in which no two things are processed at the same place, and every extension that comes after everything that happens in it."
  },
  {
   "property": "C97",
   "status": "proved",
   "theorems": [
    "Ama.C97_stats",
    "Ama.C97_base"
   ],
   "note": "Spec/Formulas.lean states the factors without rounding, the units they are rounded to, and the allowance for intermediate rounding. Example: for a White Mage and a Warrior of level 100 and all five kinds of damage the two bounds differ by less than 2% (4% for the auto-attacks of the White Mage). The model computes with exact rationals where the code uses floating point numbers."
  },
  {
   "property": "C98",
   "status": "proved",
   "theorems": [
    "Ama.C98_sample",
    "Ama.C98_expected"
   ],
   "note": "Spec/HitDamage.lean states the product without rounding and the allowance for the roundings. Example: two hits of about ten thousand points, allowance below 7 points. The hypotheses about draws and rates are those without which C47, C48 and C60 are refuted."
  },
  {
   "property": "C99",
   "status": "proved",
   "theorems": [
    "Ama.C99_hits",
    "Ama.C99_instance",
    "Ama.C99_total"
   ],
   "note": "Stated as a mean over samples in which all combinations of random numbers occur equally often, in any order. Example: a hit of about ten thousand points, allowance below 7 points with N = 2^53. The hypotheses about draws and rates are those without which C47, C48 and C60 are refuted."
  },
  {
   "property": "C100",
   "status": "proved",
   "theorems": [
    "Ama.C100_order",
    "Ama.C100_life",
    "Ama.C100_amount",
    "Ama.C100_no_limit",
    "Ama.C100_sum"
   ],
   "note": "Spec/GaugeValue.lean states the running total and the time limit on the list of changes. The code does not notice that a time limit which runs from time 0 has run out (see C19); the statement says so."
  },
  {
   "property": "C101",
   "status": "proved",
   "theorems": [
    "Ama.C101_instance",
    "Ama.C101_total"
   ],
   "note": "Stated as the standard deviation over samples in which all combinations of random numbers occur equally often, in any order, like C99; for the total also those of any two hits together. Example: a hit with standard deviation of about three thousand points, allowance below 7 points with N = 2^53."
  },
  {
   "property": "C102",
   "status": "proved",
   "theorems": [
    "Ama.C102_presses",
    "Ama.C102_events",
    "Ama.C102_independent"
   ],
   "note": "Ticks of dots and auto-attacks are made from the presses afterwards and may change: a later application cuts the ticks of an earlier one (C30)."
  },
  {
   "property": "C103",
   "status": "partial",
   "theorems": [
    "Ama.C103_presses_partial",
    "Ama.C103_timeline_partial",
    "Ama.C103_exact_partial",
    "Ama.C103_trailing_refuted",
    "Ama.C103_autos_refuted"
   ],
   "note": "Everything the presses do, and the whole timeline with dots, server ticks, downtime and auto-attacks, exactly. False of the code for rotations that ignore trailing dots and end at time 0, where all ticks are kept (C103_trailing_refuted), and for auto-attacks when there is downtime but no fight start (C103_autos_refuted: windows are used before and after the first damage is put at time 0). Not covered: gauges that expire (false at time 0, see C95), server ticks not at whole milliseconds."
  },
  {
   "property": "C104",
   "status": "partial",
   "theorems": [
    "Ama.C104_damage_partial",
    "Ama.C104_lasting"
   ],
   "note": "The damage instances and the whole simulation, for rotations as in C103_exact_partial. What is missing there is missing here, and is false of the code in general (C103_trailing_refuted, C103_autos_refuted, C95_shift_refuted)."
  },
  {
   "property": "C105",
   "status": "partial",
   "theorems": [
    "Ama.C105_names_partial",
    "Ama.C105_rotation_partial",
    "Ama.C105_shipped",
    "Ama.C105_simulated",
    "Ama.C105_names_refuted",
    "Ama.C105_ids_refuted"
   ],
   "note": "Proved for the timelines of all rotations and for all timelines without repeated event ids, if the default target keeps its name or no buff ends a debuff; without any condition for rotations of shipped skills, none of which has a buff that ends a debuff (C105_shipped). False of the code otherwise: a buff that ends a debuff ends it on the target with the default name only (C105_names_refuted), and with repeated event ids the names decide the order of simultaneous instances (C105_ids_refuted)."
  },
  {
   "property": "C106",
   "status": "partial",
   "theorems": [
    "Ama.C106_ends_partial",
    "Ama.C106_enhanced_refuted"
   ],
   "note": "All but the Black Mage's \"Enhanced\", for which it is false from 7.0 on: High Blizzard II (and Blizzard III) ends it and nothing gives it."
  },
  {
   "property": "C107",
   "status": "partial",
   "theorems": [
    "Ama.C107_effects_partial",
    "Ama.C107_venom_refuted",
    "Ama.C107_unheard"
   ],
   "note": "All but four effects. False of the data for Fellhunter's Venom of the Viper (and, symmetrically, Fellskin's Venom): each is told to the one of Twinfang Thresh and Twinblood Thresh that has the variant for the other. Also left out, at level 90 only: Poised for Twinfang (for skills of level 100) and Firestarter (told to Fire, while Fire III has the variants)."
  },
  {
   "property": "C108",
   "status": "partial",
   "theorems": [
    "Ama.C108_told_partial",
    "Ama.C108_freeze_refuted"
   ],
   "note": "All but Freeze of the Black Mage, for which it is false: it has variants for Astral Fire and Umbral Ice and is told neither; and the Bard's songs, whose variants for amounts of Repertoire are for use by hand. About skills; follow-ups are told no gauges."
  },
  {
   "property": "C109",
   "status": "partial",
   "theorems": [
    "Ama.C109_timeline_partial",
    "Ama.C109_damage_partial",
    "Ama.C109_shipped_partial",
    "Ama.C109_timeline_refuted",
    "Ama.C109_default_refuted"
   ],
   "note": "Proved for all rotations of shipped skills (C109_shipped_partial) and of any library whose debuffs the presses do not notice, or if the target called \"Default Target\" keeps its name; and if, where one skill is used twice at the same time on different targets, the other names sort like the first ones. False of the code otherwise: the queue of timed skills compares the names of the targets (C109_timeline_refuted), and conditions from debuffs are looked up on the target called \"Default Target\", whatever `default_target` is (C109_default_refuted)."
  },
  {
   "property": "C110",
   "status": "partial",
   "theorems": [
    "Ama.C110_replay_partial",
    "Ama.C110_times_partial",
    "Ama.C110_shipped_partial",
    "Ama.C110_shipped_times_partial",
    "Ama.C110_autos_refuted",
    "Ama.C110_ties_refuted"
   ],
   "note": "Proved without auto-attacks and with all presses at different times, for any library without negative animation locks, which the shipped ones are (C110_shipped_partial). For a sequence that can be played such times always exist (C110_times_partial), so for any sensible sequence of shipped skills (C110_shipped_times_partial). False of the code otherwise: casts in a sequence do not delay auto-attacks, but the same casts entered with add do (C110_autos_refuted); presses at the same time keep their order in a sequence, but with add are ordered in part by name (C110_ties_refuted)."
  },
  {
   "property": "C111",
   "status": "partial",
   "theorems": [
    "Ama.C111_missed_partial",
    "Ama.C111_snap_punch_refuted"
   ],
   "note": "All but Snap Punch of the Monk under Coeurl's Fury, for which it is false at level 90 from 7.0 on: the two potencies are swapped in the table, so that missing the positional announces 60 more (C111_snap_punch_refuted). For the first target only; drop-off is C07 and C80."
  },
  {
   "property": "C112",
   "status": "proved",
   "theorems": [
    "Ama.C112_hits",
    "Ama.C112_samples",
    "Ama.C112_expected",
    "Ama.C112_shipped_sane",
    "Ama.C112_shipped_samples",
    "Ama.C112_shipped_expected"
   ],
   "note": "From the rotation to the simulation. For other libraries than the shipped ones the hits must have no negative numbers; for the shipped ones this is proved (C112_shipped_sane). The expected damage is compared where it is what it is meant to be: hit rates at most 1 (C60) and no zero draw (C47)."
  },
  {
   "property": "C113",
   "status": "partial",
   "theorems": [
    "Ama.C113_hits",
    "Ama.C113_totals",
    "Ama.C113_shipped",
    "Ama.C113_positive_partial",
    "Ama.C113_shipped_positive_partial",
    "Ama.C113_nothing_refuted"
   ],
   "note": "Whole, not negative, and zero without potency: proved, for rotations of shipped skills without conditions. That a hit with potency deals something is false: a base damage of 1 is spread to 0.95 and rounded down to 0 (C113_nothing_refuted). Proved for a base damage of at least 2 and no multiplier below 1; effects of shipped skills never are."
  },
  {
   "property": "C114",
   "status": "proved",
   "theorems": [
    "Ama.C114_timeline",
    "Ama.C114_hits"
   ],
   "note": "For whole speeds up to 15000 (three times of what the game allows); the floating point rounding of the formula is part of the model. The damage of the hits may still differ, see C45."
  },
  {
   "property": "C115",
   "status": "proved",
   "theorems": [
    "Ama.C115_simulation",
    "Ama.C115_rotation"
   ],
   "note": "Spec/Tiers.lean gives the tiers. In the rotation the floating point rounding of the speed formula is part of the model; the damage formulas are in exact numbers, as everywhere in the model."
  },
  {
   "property": "C116",
   "status": "proved",
   "theorems": [
    "Ama.C116_hits"
   ],
   "note": "Spec/Reads.lean lists the stats per kind of hit (`SameFor`). The times of the hits are given; that speed and weapon delay change them is C87 and C114."
  }
 ]
}
