{"id": "C01", "title": "Condition strings round-trip", "statement": "Writing out a set of conditions as a comma separated string and reading it back gives the same set, whatever order the conditions are written in; reading a string never yields a condition containing a comma or surrounding blanks.", "quantifier": "for every set of conditions that reading can produce, every order of writing it, and every input string", "why_tests_cant": "conditions are arbitrary user text; a test covers a handful of strings and one iteration order of a Python set, whose order is not even deterministic between runs", "anchors": ["ama_xiv_combat_sim/simulator/utils.py: Utils.canonicalize_condition", "ama_xiv_combat_sim/simulator/skills/skill_modifier.py: SkillModifier.__init__, add_to_condition", "ama_xiv_combat_sim/simulator/utils.py: Utils.get_positional_condition (', '.join)"]}
{"id": "C02", "title": "Adding conditions to a modifier is a union", "statement": "Adding conditions to a skill modifier never drops a condition, is idempotent, does not depend on the order of additions, and adding the concatenation 'a, b' equals adding a and then b.", "quantifier": "for every modifier and every pair of condition strings", "why_tests_cant": "order-independence and idempotence are statements over all pairs of strings", "anchors": ["ama_xiv_combat_sim/simulator/skills/skill_modifier.py: SkillModifier.add_to_condition", "ama_xiv_combat_sim/simulator/utils.py: Utils.canonicalize_condition"]}
{"id": "C03", "title": "The most specific matching variant is used", "statement": "When a skill has several conditional variants, the variant chosen for a set of active conditions is one whose conditions are all active, and no other variant whose conditions are all active has more conditions. If exactly one such maximal variant exists it is the one returned, independently of the order in which variants were declared.", "quantifier": "for every finite table of variants and every set of active conditions", "why_tests_cant": "the number of (table, condition set) pairs is unbounded; tests try three keys", "anchors": ["ama_xiv_combat_sim/simulator/utils.py: Utils.get_best_key", "ama_xiv_combat_sim/simulator/skills/skill.py: Skill.get_damage_spec, get_timing_spec, get_buff_spec, get_debuff_spec, get_follow_up_skills, get_job_resource_spec, get_combo_spec, get_channeling_spec"]}
{"id": "C04", "title": "Ambiguous variants are reported", "statement": "If two different variants match equally well, the lookup reports an error instead of silently choosing one (the code carries an assertion 'Did not find exactly one match').", "quantifier": "for every table of variants and condition set", "why_tests_cant": "needs a statement about all tables, including the ones nobody wrote a test for; it turns out to be false of the code", "anchors": ["ama_xiv_combat_sim/simulator/utils.py: Utils.get_best_key"]}
{"id": "C05", "title": "Variant lookup is total when a default exists", "statement": "A skill with a default variant (condition '') can be looked up under every condition set without error; a skill without one raises KeyError exactly when none of its variants matches.", "quantifier": "for every skill, every kind of spec and every condition set", "why_tests_cant": "condition sets are produced dynamically by buffs, gauges, combos and users: totality over all of them cannot be sampled", "anchors": ["ama_xiv_combat_sim/simulator/skills/skill.py: Skill.get_*_spec, __canonicalize_dict", "ama_xiv_combat_sim/simulator/utils.py: Utils.get_best_key"]}
{"id": "C06", "title": "Irrelevant conditions do not change the variant", "statement": "Activating a condition that no variant of the skill mentions leaves the chosen variant unchanged.", "quantifier": "for every skill table, condition set and extra condition not mentioned by the table", "why_tests_cant": "frame property over all strings", "anchors": ["ama_xiv_combat_sim/simulator/utils.py: Utils.get_best_key"]}
{"id": "C07", "title": "AoE damage drop-off", "statement": "With aoe_dropoff d, hitting n targets gives every target after the first exactly (1-d) times the potency the primary target gets under the same other conditions.", "quantifier": "for every skill with aoe_dropoff, every number of targets and every condition set", "why_tests_cant": "tests look at a specific skill with few targets; the code stops at target 9 and ignores non-dict specs, so the full statement fails for some inputs", "anchors": ["ama_xiv_combat_sim/simulator/skills/skill.py: Skill.__process_aoe_dropoff, __post_init__", "ama_xiv_combat_sim/simulator/timeline_builders/damage_builder.py: get_damage_instances ('Target {i+1}')"]}
{"id": "C08", "title": "A buff is active exactly during its window", "statement": "A freshly applied status effect with duration d applied at time s affects a skill used at time t >= s if and only if t <= s + d (provided expiry is run before each use, as both builders do), and has no effect on anything before s.", "quantifier": "for all real application times, durations (including infinite) and query times", "why_tests_cant": "boundary behaviour over a continuum of times and arbitrary interleavings", "anchors": ["ama_xiv_combat_sim/simulator/trackers/status_effect_tracker.py: add_to_status_effects, expire_status_effects, compile_buffs, compile_debuffs"]}
{"id": "C09", "title": "Limited-use effects are used at most num_uses times", "statement": "A status effect granted with n uses modifies at most n skills, and exactly the first n eligible skills used in its window; skills that the effect is not allowed on do not consume uses.", "quantifier": "for every n, every sequence of skills and times", "why_tests_cant": "an unbounded sequence property", "anchors": ["ama_xiv_combat_sim/simulator/trackers/status_effect_tracker.py: __compile_status_effects (num_uses - 1), __expire_status_effects"]}
{"id": "C10", "title": "Re-application follows the extension rule and its cap", "statement": "Re-applying an active effect at time t leaves the remaining duration equal to min(max_duration, remaining + duration) if it extends, and unchanged otherwise; the remaining duration after a re-application of an extending effect is never above max_duration; uses become min(old + new, max_num_uses); the newest spec wins. An 'extend only' effect never creates an entry.", "quantifier": "for every tracker state, spec and time", "why_tests_cant": "arithmetics with infinities over all reals and all histories", "anchors": ["ama_xiv_combat_sim/simulator/trackers/status_effect_tracker.py: __add_to_status_effects", "ama_xiv_combat_sim/simulator/specs/status_effect_spec.py: StatusEffectSpec"]}
{"id": "C11", "title": "Aggregated buff strength is an order-independent product/sum", "statement": "The aggregate returned for a skill is the product of the damage/main-stat/haste multipliers and the sum of the additive bonuses of exactly the effects that are valid for that skill; it does not depend on the order in which effects were applied.", "quantifier": "for every set of active effects and every permutation of it", "why_tests_cant": "all permutations of an unbounded collection", "anchors": ["ama_xiv_combat_sim/simulator/trackers/status_effect_tracker.py: __compile_status_effects", "ama_xiv_combat_sim/simulator/trackers/status_effects.py: StatusEffects"]}
{"id": "C12", "title": "Mutually exclusive effects: only the highest priority one counts", "statement": "With a priority list configured, at most one effect of the list contributes to any skill, namely the first one in the list that is valid; effects outside the list are unaffected; suppressed effects do not lose uses.", "quantifier": "for every priority list and every tracker state", "why_tests_cant": "all lists and states", "anchors": ["ama_xiv_combat_sim/simulator/trackers/status_effect_tracker.py: __delete_lower_priority_status_effects", "ama_xiv_combat_sim/simulator/skills/skill_library.py: set_status_effect_priority"]}
{"id": "C13", "title": "Debuffs are isolated per target", "statement": "Applying, consuming or expiring a debuff on one target never changes what any other target's debuffs contribute, nor any buff.", "quantifier": "for every tracker state, operation and pair of distinct targets", "why_tests_cant": "frame property over all states", "anchors": ["ama_xiv_combat_sim/simulator/trackers/status_effect_tracker.py: add_to_status_effects, compile_debuffs, __get_debuffs"]}
{"id": "C14", "title": "Allow-lists and deny-lists are respected", "statement": "An effect in a skill's deny-list never contributes to it; an effect with an allow-list contributes only to skills named there; no other filter by name applies.", "quantifier": "for every effect, skill and state", "why_tests_cant": "universal over names and states", "anchors": ["ama_xiv_combat_sim/simulator/trackers/status_effect_tracker.py: __get_valid_status_effects"]}
{"id": "C15", "title": "Expire-other and clear-all directives", "statement": "When a skill lists effects to expire, each listed buff is inactive at every later time unless re-applied; a clear-all buff removes every buff and nothing else.", "quantifier": "for every state, skill and later time", "why_tests_cant": "histories are unbounded", "anchors": ["ama_xiv_combat_sim/simulator/trackers/status_effect_tracker.py: add_to_status_effects, __expire_named_effect"]}
{"id": "C16", "title": "Gauge value stays within [0, max]", "statement": "The gauge amount reported for a skill is always an integer between 1 and the configured maximum (absent when 0), after any history of gains, spends and clears.", "quantifier": "for every history of resource changes and every query time", "why_tests_cant": "unbounded histories", "anchors": ["ama_xiv_combat_sim/simulator/trackers/job_resource_tracker.py: compile_job_resources, add_resource"]}
{"id": "C17", "title": "Gauge queries are read-only and insensitive to insertion order", "statement": "Querying the gauge does not change any later query; entering the same timed changes in a different order (with distinct times) gives the same value at every time.", "quantifier": "for every history, permutation and query", "why_tests_cant": "all permutations; mutation through in-place sort", "anchors": ["ama_xiv_combat_sim/simulator/trackers/job_resource_tracker.py: compile_job_resources (sort)"]}
{"id": "C18", "title": "Clear-all empties every gauge", "statement": "Right after a clear-all-resources skill every gauge that skill can see is reported as empty, and it stays empty until the next gain.", "quantifier": "for every history before the clear and every later time without gains", "why_tests_cant": "unbounded histories", "anchors": ["ama_xiv_combat_sim/simulator/trackers/job_resource_tracker.py: __clear_resources, add_resource"]}
{"id": "C19", "title": "Gauges expire after expiry_from_last_gain", "statement": "A gauge with an expiry reports nothing once more than the expiry has passed since the last refreshing gain.", "quantifier": "for every history and query time", "why_tests_cant": "over all times, including time 0 (where the code's truthiness test makes it false)", "anchors": ["ama_xiv_combat_sim/simulator/trackers/job_resource_tracker.py: compile_job_resources (last_refresh_time)"]}
{"id": "C20", "title": "Future gauge events do not influence the present", "statement": "What a gauge reports at time t depends only on changes that happened at or before t.", "quantifier": "for every history and query time", "why_tests_cant": "all histories; the code lets future events reset the current total, so this is false in general", "anchors": ["ama_xiv_combat_sim/simulator/trackers/job_resource_tracker.py: compile_job_resources"]}
{"id": "C21", "title": "Combo success rule", "statement": "A combo action reports success exactly when it needs no predecessor, is forced, auto-succeeds, or its combo group's last successful action is one of its predecessors and was used at most 30 s before; any failing action resets its own group.", "quantifier": "for every history of actions at any times", "why_tests_cant": "state machine over unbounded histories", "anchors": ["ama_xiv_combat_sim/simulator/trackers/combo_tracker.py: compile_and_update_combo, __combo_succeded, __update_combo", "ama_xiv_combat_sim/simulator/game_data/game_consts.py: COMBO_EXPIRATION_TIME"]}
{"id": "C22", "title": "Combo groups are independent except for breakers", "statement": "Using an action changes the combo state only of its own groups, of groups declared to be broken by them, or of all groups when it is a break-all action; skills without a combo spec leave combos untouched.", "quantifier": "for every state and skill", "why_tests_cant": "frame property over all states", "anchors": ["ama_xiv_combat_sim/simulator/trackers/combo_tracker.py: __update_combo", "ama_xiv_combat_sim/simulator/skills/skill_library.py: add_combo_breaker"]}
{"id": "C23", "title": "Channeling windows are sane", "statement": "For skills processed in time order, the reported channeling windows are sorted, pairwise non-overlapping, start when a channeling skill was used and last at most that skill's channel duration.", "quantifier": "for every sequence of skills with non-decreasing times", "why_tests_cant": "unbounded sequences", "anchors": ["ama_xiv_combat_sim/simulator/trackers/channeling_tracker.py: process_channeling, finalize, get_channeling_windows"]}
{"id": "C24", "title": "The event queue is a priority queue", "statement": "Draining the event queue yields every added event exactly once, in non-decreasing (priority, skill name) order, whatever interleaving of additions and removals was used.", "quantifier": "for every sequence of add/get_next operations", "why_tests_cant": "heap shape depends on history; exhaustive testing impossible", "anchors": ["ama_xiv_combat_sim/simulator/timeline_builders/snapshot_and_application_events.py: add, get_next, is_empty, get_q", "CPython heapq (modelled)"]}
{"id": "C25", "title": "Event ids are unique and first/last times are correct", "statement": "Events added without an explicit id get pairwise distinct ids 0,1,2,...; the first damage time is the minimum application time over damaging events (None iff there is none) and the last event time the maximum application time over all events.", "quantifier": "for every sequence of additions", "why_tests_cant": "unbounded sequences", "anchors": ["ama_xiv_combat_sim/simulator/timeline_builders/snapshot_and_application_events.py: add, get_first_damage_time, get_last_event_time"]}
{"id": "C26", "title": "Snapshots never come after applications", "statement": "In every timeline produced, each event's snapshot time is at most its application time (an event with equal times carries a single time).", "quantifier": "for every rotation, stats and configuration with non-negative delays", "why_tests_cant": "global invariant over all rotations", "anchors": ["ama_xiv_combat_sim/simulator/timeline_builders/rotation_builder.py: __process_skill, __process_non_dot_follow_up_skill, __process_all_dots, __add_autos"]}
{"id": "C27", "title": "GCD and animation-lock spacing", "statement": "For skills queued back to back with add_next, each press happens no earlier than the previous press plus its animation lock, and two GCD presses are separated by at least the recast of the first; for standard 2.5 s GCDs that is never below 1.5 s.", "quantifier": "for every sequence of skills, buffs and stats", "why_tests_cant": "unbounded sequences and arbitrary haste", "anchors": ["ama_xiv_combat_sim/simulator/timeline_builders/rotation_builder.py: __process_q_sequence, __get_cast_time", "ama_xiv_combat_sim/simulator/game_data/game_consts.py: MIN_GCD_RECAST_TIME"]}
{"id": "C28", "title": "Timed presses are processed in time order, once each", "statement": "Skills added with explicit times are each processed exactly once, in non-decreasing time order, regardless of the order of the add calls.", "quantifier": "for every list of add calls and every permutation of it", "why_tests_cant": "all permutations; relies on heappop over a list only sorted by time", "anchors": ["ama_xiv_combat_sim/simulator/timeline_builders/rotation_builder.py: add, __process_q_timed"]}
{"id": "C29", "title": "Button presses are reported completely and sorted", "statement": "get_button_press_timing lists one entry per queued skill, in time order.", "quantifier": "for every rotation", "why_tests_cant": "universal over rotations", "anchors": ["ama_xiv_combat_sim/simulator/timeline_builders/rotation_builder.py: get_button_press_timing, __process_q_timed, __process_q_sequence"]}
{"id": "C30", "title": "Damage-over-time tick law", "statement": "Each application of a dot on a target ticks every 3 s starting at its application (or the first server tick at or after it) and strictly before the earlier of its end and the next application of the same dot on that target; no tick of one application lies after the start of the next.", "quantifier": "for every list of applications, durations and server tick offset", "why_tests_cant": "over all application times; refresh patterns are unbounded", "anchors": ["ama_xiv_combat_sim/simulator/timeline_builders/rotation_builder.py: __get_base_dot_timings, __get_consolidated_dot_timing, __process_all_dots"]}
{"id": "C31", "title": "Trailing dots are cut when asked", "statement": "With ignore_trailing_dots, no dot tick is generated after the last non-dot event.", "quantifier": "for every rotation", "why_tests_cant": "universal; fails when the last event is at time 0 because of a truthiness test", "anchors": ["ama_xiv_combat_sim/simulator/timeline_builders/rotation_builder.py: get_skill_timing, __process_all_dots (last_event_time)"]}
{"id": "C32", "title": "Timeline normalisation is a pure shift", "statement": "Without a fight start time, the timeline is shifted so that the first damage lands exactly at time 0; all time differences, targets, modifiers and the relative processing order are unchanged, and presses shift by the same amount.", "quantifier": "for every timeline", "why_tests_cant": "all timelines", "anchors": ["ama_xiv_combat_sim/simulator/timeline_builders/rotation_builder.py: shift_timelines_for_first_damage_instance"]}
{"id": "C33", "title": "Downtime filtering is exact", "statement": "After filtering, a (event, target) pair remains if and only if it does no damage or neither its snapshot nor its application time lies in a half-open downtime window of that target covering its damage class; events lose only targets, never gain any.", "quantifier": "for every timeline and window configuration", "why_tests_cant": "all windows and times, boundary behaviour included", "anchors": ["ama_xiv_combat_sim/simulator/timeline_builders/rotation_builder.py: remove_damage_during_downtime, __filter_by_downtime_range_and_damage_class, __init_downtime_windows"]}
{"id": "C34", "title": "Asking for the timeline twice gives the same answer", "statement": "Calling get_skill_timing repeatedly on an unchanged builder returns the same timeline every time (per-skill reports rely on this to match event ids).", "quantifier": "for every builder configuration and any number of calls", "why_tests_cant": "hidden state (dot applications and target history) accumulates between calls; a test can only try some rotations", "anchors": ["ama_xiv_combat_sim/simulator/timeline_builders/rotation_builder.py: get_skill_timing, _q_dot_skills, __timestamps_and_main_target", "ama_xiv_combat_sim/simulator/damage_simulator.py: __add_damage_snapshots"]}
{"id": "C35", "title": "Auto-attacks: spacing, targets, and windows", "statement": "Auto-attacks start at the first damage, are separated by at least the (hasted) weapon delay, hit the target of the latest press at or before the auto, do not start strictly inside a cast or channel, and stop before the last event.", "quantifier": "for every rotation with autos enabled", "why_tests_cant": "global loop invariant over all rotations", "anchors": ["ama_xiv_combat_sim/simulator/timeline_builders/rotation_builder.py: __add_autos, __get_next_auto_time, get_no_auto_periods, forward_to_next_non_downtime_time"]}
{"id": "C36", "title": "Every damaging hit is accounted for exactly once", "statement": "Turning a timeline into damage instances yields, for each event and each of its targets, one instance carrying that event's id and target if the variant in effect deals damage, and none otherwise.", "quantifier": "for every timeline on which the builder does not raise", "why_tests_cant": "conservation law over all timelines", "anchors": ["ama_xiv_combat_sim/simulator/timeline_builders/damage_builder.py: get_damage_instances"]}
{"id": "C37", "title": "Damage instances are time-sorted and placed correctly", "statement": "The instances are returned in non-decreasing time; an instance for the i-th target of an event lands at the event's application time plus 135 ms times i.", "quantifier": "for every timeline", "why_tests_cant": "all timelines", "anchors": ["ama_xiv_combat_sim/simulator/timeline_builders/damage_builder.py: get_damage_instances", "ama_xiv_combat_sim/simulator/game_data/game_consts.py: MULTI_TARGET_DELAY_PER_TARGET"]}
{"id": "C38", "title": "Snapshotting", "statement": "Once an event has snapshotted its buffs, nothing that happens between snapshot and application changes the buffs with which its damage is dealt.", "quantifier": "for every timeline and every set of intermediate events", "why_tests_cant": "interleavings of arbitrary events", "anchors": ["ama_xiv_combat_sim/simulator/timeline_builders/damage_builder.py: get_damage_instances (snapshot_status)"]}
{"id": "C39", "title": "Timeline processing is chronological", "statement": "Events are processed in order of their (snapshot or application) time.", "quantifier": "for every timeline", "why_tests_cant": "all timelines; false for follow-ups whose priority offset is subtracted instead of added at application time", "anchors": ["ama_xiv_combat_sim/simulator/timeline_builders/damage_builder.py: get_damage_instances (priority_modifier)"]}
{"id": "C40", "title": "The damage builder terminates without crashing", "statement": "get_damage_instances terminates on every finite timeline, and does not raise for timelines whose skills all have default variants.", "quantifier": "for every finite timeline", "why_tests_cant": "termination and absence of exceptions; the second half is false because equal-time instances may be compared by unorderable fields", "anchors": ["ama_xiv_combat_sim/simulator/timeline_builders/damage_builder.py: get_damage_instances (heapq.heappush of tuples)"]}
{"id": "C41", "title": "Base damage is at least 1 or zero potency", "statement": "The base damage of a damaging skill is 0 if its potency is 0 and at least 1 otherwise.", "quantifier": "for all stats, buffs, skills", "why_tests_cant": "real-valued inputs", "anchors": ["ama_xiv_combat_sim/simulator/calcs/compute_damage_utils.py: get_base_damage"]}
{"id": "C42", "title": "More potency or main stat never hurts", "statement": "Base damage is monotone in potency and in main stat for every damage class, for non-negative stats.", "quantifier": "for all stats and buffs, all damage classes", "why_tests_cant": "nested floors over reals: monotonicity cannot be tested exhaustively", "anchors": ["ama_xiv_combat_sim/simulator/calcs/compute_damage_utils.py: compute_direct_damage, compute_magical_dot_damage, compute_physical_dot_damage, compute_pet_damage, compute_auto_damage", "ama_xiv_combat_sim/simulator/calcs/stat_fns.py: fAP, fWD, fDet"]}
{"id": "C43", "title": "Forced critical / direct hit flags", "statement": "A forced hit has rate exactly 1, a forbidden one exactly 0, conflicting flags are rejected, and otherwise the rate is the base rate plus the bonuses of buffs and debuffs.", "quantifier": "for all flags, stats and buffs", "why_tests_cant": "all combinations of four sources and real-valued bonuses", "anchors": ["ama_xiv_combat_sim/simulator/calcs/compute_damage_utils.py: compute_crit_rates_and_bonuses"]}
{"id": "C44", "title": "Speed makes things faster, in 10 ms steps", "statement": "Cast and recast times computed from the speed stat are non-increasing in speed, non-decreasing in the base time and multiples of 10 ms; haste multipliers at most 1 never lengthen them.", "quantifier": "for all speeds, base times and levels", "why_tests_cant": "floors over all reals", "anchors": ["ama_xiv_combat_sim/simulator/calcs/stat_fns.py: get_time_using_speed_stat", "ama_xiv_combat_sim/simulator/utils.py: truncate_to_digit", "ama_xiv_combat_sim/simulator/timeline_builders/rotation_builder.py: __get_cast_time"]}
{"id": "C45", "title": "Stat scaling is monotone", "statement": "Critical rate, critical bonus, direct hit rate and the determination, tenacity, attack power, weapon and speed factors are non-decreasing in the stat.", "quantifier": "for all stat values and supported levels", "why_tests_cant": "all reals", "anchors": ["ama_xiv_combat_sim/simulator/calcs/stat_fns.py: get_crit_stats, get_dh_rate, fWD, fSpd, fTnc, fAP, fDet, fDetDH, fAuto"]}
{"id": "C46", "title": "Outcome probabilities form a distribution", "statement": "The four crit/direct-hit outcomes of an instance have probabilities that sum to 1 and lie in [0,1] whenever the rates do.", "quantifier": "for all rates", "why_tests_cant": "all reals; rates above 1 are reachable because buffs are added without clamping", "anchors": ["ama_xiv_combat_sim/simulator/trackers/damage_tracker.py: get_damage_ranges_and_probabilities", "ama_xiv_combat_sim/simulator/calcs/compute_damage_utils.py: compute_crit_rates_and_bonuses"]}
{"id": "C47", "title": "Every simulated hit lies in the reported range of its outcome", "statement": "For every draw of the random numbers, the sampled damage lies between the reported low and high of its own crit/direct-hit outcome.", "quantifier": "for all base damages, bonuses, multipliers and all random draws", "why_tests_cant": "random draws range over a continuum", "anchors": ["ama_xiv_combat_sim/simulator/trackers/damage_tracker.py: __get_damage, get_damage_ranges_and_probabilities"]}
{"id": "C48", "title": "Expected damage and variance are consistent", "statement": "The expected damage of an instance lies between its smallest low and largest high, the variance is never negative, and the totals are sums over instances.", "quantifier": "for all instances with rates in [0,1]", "why_tests_cant": "all reals", "anchors": ["ama_xiv_combat_sim/simulator/damage_simulator.py: __get_expected_damage_and_variance_per_damage_instance, get_expected_damage, get_damage_variance"]}
{"id": "C49", "title": "Simulation accepts every list of instances", "statement": "Simulating any list of damage instances (including an empty one and arbitrarily long ones) succeeds.", "quantifier": "for every list of damage instances", "why_tests_cant": "unbounded lists; false for the empty list and for more than 5000 instances", "anchors": ["ama_xiv_combat_sim/simulator/damage_simulator.py: __compile_damage", "ama_xiv_combat_sim/simulator/trackers/damage_tracker.py: add_damage (fixed 5000 rows)"]}
{"id": "C50", "title": "Kill time is the first crossing", "statement": "The kill time of a sample is the time of the first damage instance, in time order over all rotations, at which accumulated damage reaches the boss HP; samples that never reach it are reported as None and counted.", "quantifier": "for all damage matrices and HP values", "why_tests_cant": "all matrices", "anchors": ["ama_xiv_combat_sim/kill_time_estimator/kill_time_estimator.py: KillTimeEstimator.estimate_kill_time"]}
{"id": "C51", "title": "Kill time is monotone and tie-order independent", "statement": "With non-negative damage, more boss HP never makes a sample's kill time earlier, and the kill time does not depend on how instances at equal times are ordered.", "quantifier": "for all damage matrices, HP values and sorting orders", "why_tests_cant": "np.argsort is not stable: all tie orders must be considered", "anchors": ["ama_xiv_combat_sim/kill_time_estimator/kill_time_estimator.py: KillTimeEstimator.estimate_kill_time (np.argsort)"]}
{"id": "C52", "title": "Cumulative damage reports are monotone and complete", "statement": "Damage snapshotted before a timestamp is non-decreasing in the timestamp for non-negative damage, and the last row of the interval report accounts for all damage.", "quantifier": "for all damage lists and intervals", "why_tests_cant": "all lists", "anchors": ["ama_xiv_combat_sim/rotation_analysis/rotation_analysis_utils.py: get_all_damage_snapshots_before_timestamp, get_dps_at_intervals"]}
{"id": "C53", "title": "Patch lookups return the newest applicable value", "statement": "Looking up skill data for a version returns the value of the greatest listed version not above it, and nothing if all listed versions are newer.", "quantifier": "for every table and every version", "why_tests_cant": "all version strings; versions are compared as text so '10.0' sorts before '7.0'", "anchors": ["ama_xiv_combat_sim/simulator/utils.py: get_greatest_val_less_than_query, get_greatest_dict_key_val_less_than_query", "ama_xiv_combat_sim/simulator/game_data/specific_skills.py: get_skill_data"]}
{"id": "C54", "title": "The skill library stores exactly what was added", "statement": "A skill added under a job is returned by name for that job until the end, other jobs and names are unaffected, unknown names raise KeyError and duplicates are rejected without changing the library.", "quantifier": "for every sequence of library operations", "why_tests_cant": "unbounded histories", "anchors": ["ama_xiv_combat_sim/simulator/skills/skill_library.py: add_skill, get_skill, has_skill, set_current_job_class"]}
{"id": "C55", "title": "Default modifiers and targets", "statement": "Queuing a skill without a modifier uses an empty condition for the player's own job and the skill's off-class condition for other jobs; without targets the default target is used; every target ever named is known to the downtime logic.", "quantifier": "for every builder and add call", "why_tests_cant": "all calls", "anchors": ["ama_xiv_combat_sim/simulator/timeline_builders/rotation_builder.py: add, add_next, get_default_skill_modifier, __process_and_check_targets"]}
{"id": "C56", "title": "CSV import equals manual adds", "statement": "Populating a rotation from a CSV with n rows performs exactly the n corresponding add calls in row order, with empty job/conditional/target cells meaning 'default'.", "quantifier": "for every table", "why_tests_cant": "all tables", "anchors": ["ama_xiv_combat_sim/simulator/rotation_import_utils/csv_utils.py: CSVUtils.read_rotation_from_csv, populate_rotation_from_csv"]}
{"id": "C57", "title": "Positional inference only adds combo/positional conditions", "statement": "Inferring conditions from a bonus percentage keeps every condition already present and adds at most 'No Combo' and 'No Positional'.", "quantifier": "for every skill and modifier on which it succeeds", "why_tests_cant": "all skills and percentages", "anchors": ["ama_xiv_combat_sim/simulator/utils.py: get_positional_condition"]}
{"id": "C58", "title": "One use of a skill records exactly its events", "statement": "Using a skill adds to the timeline one event for the skill itself, which snapshots half a second before its cast ends and is applied after the cast and the application delay, and one event for each follow-up skill that is not a dot, applied its fixed delay after the parent and snapshotting with the parent or when it is applied, on the primary target only or on all targets.", "quantifier": "for every builder state, skill, modifier, buffs and targets on which it succeeds", "why_tests_cant": "all combinations of cast times, delays, follow-up flags and targets", "anchors": ["ama_xiv_combat_sim/simulator/timeline_builders/rotation_builder.py: __process_skill, _process_follow_up_skills, __process_non_dot_follow_up_skill"]}
{"id": "C59", "title": "Sampled totals and damage per second", "statement": "There is one sampled total per requested sample; it is the sum of that sample's damage over all instances; the damage per second is the total divided by the seconds between the first and the last instance, and infinite if they coincide.", "quantifier": "for all damage lists, sample counts and random draws", "why_tests_cant": "all lists and draws", "anchors": ["ama_xiv_combat_sim/simulator/damage_simulator.py: DamageSimulator.__compile_damage, get_raw_damage, get_dps, get_damage_matrix"]}
{"id": "C60", "title": "Hit rates are probabilities", "statement": "The critical and direct hit rates of every simulated instance lie between 0 and 1, however many buffs and debuffs add to them.", "quantifier": "for all stats, buffs and debuffs", "why_tests_cant": "all combinations of buffs", "anchors": ["ama_xiv_combat_sim/simulator/calcs/compute_damage_utils.py: compute_crit_rates_and_bonuses", "ama_xiv_combat_sim/simulator/damage_simulator.py: DamageSimulator.__compile_damage"]}
{"id": "C61", "title": "Outcome frequencies match the reported probabilities", "statement": "The share of random draws for which a sample is (or is not) a critical and a direct hit is the reported probability of that outcome: over n*n evenly spaced draws they differ by at most 2/n.", "quantifier": "for all rates in [0,1], all numbers of draws and all four outcomes", "why_tests_cant": "a statement about all draws at once; sampling tests only see noise", "anchors": ["ama_xiv_combat_sim/simulator/trackers/damage_tracker.py: DamageTracker.__get_damage, get_damage_ranges_and_probabilities"]}
{"id": "C62", "title": "The per-instance report is complete", "statement": "The report per instance lists every damage instance exactly once, in time order, with its own time, skill, condition, buffs, event id, target, potency and class, and with the expected damage and deviation of that instance.  Given a rotation, it also tells the snapshot time of the event with that id, and nothing else changes.", "quantifier": "for all damage lists, in any order, and all rotations", "why_tests_cant": "all lists, including equal times", "anchors": ["ama_xiv_combat_sim/simulator/damage_simulator.py: DamageSimulator.get_per_skill_damage"]}
{"id": "C63", "title": "Limit breaks deal the announced damage", "statement": "In a kill time estimate, a skill whose name contains LB deals exactly N damage in every sample if its condition begins with 'Exact Damage: N', and within five percent of N (rounded down) if it begins with 'Mean Damage: N'; decimals of N are ignored; any other condition raises RuntimeError; all other skills keep their simulated damage.", "quantifier": "for all rotations, conditions, numbers and random draws", "why_tests_cant": "all condition strings and draws", "anchors": ["ama_xiv_combat_sim/kill_time_estimator/kill_time_estimator.py: KillTimeEstimator.get_lb_damage, process_damage_for_lb_usage"]}
{"id": "C64", "title": "Expected best of several runs", "statement": "The expected best of k runs is the mean over the trials of the best of the k values chosen; it lies between the smallest and the largest given value, and does not decrease with k when the runs that are shared are the same. Over all possible choices the best is distributed as that of k independent runs.", "quantifier": "for all lists of values, k, numbers of trials and random choices", "why_tests_cant": "all choices", "anchors": ["ama_xiv_combat_sim/rotation_analysis/rotation_analysis_utils.py: get_expected_max_in_k_runs"]}
{"id": "C65", "title": "Positional inference explains the bonus shown", "statement": "For a skill whose damage depends on a positional, a non-zero bonus percentage is explained by the first of 'nothing missed', 'positional missed', 'combo missed', 'both missed' under which the skill's potency shows exactly that bonus; if none does the conditions stay as given, and a bonus of zero means the positional was missed.", "quantifier": "for all skills with conditional damage, modifiers and percentages", "why_tests_cant": "all skills and percentages", "anchors": ["ama_xiv_combat_sim/simulator/utils.py: get_positional_condition"]}
{"id": "C66", "title": "A status effect is on exactly the hits decided while it runs", "statement": "In the computed damage, a buff (or a debuff on a target) of unlimited uses is among the effects of a hit exactly if the hit's skill may be affected by it and the time the hit's effects are decided (its snapshot if it snapshots them, its application otherwise) lies after an application of the effect and not after the end that the applications up to then set, extensions included.", "quantifier": "for all timelines, skills, targets and times; hits decided at the very moment of an application are left open", "why_tests_cant": "all interleavings of applications, extensions, snapshots and expiries", "anchors": ["ama_xiv_combat_sim/simulator/timeline_builders/damage_builder.py: DamageBuilder.get_damage_instances", "ama_xiv_combat_sim/simulator/trackers/status_effect_tracker.py: StatusEffectTracker.add_to_status_effects, expire_status_effects, compile_buffs, compile_debuffs"]}
{"id": "C67", "title": "A status effect with n uses is on the first n events that may have it", "statement": "In the computed damage, an effect given once with n uses is on no hit before which n other events already took it, and on every hit within its duration that is among the first n events that may take it, in the order in which their effects are decided; an event with several targets takes a buff once.", "quantifier": "for all timelines, skills, targets, numbers of uses and times", "why_tests_cant": "all interleavings of uses, snapshots and expiries", "anchors": ["ama_xiv_combat_sim/simulator/timeline_builders/damage_builder.py: DamageBuilder.get_damage_instances", "ama_xiv_combat_sim/simulator/trackers/status_effect_tracker.py: StatusEffectTracker.expire_status_effects, __compile_status_effects"]}
{"id": "C68", "title": "The conditions of an instance are exactly those of its sources", "statement": "The set of conditions with which the damage of a hit is computed is the union of: the conditions of the press, what the gauges say (at the snapshot if the skill snapshots them, else at the application), the outcome of its combo and what positional inference adds, the conditions carried by the buffs and by the debuffs it gets, and 'Target k' if the skill has several targets; nothing else, and nothing is lost when an event is split into a snapshot and applications.", "quantifier": "for all timelines, builders, skills and targets", "why_tests_cant": "the sources are read at different times in the course of an execution, for all interleavings", "anchors": ["ama_xiv_combat_sim/simulator/timeline_builders/damage_builder.py: DamageBuilder.get_damage_instances", "ama_xiv_combat_sim/simulator/trackers/job_resource_tracker.py: JobResourceTracker.compile_job_resources", "ama_xiv_combat_sim/simulator/trackers/combo_tracker.py: ComboTracker.compile_and_update_combo", "ama_xiv_combat_sim/simulator/trackers/status_effect_tracker.py: StatusEffectTracker.compile_buffs, compile_debuffs"]}
{"id": "C69", "title": "The combo of every event is checked once, in order, and its outcome reaches all its hits", "statement": "While damage is computed the combo tracker sees every event exactly once, ordered by the times at which the events are processed, and the outcome of an event is a condition of each of its hits, also when there are several targets or the application is delayed.", "quantifier": "for all timelines, builders, skills and targets", "why_tests_cant": "events are split, pushed back and processed again in all interleavings", "anchors": ["ama_xiv_combat_sim/simulator/timeline_builders/damage_builder.py: DamageBuilder.get_damage_instances", "ama_xiv_combat_sim/simulator/trackers/combo_tracker.py: ComboTracker.compile_and_update_combo"]}
{"id": "C70", "title": "Every event changes the gauges once, and a hit sees the changes made before it", "statement": "While damage is computed every event changes the gauges exactly once, ordered by the times at which events are processed; what a hit is told about the gauges is the state after all changes before the time it reads them and none after it; a skill that reads them when it is pressed is not told about its own change.", "quantifier": "for all timelines, builders, gauges, skills and targets", "why_tests_cant": "events are split, pushed back and processed again in all interleavings", "anchors": ["ama_xiv_combat_sim/simulator/timeline_builders/damage_builder.py: DamageBuilder.get_damage_instances", "ama_xiv_combat_sim/simulator/trackers/job_resource_tracker.py: JobResourceTracker.add_resource, compile_job_resources"]}
{"id": "C71", "title": "Every press of a rotation is resolved once, from what the presses before it did", "statement": "get_skill_timing processes the sequence and the timed queue one after the other, each with new trackers and the timed queue in the order of its times; every press drops the effects that are over, then determines its buffs, debuffs, gauges, combo and positional in this order from what the earlier presses of its queue did and nothing else, then its cast time, application and follow-ups from the conditions found, and then changes effects and gauges itself; the events before dots and auto-attacks are exactly those of these presses and their follow-ups.", "quantifier": "for all builders, libraries, statistics and lists of presses", "why_tests_cant": "the state seen by a press depends on all earlier presses, in all interleavings of casts, delays and follow-ups", "anchors": ["ama_xiv_combat_sim/simulator/timeline_builders/rotation_builder.py: RotationBuilder.__process_q_sequence, __process_q_timed, __process_skill"]}
{"id": "C72", "title": "A buff or debuff affects exactly the presses during its time", "statement": "When skill timings are computed, a press has an effect (which is in no priority group) exactly if its skill may be affected by it and the time of the press lies between an application by an earlier press and the end of the duration, and, for an effect with limited uses, the presses that used it are fewer than its uses; the press that applies an effect does not have it by itself.", "quantifier": "for all builders, lists of presses, effects, durations and numbers of uses", "why_tests_cant": "the number of presses, applications and uses is unbounded", "anchors": ["ama_xiv_combat_sim/simulator/timeline_builders/rotation_builder.py: RotationBuilder.__process_q_sequence, __process_q_timed", "ama_xiv_combat_sim/simulator/trackers/status_effect_tracker.py: StatusEffectTracker"]}
{"id": "C73", "title": "The combo of a press depends on the presses before it by the combo rule", "statement": "When skill timings are computed, a press gets the condition No Combo exactly if one of its combo actions breaks the combo rule with respect to the presses before it in the same queue, at the times of the presses; the condition is part of its event.", "quantifier": "for all builders, combo groups, breakers and lists of presses", "why_tests_cant": "combo groups interact over an unbounded number of presses", "anchors": ["ama_xiv_combat_sim/simulator/timeline_builders/rotation_builder.py: RotationBuilder.__process_q_sequence, __process_q_timed", "ama_xiv_combat_sim/simulator/trackers/combo_tracker.py: ComboTracker.compile_and_update_combo"]}
{"id": "C74", "title": "A press is told the gauges as left by the presses before it", "statement": "When skill timings are computed, a press is told what the gauge tracker says at its time after the changes by the earlier presses of its queue, which count from their snapshots, and by their follow-ups, which count from their applications; its own changes do not count, nor do later ones for gauges that do not expire.", "quantifier": "for all builders, gauges and lists of presses", "why_tests_cant": "changes are recorded out of order and the number of presses is unbounded", "anchors": ["ama_xiv_combat_sim/simulator/timeline_builders/rotation_builder.py: RotationBuilder.__process_q_sequence, __process_q_timed", "ama_xiv_combat_sim/simulator/trackers/job_resource_tracker.py: JobResourceTracker.add_resource, compile_job_resources"]}
{"id": "C75", "title": "The library can be created for every shipped version and has all that every job needs", "statement": "create_skill_library succeeds exactly for level 90 at version 6.55 and levels 90 and 100 from version 7.0 on. The library then has the nineteen job classes of 6.55, and Pictomancer and Viper from 7.0 on; every job class has exactly one auto-attack that hits like one, its limit breaks, the potions of the version, and a wait for every time below ten seconds in steps of 10 ms which locks for exactly this time.", "quantifier": "for all version strings and all levels", "why_tests_cant": "there are infinitely many version strings, compared as text, and each of the thousands of (version, level, job) libraries has over a thousand skills; a skill method that raises ValueError silently empties its job", "anchors": ["ama_xiv_combat_sim/simulator/skills/create_skill_library.py: create_skill_library", "ama_xiv_combat_sim/simulator/game_data/generic_job_class.py: GenericJobClass.get_skills", "ama_xiv_combat_sim/simulator/game_data/specific_skills.py: SpecificSkills", "ama_xiv_combat_sim/simulator/game_data/class_skills/melee/vpr.py: VprSkills"]}
{"id": "C76", "title": "A shipped skill can be looked up under all conditions", "statement": "For every skill of the created library, and for its follow-ups, looking up damage, times, buffs, debuffs, channels, gauges, combos and follow-ups succeeds whatever the conditions, and the skill has times.", "quantifier": "for all shipped versions and levels, all job classes and skills, and all sets of conditions", "why_tests_cant": "the sets of conditions are arbitrary", "anchors": ["ama_xiv_combat_sim/simulator/skills/create_skill_library.py: create_skill_library", "ama_xiv_combat_sim/simulator/skills/skill.py: Skill.get_damage_spec, get_follow_up_skills", "ama_xiv_combat_sim/simulator/game_data/class_skills/ranged/mch.py: automaton_queen"]}
{"id": "C77", "title": "The numbers of the shipped skills make sense", "statement": "Times and delays are not negative; potencies are not negative and multipliers positive; buffs and debuffs add rates between 0 and 1, multiply damage by at least 1 and main stats by something positive, reduce times by less than all, last at most as long and are used at most as often as their maxima, and can be used at least once. So the shipped library meets the conditions on libraries of the other properties.", "quantifier": "for all shipped versions and levels, all job classes and skills, their follow-ups, and all sets of conditions", "why_tests_cant": "the values depend on the version, the level and the set of conditions", "anchors": ["ama_xiv_combat_sim/simulator/skills/create_skill_library.py: create_skill_library", "ama_xiv_combat_sim/simulator/game_data/class_skills/*", "ama_xiv_combat_sim/simulator/specs/*"]}
{"id": "C78", "title": "Shipped skills only name gauges and combo actions that exist", "statement": "A skill only changes gauges that its job class declares, and only continues combos with skills of its job class.", "quantifier": "for all shipped versions and levels, all job classes, skills and sets of conditions", "why_tests_cant": "a wrong name raises nothing until the gauge is asked for, and a combo with it just never succeeds", "anchors": ["ama_xiv_combat_sim/simulator/skills/create_skill_library.py: create_skill_library", "ama_xiv_combat_sim/simulator/game_data/class_skills/caster/rdm.py: enchanted_moulinet_trois", "ama_xiv_combat_sim/simulator/trackers/job_resource_tracker.py: JobResourceTracker", "ama_xiv_combat_sim/simulator/trackers/combo_tracker.py: ComboTracker"]}
{"id": "C79", "title": "Effects restricted to certain skills are of use", "statement": "If a shipped skill gives an effect with an allow-list, then the job class performs at least one of the skills on it.", "quantifier": "for all shipped versions and levels, all job classes, skills and sets of conditions", "why_tests_cant": "an effect that reaches no skill raises nothing and just changes nothing", "anchors": ["ama_xiv_combat_sim/simulator/skills/create_skill_library.py: create_skill_library", "ama_xiv_combat_sim/simulator/game_data/class_skills/healer/ast.py: swiftcast", "ama_xiv_combat_sim/simulator/game_data/class_skills/healer/sch.py: swiftcast", "ama_xiv_combat_sim/simulator/game_data/class_skills/healer/sge.py: swiftcast"]}
{"id": "C80", "title": "Which shipped skills drop off", "statement": "Every shipped skill that declares an AoE drop-off d deals 1-d times the potency to targets 2 to 9, under the same other conditions.", "quantifier": "for all shipped versions and levels, all job classes, skills and sets of conditions", "why_tests_cant": "the drop-off is silently ignored for skills with a single damage spec; this shows only in rotations with several targets", "anchors": ["ama_xiv_combat_sim/simulator/skills/skill.py: Skill.__process_aoe_dropoff", "ama_xiv_combat_sim/simulator/game_data/class_skills/*"]}
{"id": "C81", "title": "Versions after the same patches have the same skills", "statement": "Two supported versions that come after the same of the patches 7.0, 7.01, 7.05 and 7.1 give the same skill for every name and job class.", "quantifier": "for all pairs of version strings, all levels, names and job classes", "why_tests_cant": "there are infinitely many version strings between two patches", "anchors": ["ama_xiv_combat_sim/simulator/game_data/specific_skills.py: SpecificSkills.get_skill_data", "ama_xiv_combat_sim/simulator/game_data/class_skills/melee/mnk.py: dragon_kick", "ama_xiv_combat_sim/simulator/game_data/class_skills/melee/vpr.py"]}
{"id": "C82", "title": "Sharpcast does not change damage or times", "statement": "For every Black Mage skill except Scathe, whose potency it doubles, the condition Sharpcast changes neither the damage nor the times.", "quantifier": "for all shipped versions and levels, all skills of the Black Mage and all sets of conditions", "why_tests_cant": "the sets of conditions are arbitrary; the variant for Sharpcast competes with those for Astral Fire", "anchors": ["ama_xiv_combat_sim/simulator/game_data/class_skills/caster/blm.py: fire"]}
{"id": "C83", "title": "A rotation that can be played has a timeline", "statement": "If the library knows the job and everything about every pressed skill and its follow-ups can be looked up under the conditions of the press, times are whole milliseconds, only configured gauges are changed, no two skills force hits of the same skill and no two different skills with the same name are pressed at the same time, then get_skill_timing terminates and returns normally; with auto-attacks also some press must deal damage and auto-attacks must stay 10 ms apart with all effects that make them faster.", "quantifier": "for all rotations built with the public calls, all skill libraries, stats, downtime windows and conditions", "why_tests_cant": "exceptions come from lookups under conditions that depend on everything pressed before; tests only see the rotations they list", "anchors": ["ama_xiv_combat_sim/simulator/timeline_builders/rotation_builder.py: RotationBuilder.get_skill_timing", "ama_xiv_combat_sim/simulator/skills/skill.py: Skill.get_follow_up_skills", "ama_xiv_combat_sim/simulator/trackers/job_resource_tracker.py: JobResourceTracker", "ama_xiv_combat_sim/simulator/trackers/status_effect_tracker.py: StatusEffectTracker.compile_buffs"]}
{"id": "C84", "title": "Rotations of shipped skills have a timeline", "statement": "If a rotation is built from a library made by create_skill_library, for one of the shipped job classes at the level of the library, with skills of the job class of the stats (or of other jobs, if they move no gauge), no manual bonus percent, the Automaton Queen only under conditions for which her follow-ups are known, a start of the fight on a whole millisecond and no two skills of the same name of different jobs at the same time, then get_skill_timing terminates and returns normally; with auto-attacks also some press must deal damage, the weapon delay must be a tenth of a second, and the job must have an auto-attack (Vipers between 7.01 and 7.05 have none).", "quantifier": "for all supported versions and levels, all rotations built with the public calls from any of the shipped skills, all stats, conditions, targets and downtime windows", "why_tests_cant": "there are infinitely many rotations; the tests play one short rotation per feature and most shipped skills are pressed in none", "anchors": ["ama_xiv_combat_sim/simulator/skills/create_skill_library.py: create_skill_library", "ama_xiv_combat_sim/simulator/timeline_builders/rotation_builder.py: RotationBuilder.get_skill_timing", "ama_xiv_combat_sim/simulator/trackers/job_resource_tracker.py: JobResourceTracker.add_resource", "ama_xiv_combat_sim/simulator/game_data/class_skills/*"]}
{"id": "C85", "title": "The timeline of a rotation can be turned into damage instances", "statement": "If a rotation can be played (C83), in particular if it is a sensible rotation of shipped skills (C84), then a damage builder for the same stats and library is created without exception, and get_damage_instances on the timeline returns normally.", "quantifier": "for all rotations built with the public calls, all skill libraries, stats, downtime windows and conditions; and all shipped versions and levels", "why_tests_cant": "the damage builder replays the whole timeline with trackers of its own, so that lookups happen under conditions that differ from those of the rotation builder", "anchors": ["ama_xiv_combat_sim/simulator/timeline_builders/rotation_builder.py: RotationBuilder.get_skill_timing", "ama_xiv_combat_sim/simulator/timeline_builders/damage_builder.py: DamageBuilder.get_damage_instances", "ama_xiv_combat_sim/simulator/skills/create_skill_library.py: create_skill_library"]}
{"id": "C86", "title": "A rotation that can be played can be simulated", "statement": "If a rotation can be played (C83), its damage is of known classes, a tank has a tenacity, a healer or caster has a strength for auto-attacks, and no two of the things that decide about the critical and direct hits of a skill (its damage, its press, the effects in play that may affect it) contradict each other, then the damage instances of its timeline can be simulated with any number of samples and any random draws without an exception, with one row per instance and one total per sample. For shipped skills the last two conditions only concern the stats and the modifiers of the presses.", "quantifier": "for all rotations built with the public calls, all skill libraries, stats, downtime windows, conditions, numbers of samples and draws; and all shipped versions and levels", "why_tests_cant": "which effects meet at a hit depends on everything pressed before, and the contradiction only shows when the damage is computed", "anchors": ["ama_xiv_combat_sim/simulator/timeline_builders/rotation_builder.py: RotationBuilder.get_skill_timing", "ama_xiv_combat_sim/simulator/timeline_builders/damage_builder.py: DamageBuilder.get_damage_instances", "ama_xiv_combat_sim/simulator/damage_simulator.py: DamageSimulator.__init__", "ama_xiv_combat_sim/simulator/calcs/compute_damage_utils.py", "ama_xiv_combat_sim/simulator/skills/create_skill_library.py: create_skill_library"]}
{"id": "C87", "title": "Timelines depend on pace, damage on power", "statement": "The timeline of a rotation (its events and presses) does not depend on the offensive stats: two programs that make the same calls with stats that agree on job, version, level, speed and weapon delay see the same timeline. Of the library the timeline only reads the gauges, the combo breakers and the auto-attack of the job, and the damage instances only the priorities, gauges and breakers of the job. The damage of given instances is the same under all game versions except the test version.", "quantifier": "for all sequences of public calls, all stats, libraries, timelines, instances, versions, numbers of samples and draws", "why_tests_cant": "independence from an input is a statement about all pairs of inputs; a test compares two", "anchors": ["ama_xiv_combat_sim/simulator/timeline_builders/rotation_builder.py: RotationBuilder.get_skill_timing", "ama_xiv_combat_sim/simulator/timeline_builders/damage_builder.py: DamageBuilder.__init__, get_damage_instances", "ama_xiv_combat_sim/simulator/damage_simulator.py: DamageSimulator.__init__", "ama_xiv_combat_sim/simulator/stats.py: Stats.__init__"]}
{"id": "C88", "title": "The example rotations are those of the data", "statement": "For every version and level for which a skill library can be created, get_example_rotations returns without an exception the listed rotations in the listed order: nineteen at 6.55, six before 7.05 and eight from then on at level 90; none before 7.05 and twenty-three from then on at level 100. Each is a rotation builder with the stats of its data, the listed skills pressed one after the other, the party skills at their times, no downtime, and auto-attacks except for White Mages, Sages and Astrologians; and the data covers the version.", "quantifier": "for all version strings and levels for which the library can be created", "why_tests_cant": "there are infinitely many version strings between and after the listed ones, compared as text; a missing or misspelled skill only shows when its rotation is built", "anchors": ["ama_xiv_combat_sim/example_rotations/get_example_rotations.py: get_example_rotations", "ama_xiv_combat_sim/example_rotations/example_rotation_utils.py", "ama_xiv_combat_sim/example_rotations/specific_rotations.py: SpecificRotations", "ama_xiv_combat_sim/example_rotations/*/*_data.py", "ama_xiv_combat_sim/simulator/skills/create_skill_library.py: create_skill_library"]}
{"id": "C89", "title": "The example rotations can be played and simulated", "statement": "For every example rotation of every created library, get_skill_timing terminates and returns normally, and its timeline can be turned into damage instances and simulated with any number of samples and draws without an exception.", "quantifier": "for all version strings and levels for which the library can be created, all example rotations, all numbers of samples and draws", "why_tests_cant": "the tests play none of the example rotations, and every version and level has other skills", "anchors": ["ama_xiv_combat_sim/example_rotations/get_example_rotations.py: get_example_rotations", "ama_xiv_combat_sim/simulator/timeline_builders/rotation_builder.py: RotationBuilder.get_skill_timing", "ama_xiv_combat_sim/simulator/timeline_builders/damage_builder.py: DamageBuilder.get_damage_instances", "ama_xiv_combat_sim/simulator/damage_simulator.py: DamageSimulator.__init__"]}
{"id": "C90", "title": "The stats of an example rotation are those of the library's level and version", "statement": "The stats of every example rotation have the version and the level of the skill library that it was made from.", "quantifier": "for all version strings and levels for which the library can be created, and all example rotations", "why_tests_cant": "no test looks at the level of the stats; the formulas silently use the constants of another level", "anchors": ["ama_xiv_combat_sim/example_rotations/specific_rotations.py: SpecificRotations.get_stats", "ama_xiv_combat_sim/simulator/stats.py: Stats.__init__"]}
{"id": "C91", "title": "Each party skill of an example rotation is pressed once", "statement": "Every party skill listed in the data of a rotation gives exactly one press, at its time, for its job and with its modifier.", "quantifier": "for all lists of party skills and all builders", "why_tests_cant": "no shipped data has a party skill with a modifier, so that branch is never run", "anchors": ["ama_xiv_combat_sim/example_rotations/example_rotation_utils.py: get_example_rotation_with_rb"]}
{"id": "C92", "title": "Every job class has an example rotation", "statement": "For every job class of a created library there is an example rotation.", "quantifier": "for all version strings and levels for which the library can be created, and all job classes", "why_tests_cant": "which examples are offered depends on comparisons of version strings with the dates in the data", "anchors": ["ama_xiv_combat_sim/example_rotations/get_example_rotations.py: get_example_rotations", "ama_xiv_combat_sim/example_rotations/specific_rotations.py: SpecificRotations.rotation_is_valid", "ama_xiv_combat_sim/example_rotations/*/*_data.py", "ama_xiv_combat_sim/simulator/skills/create_skill_library.py: create_skill_library"]}
{"id": "C93", "title": "Better gear, better buffs and more hits never lower the damage", "statement": "Take two characters of the same job, level and version, the second with no lower stat and no fewer roles in its party, and two lists of hits such that each hit of the first list has a counterpart in the second one with no less potency and no weaker buffs and debuffs (rates, multipliers, main stat, forced hits). Then the base damage of every counterpart is not lower, the expected damage of the second list is not lower (also if it has further hits), and if the times are the same, then with the same random numbers no simulated total and no damage per second is lower.", "quantifier": "for all pairs of characters with at least the stats of an ungeared one, all lists of hits, all random numbers and all numbers of samples", "why_tests_cant": "an inequality between two simulations over all stats, buffs and draws, through several floors; tests compare single simulations with recorded numbers", "anchors": ["ama_xiv_combat_sim/simulator/calcs/compute_damage_utils.py", "ama_xiv_combat_sim/simulator/trackers/damage_tracker.py", "ama_xiv_combat_sim/simulator/damage_simulator.py", "ama_xiv_combat_sim/simulator/calcs/stat_fns.py"]}
{"id": "C94", "title": "A damage builder can be used for several timelines", "statement": "The damage instances that a damage builder computes for a timeline do not depend on the timelines it has processed before: they are those that a new builder for the same character and library computes.", "quantifier": "for all characters and libraries, all earlier timelines that were processed without exception and all later timelines", "why_tests_cant": "the tests make a new builder for every timeline; whether state survives between two calls depends on the pair of timelines", "anchors": ["ama_xiv_combat_sim/simulator/timeline_builders/damage_builder.py: DamageBuilder.get_damage_instances", "ama_xiv_combat_sim/simulator/timeline_builders/damage_builder.py: DamageBuilder.__init__"]}
{"id": "C95", "title": "The same timeline at another time gives the same damage", "statement": "If all events of a timeline happen the same time later (or earlier), the damage builder computes the same damage instances that much later: the same skills, conditions, buffs, debuffs and targets in the same order, or the same exception. With the same random numbers the simulator then gives the same total damage, damage per second, expected damage and variance.", "quantifier": "for all characters, libraries, timelines, whole numbers of microseconds to move by, random numbers and numbers of samples", "why_tests_cant": "a relation between two runs over all timelines; a hidden dependence on the absolute time, such as time 0 read as 'never', shows only for single timelines", "anchors": ["ama_xiv_combat_sim/simulator/timeline_builders/damage_builder.py: DamageBuilder.get_damage_instances", "ama_xiv_combat_sim/simulator/trackers/job_resource_tracker.py: JobResourceTracker", "ama_xiv_combat_sim/simulator/trackers/combo_tracker.py: ComboTracker", "ama_xiv_combat_sim/simulator/trackers/status_effect_tracker.py", "ama_xiv_combat_sim/simulator/damage_simulator.py: DamageSimulator.__init__"]}
{"id": "C96", "title": "What is added at the end of a timeline does not change the damage before it", "statement": "If a timeline is extended by events that come after everything that happens in it, the damage builder still computes all the damage instances it had, unchanged (skill, conditions, buffs, debuffs, target, time); every other instance is a hit of one of the new events. If the shorter timeline raises an exception, the longer one raises it too.", "quantifier": "for all damage builders, all timelines and all extensions that come later in the order of the queue", "why_tests_cant": "a relation between two runs over all timelines and extensions; the order in which a heap returns equal elements changes only for particular contents", "anchors": ["ama_xiv_combat_sim/simulator/timeline_builders/damage_builder.py: DamageBuilder.get_damage_instances", "ama_xiv_combat_sim/simulator/timeline_builders/snapshot_and_application_events.py"]}
{"id": "C97", "title": "The base damage is the product of its factors, up to rounding", "statement": "Critical hit rate, critical hit bonus and direct hit rate are the linear functions of the stats for the level, rounded down to tenths of a percent. The base damage of a hit is potency / 100 times attack power, weapon damage, determination (with direct hit for guaranteed direct hits), tenacity (tanks only), speed (damage over time, and auto-attacks of jobs with skill speed), the bonuses for guaranteed hits and the multiplier of the skill: never more than this product (or 1), and not less than the product with every factor lowered by its rounding unit, less an explicit allowance for the rounding of intermediate results.", "quantifier": "for all characters of all supported jobs and levels, all five kinds of damage, all potencies, modifiers, buffs and debuffs for which the lowered factors are not negative", "why_tests_cant": "the formulas differ by kind of damage and role and round at up to seven places; a test pins single numbers, so that a wrong factor shows only if the right job, kind of damage and stats are sampled", "anchors": ["ama_xiv_combat_sim/simulator/calcs/compute_damage_utils.py: compute_direct_damage, compute_magical_dot_damage, compute_physical_dot_damage, compute_pet_damage, compute_auto_damage, get_base_damage", "ama_xiv_combat_sim/simulator/calcs/stat_fns.py", "ama_xiv_combat_sim/simulator/processed_stats.py: ProcessedStats", "ama_xiv_combat_sim/simulator/stats.py: Stats.__post_init__", "ama_xiv_combat_sim/simulator/game_data/game_consts.py", "ama_xiv_combat_sim/simulator/game_data/job_class_fns.py"]}
{"id": "C98", "title": "The damage of a hit is its base damage times its multipliers, up to rounding", "statement": "In every sample the damage of a hit is its base damage spread evenly between 95% and 105%, with the bonus for a critical hit exactly if the number drawn is at most the critical hit rate, and a quarter more for a direct hit exactly if the number drawn is at most the direct hit rate, times the multiplier of the traits (or the one the skill overrides it with) and of all buffs and debuffs: never more than this product, and less by at most an explicit allowance for five roundings. The expected damage of a hit is the base damage times 1 + rate x bonus of critical hits, 1 + a quarter of the direct hit rate, and the same multipliers, within the same allowance.", "quantifier": "for all characters with critical hit stat >= 0, all lists of damage instances with damage multipliers >= 0, all random numbers, numbers of samples, hits and samples; for the expected damage all hit rates between 0 and 1 and random numbers other than 0", "why_tests_cant": "the order of the steps and the roundings between them matter only by single points of damage; a test with sampled damage accepts a wide range, and the expected damage is pinned for single rotations only", "anchors": ["ama_xiv_combat_sim/simulator/trackers/damage_tracker.py: DamageTracker", "ama_xiv_combat_sim/simulator/damage_simulator.py: DamageSimulator.__compile_damage, __get_expected_damage_and_variance_per_damage_instance, get_damage_ranges"]}
{"id": "C99", "title": "The reported expected damage is the mean of the samples", "statement": "Taken over all random numbers, the share of critical hits in the samples of a hit is its critical hit rate, the share of direct hits its direct hit rate, and the mean of the sampled damage is the reported expected damage of the hit; likewise the mean of the total damage is the reported expected damage. The shares agree up to the granularity 1/N of the random numbers (N = 2^53 for numpy), the damage up to an explicit allowance for the roundings and the granularity.", "quantifier": "for all characters with critical hit stat >= 0, all lists of damage instances with damage multipliers >= 0, all hits with hit rates between 0 and 1, all N >= 1, and samples in which all combinations of the multiples of 1/N occur equally often, in any order; random numbers other than 0 for the report", "why_tests_cant": "tests compare a sampled mean with the expected damage within a tolerance of whole percents, for single rotations; the two are computed by different code", "anchors": ["ama_xiv_combat_sim/simulator/trackers/damage_tracker.py: DamageTracker", "ama_xiv_combat_sim/simulator/damage_simulator.py: DamageSimulator.__compile_damage, __get_expected_damage_and_variance_per_damage_instance, get_raw_damage, get_expected_damage"]}
{"id": "C100", "title": "The amount in a gauge is the running total of its changes", "statement": "A skill that may see a gauge is told the running total of all changes made so far that have not run out, taken in order of time (at the same time in the order of the calls), where clearing empties the gauge and the total is kept between nothing and the maximum after every change. For a gauge with a time limit only the changes since the limit last ran out between two changes count, and the gauge is empty once the limit has run out, except if it runs from time 0. As long as the changes would not leave the bounds the amount is just their sum.", "quantifier": "for all gauge settings, all histories of skills and queries in any order, all times and skills", "why_tests_cant": "the amount depends on the whole history; a wrong order of adding and bounding, or of changes at the same time, shows only for histories that hit a bound", "anchors": ["ama_xiv_combat_sim/simulator/trackers/job_resource_tracker.py: JobResourceTracker.compile_job_resources, add_resource"]}
{"id": "C101", "title": "The reported variance is that of the samples", "statement": "Taken over all random numbers, the standard deviation of the sampled damage of a hit is the square root of the variance reported for that hit, up to an explicit allowance: the damage all roundings together can cost, and the highest damage of the hit times the square root of 3/N, where 1/N is the granularity of the random numbers (N = 2^53 for numpy). If the hits are independent, the standard deviation of the total damage is the square root of the reported variance of the damage, up to the root of the sum of the squared allowances of the hits.", "quantifier": "for all characters with critical hit stat >= 0, all lists of damage instances with damage multipliers >= 0, all hits with hit rates between 0 and 1, all N >= 1, and samples in which all combinations of the multiples of 1/N occur equally often, in any order (for the total: also the combinations of any two hits); random numbers other than 0 for the report", "why_tests_cant": "the variance is computed by a formula for mixtures of uniform distributions, the samples by another function; a sampled variance has so much noise that a test cannot tell a wrong formula from a right one within a few percent", "anchors": ["ama_xiv_combat_sim/simulator/trackers/damage_tracker.py: DamageTracker", "ama_xiv_combat_sim/simulator/damage_simulator.py: DamageSimulator.__compile_damage, __get_expected_damage_and_variance_per_damage_instance"]}
{"id": "C102", "title": "Adding skills to a rotation does not change what is already there", "statement": "Whatever public calls are made on a rotation builder, all presses reported before are still reported, with the same skills, jobs and conditions, at the same times if the fight start is given (otherwise all moved by one amount), together with one press for each skill added. If no timed skill is added before or at the time of an existing one, then everything the presses did before they still do: the same skills under the same conditions with the same buffs, debuffs and targets at the same times. And the skills of the sequence and the timed skills do not influence each other: a rotation with both does what the two rotations with only one kind do.", "quantifier": "for all builders, all lists of public calls on them, all libraries and characters; for the events, all lists of calls that add timed skills only after the existing ones, whose times differ", "why_tests_cant": "the effect of a press depends on the whole history of trackers, heap order and queue contents; a leak of state from a later press, or from one queue into the other, shows only for particular combinations of skills", "anchors": ["ama_xiv_combat_sim/simulator/timeline_builders/rotation_builder.py: RotationBuilder.get_skill_timing, __process_q_sequence, __process_q_timed, add, add_next, get_button_press_timing"]}
{"id": "C103", "title": "A rotation played at another time has the same timeline", "statement": "Take a rotation with a fight start, and the same one with the fight start, the times of all timed skills, the first server tick (if given) and the downtime windows moved by the same whole number of milliseconds. Both report the same presses and the same timeline, moved by that amount: the same skills under the same conditions, with the same buffs, debuffs, targets and ticks of dots, the same auto-attacks, and the same order of events at the same time. Without a fight start, adding the same time to all timed skills and the server ticks changes nothing at all: the first damage is at time 0 anyway. One raises exactly when the other does.", "quantifier": "for all characters, libraries and targets, all lists of public calls that add skills with times in whole milliseconds, all amounts to move by, positive or negative, and all downtime", "why_tests_cant": "times are compared with 0 in several places (falsy values, the start of the fight, integer priorities), so a mistake shows only for particular times; tests use a fight start of 0 and a handful of times", "anchors": ["ama_xiv_combat_sim/simulator/timeline_builders/rotation_builder.py: RotationBuilder.get_skill_timing, add, add_next, __process_all_dots, remove_damage_during_downtime, __process_q_sequence, __process_q_timed", "ama_xiv_combat_sim/simulator/timeline_builders/snapshot_and_application_events.py: SnapshotAndApplicationEvents", "ama_xiv_combat_sim/simulator/trackers/job_resource_tracker.py: JobResourceTracker"]}
{"id": "C104", "title": "The damage of a rotation does not depend on when it is played", "statement": "Take a rotation and the same one with fight start, timed skills, server ticks and downtime moved by the same whole number of milliseconds. From the timelines of both, the damage builder makes the same damage instances - the same skills, conditions, buffs, debuffs and targets in the same order, only their times moved. With the same random numbers, the damage simulator gives the same samples of the damage and of the damage per second, the same expected damage of each instance and the same variances.", "quantifier": "for all characters, libraries without expiring gauges (all shipped job classes but Black Mage), all lists of public calls that add skills, all amounts to move by, all numbers of samples and all random numbers", "why_tests_cant": "it joins the rotation builder, the damage builder, the trackers and the simulator, all of which compare times with each other and some with 0; a mistake in any of them would show as a small change of damage in particular rotations", "anchors": ["ama_xiv_combat_sim/simulator/timeline_builders/rotation_builder.py: RotationBuilder.get_skill_timing", "ama_xiv_combat_sim/simulator/timeline_builders/damage_builder.py: DamageBuilder.get_damage_instances", "ama_xiv_combat_sim/simulator/damage_simulator.py: DamageSimulator", "ama_xiv_combat_sim/simulator/timeline_builders/snapshot_and_application_events.py: SnapshotAndApplicationEvents", "ama_xiv_combat_sim/simulator/trackers/status_effect_tracker.py: StatusEffectTracker"]}
{"id": "C105", "title": "The names of the targets do not matter", "statement": "Give the targets of a timeline other names, different names to different targets. The damage builder then makes exactly the same damage instances in the same order - the same skills, conditions, times, event ids, buffs and debuffs - on the targets with the other names, or raises the same exception. The damage simulator, with the same random numbers, gives the same samples, expected damage, variances, times and rates; only the names it reports differ.", "quantifier": "for all characters and libraries, all timelines (from rotations or built by hand), all one-to-one renamings of targets, all numbers of samples and all random numbers", "why_tests_cant": "tests use two or three fixed names, most of them the default name; whether the name of a target influences the result cannot be seen from runs with the same names", "anchors": ["ama_xiv_combat_sim/simulator/timeline_builders/damage_builder.py: DamageBuilder.get_damage_instances", "ama_xiv_combat_sim/simulator/trackers/status_effect_tracker.py: StatusEffectTracker.add_to_status_effects, __expire_named_effect, compile_debuffs", "ama_xiv_combat_sim/simulator/damage_simulator.py: DamageSimulator"]}
{"id": "C106", "title": "Effects that are ended exist", "statement": "Whenever a buff or debuff of a skill of the shipped library, or of a follow-up of it, ends other effects by name, each of these names is that of a buff which some skill of the same job class, or a follow-up of it, gives without any conditions.", "quantifier": "for all versions and levels for which the library can be created, all job classes, skills, follow-ups and conditions", "why_tests_cant": "an effect that is ended but never given does nothing and raises nothing: ending a name that is not active is silently ignored, so a misspelt or removed name is invisible in tests", "anchors": ["ama_xiv_combat_sim/simulator/skills/create_skill_library.py: create_skill_library", "ama_xiv_combat_sim/simulator/game_data/class_skills/caster/blm.py: blizzard_iii, high_blizzard_ii, high_fire_ii", "ama_xiv_combat_sim/simulator/trackers/status_effect_tracker.py: StatusEffectTracker.__expire_named_effect"]}
{"id": "C107", "title": "Every effect does something", "statement": "Whatever buff or debuff a skill of the shipped library or a follow-up of it gives, it does something: it changes the hit rates, the damage, the main stat or times, forces or forbids hits, or ends effects; or else it is told, as a condition, to skills that it is for, and one of these in the same job class has a variant for conditions including its name. (A skill without a variant for a condition does the same with it as without it.)", "quantifier": "for all versions and levels for which the library can be created, all job classes, skills, follow-ups and conditions", "why_tests_cant": "an effect that is told to skills that have no variant for it changes no number and raises nothing; which table uses which names is spread over twenty-one files, and a test of a rotation only compares totals that were computed with the same tables", "anchors": ["ama_xiv_combat_sim/simulator/skills/create_skill_library.py: create_skill_library", "ama_xiv_combat_sim/simulator/game_data/class_skills/melee/vpr.py: hunters_den, twinfang_thresh, twinblood_thresh", "ama_xiv_combat_sim/simulator/skills/skill.py: Skill.get_damage_spec, get_follow_up_skills", "ama_xiv_combat_sim/simulator/trackers/status_effect_tracker.py: StatusEffectTracker.compile_buffs"]}
{"id": "C108", "title": "Skills are told the gauges they depend on", "statement": "If a skill of the shipped library has, in any of its tables, a variant for conditions including an amount in a gauge of its job class - \"n Gauge\", or \"Gauge\" for gauges that are told without a number - then the skill is in the list of skills that are told this gauge.", "quantifier": "for all versions and levels for which the library can be created, all job classes, their skills and gauges, and all amounts", "why_tests_cant": "a skill that is not told its gauge silently uses its default variant; a test that gives the conditions by hand does not see it", "anchors": ["ama_xiv_combat_sim/simulator/skills/create_skill_library.py: create_skill_library", "ama_xiv_combat_sim/simulator/game_data/class_skills/caster/blm.py: freeze, __af_skill_allowlist, __ui_skill_allowlist", "ama_xiv_combat_sim/simulator/game_data/class_skills/ranged/brd.py", "ama_xiv_combat_sim/simulator/trackers/job_resource_tracker.py: JobResourceTracker.compile_job_resources"]}
{"id": "C109", "title": "The names of the targets do not matter to a rotation", "statement": "Give the targets of a rotation other names, different ones for different targets: in the arguments `targets` of `add` and `add_next`, in `default_target` and in the downtime windows. Then all calls still succeed, and `get_skill_timing` gives the same presses and the same events in the same order at the same times - dot ticks, follow-ups and auto-attacks included - with only the targets renamed; so the damage of every instance and the simulation are the same; or the same exception is raised.", "quantifier": "for all stats, skill libraries, settings, downtime windows, sequences of public calls and injective renamings of targets", "why_tests_cant": "renaming targets touches the queue of presses (whose order compares the names last), the dictionaries of dots, debuffs and downtime, and the default arguments of the trackers; tests use one or two fixed names", "anchors": ["ama_xiv_combat_sim/simulator/timeline_builders/rotation_builder.py: add, add_next, __process_q_timed, __process_q_sequence, __process_dot_follow_up, __add_autos, get_skill_timing", "ama_xiv_combat_sim/simulator/trackers/status_effect_tracker.py: StatusEffectTracker.compile_debuffs", "ama_xiv_combat_sim/simulator/timeline_builders/damage_builder.py: DamageBuilder.get_damage_instances"]}
{"id": "C110", "title": "A sequence does what the same skills at the times worked out for it do", "statement": "Enter skills as a sequence with `add_next` and let `get_skill_timing` work out when each is pressed. Enter the same skills, with the same conditions, job classes and targets, with `add` at these times instead - moved so that the first is at `fight_start_time`, or at 0 if this is not given. Then all calls succeed, and `get_skill_timing` gives the same events in the same order, with the same times, conditions and targets, and the same presses.", "quantifier": "for all stats, skill libraries, settings, downtime windows and sequences of calls of add_next", "why_tests_cant": "the two queues are processed by two separate loops with the same steps written out twice, and each test of the builder uses one or the other; that they agree on every sequence is not seen from a few of them", "anchors": ["ama_xiv_combat_sim/simulator/timeline_builders/rotation_builder.py: add, add_next, __process_q_timed, __process_q_sequence, get_skill_timing", "ama_xiv_combat_sim/simulator/timeline_builders/rotation_builder.py: __get_no_auto_periods"]}
{"id": "C111", "title": "Missing a combo or a positional never pays", "statement": "Look up a skill of a shipped library under some conditions, and once more with \"No Combo\" or \"No Positional\" added. The potencies that it and its follow-ups announce for the first target do not add up to more than before.", "quantifier": "for all supported versions and levels, all job classes, all their skills, generic ones and limit breaks included, and all sets of other conditions (none of which names a further target)", "why_tests_cant": "the tests use a few skills under a few conditions; the variants of a skill are written out one by one with potencies from tables, and a swap of two numbers is only seen if exactly these variants are compared", "anchors": ["ama_xiv_combat_sim/simulator/game_data/class_skills/**: damage_spec and follow_up_skills of all skills, the potencies in *_data.py", "ama_xiv_combat_sim/simulator/skills/skill.py: get_damage_spec, get_follow_up_skills"]}
{"id": "C112", "title": "Better gear never lowers the damage of a rotation", "statement": "Play the same rotation with two characters of the same job class, level, version and weapon delay and with speeds of the same tier (see C114), of which the second is not worse in weapon damage, main stat, determination, critical hit, direct hit, speed and tenacity, nor in the number of roles in its party. Both get the same hits at the same times with the same buffs and debuffs, or the same exception. Simulated with the same random numbers, no sample of the total damage or of the damage per second is lower for the second, and neither is the expected damage, as long as the hit rates are at most 1.", "quantifier": "for all pairs of such characters with stats not below the base values, all shipped libraries and all others whose hits have no negative numbers, all settings, downtime windows, sequences of public calls, random numbers and numbers of samples", "why_tests_cant": "the numbers pass through the rotation builder, the damage builder, a dozen floor functions and the simulation; a comparison of a few characters does not exclude a step of a floor function or a branch on the stats that goes the wrong way", "anchors": ["ama_xiv_combat_sim/simulator/stats.py: Stats", "ama_xiv_combat_sim/simulator/timeline_builders/rotation_builder.py: get_skill_timing", "ama_xiv_combat_sim/simulator/timeline_builders/damage_builder.py: DamageBuilder.get_damage_instances", "ama_xiv_combat_sim/simulator/damage_simulator.py: DamageSimulator"]}
{"id": "C113", "title": "Simulated damage is a whole number of points", "statement": "Every sample of every hit and of the total damage of a rotation is a whole number and not negative. A hit deals 0 if and only if its skill has no potency.", "quantifier": "for all characters, all rotations of shipped skills and all other lists of hits without negative multipliers, all random numbers and numbers of samples", "why_tests_cant": "the damage is computed with floating point arrays that go through five floor functions; the tests compare means with a tolerance and do not look at single samples, least of all at very weak hits", "anchors": ["ama_xiv_combat_sim/simulator/calcs/compute_damage_utils.py: ComputeDamageUtils.get_base_damage", "ama_xiv_combat_sim/simulator/trackers/damage_tracker.py: DamageTracker.__get_damage", "ama_xiv_combat_sim/simulator/damage_simulator.py: DamageSimulator.get_damage_matrix, get_raw_damage", "ama_xiv_combat_sim/simulator/timeline_builders/damage_builder.py: DamageBuilder.get_damage_instances"]}
{"id": "C114", "title": "Speed within a tier does not change a rotation", "statement": "Two characters of the same job class, version, level and weapon delay, whose speeds s give the same number ceil(130 * (sub - s) / div) - with sub and div the base substat and the divisor of the level - get the same presses and the same timeline from the same calls, with the same times, or the same exception, whatever their other stats; and the damage builder gives both the same hits with the same buffs and debuffs.", "quantifier": "for all pairs of such characters with whole speeds up to 15000, all skill libraries, settings, downtime windows and sequences of public calls", "why_tests_cant": "one point of speed must not move anything inside a tier and the tests use single speeds; the times go through four floating point roundings, a floor and a conversion to an integer for every cast and recast of a rotation", "anchors": ["ama_xiv_combat_sim/simulator/calcs/stat_fns.py: StatFns.get_time_using_speed_stat", "ama_xiv_combat_sim/simulator/timeline_builders/rotation_builder.py: __get_cast_time, __process_q_sequence, __process_q_timed, get_skill_timing", "ama_xiv_combat_sim/simulator/timeline_builders/damage_builder.py: DamageBuilder.get_damage_instances"]}
{"id": "C115", "title": "Substats only count in tiers", "statement": "Take two characters that differ in critical hit, direct hit, determination, speed and tenacity only, and only so little that none of the formulas gives another whole number of thousandths: floor(200 * (crit - sub) / div), floor(550 * (dh - sub) / div), floor(140 * (dh - sub) / div), floor(140 * (det - main) / div), floor(130 * (speed - sub) / div) and floor(ten * (tenacity - sub) / div) with the numbers of the level. The same calls give both the same rotation, and the simulation of it with the same random numbers is the same in all that it holds: expected damage, variance, every sample, every record; or the same exception is raised.", "quantifier": "for all pairs of such characters (with whole speeds up to 15000 for the rotation), all skill libraries, settings, downtime windows, sequences of public calls, lists of hits, random numbers and numbers of samples", "why_tests_cant": "the stats are stored next to the numbers computed from them, and any of the six damage formulas could read the one for the other; a test of a single character gives the same damage either way or differs by a rounding only", "anchors": ["ama_xiv_combat_sim/simulator/calcs/stat_fns.py: StatFns", "ama_xiv_combat_sim/simulator/stats.py: Stats", "ama_xiv_combat_sim/simulator/processed_stats.py: ProcessedStats", "ama_xiv_combat_sim/simulator/calcs/compute_damage_utils.py: ComputeDamageUtils.get_base_damage", "ama_xiv_combat_sim/simulator/damage_simulator.py: DamageSimulator", "ama_xiv_combat_sim/simulator/timeline_builders/rotation_builder.py: get_skill_timing"]}
{"id": "C116", "title": "Which stats count for which hits", "statement": "The main stat counts for all hits but the autos of healers and casters, for which their strength counts and which no other hit reads. The number of roles in the party does not count for pets. The speed counts for the damage of dots and of the autos of jobs with skill speed only, the weapon delay for that of autos only, and tenacity for tanks only. Two characters of the same job class, version and level that agree in weapon damage, determination, critical hit, direct hit and in what counts for each hit of a list get the same simulation of the list from the same random numbers, in all that the simulator holds, or the same exception.", "quantifier": "for all pairs of characters, all lists of hits of all kinds, all random numbers and numbers of samples", "why_tests_cant": "the five damage formulas are written out one by one and each picks its stats from the same object; a formula that reads one stat too many gives a number that looks as plausible, and the tests fix all stats at once", "anchors": ["ama_xiv_combat_sim/simulator/calcs/compute_damage_utils.py: compute_direct_damage, compute_magical_dot_damage, compute_physical_dot_damage, compute_pet_damage, compute_auto_damage, get_base_damage", "ama_xiv_combat_sim/simulator/damage_simulator.py: DamageSimulator", "ama_xiv_combat_sim/simulator/stats.py: Stats"]}
