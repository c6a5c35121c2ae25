# Formal model of the combat simulator: design and trusted base

## What this is

A Lean 4 model of `/repo/ama_xiv_combat_sim` (a rotation/damage simulator for FF XIV written in
Python), written by reading the source text, plus theorems about that model. Nothing from the
repository is executed. Everything is checked by Lean's kernel; no axioms are added, no `sorry`,
no `native_decide`, no `bv_decide`.

## Layout

* `lean/Verif/Py/*`     - the part of the Python runtime the code relies on: exceptions as values,
  insertion ordered dictionaries, `str.split/strip/join`, `int()`, `range`, stable sort, `heapq`.
* `lean/Verif/Model/*`  - the model, one file per source file, one definition per function. Every
  definition cites file and lines and states any simplification.
* `lean/Verif/Spec/*`   - small specifications that do not use the model's helper functions.
* `lean/Verif/Lemmas/*` - helper lemmas.
* `lean/Verif/Props/*`  - the property theorems, each followed by a concrete `example` that meets
  its hypotheses.
* `properties.jsonl`, `MANIFEST.json`, `seeded/LOG.jsonl` - property list, status per property, and
  the log of deliberate wrong edits used to check that theorems can fail.

## Trusted base

* Lean's kernel (4.33.0) and the Mathlib modules imported, which are kernel checked as well.
* Axioms: theorems depend on at most `propext`, `Classical.choice`, `Quot.sound`.
* The faithfulness of the model to the Python text. Concretely the following modelling decisions:
  * **Numbers.** Python floats and numpy floats are exact rationals (`ℚ`); NaN and overflow are not
    modelled. Rounding to binary floating point numbers is modelled (`Verif/Py/Float.lean`, round to
    nearest even, 53 digits, unbounded exponents) in `get_time_using_speed_stat` and in the rotation
    analysis, where it changes results; elsewhere rounding errors are not modelled. Times are milliseconds in `ℚ`;
    priorities are integers via `int(1000*t)` (truncation toward zero). `math.inf` is modelled by
    `WithTop`, `-math.inf` by `WithBot` or `Option`, where the code really uses it.
  * **Exceptions** are values of `PyErr`; printing is dropped.
  * **Sets** of strings are `Finset String`; iteration order over a Python `set` is not determined,
    so wherever the code joins a set into a string the model works with the set itself or takes the
    order as a parameter.
  * **Dictionaries** are insertion ordered association lists.
  * **Randomness**: every `np.random.rand` draw is an explicit parameter in `[0,1)`.
  * **Mutation/aliasing**: objects are values; places where the code aliases mutable objects are
    modelled by passing the updated value on. `copy.deepcopy` is the identity.
  * **Skill nesting**: follow-ups of follow-ups are never read by the code, so the `FollowUp` model
    contains a skill without follow-ups.
* Not modelled: printing and `__str__`, pandas/CSV parsing (only the row-to-call mapping), wall-clock
  timing, numpy array layout, the test tables in game_data/testing, type-check
  assertions on constructor arguments (the model is typed).
* Example rotations. Their data (`Verif/Model/ExampleRotations/Data.lean`) was translated by `tools/rotations.py` in the
  same way; the messages printed for invalid rotations are dropped.
* Game data. The skill methods and data tables of all job classes (`Verif/Model/GameData/*`) were
  translated statement by statement by `tools/translate.py`, which reads the Python text with
  Python's own parser and does not execute it; the result is the model that the theorems are about, and the script is
  not part of the proof. Python values inside these methods are values of `PyVal`, so that every operation of the
  methods is a small total function which may raise. `tools/floor.py` only writes proof files. Simplification: a missing
  number (`None`) in a numeric position of a damage spec is an error at construction in the model, while the code
  fails when the number is used.
* How the fidelity of the model was tested. `tools/conformance.py` reads the repository's unit tests as text
  (nothing is imported or run), turns their expectations into data, translates the skill library used by the tests, and
  evaluates the model on them: 1163 expectations of `simulator/testing` (events of timelines with their times,
  modifiers, snapshot flags and targets; damage instances with their status effects; the damage of nearly every skill of every
  job; per-skill damages of rotations; total damage and duration of whole rotations). All 1163 hold of the model, with the tolerances the
  tests use. Two tests are skipped: one expects nothing, one computes its own reference with statistics.
  This is testing, not proof, and no theorem depends on it.

## Plan per property

| id | property | modelled in | proof plan / limits |
|---|---|---|---|
| C01 | Condition strings round-trip | Model/Utils: `canonicalize` on `List Char` with Python's `split(',')`, `strip` and full whitespace set. | ∀ string: no commas/blank edges in the result; ∀ duplicate-free listing of a canonical set: canonicalize(join) = set. Induction on the list of pieces. |
| C02 | Adding conditions to a modifier is a union | Model/Utils, Model/SkillModifier `addToCondition`. | Union law from `canonicalize`; idempotence/commutativity are `Finset` algebra, the concatenation law needs the split lemma. |
| C03 | The most specific matching variant is used | Model/Utils `getBestKey` (loop as fold). | Loop invariant: kept key is a maximal match among the prefix. |
| C04 | Ambiguous variants are reported | same | False of the code: negation with a concrete table + general theorem that the assertion never fires for duplicate-free tables and the last maximal one wins (`_partial`). |
| C05 | Variant lookup is total when a default exists | Model/Skill getters. | Totality with empty key; exact characterisation of KeyError. |
| C06 | Irrelevant conditions do not change the variant | Model/Utils `getBestKey`. | Subset test invariant under inserting a fresh element; the comparison with |with_condition| needs the duplicate-free argument. |
| C07 | AoE damage drop-off | Model/Skill `processAoeDropoff`, `mkSkill` (`__post_init__`). | Partial: targets 2..9 and dict-shaped specs; negation witnesses for target 10 and non-dict specs. |
| C08 | A buff is active exactly during its window | Model/StatusEffectTracker, all methods. | Case analysis on the tracker operations, times in ℚ, ends in `WithTop ℚ`. |
| C09 | Limited-use effects are used at most num_uses times | same | Induction over an arbitrary sequence of uses. |
| C10 | Re-application follows the extension rule and its cap | same | Direct equations + cap inequality in `WithTop`. |
| C11 | Aggregated buff strength is an order-independent product/sum | same | Fold lemma: aggregate = product/sum over valid list; permutation invariance. |
| C12 | Mutually exclusive effects: only the highest priority one counts | same | Loop analysis of the priority filter. |
| C13 | Debuffs are isolated per target | same | Frame lemmas on the dictionary model. |
| C14 | Allow-lists and deny-lists are respected | same | Membership characterisation of valid effects. |
| C15 | Expire-other and clear-all directives | same | Frame + expiry lemma. Code keeps an expired effect valid at exactly t: stated for later times. |
| C16 | Gauge value stays within [0, max] | Model/JobResourceTracker. | Fold invariant. |
| C17 | Gauge queries are read-only and insensitive to insertion order | same | Stable sort of a permutation with distinct keys is unique. |
| C18 | Clear-all empties every gauge | same | Fold: clear entry resets running total. |
| C19 | Gauges expire after expiry_from_last_gain | same | False at time 0 (truthiness): negation + `_partial`. |
| C20 | Future gauge events do not influence the present | same | False: negation + `_partial` for gauges without expiry. |
| C21 | Combo success rule | Model/ComboTracker. | Spec automaton written separately; equivalence by cases. |
| C22 | Combo groups are independent except for breakers | same | Frame lemma on dictionary updates. |
| C23 | Channeling windows are sane | Model/ChannelingTracker. | Invariant over runs. |
| C24 | The event queue is a priority queue | Py/Heapq: CPython `heappush/heappop/_siftdown/_siftup` line by line; Model/Events. | Heap invariant, permutation, and minimality; then refinement of an arbitrary op sequence to a multiset. |
| C25 | Event ids are unique and first/last times are correct | Model/Events. | Invariant on the id counter; min/max folds. |
| C26 | Snapshots never come after applications | Model/RotationBuilder. | Invariant of every `add` made by the builder. |
| C27 | GCD and animation-lock spacing | Model/RotationBuilder `processQSequence`. | Invariant over the loop. |
| C28 | Timed presses are processed in time order, once each | Model/RotationBuilder `processQTimed`. | A list sorted by time is a heap for any order refining time; pop order then sorted. |
| C29 | Button presses are reported completely and sorted | same | Counting invariants. |
| C30 | Damage-over-time tick law | Model/RotationBuilder dots. | Arithmetic of `range`; consecutive windows. |
| C31 | Trailing dots are cut when asked | same | `_partial` (last event time ≠ 0) + negation witness. |
| C32 | Timeline normalisation is a pure shift | Model/RotationBuilder `shift`. | Drain/re-add = permutation with shifted times. |
| C33 | Downtime filtering is exact | Model/RotationBuilder downtime. | Drain/filter. |
| C34 | Asking for the timeline twice gives the same answer | Model/RotationBuilder `getSkillTiming`, called any number of times (Spec/Repeat `askAgain`). | The dots recorded again sort next to their copies, which leaves empty ranges; the target at a time depends on the last entry per time only; induction on the number of calls. Computed counterexample. |
| C35 | Auto-attacks: spacing, targets, and windows | Model/RotationBuilder `addAutos`, `autosLoop` (fuel), `forward`, `getNextAutoTime`; Spec/Autos. | The loop is shown to produce the relation `Autos` of Spec/Autos, from which spacing, order and targets follow; the windows part is false in four ways, with witnesses. |
| C36 | Every damaging hit is accounted for exactly once | Model/DamageBuilder. | Accounting invariant over the main loop (a ghost list of expected hits). |
| C37 | Damage instances are time-sorted and placed correctly | same | Final sort; placement part of the same invariant. |
| C38 | Snapshotting | same | Snapshotted value is carried unchanged by the queue. |
| C39 | Timeline processing is chronological | same | False: negation; `_partial` for timelines with zero priority offsets. |
| C40 | The damage builder terminates without crashing | same | Number of rounds as measure; totality invariant over the trace (`Lemmas/DamageSafe`); negation witness for TypeError. |
| C41 | Base damage is at least 1 or zero potency | Model/ComputeDamage. | Unfold + `max`. |
| C42 | More potency or main stat never hurts | same | Floor monotonicity chain. |
| C43 | Forced critical / direct hit flags | same | Case analysis against an independent spec of flags. |
| C44 | Speed makes things faster, in 10 ms steps | Model/StatFns (with floating point rounding), `truncateToDigit`, `getCastTime`. | Monotonicity of floor, ceil and rounding; error bounds; negation for the 10 ms steps. |
| C45 | Stat scaling is monotone | Model/StatFns. | Floor monotonicity for all supported constants. |
| C46 | Outcome probabilities form a distribution | Model/DamageTracker. | Ring identity + sign; negation when rate > 1. |
| C47 | Every simulated hit lies in the reported range of its outcome | Model/DamageTracker with draws as parameters. | Monotone pipeline of floors. |
| C48 | Expected damage and variance are consistent | Model/DamageSimulator. | Weighted average; law of total variance as sum of squares. |
| C49 | Simulation accepts every list of instances | Model/DamageSimulator + DamageTracker capacity. | False: negations; `_partial` for 1..5000. |
| C50 | Kill time is the first crossing | Model/KillTime. | Prefix sums. |
| C51 | Kill time is monotone and tie-order independent | same | Prefix sums of sorted lists; tie blocks. |
| C52 | Cumulative damage reports are monotone and complete | Model/RotationAnalysis with rounding. | Sums of sublists with monotone rounding; false for the last row: negation; `_partial` up to the last instant. |
| C53 | Patch lookups return the newest applicable value | Model/Utils, Model/SpecificSkills. | Max over filtered list; negation for numeric reading. |
| C54 | The skill library stores exactly what was added | Model/SkillLibrary. | Dictionary laws over operation sequences. |
| C55 | Default modifiers and targets | Model/RotationBuilder `add`, `addNext`. | Direct. |
| C56 | CSV import equals manual adds | Model/CsvUtils. | Fold = map. |
| C57 | Positional inference only adds combo/positional conditions | Model/Positional. | Case analysis. |
| C58 | One use of a skill records exactly its events | Model/RotationBuilder `processSkill`. | What one use pushes on the queue, computed once and for all. |
| C59 | Sampled totals and damage per second | Model/DamageSimulator. | Columns of the matrix; first and last element of the sorted list. |
| C60 | Hit rates are probabilities | Model/ComputeDamage, Model/DamageSimulator. | False (nothing limits the sum): negation; `_partial` under the bound on the sum. |
| C61 | Outcome frequencies match the reported probabilities | Model/DamageTracker. | Counting draws on an evenly spaced grid. |
| C62 | The per-instance report is complete | Model/DamageSimulator. | Place by place; permutation and sortedness of the stable sort. |
| C63 | Limit breaks deal the announced damage | Model/KillTime. | Reading digits of a string; row by row. |
| C64 | Expected best of several runs | Model/RotationAnalysis. | Bounds and monotonicity of a maximum; sums. |
| C65 | Positional inference explains the bonus shown | Model/Positional. | First candidate that matches; spec restates the percentage from the damage specs. |
| C66 | A status effect is on exactly the hits decided while it runs | Model/DamageBuilder, Model/StatusEffectTracker. | Simulation of one entry of the tracker along the execution; the giving entries of the execution are the giving events of the timeline. |
| C67 | A status effect with n uses is on the first n events that may have it | Model/DamageBuilder, Model/StatusEffectTracker. | Same simulation with a count of uses; each event asks for the effects of a slot exactly once in the execution. |
| C68 | The conditions of an instance are exactly those of its sources | Model/DamageBuilder and the three trackers. | Exact condition sets through each step; induction over executions from hits of parts to hits of the event. |
| C69 | The combo of every event is checked once, in order, and its outcome reaches all its hits | Model/DamageBuilder, Model/ComboTracker. | The sub-trace of entries that were not split off is a permutation of the timeline; it is run through `runCombo`. |
| C70 | Every event changes the gauges once, and a hit sees the changes made before it | Model/DamageBuilder, Model/JobResourceTracker. | Same sub-trace, run through `runGauge`, with the position of the entry at which the hit reads the gauges. |
| C71 | Every press of a rotation is resolved once, from what the presses before it did | Model/RotationBuilder (both queues, `resolve`, `processSkill`), the trackers. | A record `Pressed` per use (Spec/Presses); one-step lemma from `resolve` and `processSkill`, induction over both queues. |
| C72 | A buff or debuff affects exactly the presses during its time | As C71, Model/StatusEffectTracker. | Fold of one dictionary entry over the uses; invariants for one application and for refreshing applications; computed counterexample for the gap. |
| C73 | The combo of a press depends on the presses before it by the combo rule | As C71, Model/ComboTracker. | Corollary of C71 and C21. |
| C74 | A press is told the gauges as left by the presses before it | As C71, Model/JobResourceTracker. | Corollary of C71, C17 and C20. |
| C75 | The library can be created for every shipped version and has all that every job needs | Model/GameData: all job classes, skill data tables, generic skills, limit breaks and create_skill_library, translated by tools/translate.py. | Every method depends on the version only through comparisons with the patches (Lemmas/GameData/<Job>, made by tools/floor.py), so a class description is one of finitely many; each of these is evaluated in full by the kernel (Lemmas/GameData/Checks); soundness of the check and of the creation of the library are proved in general. Whole finite tables, not samples. |
| C76 | A shipped skill can be looked up under all conditions | As C75. | As C75, with: a table with a default, or of which the lookups are answered by construction, answers under all conditions (Lemmas/Tables). |
| C77 | The numbers of the shipped skills make sense | As C75. | As C75; every value of every table is checked, and lookups return only values of the table. |
| C78 | Shipped skills only name gauges and combo actions that exist | As C75. | As C77. |
| C79 | Effects restricted to certain skills are of use | As C75. | As C77. |
| C80 | Which shipped skills drop off | As C75, Model/Skill. | As C77, with C07 for the tables. |
| C81 | Versions after the same patches have the same skills | As C75. | The class descriptions are equal, and the library is determined by them. |
| C82 | Sharpcast does not change damage or times | As C75. | C06 for all skills whose tables do not mention Sharpcast, which is checked. |
| C83 | A rotation that can be played has a timeline | All of `RotationBuilder.getSkillTiming` with the trackers. | Totality of every function under an invariant of the trackers (`Lemmas/TrackerSafe`) and of the queues (`Lemmas/BuilderSafe`): conditions only widen, times of the sequence stay whole, effects that force hits have one name per skill. Auto-attacks: the product of all reductions bounds the step from below, so the loop ends (`Lemmas/AutosSafe`). Witnesses for the conditions that are needed. |
| C84 | Rotations of shipped skills have a timeline | All shipped skills (`Model/GameData/*`) and all of `RotationBuilder.getSkillTiming`. | Every shipped skill is checked once by evaluation, over all combinations of the conditions it knows (`Lemmas/GameData/Check`, `Sound`), to meet the hypotheses of C83; an invariant of `createSkillLibrary` (`Lemmas/GameData/Create`) carries this to the library. Refutation: all non-Machinist rotations that begin with Air Anchor raise. |
| C85 | The timeline of a rotation can be turned into damage instances | `RotationBuilder.getSkillTiming`, `DamageBuilder.init` and `getDamageInstances`. | Every event of the timeline comes from a press, a follow-up or an auto-attack (`Lemmas/TimelineSkills`), so the hypotheses of C83 give those of C40. |
| C86 | A rotation that can be played can be simulated | `RotationBuilder.getSkillTiming`, `DamageBuilder.getDamageInstances` and `DamageSimulator.init`, chained. | What is forced for an instance comes from its damage, its modifier or an effect of a skill in play (`Lemmas/DamageForced`), so that the hypotheses exclude contradictions and C49 applies. For shipped skills the checks of the game data show that just the end of Wildfire and Detonator forbid hits, and no effect forces theirs. Witnesses for the refutations are run end to end. |
| C87 | Timelines depend on pace, damage on power | `RotationBuilder.getSkillTiming`, `DamageBuilder`, `DamageSimulator.init`. | Replacing the stats and the library of a builder commutes with every step of the timeline (`Lemmas/Locality`). |
| C88 | The example rotations are those of the data | `Model/ExampleRotations/*`: the data of all example rotations (translated by `tools/rotations.py`, which only reads the text) and the functions that build them. | The functions are rewritten as one fold over the rows that are valid (`Lemmas/ExampleRotations/Rows`). The dates in the data compare with every version as with the latest listed one, and for these the kernel checks that all named skills are in the library and the stats can be made (`Check`). |
| C89 | The example rotations can be played and simulated | As C88, then as C84 and C86. | The check of C88 also shows the hypotheses of C84 and C86. The Automaton Queen of Machinists is not covered by C84. |
| C90 | The stats of an example rotation are those of the library's level and version | As C88. | From C88. At level 100 it is false of the code. |
| C91 | Each party skill of an example rotation is pressed once | `addPartySkill`. | Induction over the list; with a modifier both calls of `add` are run. |
| C92 | Every job class has an example rotation | As C88. | From C88 and the jobs of C75. False at level 90, and at level 100 before 7.05. |
| C93 | Better gear, better buffs and more hits never lower the damage | As C42, C46 and C48. | Monotonicity of every formula in stats and effects at once (Lemmas/BaseDamage.lean, Lemmas/Stronger.lean); the expected damage by moving first the critical and then the direct hit rate; the samples by coupling with the same draws, after a stable sort of lists with equal times. |
| C94 | A damage builder can be used for several timelines | As C36. | Bisimulation (Lemmas/Reuse.lean): builders that differ only in empty dictionaries of debuffs do the same on every timeline; a timeline without lasting consequences leaves such a builder.  False in general, with a concrete witness. |
| C95 | The same timeline at another time gives the same damage | As C36 and C46. | Simulation relation between the two runs (Lemmas/Shift.lean): the heap, the trackers and the instances of one are those of the other with all times moved; for the shipped libraries, that only gauges of Black Mage expire (Lemmas/GameData/Lasting.lean).  False in general: a gauge last refilled at time 0 never expires. |
| C96 | What is added at the end of a timeline does not change the damage before it | As C36. | Simulation relation (Lemmas/Later.lean): as long as the shorter timeline is not done, both queues return the same event and both states differ only in the new events waiting; afterwards C36 on the rest.  False in general, with a concrete witness: ties in the queue. |
| C97 | The base damage is the product of its factors, up to rounding | Stats, ProcessedStats, stat_fns.py and compute_damage_utils.py; floating point numbers are exact rationals. | Every floor loses less than one unit; the losses are added up along each of the formulas (Lemmas/Formulas.lean), and the rounded factors are compared with the exact ones for each kind of damage (Lemmas/FormulasByClass.lean).  The job tables by deciding over all jobs. |
| C98 | The damage of a hit is its base damage times its multipliers, up to rounding | As C46 and C47; floating point numbers are exact rationals. | The bounds of each rounding step are composed (Lemmas/HitDamage.lean); the expected damage is the mean over the four outcomes of the middle of their range (Lemmas/Stronger.lean), to which the bounds apply. |
| C99 | The reported expected damage is the mean of the samples | As C98.  The random numbers are the multiples of 1/N below 1, as those of numpy with N = 2^53. | The samples of C98 are summed over all combinations of random numbers; the sum of the products is the product of three sums, of which two count the numbers that are at most a rate (Lemmas/SampleMean.lean). |
| C100 | The amount in a gauge is the running total of its changes | Model/JobResourceTracker `level`, `compile`, `addResource`. | The list of a gauge, sorted, is mapped to the changes of the specification; induction from the end of the list for the time the limit runs from and the total since it last ran out (Lemmas/GaugeValue.lean). |
| C101 | The reported variance is that of the samples | As C99. | The samples and the reported ranges both lie within the rounding allowance below the values without rounding, and standard deviations of values that differ by at most L in one direction differ by at most L/2 (Lemmas/Deviation.lean, Cauchy-Schwarz).  The report is the variance of a finite distribution by Simpson's rule; the difference between the two variances without rounding is bounded by algebra (Lemmas/SampleDeviation.lean).  For the total, variances of uncorrelated samples add up. |
| C102 | Adding skills to a rotation does not change what is already there | As C71. | Processing a queue is a fold that appends to a log, so a longer sequence has a longer log; the heap hands out timed presses with different times in their order, so later ones come last; queues hold the events of what was added, up to ids (Lemmas/Extending.lean). |
| C103 | A rotation played at another time has the same timeline | As C71. | The log of every press is that of the moved press with all times moved (Lemmas/AnotherTimePresses.lean); then the ticks, the shift to the first damage and the removal of downtime, each commuting with moving (Lemmas/AnotherTime.lean).  For the exact timeline also the heap and the loop of the auto-attacks with its windows without auto-attacks and their delays (Lemmas/AnotherTimeExact.lean).  Priorities are rounded towards zero, so they move along for whole microseconds or after time 0.  False in general, with a concrete witness: `if last_event_time` also fails for 0; and auto-attacks are placed around the downtime before the first damage is put at time 0. |
| C104 | The damage of a rotation does not depend on when it is played | As C103, C95 and C39. | The timelines are exactly the same up to the time (C103_exact_partial), so that C95 applies to the damage builder and the simulator. |
| C105 | The names of the targets do not matter | The damage builder with the status effect tracker and the queues, and the simulator. | A relation between the two runs: the same buffs, and the same debuffs under the other names; instances never tie up to the target, since event id and time tell them apart. |
| C106 | Effects that are ended exist | The shipped data, as C75. | The check of every class description (Lemmas/GameData/Check.lean) also compares the effects that are ended with the buffs that are given; evaluated by the kernel for all versions, levels and jobs; false for one name, listed in `exempt`. |
| C107 | Every effect does something | The shipped data, as C75. | As C106: effects that change nothing must be told to a skill or follow-up of the class that has a variant for them.  The counterexample is about all skills of the job, generic ones included (Lemmas/GameData/Links.lean).  What it means to have no variant is proved from C06. |
| C108 | Skills are told the gauges they depend on | The shipped data, as C75, with the settings of the gauges. | As C106: the conditions in the keys of all tables of a skill, with the targets that drop-off adds, are compared with the names of the gauges; a number before the name is left open. |
| C109 | The names of the targets do not matter to a rotation | The whole rotation builder with its trackers, then as C105. | A relation between the two runs, step by step through all of get_skill_timing: the same builder with other names in its queues, dictionaries and timeline; comparisons in the queue of timed skills come out the same because the names of targets of skills that tie sort the same.  The default target may get another name if debuffs of the library leave presses alone; that the shipped ones do is checked of the whole game data. |
| C110 | A sequence does what the same skills at the times worked out for it do | The rotation builder as in C27 and C28. | Both loops write the same log for a skill used at one time with the same trackers; the heap of timed presses with increasing times hands them out in that order; what get_skill_timing does after the two loops only depends on the log.  The times worked out for a sequence increase because no animation lock is negative; for the shipped skills this is C77. |
| C111 | Missing a combo or a positional never pays | The shipped data, as C75; Spec/Potency.lean adds up the potencies. | A lookup only sees the conditions of the table, so all sets of conditions are covered by the finitely many selections of those that occur in the keys (Lemmas/GameData/Potency.lean); the kernel evaluates these for all skills that have a variant for one of the two conditions, for all versions and levels (Lemmas/GameData/Fair*.lean).  False for one skill. |
| C112 | Better gear never lowers the damage of a rotation | The whole run of a rotation, from the constructor of the rotation builder to the simulation (Spec/Gear.lean: `playedHits`). | Both characters get the same timeline and hits because these do not depend on the stats that differ (C87); each hit is compared with C93. For the shipped skills an invariant of the loop of the damage builder shows that no hit has a negative multiplier, rate or potency (Lemmas/DamageSane.lean). |
| C113 | Simulated damage is a whole number of points | The simulation of C46-C49, and for shipped skills the whole run of C112. | The last step of every sample is a floor of something not negative; without potency the base damage is 0 and stays 0. For shipped skills the conditions on the multipliers follow from the invariant of C112. One direction of the last claim is false, with a computed witness. |
| C114 | Speed within a tier does not change a rotation | The whole run of C112; Spec/Locality.lean gives the tiers as a formula without rounding errors (`speedTier`). | The timeline reads the speed through one function only, which is shown to give the same time for all base times within a tier, floating point rounding included; the rest is C87. |
| C115 | Substats only count in tiers | The character, the whole run of C112 and the simulation; Spec/Tiers.lean gives the tiers (`SameTiers`). | The processed stats are equal; each damage formula reads the substats through functions that only depend on the tiers, so every row of the damage tracker is equal; the rotation is C114. |
| C116 | Which stats count for which hits | Model/ComputeDamage, Model/DamageSimulator; Spec/Reads.lean lists the stats that count (`SameFor`). | Each formula is rewritten with the equal stats only, by cases on the kind of hit; then row by row through the simulator. |

## Properties that are false of the code

The negation is proved with a concrete witness (theorems ending in `_refuted`); what remains true is proved
in the `_partial` theorems.

* **C01 Condition strings round-trip.** Round trip holds for every order and both separators except for the set {''}; the excluded case is refuted by a witness. (`Ama.C01_blank_refuted`)
* **C02 Adding conditions to a modifier is a union.** Union, monotone, idempotent, commutative in full; the concatenation law needs non-empty parts (refuted otherwise). (`Ama.C02_concat_refuted`)
* **C04 Ambiguous variants are reported.** The property is false of the code: ambiguity is never reported. (`Ama.C04_ambiguity_refuted`)
* **C05 Variant lookup is total when a default exists.** False for channeling specifications; proved for all the others, with or without AoE drop-off. (`Ama.C05_channeling_refuted`)
* **C07 AoE damage drop-off.** Proved for tables and targets 2..9; false for target 10 and for single specifications. (`Ama.C07_tenth_target_refuted`, `Ama.C07_single_spec_refuted`)
* **C103 A rotation played at another time has the same timeline.** Everything the presses do, and the whole timeline with dots, server ticks, downtime and auto-attacks, exactly. False of the code for rotations that ignore trailing dots and end at time 0, where all ticks are kept (C103_trailing_refuted), and for auto-attacks when there is downtime but no fight start (C103_autos_refuted: windows are used before and after the first damage is put at time 0). Not covered: gauges that expire (false at time 0, see C95), server ticks not at whole milliseconds. (`Ama.C103_trailing_refuted`, `Ama.C103_autos_refuted`)
* **C105 The names of the targets do not matter.** Proved for the timelines of all rotations and for all timelines without repeated event ids, if the default target keeps its name or no buff ends a debuff; without any condition for rotations of shipped skills, none of which has a buff that ends a debuff (C105_shipped). False of the code otherwise: a buff that ends a debuff ends it on the target with the default name only (C105_names_refuted), and with repeated event ids the names decide the order of simultaneous instances (C105_ids_refuted). (`Ama.C105_names_refuted`, `Ama.C105_ids_refuted`)
* **C106 Effects that are ended exist.** All but the Black Mage's "Enhanced", for which it is false from 7.0 on: High Blizzard II (and Blizzard III) ends it and nothing gives it. (`Ama.C106_enhanced_refuted`)
* **C107 Every effect does something.** All but four effects. False of the data for Fellhunter's Venom of the Viper (and, symmetrically, Fellskin's Venom): each is told to the one of Twinfang Thresh and Twinblood Thresh that has the variant for the other. Also left out, at level 90 only: Poised for Twinfang (for skills of level 100) and Firestarter (told to Fire, while Fire III has the variants). (`Ama.C107_venom_refuted`)
* **C108 Skills are told the gauges they depend on.** All but Freeze of the Black Mage, for which it is false: it has variants for Astral Fire and Umbral Ice and is told neither; and the Bard's songs, whose variants for amounts of Repertoire are for use by hand. About skills; follow-ups are told no gauges. (`Ama.C108_freeze_refuted`)
* **C109 The names of the targets do not matter to a rotation.** Proved for all rotations of shipped skills (C109_shipped_partial) and of any library whose debuffs the presses do not notice, or if the target called "Default Target" keeps its name; and if, where one skill is used twice at the same time on different targets, the other names sort like the first ones. False of the code otherwise: the queue of timed skills compares the names of the targets (C109_timeline_refuted), and conditions from debuffs are looked up on the target called "Default Target", whatever `default_target` is (C109_default_refuted). (`Ama.C109_timeline_refuted`, `Ama.C109_default_refuted`)
* **C110 A sequence does what the same skills at the times worked out for it do.** Proved without auto-attacks and with all presses at different times, for any library without negative animation locks, which the shipped ones are (C110_shipped_partial). For a sequence that can be played such times always exist (C110_times_partial), so for any sensible sequence of shipped skills (C110_shipped_times_partial). False of the code otherwise: casts in a sequence do not delay auto-attacks, but the same casts entered with add do (C110_autos_refuted); presses at the same time keep their order in a sequence, but with add are ordered in part by name (C110_ties_refuted). (`Ama.C110_autos_refuted`, `Ama.C110_ties_refuted`)
* **C111 Missing a combo or a positional never pays.** All but Snap Punch of the Monk under Coeurl's Fury, for which it is false at level 90 from 7.0 on: the two potencies are swapped in the table, so that missing the positional announces 60 more (C111_snap_punch_refuted). For the first target only; drop-off is C07 and C80. (`Ama.C111_snap_punch_refuted`)
* **C113 Simulated damage is a whole number of points.** Whole, not negative, and zero without potency: proved, for rotations of shipped skills without conditions. That a hit with potency deals something is false: a base damage of 1 is spread to 0.95 and rounded down to 0 (C113_nothing_refuted). Proved for a base damage of at least 2 and no multiplier below 1; effects of shipped skills never are. (`Ama.C113_nothing_refuted`)
* **C12 Mutually exclusive effects: only the highest priority one counts.** False for a priority list that names an effect twice; proved otherwise. (`Ama.C12_duplicate_refuted`)
* **C13 Debuffs are isolated per target.** Other targets: proved. Buffs: a debuff with an expire list ends buffs too, so that part is false in general and proved for debuffs without one. (`Ama.C13_buffs_refuted`)
* **C19 Gauges expire after expiry_from_last_gain.** False when the last refreshing gain is at time exactly 0 (then the gauge never expires); proved otherwise. (`Ama.C19_zero_refuted`)
* **C20 Future gauge events do not influence the present.** For gauges with an expiry a later gain can make the gauge appear empty now, so the claim is false; proved in one direction for all gauges and fully for gauges without expiry. (`Ama.C20_future_refuted`)
* **C26 Snapshots never come after applications.** Proved without tick alignment, and with alignment when dots are applied at whole milliseconds; with alignment and fractional milliseconds it is false by less than one millisecond. (`Ama.C26_aligned_refuted`)
* **C28 Timed presses are processed in time order, once each.** Processing order proved; independence of the order of add calls proved without auto-attacks and false with them. (`Ama.C28_autos_refuted`)
* **C30 Damage-over-time tick law.** Proved without alignment to server ticks, and with alignment at whole milliseconds; false with alignment and fractional milliseconds (a tick can precede its application). (`Ama.C30_aligned_refuted`)
* **C31 Trailing dots are cut when asked.** False when the last other event happens at time exactly 0 (falsy, so nothing is cut); proved otherwise. (`Ama.C31_zero_refuted`)
* **C34 Asking for the timeline twice gives the same answer.** Proved for any number of calls on any builder reached through the public methods, if dots are not snapped to server ticks or are applied at whole milliseconds, and if no effect, trait or weapon makes auto-attacks come before the previous one. False of the code for snapped dots applied at fractions of a millisecond: the second call raises (C34_refuted). (`Ama.C34_refuted`)
* **C35 Auto-attacks: spacing, targets, and windows.** Start, spacing, targets and end are proved for every rotation. That no auto-attack is inside a cast or channel is false for the first auto-attack, for presses queued with add_next and for overlapping periods; it is proved for the later auto-attacks when the periods do not overlap. The delay is also not shortened as it should be by effects limited to auto-attacks. (`Ama.C35_first_refuted`, `Ama.C35_sequence_refuted`, `Ama.C35_overlap_refuted`, `Ama.C35_allowlist_refuted`)
* **C39 Timeline processing is chronological.** False for delayed skills on several targets (all but the first are applied up to 135 ms per target late but processed at once); proved otherwise. (`Ama.C39_multi_target_refuted`)
* **C40 The damage builder terminates without crashing.** Termination in full. Absence of exceptions is false when two damaging hits of a skill coincide; proved when no two damaging hits with the same skill name fall at the same time and no two different skills force critical or direct hits of the same skill; lookups are only required to succeed under conditions that include those of the event. (`Ama.C40_type_error_refuted`)
* **C44 Speed makes things faster, in 10 ms steps.** Steps of 10 ms: false because of floating point rounding (2.03 s becomes 2029 ms, and after the haste step 2020 ms); proved up to one millisecond for whole inputs. Monotonicity in the speed and under haste: proved. Monotonicity in the base time is false for speeds far beyond the game's limits and proved up to 15000. (`Ama.C44_steps_refuted`, `Ama.C44_recast_refuted`, `Ama.C44_base_refuted`)
* **C47 Every simulated hit lies in the reported range of its outcome.** True for all draws of the samples when the draws made for the report are positive; false if a report draws exactly 0, since a rate of 0 is then counted as a hit. (`Ama.C47_refuted`)
* **C48 Expected damage and variance are consistent.** Variance and totals are proved in full. The bounds on the expected damage are proved for reports made with positive draws, and false if a report draws exactly 0. (`Ama.C48_expected_refuted`)
* **C49 Simulation accepts every list of instances.** True for 1 to 5000 instances; the empty list raises AxisError and more than 5000 instances raise IndexError. (`Ama.C49_refuted`)
* **C52 Cumulative damage reports are monotone and complete.** Monotonicity and the rows of the report are proved with floating point rounding. The last row can miss the damage of the latest snapshot, because its time does not survive the conversion to seconds and back (1001 ms); proved for everything before the latest snapshot, and in full when the time survives. (`Ama.C52_last_refuted`)
* **C53 Patch lookups return the newest applicable value.** Proved in full for versions compared as text, as the code does. Read with versions as numbers it is false once a version has two digits before the point ('10.0' sorts before '7.0'); proved for one digit before the point. (`Ama.C53_numeric_refuted`)
* **C55 Default modifiers and targets.** Queued arguments proved; windows for all targets do not reach targets named after the first get_skill_timing. (`Ama.C55_late_target_refuted`)
* **C60 Hit rates are probabilities.** False of the code: rates are not limited to 1; then a probability is negative and the variance is not a number. Proved when the sums are in [0,1]. (`Ama.C60_refuted`)
* **C72 A buff or debuff affects exactly the presses during its time.** Proved for an effect applied once (with limited or unlimited uses) and for effects that each application refreshes to their full duration. False of the code if an effect is pressed again before its end but applied after it: the presses in the gap count as having it (C72_gap_refuted). Effects whose applications do not restore exactly the full duration, or with both re-application and limited uses, are covered by C71 only. (`Ama.C72_gap_refuted`)
* **C75 The library can be created for every shipped version and has all that every job needs.** False only of Viper at versions strictly between 7.01 and 7.05, where the ValueError of a missing skill is swallowed and the class is left without skills (C75_viper_refuted). The default arguments of create_skill_library are not a supported pair and raise (C75_defaults_refuted). (`Ama.C75_viper_refuted`, `Ama.C75_defaults_refuted`)
* **C76 A shipped skill can be looked up under all conditions.** False only of the follow-ups of the Machinist's Automaton Queen, which have no default variant. (`Ama.C76_automaton_queen_refuted`)
* **C78 Shipped skills only name gauges and combo actions that exist.** Combo actions: false only of the Red Mage's Enchanted Moulinet Trois, which continues 'Enchanted Deux'. (`Ama.C78_moulinet_refuted`)
* **C79 Effects restricted to certain skills are of use.** False of Swiftcast of Astrologian, Scholar and Sage (allow-list copied from the White Mage) and, at level 90, of Rainbow Bright and Poised for Twinfang. (`Ama.C79_swiftcast_refuted`)
* **C80 Which shipped skills drop off.** False of the skills listed in Spec.dropoffLost, which give a single damage spec; C80_dropoff says which skills drop off and which do not, without exceptions. (`Ama.C80_foul_refuted`)
* **C81 Versions after the same patches have the same skills.** False of Monk between 7.0 and 7.01 (Dragon Kick) and of Viper between 7.01 and 7.05. (`Ama.C81_monk_refuted`, `Ama.C75_viper_refuted`)
* **C82 Sharpcast does not change damage or times.** False of Fire at version 6.55: a missing f-prefix makes Sharpcast replace the Astral Fire and Umbral Ice variants. (`Ama.C82_fire_refuted`)
* **C83 A rotation that can be played has a timeline.** Includes termination of the loop over auto-attacks. The conditions on the start of the fight, on forcing effects, on names and, with auto-attacks, on damage are needed: without them there are rotations that raise (the _refuted theorems). (`Ama.C83_start_refuted`, `Ama.C83_forcing_refuted`, `Ama.C83_names_refuted`, `Ama.C83_harmless_autos_refuted`, `Ama.C83_empty_autos_refuted`)
* **C84 Rotations of shipped skills have a timeline.** With and without auto-attacks. Borrowed skills that move a gauge of their own job raise KeyError on every other job (C84_guest_refuted). (`Ama.C84_guest_refuted`)
* **C86 A rotation that can be played can be simulated.** Missing: timelines in which two damaging hits of the same skill name coincide (C40_type_error_refuted), and those with no damage instance or more than 5000 (C49_refuted). The refutations show that the conditions on tenacity, strength and contradictions are needed. (`Ama.C86_tank_refuted`, `Ama.C86_healer_refuted`, `Ama.C86_opposed_refuted`)
* **C88 The example rotations are those of the data.** False of version 'test', for which a library can be created but the stats raise KeyError; proved for all other versions and levels. (`Ama.C88_test_refuted`)
* **C90 The stats of an example rotation are those of the library's level and version.** False at level 100: get_stats passes no level, so that all example rotations of level 100 have stats of level 90. (`Ama.C90_level_refuted`)
* **C91 Each party skill of an example rotation is pressed once.** False of party skills with a modifier: they are pressed twice, with and without it. (`Ama.C91_party_refuted`)
* **C92 Every job class has an example rotation.** False at level 90 (Astrologians) and at level 100 before 7.05 (nothing). (`Ama.C92_astrologian_refuted`, `Ama.C92_early_refuted`)
* **C94 A damage builder can be used for several timelines.** False in general: the trackers of effects, gauges and combos keep their contents between calls.  Proved when no skill of the first timeline grants effects, changes gauges or takes part in combos. (`Ama.C94_reuse_refuted`)
* **C95 The same timeline at another time gives the same damage.** False when a gauge that expires is refilled at time 0, which the tracker takes for never (C95_shift_refuted).  Proved for all timelines whose times are whole microseconds or not negative, if no gauge of the job expires or no event happens at time 0; in the shipped libraries only gauges of Black Mage expire (C95_shipped). (`Ama.C95_shift_refuted`)
* **C96 What is added at the end of a timeline does not change the damage before it.** False in general: events at the same place of the queue leave it in an order that depends on what else is in the queue, so that adding a hit at the end changes which earlier targets use up a buff (C96_later_refuted). C96_later_partial proves it for every builder, every timeline in which no two things are processed at the same place, and every extension that comes after everything that happens in it. (`Ama.C96_later_refuted`)
