# Formal model of timeboard (Lean 4)

Source: mmamaev/timeboard, pinned commit in `/repo` (Python). The Lean project is `/verif/lean`.

## Layout

* `Verif/Model/*`  — the model, function by function; every definition cites the file and lines it models.
* `Verif/Spec/*`   — small specifications used to state the properties; they do not use helpers of the model.
* `Verif/Lemmas/*` — auxiliary lemmas.
* `Verif/Props/*`  — the property theorems (one section per property id of `properties.jsonl`), each with
  a concrete `example` showing that its hypotheses can be met in a non-trivial case.
* `Verif/Conformance/*` — the project's unit tests and documentation examples carried over to the model (see "Agreement with the
  project's tests").
* `tools/conformance.py`, `tools/doc_examples.py` — generate these modules from the text of the test files and of the documentation.
* `seeded/LOG.jsonl` — seeded-bug experiments.  `MANIFEST.json` — property → theorems.

## What is modelled

| layer | model | source |
|---|---|---|
| time, calendar | `Int` nanoseconds since 1970-01-01; proleptic Gregorian calendar computed on integers | what pandas supplies |
| frequencies, periods | `Freq` = multiplier × base (S, T or min, H, D, W-xxx, M, Q-xxx, A-xxx or Y-xxx); a Period is a frequency with an ordinal; `period_range` steps by the multiplier | what pandas supplies |
| frequency strings | `_check_groupby_freq` on strings (`Model/FreqText.lean`) | core.py 88-156 |
| kinds of integers | integers of Python and of numpy as positions, lengths (`Model/IntKinds.lean`) | interval.py 11-63, 538-551, 808-828; timeboard.py 820 |
| two timeboards | workshifts and intervals of one timeboard given to another (`Model/Carry.lean`, `Model/Foreign.lean`) | timeboard.py 397, 438-788; core.py 29-33; interval.py 11-63 |
| kinds of layouts | values of any kind given as `layout`, the warning, organizers as labels (`Model/LayoutValue.lean`) | timeboard.py 164-184; utils.py 35-37 |
| kinds of arguments of methods | values of any kind given as `steps`, `n`, `duty`, `schedule`, `other`, `freq` (`Model/MethodValues.lean`) | workshift.py 156-204, 328-343, 470-487, 562-586; interval.py 250-314, 372-392, 464-474, 537-546, 648-721, 807-818, 868-880, 925-933, 1000-1013, 1058-1085 |
| frame | `Frame` = arithmetic progression of period ordinals; `get_loc`, `get_loc_vectorized`, spans, both partitions | core.py `_Frame` |
| layouts | recursive `Layout` / `Organizer`, iterators (`itertools.cycle`, `_skiperator`), heap of `RememberingPattern`s and (`Model/Iterators.lean`) of iterators which end; iterators of marks, of `at` and of structures (`Model/OneShot.lean`) | core.py |
| timeline, schedules | label and mask arrays, `_wsband`, `_frameband`, all lookups, amendments, data frame rows | core.py `_Timeline`, `_Schedule` |
| timeboard | constructor, `_locate`, `get_workshift`, `get_interval`, `__call__`, schedules | timeboard.py |
| interval, void interval, workshift | all public methods | interval.py, workshift.py |
| RememberingPatterns used by hand | `next`, `[]`, `length`, `bool`, in between constructions (`Model/ByHand.lean`) | core.py 1661-1717 |
| RememberingPatterns made of iterators and of RememberingPatterns | the same, with objects which draw from each other (`Model/Sources.lean`) | core.py 1661-1717 |
| objects held by a program | generators, iteration, `in`, `==` on objects with identities, in any order (`Model/Session.lean`) | interval.py |
| printed forms | `_repr_builder`, `__repr__` of Organizer, Marker, RememberingPattern, Timeboard | core.py, timeboard.py |
| printed texts | `compact_str`, `__repr__` of Workshift, Interval, `_VoidInterval`, `compact_str` of Timeboard | workshift.py, interval.py, timeboard.py |
| arguments of any kind | `get_timestamp`, `get_period`, `is_null`, type checks of constructors, `get_workshift`, `get_interval`, `__call__`, amendments, Organizer on untyped values | core.py, utils.py, timeboard.py, interval.py, workshift.py |
| selectors of any kind | `_Schedule`, `add_schedule`, duty of workshifts with selectors which raise or return anything | core.py, timeboard.py, workshift.py |
| floating point | `count_periods`, `what_portion_of` and sums of labels with rounding | interval.py |
| labels of any kind | `_sum_labels`, `worktime` with strings, None, NaN and other objects as labels | interval.py, workshift.py |
| limits of timestamps | `_Frame.__new__` and `get_loc` with 64-bit timestamps | core.py |
| markers | constructor of Marker, `from_start_of_each`, `nth_weekday_of_month`, `from_easter_*` | core.py, when.py |
| calendars | `nth_weekday_of_month`, `extend_weekends`, `from_easter`, US, UK, RU; `CalendarBase` with arbitrary overridden class methods (`Template`) | calendars/* |

Exceptions are values (`Except Err α`), one constructor of `Err` per Python exception class that the code raises.

## What is not modelled (trusted or out of scope)

* Parsing of strings into timestamps / frequencies by pandas (`pd.Timestamp(str)`, `pd.Period(str)`); times are already integers.
* The limits of pandas timestamps (years 1677–2262): the model's time is unbounded, except in `Model/Limits.lean`, which repeats the constructor of
  frames and their search with the limits (C100).
* `_Schedule.__init__` computes the answers of a selector by `Series.apply`, which may turn a mixture of None and numbers into NaN (which is true); C94
  takes each answer by itself. Labels which are themselves sequences (numpy and pandas would spread them over several workshifts).
* Schedules and workshifts of one timeboard given to the methods of another: the code does not check where they come from, the model takes it
  for granted that they belong to the same timeboard, except in `Model/Foreign.lean` (for intervals see C103, for schedules C106).
* Floating point: ratios and worktime are exact rationals, except in `Model/Floats.lean`, which repeats their computation with
  rounding (C95). Limits of the exponent (overflow, underflow, infinities, NaN) are not modelled.
* numpy / pandas primitives are modelled by their documented meaning (`searchsorted` on sorted arrays, `nonzero`,
  `PeriodIndex.difference`, `period_range`, boolean indexing, `Series.sum`), not verified.
* Iterators which raise, iterators whose elements refer to themselves (C111, C118 treat the others).
* Type errors that the type discipline of the model excludes, other than those of `Model/Values.lean` (C91), `Model/LayoutValue.lean` (C122) and `Model/MethodValues.lean` (C123), e.g. lists and arrays as `steps`.
* `__str__` of intervals and timeboards (the printed form and the text of a dataframe), `__repr__` of schedules, the documentation, plotting.
  The `__repr__` of organizers, markers, remembering patterns and timeboards is modelled as a syntax tree (`Model/Repr.lean`); `compact_str` and
  the `__repr__` of workshifts and intervals are modelled as texts (`Model/Text.lean`).
* Time zones (the library does not support them).

## Trusted base

* Lean 4.33.0 kernel and the Mathlib modules imported (definitions about `Int`, `Rat`, lists; all proofs are checked by the kernel).
* Axioms: `propext`, `Classical.choice`, `Quot.sound` at most; no own axioms, no `sorry`, no `native_decide`, no `bv_decide`.
  The axioms of each property theorem are listed in the last section.
* The correspondence between the Python text and the model definitions is by reading, checked against the project's unit tests (next
  section); `seeded/LOG.jsonl` records how the theorems react to wrong versions of the model.

## Agreement with the project's tests

`tools/conformance.py` reads the test files of the project as text and interprets them symbolically: what does not depend on the
package (numbers, points in time, lists) is computed by the tool, every call of the package becomes a term of the model, every
`assert` a check, every `pytest.raises` an expected error.  Nothing of the project is imported or run.  Each test becomes one Lean
`example` that the whole sequence of statements succeeds, evaluated by the kernel (`decide +kernel`; for timeboards with more than
1000 units, i.e. the ready-made calendars, `#guard`, evaluated by the interpreter).  477 of 523 tests are carried over, and the
model agrees with all of them.  These examples are evidence that the model follows the code; they are single cases, they are not
counted as proofs of any property and no property theorem depends on them.

The other 46 tests: 24 are about arguments of a wrong kind and are transcribed by hand, with the functions of `Model/Values.lean`, in
`Verif/Conformance/WrongArguments.lean` (three of them without a block or line about something that is not a timeboard or about
ignored arguments); 7 further ones only check wrong arguments or inspect constructor arguments; 6 are marked as failing in the test
suite itself; the others use `to_iterable`, sums of strings (an example in `Props/LabelSums.lean`), the columns of an empty data frame, the range of pandas timestamps (an example in `Props/Limits.lean`),
arbitrary arguments of void intervals, or the package version.
In the tests carried over, 33 `pytest.raises` blocks with arguments of a wrong type are left out (those of three tests are in
`WrongArguments.lean`); the comment of each example names their lines.  Running the tool prints the full list.  One convention of pandas came to light: a `Period` given as start or end of a
frame stands for its end, whereas `get_timestamp` takes its start in lookups and amendments.

`tools/doc_examples.py` does the same with the interactive sessions (`>>>`) of the README, of `doc/source` and of the docstrings:
300 printed results (numbers, workshifts, intervals, tables of workshifts with start, end, duration, label and duty, exceptions) are
compared with the model (`Verif/Conformance/Doc*.lean`).  The model agrees with all of them but one: the docstring of `count_periods`
(interval.py 641) shows `OutOfBoundsError` for a period that starts before the timeboard, whereas the code raises
`PartialOutOfBoundsError` (`C28_failures`).  In addition the docstrings of the three calendars show outdated `end` parameters.  Seven further
statements show no result to compare or use a user-defined calendar; three slips in names (`ws_ref_ref`, a missing and a wrong
variable) and one in a table (making_a_timeboard.rst 1030: the first workshift starts at 02:00 and takes 120 hours, not at 20:00 and
102 hours) are corrected by the tool.

## Properties: what is modelled and how it is proved

* **C01 Workshifts tile the timeboard** — Reachable timeboards (constructor + schedule operations); invariant of `organize` by induction over the layout: first unit of each span stays unmasked; tiling from the ascending index of unmasked units.
* **C02 get_workshift returns the workshift that contains the point** — `getWorkshift` unfolded through `locate`, `getWsPosition`, `getLoc`; uniqueness from C01.
* **C03 The frame covers exactly the requested range** — Floor laws of `ordOf/startOf` for every base frequency; arithmetic progression. `C03_void_only` (by C76) says that VoidIntervalError comes only from a reversed range, for every layout.
* **C04 Spans produced by `marks` start exactly at the base units containing marks** — `_locate_subspans` characterised by membership; the sentinel in `get_loc_vectorized` (last start + 1 s) makes the claim false for a mark later than 1 s into the last base unit: negation by witness, `_partial` theorem with the exact side condition.
* **C05 Spans produced by a calendar marker start exactly at calendar period starts** — Marker without `at`; via floor laws of the calendar.
* **C06 A plain pattern labels base units cyclically** — Refinement of the iterator model to `p[i % k]`.
* **C07 Labels of a calendar-periodic pattern do not depend on where the timeboard starts** — `skip_left` computed through `period_range(...).difference(...)` is shown to be the calendar distance.
* **C08 Structure elements are applied to spans in cyclic order** — Induction over the span list with the cycle iterator.
* **C09 RememberingPattern continues where it stopped** — Heap model of RememberingPattern; draws are a contiguous cyclic run; amendments neither draw nor shift what is drawn (`C09_amended`).
* **C10 RememberingPattern state carries over into the next timeboard** — Heap threaded through any number of constructions with different arguments (`C10_sequence`); heap-free layouts do not depend on the heap.
* **C11 Organizing a span does not affect the rest of the frame** — Structural induction on layouts.
* **C12 Amendments change exactly the workshifts they refer to** — `amend` against a specification by membership.
* **C13 Conflicting amendments are rejected as a whole** — `amend` error iff duplicates; the result is an `Except`, the unchanged timeline is the input one (two-phase code is modelled as such). `C13_in_place` repeats it for the loop as the code runs it, assigning to the arrays in place (`Model/Attempt.lean`).
* **C14 Order of amendments is irrelevant** — Permutation invariance from the characterisations in C12, C13.
* **C15 Every workshift is either on duty or off duty under every schedule** — `_Schedule` index arrays vs selector.
* **C16 Counts by duty add up** — Interval bounds found by linear scans are shown to delimit the filtered list.
* **C17 Iteration yields exactly the workshifts with the duty, in order** — As C16.
* **C18 nth, first and last agree with iteration** — As C16, Python indexing.
* **C19 rollforward lands on the right workshift** — Specification by counting duty workshifts between; `searchsorted`.
* **C20 rollback lands on the right workshift** — Mirror of C19 with the scan loop.
* **C21 Rolling forward and back compose and cancel** — From C19/C20.
* **C22 Operators + and - are on-duty rolling** — From C19/C20 and C16.
* **C23 overlap is intersection** — Case analysis on constructors. `C23_operators`: `a * b` is `a.overlap(b)` and `a / b` is `a.what_portion_of(b)`.
* **C24 overlap is commutative, associative and idempotent** — From C23.
* **C25 what_portion_of is the exact ratio in [0, 1]** — Rationals; counting lemma.
* **C26 total_duration is the sum of workshift durations** — `get_durations_for_ws_array` (two searchsorted on frameband) equals sum of durations.
* **C27 worktime of an interval is the sum of worktimes of its workshifts** — As C26 with numeric labels; labels of any kind by `Model/LabelSums.lean` (C99). Partial: `Series.sum()` leaves out None and NaN (`C27_any_label_partial`, `C27_negation`).
* **C28 count_periods is the sum of per-period ratios** — Full model of `count_periods` incl. exceptions; refinement to a sum over all periods.
* **C29 count_periods is additive and normalised** — Consequence of C28.
* **C30 get_interval from two points in time** — Case analysis.
* **C31 Out-of-range interval bounds raise the documented errors** — Case analysis.
* **C32 `closed` drops the end workshifts** — Case analysis.
* **C33 get_interval by length** — Case analysis.
* **C34 get_interval by calendar period collects the workshifts referenced in the period** — C37 + calendar floor laws.
* **C35 Clipping of periods** — as C34.
* **C36 An empty clipped period is reported as a void interval** — False in the code: `_locations_in_order` compares positions only when both are WITHIN, so OutOfBoundsError leaks from the Interval constructor; negation by witness, `_partial` for the remaining cases.
* **C37 Search of a workshift by reference time terminates with the nearest one** — Loops modelled with structural recursion on a bound that is proved sufficient.
* **C38 Calling the timeboard dispatches as documented** — Case analysis on the dispatch with `try/except` modelled.
* **C39 to_dataframe rows agree with Workshift attributes** — Row-wise comparison of the vectorised computation; positions in the wrong order give no rows.
* **C40 Schedules can be added and dropped independently** — Association-list dictionary; invariant over sequences of operations. `C40_sequences` (`Props/ScheduleSteps.lean`): after any sequence of successful additions and removals every calculation under a given schedule object gives the same result as before.
* **C41 Workshift constructor accepts exactly the positions on the timeline** — False for negative positions (Python indexing accepted); negation by witness, `_partial` for n >= -N boundaries.
* **C42 Workshift durations and times are consistent** — From C01, C02.
* **C43 An interval can be rebuilt from its own bounds** — From C30, C33.
* **C44 A marker with a zero offset is the same as a plain marker** — True for unmultiplied marker frequencies; false for multiplied ones (periods are counted from another one): witness + `_partial`; `C44_zero_offset_marks_partial` says where the workshifts start with a multiplied frequency.
* **C45 Offsets from the start of each period** — `from_start_of_each` + partition. `C45_tried_out` covers all offsets: negative is what leads back from 1 January 2004. `C45_one_way`: this agrees with the documentation unless months and the rest of the offset lead opposite ways (`C62_one_way` for `from_easter`).
* **C46 A marker producing no marks leaves the span whole** — Case analysis.
* **C47 Acceptance of marker frequencies is safe, and it is known exactly which are accepted** — Case analysis on frequencies + floor laws; conversely a period which does not start with a base unit is found among the first four for each refused pair of denominations of different kinds (`C47_exactly_which`, Props/Frequencies.lean). `C47_aliases` is about 'min' and 'Y'.
* **C48 n-th weekday of month (calendars)** — Weekly periods over a month; modular arithmetic.
* **C49 n-th weekday of month (markers)** — pandas offsets modelled; modular arithmetic.
* **C50 extend_weekends adds one free day per weekend holiday** — Loop with proved termination bound (the finite set of amended days).
* **C51 extend_weekends never extends onto the weekend** — False in the code; witness; `_partial` when intermediate days are free.
* **C52 Preconfigured calendars respect their supported range** — Case analysis. `C52_ranges` names the ranges.
* **C53 Labels of a preconfigured calendar** — C07 instantiated with days/weeks + C12.
* **C54 Custom amendments override the holidays** — False for US/UK with long_weekends=False (string vs timestamp keys make a duplicate → KeyError); witness; `_partial` for the others.
* **C55 The status of a day does not depend on the chosen sub-range of a calendar** — True for RU, UK; false for US (1 January on Saturday); witness; `_partial`.
* **C56 One-off US holidays are on the days of the years they are tied to** — False in the code (26 Dec 2018 instead of 2014): negation by witness.
* **C57 Easter-related holidays fall on their weekdays** — dateutil's easter algorithm modelled on integers; modular arithmetic.
* **C58 Void interval behaves as an empty interval** — Case analysis.
* **C59 Interval constructor accepts exactly ordered positions on the timeline** — Case analysis.
* **C60 Duty parameter 'same', 'alt', 'any' of rolling** — Case analysis.
* **C61 Out-of-range requests raise OutOfBoundsError** — False: PartialOutOfBoundsError is a ValueError; witness; `_partial` with both classes.
* **C62 Marks tied to Easter** — Algorithm of dateutil on integers; false without offset arguments (the result of `from_easter` is shifted by one day): witness; `_partial`. `C62_shift_is_days`: `shift` against `days`.
* **C63, C64, C65 Days off of the US, British, Russian calendars** — Independent calendar rules in `Spec/Holidays`; the amendment dictionaries are built up by `Dict.update` and compared day by day. The Russian decrees are restated year by year in `Spec/Decrees` together with the official norms of working days and hours (`Props/Decrees.lean`, `Props/DecreeNorms.lean`; finite checks of the complete tables by the kernel).
* **C66 Iterating over an interval** — The attribute `_ws_generator_activated` is a mutable cell of the interval object; loops are functions on that state with fuel; nested loops fail: witness for every interval.
* **C67 Columns of the data frame** — The data frame as association list per row, schedule columns assigned last.
* **C68 Additivity of interval calculations** — From the characterisations by positions (C16, C26, C27) and splitting of ranges.
* **C69 nth agrees with rolling** — From C18, C19, C20.
* **C70 Schedules act only through their decisions** — Index arrays of opposite schedules are exchanged; all methods unfolded. `C70_ratios` extends it to `count_periods`, `what_portion_of`, `overlap` and `get_interval`.
* **C71 Periods partition the timeboard** — From C34/C35 and floor laws.
* **C72 Interval between two points in time** — From C02, C30, C42.
* **C73 A timeboard is the beginning of a longer one** — `Lemmas/Continue.lean`: by induction on the layout, running it over a longer span does the same to the shorter span (`Step.Continues`), given that moving the end of a span does not change the starts of its parts (`Cut.Steady`). The latter is proved for calendar markers, for markers with `at` which are local (`Spec/Marks.lean`: regular or multiplied; `Lemmas/Multiplied.lean`) and for explicit marks. Then C12 and C13 for amendments. False for marks late in the last base unit (see C04).
* **C74 A pattern is anchored at the marks of its marker** — `Spec/Marks.lean` defines regular markers: points are made for each period on its own, within the period, at starts of base units. `Lemmas/MarkerHow.lean` characterises the partitioning and the left dangle for all of them.
* **C75 Workshifts start exactly at the marks of a marker** — Same lemmas; the built-in functions are proved to be regular (`Lemmas/Regular*.lean`), for weekdays without `shift`, for western Easter with `shift`, for offsets none of which is negative. `C75_multiplied`: the same for multiplied frequencies (`Marker.Local`), where periods are counted from the period `getFreqDelta` before the start; offsets are local.
* **C76 A timeboard is refused only for a documented reason** — `Layout.Fault` (`Spec/Construct.lean`) describes what can be wrong with a layout, by the relation of being an element at any depth. Proof by mutual recursion over the layout (`Layout.run_fault`): spans are always valid, spans whose beginning is unknown are the first ones made by markers with `at` when none of the marks looked for is at or before the start of the span (`Frame.stencilFor_undefined`). The reasons TypeError, ValueError, VoidIntervalError, an unacceptable marker at the top (`C76_refusals`), a raising `how` function and a missing mark at the top (`C76_marks_refused`) are also proved to be sufficient.
* **C77 Lookups raise only documented exceptions** — Case analysis over the combinations of arguments; `_locate` never raises on a reachable timeboard.
* **C78 The calendar template applies bounds and amendments as documented** — `CalendarBase` with arbitrary `parameters` and `amendments`: bounds checked against the supported range, then C12 for the amendments in force; `CalendarBase` itself through C06; the ready-made calendars are instances.
* **C79 skip_left and skip_right tell how much of the first and the last period falls outside the span** — Counting in `PeriodIndex.difference`; for calendar markers up to the ends of the periods, for markers with `at` up to the neighbouring marks. `C79_periods_looked_at` (Props/Frequencies.lean) tells how far the neighbouring marks are looked for.
* **C80 Work time follows the number of workshifts** — By induction over the workshifts of the interval from C27 and the counting lemma of C16/C17; for the calendars with the labels of C63, C64 and C65 (every entry of the Russian table is 0, 8 or the hours of an eve, a finite check of the complete table).
* **C81 Order and repetition in the notation of a layout make no difference** — `Layout.Same` (Spec/Notation.lean) is the congruence generated by the listed changes; each keeps the set of successful outcomes of `Layout.run`: points enter the partition only as a set (a characterisation of the slice of candidate points which allows repetitions), cycles over a repeated list yield the same elements.
* **C82 Results depend on the times and labels of workshifts, not on the base unit** — `Timeboard.SameWorkshifts` (Spec/SameTimes.lean) compares only what a user sees of workshifts; from it all lookups of the timeline agree (position of a point in time, times at any position incl. negative ones), and every query is a function of these lookups. For the particular case the starts of calendar spans are shown to be the starts of the base units of the larger frequency (accepted markers are aligned with base units), and strictly increasing lists with the same elements are equal. Durations in base units differ of course (shown by an example).
* **C83 Parameters of a timeboard affect only what they are documented to affect** — `C83_workshift_ref`, `C83_workshift_ref_unsplit`, `C83_worktime_source`, `C83_default_schedule` (`Props/Parameters.lean`). `Spec/Parameters.lean` lists the questions (`AnswersAlike`, `PeriodsAlike`, `WorktimeAlike`) and says when no workshift extends over the beginning of a period (`Unsplit`). An example shows that `workshift_ref` does matter for night shifts.
* **C84 The printed form of an organizer or a timeboard is code which recreates it** — `C84_repr_recreates`, `C84_created_once`, `C84_same_timeboard`, `C84_timeboard_repr`, `C84_custom_rule` (`Props/Repr.lean`). `Model/Repr.lean` models the construction of the code (as a syntax tree), `Spec/Repr.lean` is an interpreter for such code and says what a copy is (`IsCopy`). The docstring of `_repr_builder` promises that the order of the lines is the order of instantiation and that the lines only refer to objects already included. With a user-defined function as `how` the code contains the text of the function and fails (`C84_custom_rule`); a timeboard's optional parameters are not printed.
* **C85 The printed form of a workshift, interval or timeboard tells what it is** — `C85_workshift`, `C85_interval`, `C85_void`, `C85_timeboard`, `C85_same_print` (`Props/Text.lean`). `Model/Text.lean` models the texts down to characters, including `str(period)` of pandas for every frequency; `Spec/Text.lean` is a reader of such texts, written by splitting at punctuation marks. The theorems say that reading gives the attributes of the object. Years outside 1000–9999 are written without padding in the model; pandas cannot represent them anyway.
* **C86 Arguments which are not given** — Defaults of the model's functions are those of the Python signatures; `C86_interval`, `C86_workshift`, `C86_lookup`, `C86_calendars`, `C86_elsewhere`, `C86_rules` and `C120_not_given` say what an omitted argument is replaced with, `C86_interval_on_duty`, `C86_rolling` and `C86_construction` what this means in terms of C17–C20 and C26. Prompted by a seeded bug (another default duty of `last`) which no theorem noticed.
* **C87 Working days and hours between two dates** — The end-to-end use of the ready-made calendars. `Interval.Tallies v tb first last` says in terms of the labels returned by `get_workshift` for each day what length, bounds, count, duration and work time of the interval are; `C87_between_dates` and `C87_by_period` prove it for every pair of dates and every period of whole days; `C87_norms` and `C87_norms_default` combine it with C65 into the official norms of working days and hours of the 17 years of the Russian calendar.
* **C88 What a failed construction leaves behind** — `C88_outcome`, `C88_uninterrupted`, `C88_draws`, `C88_untouched`, `C88_same_outcome`, `C88_next_timeboard` (`Props/Attempt.lean`). `Model/Attempt.lean` follows the code of the construction once more, keeping the state at the moment of an exception (`Timeboard.attempt`), and the in-place form of `_Timeline.amend` (`C13_in_place`). `C88_outcome` ties it to `Timeboard.new`.
* **C89 The same timeboard some time later** — `C89_moved`, `C89_weeks`, `C89_centuries`, `C89_lookup`, `C89_workshifts`, `C89_intervals` (`Props/Later.lean`, `Spec/Later.lean`). `Base.Recurs` and `Marker.Recurs` say after which time periods and marks recur, without reference to how the timeboard is built; `C89_weeks` and `C89_centuries` discharge them. Marks set by Easter recur only after 5.7 million years and are left to the general form. `month_not_weekly` shows that the condition is needed.
* **C90 Labels are taken from the layout and are opaque** — `C90_from_layout`, `C90_renamed`, `C90_lookup`, `C90_workshifts`, `C90_intervals` (`Props/Labels.lean`, `Spec/Labels.lean`). `Layout.Offers` and `Layout.Filled` speak about the layout and RememberingPatterns as given; `Corresponds` says that both calls fail with the same exception or their results correspond. That the model is polymorphic in the type of labels is an assumption about the code (read off: labels are stored in arrays of objects and passed to selectors); the theorems say what follows from it together with the modelled algorithms. Conversion of labels by numpy (a list of lists given as amendments, numbers of mixed types) is not modelled.
* **C91 Arguments of any kind** — `C91_workshift`, `C91_workshift_errors`, `C91_null_is_last`, `C91_interval`, `C91_interval_errors`, `C91_list_reference`, `C91_call`, `C91_new_workshift`, `C91_new_interval`, `C91_arithmetic`, `C91_amendments`, `C91_amendments_kind`, `C91_organizer` (`Props/Values.lean`, `Spec/Values.lean`). `Model/Values.lean` models the same functions as `Model/Timeboard.lean` on values of any kind; what a value means is said by the relations of `Spec/Values.lean` (`Denotes`, `Reading`, …), not by the functions of the model; the theorems connect the two models, so that all other properties carry over to calls with strings, periods and workshifts. What pandas reads from a string is a component of the string (`Word`). Not modelled: numpy scalars and arrays, dictionaries as bounds, subclasses, sequences as location of a Workshift.
* **C92 Parts and wholes** — `C92_wider`, `C92_ratios` (`Props/Monotone.lean`). `Interval.PartOf` and `Timeboard.Covers` are said in terms of which workshifts an interval contains and which have the duty; the theorems compare the results of two calls. The second schedule matters for `C92_wider` only: with different schedules a ratio may move either way.
* **C93 Rolling keeps the order** — `C93_later_start`, `C93_richer_schedule`, `C93_at_least` (`Props/Monotone.lean`), via the rank of a workshift among those with the duty (`rollforward_rank`, `rollback_rank`).
* **C94 Selectors of any kind** — `C94_schedule`, `C94_constructor`, `C94_add_schedule`, `C94_workshifts`, `C94_dataframe` (`Props/Selector.lean`, `Spec/Selector.lean`). `Model/Selector.lean` models the code which calls selectors for functions that may raise or return anything; `SameTimeboard` relates it to the model with boolean selectors, so that the other properties carry over. The methods of intervals use the indices of a schedule only. Not modelled: selectors which change their answers in the course of time; what `Series.apply` does with mixtures of None and floats.
* **C95 Floating point** — `C95_float64`, `C95_periods`, `C95_portion_rounded`, `C95_portion`, `C95_portions_compared`, `C95_worktime`, `C95_sums_inexact` (`Props/Floats.lean`, `Spec/Floats.lean`). `Model/Floats.lean` repeats the three computations with a rounding after each operation; they are related to the exact ones of `Model/Interval.lean`, about which the other properties are proved. `float64` is binary64 with ties to even and without limits of the exponent (the numbers here are far from them: counts, ratios of counts and their sums). The order in which pandas adds labels is left open.
* **C96 The names of rules mean what the documentation of Marker says** — The candidates collected over the envelope of the timeboard, the partition by candidates, the meaning of each `when` function (C45, C49, C62). Partial: a shifted weekday outside its period is not ignored (`C96_negation`; `C96_weekdays_as_coded` says what is done instead).
* **C97 A timeboard is the list read from its layout** — `Spec/Reading.lean` is a second, purely functional program for the constructor: readers return lists of pieces which are concatenated, RememberingPatterns are a list and a counter. `Layout.run_reads` (induction over layouts) relates it to the arrays and masks of the code; `C97_workshifts` states equality of outcomes, errors included. The division of one span is a list program, too (`Frame.cut`, `Spec/Dividing.lean`; `C97_division`). Taken from the model are the calendar (`ordOf`, `startOf`), the acceptance of marker frequencies (C47) and the rules of markers (C45, C49, C62, C96).
* **C98 The library is a program on the list of workshifts** — `Spec/Reference.lean` is a second program for the methods, on plain lists: no indexes of duty, no binary search, no bounds. `C98_list` (the list exists and is unique), `C98_list_read` (it is the list of C97), `C98_workshifts`, `C98_get_interval`, `C98_intervals`, `C98_two_intervals`, `C98_count_periods` state equality of the outcomes, errors included. Results are compared by the numbers of the workshifts; times and labels of a number come from the list. The calendar (`Period.ofTime`, `startTime`, `endTime`, `ordOf`) is shared with the model; it is checked separately (C05, C47, C71, C72 and Frequencies).
* **C99 Labels which are not numbers** — `Model/LabelSums.lean` repeats `_sum_labels` and both `worktime` with Python values as labels (numbers, strings, None, NaN, objects without `+`) and with `Series.sum()` which replaces missing values by 0 and adds from left to right. `totalOf` (`Spec/LabelSums.lean`) says directly what the total of labels is; `C99_sum`, `C99_interval`, `C99_workshift` say that the code computes it.
* **C100 The limits of time** — `Model/Limits.lean` repeats the constructor of `_Frame` and `get_loc` with 64-bit timestamps, for a pandas which raises on overflow and for one which wraps around. Partial: the first base unit is checked (`C100_raising_partial`, `C100_wrapping_partial`), the end of the last one is not (`C100_end_unchecked`: every search then fails), and where numbers wrap around a frame of one base unit or of more than 2 ** 64 ns escapes the check (`C100_undetected`). Frames within the limits: `C100_supported`.
* **C101 Inclusion and exclusion** — `Interval.Unites` says which workshifts v has; `C101_together`, `C101_portions` and `C101_periods` compare v and the overlap with u and t.
* **C102 Working days of a year in the ready-made calendars** — `ukDaysOff` and `usDaysOff` (Spec/DaysOff) count the holidays by their names; `C102_uk` and `C102_us` for any options with long weekends and any range which contains the year. That holidays do not coincide or share a substitute is checked for the 21 years of the calendars (all that the constructors accept) and all sets of options. `C102_ru` with all options of the Russian calendar: the official norms (`norms`, `workedEves` in Spec/Decrees), checked for the 17 years of the calendar.
* **C103 Intervals of different timeboards** (partial) — `Interval.Covers` and `Timeboard.Aligned` (Spec/Foreign) speak about times; `C103_aligned_partial` for aligned timeboards, `C103_calendars` says which ready-made calendars are; `C103_positions` and `C103_portion` what the code does in general; `C103_negation` is the American and the Russian calendar of 2017. Missing: the claim for timeboards which are not aligned, where it is false.
* **C104 Elements of an organizer see spans as whole timeboards** — `buildParts` (Spec/Nested) calls the constructor for each span with the start of its first and the end of its last base unit; `C104_nested` compares the lists of workshifts and the errors, `C104_lookup` the results of `get_workshift`, `C104_level` names markers which meet the condition (every marker without `at`; regular markers, C75), `C104_negation_marks` shows that the condition is needed. The division of the whole into spans is `Frame.cut` of C97.
* **C105 Seasons follow each other in turn** — `season` (Spec/Seasons) is the inner organizer of making_a_timeboard.rst:389-396. `C105_calendar` gives the turn for calendar markers by arithmetic of ordinals, `C105_marks` by counting marks, `C105_two_periods` and `C105_summer` are the cases of two seasons, `C105_dates` that of two dates in a year. The doc's museum is an example of `C105_two_periods`.
* **C106 Schedules of another timeboard** — the functions `…Under` of Model/Foreign take the schedule's own timeline, `Timeboard.SameTimes` (Spec/ForeignSchedule) compares times only. `C106_workshifts`, `C106_intervals`, `C106_get_interval`, `C106_same_units` compare with the calls on the second timeboard, `C106_durations`, `C106_worktime` and `C106_workshift_worktime` say where durations and labels come from, `C106_calendars` says for which ready-made calendars this holds, `C106_unchecked` shows what happens otherwise.
* **C107 What further amendments change in the calculations** — `Timeboard.effect` (Spec/AmendEffect) is what one amendment changes in a sum over workshifts. `C107_intervals`, `C107_amounts`, `C107_elsewhere`, `C107_day_off` compare the timeboard with the one which has further amendments, `C107_calendars` the ready-made calendars without and with custom amendments (which may replace the calendar's own).
* **C108 A rota is fair** — `Timeboard.Rota tb xs p` (`Spec/Rota.lean`) says only that the label of workshift `k` is number `p + k` of the endless repetition of `xs`. `C108_rotas` and `C108_weeks` say which timeboards are rotas; `C108_whole_turns`, `C108_fair`, `C108_even`, `C108_next` and `C108_working_weeks` say what users of a rota can rely on; `C108_one_at_a_time` is about schedules which exclude each other and holds for any timeboard. Work times from labels need all labels to be numbers (`hq`).
* **C109 Other names of a frequency make no difference** — `Freq.SameAs` (`Spec/Names.lean`) compares the starts and ends of the periods of all points in time; `C109_which` says which strings this is (the finitely many base frequencies are told apart by the starts of the periods of six points in time). `C109_lookup`, `C109_count_periods`, `C109_timeboard` (by way of the lists of C97 and C98), `C109_rules` (the built-in rules satisfy the condition `Nameless` of the former) and `C109_refused`.
* **C110 Recipes of the documentation** — the programs of doc/source/use_cases.ipynb written with the methods of the model (`Spec/Recipes.lean`). `C110_deadlines` compares the timetable with the list of workshifts on duty cut into pieces; `C110_headcount` is a double count of pairs (employee, workshift); `C110_salary` and `C110_annual_salary` go by C28. The results printed in the notebook are checked with `#guard` on the ready-made calendars.
* **C111 Iterators as patterns** (partial) — `Model/Iterators.lean` repeats the treatment of layouts with objects which may end (`Wrap` is `itertools.cycle` over such an object: it passes on what it gets, saves it, and repeats it after the end). `Args.readIt` (`Spec/Iterators.lean`) reads a layout as C97 does, with a supply of labels for each iterator; `C111_workshifts` says that this is what the code makes. `C111_reachable` gives a layout without iterators for the same timeboard, `C111_enough` and `C111_list_partial` compare with RememberingPatterns and lists, `C111_negation` is a weekly organizer with an iterator over the labels of a week. Missing: the claim that an iterator is as good as the list of its labels when it is used for several spans, where it is false.
* **C112 Answers depend on the workshifts in question only** — `Timeboard.AgreesOn` (Spec/Local) is said in terms of `get_workshift` and of what is seen of workshifts. The lists of workshifts of both timeboards have a run in common (`Timeboard.AgreesOn.runs`); the reference program of C98 gives the same on both lists, up to the number of workshifts before the run (`Lemmas/Local.lean`). `C112_get_workshift`, `C112_get_interval`, `C112_by_length`, `C112_intervals`, `C112_two_intervals`, `C112_count_periods`, `C112_rollforward`, `C112_rollback`; pairs of timeboards which agree: `C112_amendments`, `C112_pattern`, `C112_calendars`, `C112_sub_ranges`.
* **C113 Generators and iterations do not disturb each other** — `Model/Session.lean`: a program is a sequence of operations on objects with identities; a generator is a small state machine (not started, suspended with the rest of the slice, finished). `C113_generators`, `C113_iteration`, `C113_not_iterated`, `C113_turns`, `C113_new_objects` (`Props/Session.lean`, `Spec/Session.lean`), by induction over the sequence of operations. Unlike the model of C66, an exception in the body of a generator is raised exactly at the advance at which Python raises it.
* **C114 Membership, equality and truth of objects** — the classes define none of `__contains__`, `__eq__`, `__bool__`, so that Python's defaults apply: `in` iterates over the object and compares identities. `C114_membership_partial` (no error, False outside of the interval, no effect on other objects), `C114_membership_fails` (False for every workshift, and the iteration over the object is used up), `C114_equality`, `C114_truth_value`.
* **C115 Calculating with portions** — every count is the number of positions with the duty in a set of positions (`Timeboard.tally`), the portion is a quotient of two such numbers (`Interval.Fine.portion_tally`). `C115_shared`, `C115_of_the_overlap`, `C115_itself`, `C115_chain`, `C115_parts`, `C115_weighted`. Portions are exact rational numbers here; how far the floats of the code are from them is the subject of C95.
* **C116 Frequency strings mean calendar periods** — checks the model of the pandas calendar against a description of its own (`Spec/Civil.lean`: lengths of months, the next day, the days on which periods begin; no day numbers). `C116_calendar` (days), `C116_periods`, `C116_timeboard`, `C116_get_interval`; the link is `begins_iff` (`Lemmas/Civil.lean`).
* **C117 RememberingPatterns in the hands of the user** — `Model/ByHand.lean`: programs which make RememberingPatterns, draw from them, look at them and build timeboards (which may fail midway, `Model/Attempt.lean`). `C117_in_turn` counts for each step what it takes (`RPStep.Takes`) and says which label each draw and each workshift gets; `C117_new`, `C117_looking`. Not covered: a list of labels which is changed after the pattern was made of it.
* **C118 Iterators as marks, as `at` and as structures** (partial) — `Model/OneShot.lean` counts what has been drawn from each iterator (`Drawn`). `C118_amounts`: the constructor does what it does with the layout `Args.unrolled` (`Spec/OneShot.lean`), in which each organizer has been written down once for each span it is applied to, with what is left of its iterators then; hence `C118_reachable`, and C111 tells the workshifts. `C118_lists_partial`: as with lists, if the iterators used (`OnceLayout.uses`) are fresh and different; `C118_outermost` is the usual case. `C118_marks_again`, `C118_at_again`, `C118_structure_again`: the second timeboard of the same organizer. `C118_negation`: an organizer inside another. Simplifications: an element of an iterator does not contain an organizer with the same iterator as structure; what has been drawn before an exception is not followed.
* **C119 How frequency strings are read** — `Model/FreqText.lean` has `_check_groupby_freq` on the strings themselves (regular expression, `int`, `is_subperiod` of pandas by its prefixes and sets of names, recursion bounded by a number). `C119_ways` says which strings write a frequency, `C119_unambiguous` that a string writes one only; `C119_check`: any bound of at least 2 suffices and the result is that of `checkGroupbyFreq`, to which C47 and the others refer; `C119_zeros`, `C119_written_one`. Names alone are a finite check (53 by 53); strings with factors are not. Trusted: `is_subperiod` as read from pandas; that pandas accepts the strings in question (`AcceptsWritten`).
* **C120 Intervals made of workshifts** — `Model/IntKinds.lean` tells integers of Python and numpy apart where the code does (`isinstance(x, int)` at interval.py 16, timeboard.py 820) and where they arise (index arrays, sums); Python's `max` and `min` return the first of equal values. `C120_overlap`, `C120_portion`: exactly when TypeError is raised; `C120_plain`: which intervals have plain bounds; `C120_derived`, `C120_negation`: the defect, in general and in an example; `C120_rebuilt`: the remedy; `C120_lengths`; `C120_intersection_partial`: the full claim for plain bounds. The other properties about intervals speak of intervals with plain bounds as far as `overlap` and `what_portion_of` are concerned; all other methods do not look at the kind.
* **C121 Carrying workshifts and intervals over to another timeboard** — `Model/Carry.lean`; the spec (`Timeboard.Lasts`) tells when a workshift starts and ends. `C121_workshift`, `C121_within`, `C121_order`, `C121_there_and_back`, `C121_calendars` for workshifts, `C121_interval`, `C121_over`, `C121_void` for intervals; `C121_positions_partial` and `C121_negation` for intervals made of workshifts of another timeboard, which the code accepts without a look at the timeboard.
* **C122 What may be given as the layout** — `Model/LayoutValue.lean` adds the kinds of values and the warning to the constructor. `C122_accepted_partial` and `C122_negation` (sets and dictionaries with one element), `C122_refused`, `C122_warning`, `C122_organizers_as_labels`, `C122_wrapped`.
* **C123 Arguments of methods which are not what is documented** — `Model/MethodValues.lean` adds values of other kinds to the methods. `C123_rolling_same`, `C123_interval_same` (documented kinds: the rest of the model), `C123_rolling`, `C123_rolling_errors`, `C123_workshift_errors`, `C123_interval_errors`, `C123_nth`, `C123_portion`, `C123_periods`, `C123_void`; `C123_unnoticed` is an example of a wrong duty which is not noticed.
* **C124 Schedules made of two others** — `Timeboard.Either` and `Timeboard.Both` (`Spec/ScheduleAlgebra.lean`) say which workshifts are on duty. `C124_together` (at each workshift the pair of decisions of e and b is that of s and t in one order or the other), `C124_nearest`, `C124_first_last`, `C124_selectors` (where such schedules come from).
* **C125 A timeboard can be written down as a table** — `Timeboard.Table` and `Args.written` (`Spec/Written.lean`) are the list and the parameters read off it. `C125_written` (the timeboard made of the list equals the first one as a value of the model: frame, workshifts, labels, base unit → workshift map, schedules), `C125_same_table` (no two timeboards share a list), `C125_table` (each has exactly one). The text of `repr`/`print` is not part of the equality: it shows the layout.
* **C126 RememberingPatterns of iterators and of each other** (partial) — `Model/Sources.lean`: objects which hold their labels or draw them from objects made before. `C126_like_list_partial` (answers to all steps of any program except `length`, `bool`, items), `C126_of_another`, `C126_shared` against the small description `sharedAnswer` (`Spec/Sources.lean`), `C126_building_draws`, `C126_looking`, `C126_plain` and `C126_failing` (agreement with `Timeboard.newIt` of C111 and `Timeboard.attempt` of C88 where no object draws from another). What is missing from the full statement is false: `C126_negation`.
* **C127 A timeboard can be made in two goes** — `Layout.TurnsAt`, `Cut.Anywhere`, `Args.before`, `Args.startingAt` (Spec/TwoGoes) say where and how. `C127_two_goes` (lists, RememberingPatterns, exceptions), `C127_pattern`, `C127_remembering` (the same for plain patterns), `C127_agrees` (`AgreesOn` of C112 for each of the two, and their ends). `C127_negation_turns` and `C127_negation_multiplied` show that the turns must begin anew and that the rules of `at` must not be multiplied. Marks which are not starts of base units are excluded for the reason of C104 (a mark in the last base unit counts only in its first second).
* **C128 Calendar patterns go on through the borders of all organizers around them** — C07 and C105 for any depth. `Layout.MadeOf`, `Frame.InForce` (the pattern in force), `placeIn` and `amendedAt` (Spec/AnyDepth). `C128_in_force` (label, start and duration at every time; RememberingPatterns untouched), `C128_one` (not more than one pattern in force), `C128_invisible` (one pattern everywhere: the same timeboard as without the organizers around it). `C128_negation_pattern`: not so for plain patterns and for multiplied periods, which are counted from the start of the span.
* **C129 The workshift at a point in time is found from the outside inwards** — `Frame.Leads` (Spec/Inwards) is the way inwards, for layouts of all kinds; `Frame.amendedShift` the amendment. `C129_inwards` (start, end, duration and label of `get_workshift` at every time), `C129_borders` (a workshift is within all spans met on the way), `C129_one` (one way only), `C129_label` (one label only if there are no RememberingPatterns), `C129_other_elements` (a change of one element makes no difference elsewhere). C97 describes the same workshifts as a list from left to right.
* **C130 A timeboard made of calendar periods is measured exactly by these periods** — `Layout.Keeps` (Spec/Keeping) describes the layouts, `Timeboard.Unsplit` (Spec/Parameters) says that no workshift extends over the beginning of a period. `C130_unsplit`, `C130_exact` (the interval of a period is the period), `C130_counted` (`count_periods` on whole periods is the number of those with workshifts of the duty), `C130_reference` (`workshift_ref` makes no difference). Follows from C129 and C83; an example shows that weeks do not keep within months.
* **C131 Superfluous Organizers make no difference** — `Layout.Shorter` (Spec/Superfluous) says which Organizers can be left out. `C131_shorter` (any number of them, at any depth), `C131_around` (around the whole layout), `C131_again` (the same periods directly inside). Examples show that patterns and other periods are another matter.
* **C132 Dividing at two levels and at one** — `C132_marks`, `C132_periods`; at any depth and in combination with C131 by the rules `marks` and `shorter` of `Layout.Shorter` (Spec/Superfluous), theorem `C131_shorter`. Examples show where it is not the same.
* **C133 An Organizer by the base units is a pattern** — `C133_pattern`, `C133_remembering`; `C133_which` lists the frequencies accepted as markers of themselves, `C133_refused` says what happens with the others. Inside a layout: rule `units` of `Layout.Shorter`, theorem `C131_shorter`.
* **C134 The order of divisions makes no difference** — `Layout.nest` (Spec/Order) puts Organizers one inside the other, `Cut.Plain` says which divisions. `C134_order` (any permutation of any number of levels), `C134_swap` (two levels), `C134_markers` (markers with the built-in `at` are included), `C134_as_marks` (one division by marks instead of all of them), `C134_starts` (where workshifts begin), `C134_anywhere` (the rules of C131 to C134 applied anywhere in a layout, in either direction: `Layout.Rewrites`). Examples show where the order matters.

## Where the code and the expected behaviour differ

| property | behaviour of the code | theorem |
|---|---|---|
| C04 | a mark later than one second into the last base unit of the frame is not noticed | `C04_negation` |
| C27 | the worktime of an interval leaves out labels None and NaN, for which the worktime of a workshift is TypeError and NaN | `C27_negation` |
| C36 | `clip_period` with `closed` may raise OutOfBoundsError instead of VoidIntervalError | `C36_negation` |
| C41 | `Workshift(tb, -1)` is accepted | `C41_negation` |
| C44 | `Marker(each='2M', at=[{'days': 0}])` is aligned differently from `Marker(each='2M')`; years ending in February–June have a right dangle less by one | `C44_negation_*`; as coded: `C44_zero_offset_marks_partial` |
| C45 (outside its quantifier) | the documentation omits points outside their period; with an offset of mixed signs, e.g. a year forward and 366 days back, a point before its period is kept | `C45_mixed_signs` |
| C51 | `extend_weekends` can choose a day of the next weekend | `C51_may_be_weekend` |
| C54 | a custom amendment on a fixed holiday with long_weekends=False raises KeyError | `C54_*` |
| C55 | US: 31 December before a Saturday New Year, and 26 December 2018, depend on the chosen sub-range | `C55_*` |
| C56 | US: the day off of 26 December 2014 is entered as 2018 | `C56_*` |
| C61 | PartialOutOfBoundsError is not an OutOfBoundsError | `C61_negation` |
| C62 | `from_easter` without offset arguments is one day off | `C62_*` |
| C66 | iteration over an interval is not re-entrant; `next(interval)` before `iter` raises AttributeError | `C66_nested_loops_fail` |
| C67 | a schedule named like a built-in column displaces it in `to_dataframe` | `C67_column_displaced` |
| C73 | because of C04, a timeboard which ends in a base unit with a late mark is not the beginning of a longer timeboard | `C73_negation` |
| C100 | the end of the last base unit may be beyond the last timestamp: the timeboard is made, and every search in it fails; the check of the start misses frames of one base unit | `C100_negation`, `C100_end_unchecked`, `C100_undetected` |
| C103 | `overlap` and `what_portion_of` compare numbers of workshifts without looking at the timeboards (interval.py 541-546); intervals of disjoint times may overlap, those of the same day may not | `C103_negation`; `C103_aligned_partial`, `C103_positions` |
| C111 | an iterator as a pattern is used up: a weekly organizer with an iterator over the labels of a week labels the first week only, the others keep the default label, though patterns are documented as 'iterable or iterator' and as re-enacted in cycles (core.py 1265-1286) | `C111_negation`; `C111_list_partial`, `C111_workshifts` |
| C118 | iterators of marks, of `at` or of structures are used up by the first span of a nested organizer and by the first timeboard, though any iterable is documented (core.py 1277-1290): the following spans and timeboards are not divided (with `at`, patterns are refused), or keep the default label | `C118_negation`, `C118_marks_again`, `C118_at_again`, `C118_structure_again`; `C118_lists_partial` |
| C119 | `'1D'` means the same periods as `'D'`, but base units `'1D'` cannot be organized by `'W'`, nor `'D'` by `'1W'` (UnacceptablePeriodError): core.py 135-138 gives up when both factors are 1, after pandas has not recognised the string | `C119_written_one` |
| C120 | An interval made of workshifts which were got by rolling, from an interval or by iterating cannot be intersected with itself or a containing interval: TypeError in Python 3, because `isinstance(bound, int)` (interval.py 16) is False for the integers of numpy which such workshifts have as positions; likewise `length=ivl.total_duration()` (timeboard.py 820) | `C120_negation`, `C120_derived`, `C120_lengths` |
| C121 | `Interval(tb, (ws1, ws2))` accepts workshifts of another timeboard and takes their numbers, so the interval may be at another time (interval.py 14-15); `tb.get_interval((v.start_time, v.end_time))` for a void interval `v` is the whole timeboard, as `NaT` counts as an omitted bound (timeboard.py 804-810) | `C121_negation`, `C121_void` |
| C122 | a set with one element is refused as layout by TypeError, a dictionary with one key other than 0 by KeyError, though larger ones are accepted: `layout[0]` is looked at to warn of a wrapped Organizer (timeboard.py 176) | `C122_negation`, `C122_refused` |
| C123 | a wrong `duty` is not noticed by `what_portion_of` if the intervals have nothing in common (interval.py 813-815), nor by void intervals; floats which are whole numbers are refused as `steps` by IndexError | `C123_unnoticed`, `C123_portion`, `C123_void`, `C123_rolling_errors` |
| C96 | a shifted n-th weekday which falls outside the period in which it was sought still becomes a mark | `C96_negation` |
| C114 | `w in v` is False for every workshift and ends a loop over `v` which is going on; `get_workshift(t) == get_workshift(t)` is False | `C114_membership_fails`, `C114_equality` |
| C126 | `length`, `bool` and `rp[i]` of a RememberingPattern made of an iterator, and `length`, `bool` of one made of a RememberingPattern, raise TypeError, though `labels` may be any iterable and `length` is the number of elements in it | `C126_negation`, `C126_looking` |

Other observations, modelled as they are: `from_easter`/`nth_weekday_of_month` fail with ValueError (arrays of different lengths) for an `each` which is not
made of the units they expect; `amend(not_in_range=...)` is documented as raising for anything but 'ignore', the code raises for 'raise' only; a period which partly
overlaps the frame but contains no reference times is reported as OutOfBoundsError; the index of a schedule is frozen at its creation;
an unknown UK country string means that all holidays are observed; a void interval returns 0 for an invalid `duty` instead of raising;
markers 'M', 'Q', 'A' are refused for base units 'M', 'Q', 'A' of the same kind, and 'W-SUN' for 'W' (C47); markers 'min' and 'Y' are refused where 'T' and 'A' are accepted, and base units 'min' accept no marker at all (`C47_aliases`, `C109_refused`), nor do base units '1D' unless the marker is multiplied (C47); the docstrings of the British and Russian calendars show
other last years (2019, 2018) than the code has (2020, 2021);
a null point in time is not rejected: `clnd(None)` and `get_workshift(None)` return the last workshift, `get_interval(None, length=-3)` the last three, an
amendment with key None relabels the last workshift (`C91_null_is_last`); `get_interval([a, b])` with a list raises ValueError, as the truth value of `pd.isnull` of a list is
ambiguous, though the message of the TypeError speaks of a sequence of two (`C91_list_reference`);
`is_on_duty` returns the answer of the selector as it is, not the boolean promised by its docstring, and so do the columns of the data frame (`C94_workshifts`, `C94_dataframe`); `get_interval(p, period=f)` with a Period `p` ignores `f`;
a schedule of another timeboard is accepted whatever its times, and may lead to workshifts which the timeboard does not have (`C106_unchecked`); the label of a workshift found under such a
schedule, and so its `worktime` by labels, is that of the other timeboard, while `Interval.worktime` adds up the labels of its own one (`C106_worktime`).

## Axioms

Output of `#print axioms` for the theorems of MANIFEST.json, grouped by the axioms they depend on (names in the namespace `TB`).

* none: `C66_next_before_iter`, `C91_organizer`
* propext: `C04_negation`, `C32_closed_values`, `C44_negation_multiplied`, `C44_negation_year`, `C45_mixed_signs`, `C50_wrong_how`, `C62_shift_is_days`, `C62_negation`, `C67_column_displaced`, `C73_negation`, `C81_pattern_layout`, `C86_lookup`, `C91_new_workshift`, `C91_arithmetic`, `C91_amendments_kind`, `C97_new_pattern`, `C104_negation_marks`, `C109_lookup`, `C111_refused`, `C111_negation`, `C118_negation`, `C122_accepted_partial`, `C122_refused`, `C122_warning`, `C122_negation`, `C126_negation`, `C127_negation_turns`, `C127_negation_multiplied`, `C128_negation_pattern`, `C129_label`
* Quot.sound, propext: `C10_plain_layouts`, `C13_in_place`, `C27_default_selector`, `C45_tried_out`, `C48_default_shift`, `C51_may_be_weekend`, `C52_out_of_range`, `C54_fails_concrete`, `C55_new_year_fails`, `C57_from_easter`, `C65_norms`, `C65_decrees_sensible`, `C66_nested_loops_fail`, `C76_refusals`, `C78_preconfigured`, `C84_repr_recreates`, `C84_created_once`, `C84_same_timeboard`, `C84_timeboard_repr`, `C84_custom_rule`, `C86_workshift`, `C86_calendars`, `C86_rules`, `C88_outcome`, `C90_renamed`, `C90_lookup`, `C90_workshifts`, `C94_schedule`, `C94_constructor`, `C94_add_schedule`, `C94_workshifts`, `C94_dataframe`, `C103_negation`, `C104_level`, `C106_unchecked`, `C111_remembering`, `C113_not_iterated`, `C113_new_objects`, `C114_equality`, `C120_constructor`, `C120_plain`, `C121_negation`, `C126_building_draws`, `C126_looking`, `C126_plain`, `C126_failing`, `C133_refused`
* Classical.choice, Quot.sound, propext: `C01_workshifts_tile`, `C02_get_workshift`, `C03_void_only`, `C03_frame_covers_range`, `C03_void_range`, `C04_spans_at_marks_partial`, `C04_invalid_span`, `C04_workshifts_at_marks_partial`, `C05_calendar_spans`, `C05_calendar_workshifts`, `C06_pattern`, `C06_empty_pattern`, `C07_calendar_pattern`, `C07_independent_of_bounds`, `C08_in_turns`, `C08_labels`, `C08_empty_structure`, `C09_uninterrupted`, `C09_timeboard`, `C09_structure`, `C09_all_spans`, `C09_amended`, `C10_carries_over`, `C10_second_timeboard`, `C10_sequence`, `C11_local`, `C11_every_span_starts_workshift`, `C12_amendments_exact`, `C13_conflict_rejected`, `C13_raise_mode`, `C14_order_irrelevant`, `C15_on_off_partition`, `C15_schedules_owned`, `C16_counts_add_up`, `C17_iteration`, `C18_nth_first_last`, `C19_rollforward`, `C20_rollback`, `C21_rolling_composes`, `C22_plus_and_minus`, `C23_overlap_is_intersection`, `C23_operators`, `C24_overlap_algebra`, `C25_what_portion_of`, `C26_total_duration`, `C27_any_label_partial`, `C27_negation`, `C27_worktime_is_sum`, `C27_worktime_outcomes`, `C28_sum_of_ratios`, `C28_failures`, `C29_additive`, `C29_whole_period`, `C29_bounds`, `C30_two_points`, `C30_null_bounds`, `C30_whole_timeboard`, `C31_out_of_range_bounds`, `C31_never_returned`, `C32_closed`, `C33_by_length`, `C34_by_period`, `C34_reference_time`, `C35_clipping`, `C35_outside_and_covering`, `C36_clipped_and_closed_partial`, `C36_negation`, `C37_search_by_reference`, `C38_call`, `C39_to_dataframe`, `C39_bounds`, `C39_reversed`, `C40_add_schedule`, `C40_drop_schedule`, `C40_calculations_unaffected`, `C40_sequences`, `C41_workshift_constructor_partial`, `C41_negative_accepted`, `C41_negation`, `C42_durations_and_times`, `C43_rebuilt`, `C44_zero_offset_marks_partial`, `C44_zero_offset_partial`, `C45_offset_spans`, `C45_offset_arithmetic`, `C45_negative_offset`, `C45_offset_workshifts`, `C45_one_way`, `C46_span_kept_whole`, `C46_no_marks`, `C47_exactly_which`, `C47_aliases`, `C47_accepted_frequencies`, `C48_nth_weekday_of_month`, `C48_unique`, `C48_exists`, `C48_errors`, `C49_nth_weekday`, `C49_years`, `C49_errors`, `C50_extend_weekends`, `C50_count`, `C51_weekday_partial`, `C52_covers`, `C52_ranges`, `C52_builds`, `C53_do_not_amend`, `C53_only_custom`, `C53_amended`, `C54_custom_override_partial`, `C54_short_weekends_fail`, `C54_short_weekends_partial`, `C55_uk_ru_same_label`, `C55_us_same_label_partial`, `C55_options_same_label`, `C56_one_off_fails`, `C56_one_off_partial`, `C57_sunday`, `C57_date`, `C57_uk_weekdays`, `C58_void_dataframe`, `C58_void_interval`, `C59_interval_constructor`, `C60_duty_values`, `C61_extends_beyond_partial`, `C61_negation`, `C62_tried_out`, `C62_one_way`, `C62_easter_marks_partial`, `C62_easter_offset`, `C63_us_days_off`, `C64_uk_days_off`, `C65_ru_labels`, `C66_loop_visits_all_partial`, `C67_columns_partial`, `C68_adjacent_add_up`, `C68_portions_add_up`, `C69_nth_is_rolling`, `C70_opposite_schedules`, `C70_same_selection`, `C70_ratios`, `C71_periods_partition`, `C72_covers`, `C73_longer_timeboard_partial`, `C74_anchored_pattern`, `C74_independent_of_bounds`, `C75_marked_workshifts`, `C75_multiplied`, `C75_weekday_marks`, `C75_easter_marks`, `C75_offset_marks`, `C75_multiplied_offset_marks`, `C76_construction_errors`, `C76_marks_refused`, `C76_constructed`, `C77_lookup_errors`, `C78_template`, `C78_default`, `C79_calendar_dangles`, `C79_marked_dangles`, `C79_periods_looked_at`, `C80_between`, `C80_no_hours_off`, `C80_eight_hours`, `C80_short_eves`, `C81_same_layout`, `C82_lookup`, `C82_workshifts`, `C82_intervals`, `C82_worktime`, `C82_base_unit`, `C83_workshift_ref`, `C83_workshift_ref_unsplit`, `C83_worktime_source`, `C83_default_schedule`, `C85_workshift`, `C85_interval`, `C85_void`, `C85_timeboard`, `C85_same_print`, `C86_interval`, `C86_interval_on_duty`, `C86_rolling`, `C86_construction`, `C86_elsewhere`, `C87_between_dates`, `C87_by_period`, `C87_norms`, `C87_norms_default`, `C88_uninterrupted`, `C88_draws`, `C88_untouched`, `C88_same_outcome`, `C88_next_timeboard`, `C89_moved`, `C89_weeks`, `C89_centuries`, `C89_lookup`, `C89_workshifts`, `C89_intervals`, `C90_from_layout`, `C90_intervals`, `C91_workshift`, `C91_workshift_errors`, `C91_null_is_last`, `C91_interval`, `C91_interval_errors`, `C91_list_reference`, `C91_call`, `C91_new_interval`, `C91_amendments`, `C92_wider`, `C92_ratios`, `C93_later_start`, `C93_richer_schedule`, `C93_at_least`, `C95_float64`, `C95_periods`, `C95_portion_rounded`, `C95_portion`, `C95_portions_compared`, `C95_worktime`, `C95_sums_inexact`, `C96_names`, `C96_from_start_of_each`, `C96_weekdays_as_coded`, `C96_nth_weekday_partial`, `C96_which_shifts_stay`, `C96_from_easter_western`, `C96_from_easter_orthodox`, `C96_no_arguments`, `C96_rule_raises`, `C96_wrong_arguments`, `C96_own_function`, `C96_negation`, `C97_workshifts`, `C97_division`, `C97_read_back`, `C97_error_iff`, `C98_list`, `C98_list_read`, `C98_workshifts`, `C98_get_interval`, `C98_intervals`, `C98_two_intervals`, `C98_count_periods`, `C99_sum`, `C99_interval`, `C99_workshift`, `C100_raising_partial`, `C100_two_timestamps`, `C100_wrapping_partial`, `C100_undetected`, `C100_supported`, `C100_end_unchecked`, `C100_negation`, `C101_together`, `C101_portions`, `C101_periods`, `C102_uk`, `C102_us`, `C102_ru`, `C103_positions`, `C103_aligned_partial`, `C103_portion`, `C103_calendars`, `C104_nested`, `C104_lookup`, `C105_calendar`, `C105_marks`, `C105_two_periods`, `C105_summer`, `C105_dates`, `C106_workshifts`, `C106_intervals`, `C106_get_interval`, `C106_worktime`, `C106_durations`, `C106_workshift_worktime`, `C106_same_units`, `C106_calendars`, `C107_intervals`, `C107_amounts`, `C107_elsewhere`, `C107_day_off`, `C107_calendars`, `C108_rotas`, `C108_weeks`, `C108_whole_turns`, `C108_fair`, `C108_even`, `C108_next`, `C108_one_at_a_time`, `C108_working_weeks`, `C109_which`, `C109_names`, `C109_count_periods`, `C109_timeboard`, `C109_rules`, `C109_refused`, `C110_deadlines`, `C110_headcount`, `C110_salary`, `C110_annual_salary`, `C111_workshifts`, `C111_reachable`, `C111_enough`, `C111_list_partial`, `C112_get_interval`, `C112_by_length`, `C112_get_workshift`, `C112_rollforward`, `C112_rollback`, `C112_intervals`, `C112_count_periods`, `C112_two_intervals`, `C112_amendments`, `C112_calendars`, `C112_sub_ranges`, `C112_pattern`, `C113_generators`, `C113_iteration`, `C113_turns`, `C114_membership_partial`, `C114_membership_fails`, `C114_truth_value`, `C115_shared`, `C115_of_the_overlap`, `C115_chain`, `C115_weighted`, `C115_parts`, `C115_itself`, `C116_calendar`, `C116_periods`, `C116_timeboard`, `C116_get_interval`, `C117_in_turn`, `C117_new`, `C117_looking`, `C118_amounts`, `C118_reachable`, `C118_lists_partial`, `C118_outermost`, `C118_marks_again`, `C118_at_again`, `C118_structure_again`, `C119_ways`, `C119_unambiguous`, `C119_check`, `C119_zeros`, `C119_written_one`, `C120_overlap`, `C120_portion`, `C120_intersection_partial`, `C120_derived`, `C120_rebuilt`, `C120_lengths`, `C120_not_given`, `C120_negation`, `C121_workshift`, `C121_within`, `C121_order`, `C121_there_and_back`, `C121_interval`, `C121_over`, `C121_void`, `C121_positions_partial`, `C121_calendars`, `C122_organizers_as_labels`, `C122_wrapped`, `C123_rolling_same`, `C123_rolling`, `C123_rolling_errors`, `C123_interval_same`, `C123_interval_errors`, `C123_nth`, `C123_portion`, `C123_periods`, `C123_void`, `C123_workshift_errors`, `C123_unnoticed`, `C124_together`, `C124_nearest`, `C124_first_last`, `C124_selectors`, `C125_written`, `C125_table`, `C125_same_table`, `C126_like_list_partial`, `C126_of_another`, `C126_shared`, `C127_two_goes`, `C127_pattern`, `C127_remembering`, `C127_agrees`, `C128_in_force`, `C128_invisible`, `C128_one`, `C129_inwards`, `C129_borders`, `C129_one`, `C129_other_elements`, `C130_unsplit`, `C130_reference`, `C130_exact`, `C130_counted`, `C131_shorter`, `C131_around`, `C131_again`, `C132_marks`, `C132_periods`, `C133_pattern`, `C133_remembering`, `C133_which`, `C134_order`, `C134_anywhere`, `C134_swap`, `C134_as_marks`, `C134_starts`, `C134_markers`
