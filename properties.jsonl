{"id": "C01", "title": "Workshifts tile the timeboard", "statement": "For every timeboard that can be constructed, the workshifts numbered 0..N-1 are non-empty, the first one starts at the timeboard's start_time, each next one starts exactly when the previous one ends (no gap, no overlap), and the last one ends at the timeboard's end_time.", "quantifier": "for every base unit frequency, start, end, layout (nested organizers, patterns, compound labels, remembering patterns), amendments", "why_tests_cant": "the layout language is recursive and unbounded; tests sample a few layouts and look at a few workshifts", "anchors": ["timeboard/core.py:_Timeline.__init__", "timeboard/core.py:_Timeline.__organize", "timeboard/core.py:_Timeline.get_ws_start_time", "timeboard/core.py:_Timeline.get_ws_end_time"]}
{"id": "C02", "title": "get_workshift returns the workshift that contains the point", "statement": "get_workshift(t) succeeds exactly when start_time <= t <= end_time of the timeboard, and then the returned workshift is the only one whose start_time <= t <= end_time; otherwise OutOfBoundsError is raised (never another error).", "quantifier": "for every timeboard and every point in time", "why_tests_cant": "points in time and timelines are unbounded; boundary nanoseconds between any two workshifts matter", "anchors": ["timeboard/timeboard.py:Timeboard.get_workshift", "timeboard/timeboard.py:Timeboard._locate", "timeboard/core.py:_Timeline.get_ws_position", "timeboard/core.py:_Frame.get_loc"]}
{"id": "C03", "title": "The frame covers exactly the requested range", "statement": "A timeboard built from start and end has its first base unit contain `start` and its last base unit contain `end`, base units are adjacent with no gaps, and construction raises VoidIntervalError exactly when the base period of `end` precedes that of `start`.", "quantifier": "for every base unit frequency (including multiplied ones) and every start/end", "why_tests_cant": "calendar irregularities (leap years, month lengths, week anchors, multipliers) cannot be enumerated", "anchors": ["timeboard/core.py:_Frame.__new__", "timeboard/core.py:_Frame.start_time", "timeboard/core.py:_Frame.end_time"]}
{"id": "C04", "title": "Spans produced by `marks` start exactly at the base units containing marks", "statement": "Organizer(marks=...) cuts a span into consecutive sub-spans which tile it; apart from the first, a base unit starts a sub-span if and only if some mark falls anywhere within that base unit; marks outside the span, repeated marks and marks in the first unit are ignored.", "quantifier": "for every frame, span and finite list of marks in any order", "why_tests_cant": "positions of marks inside base units are unbounded; tests only try marks at the start of the last unit", "anchors": ["timeboard/core.py:_Frame.partition_at_marks", "timeboard/core.py:_Frame._locate_subspans", "timeboard/core.py:_Frame.get_loc_vectorized", "timeboard/core.py:Organizer"]}
{"id": "C05", "title": "Spans produced by a calendar marker start exactly at calendar period starts", "statement": "Organizer(marker=freq) cuts the span into consecutive sub-spans which tile it; apart from the first, a base unit starts a sub-span if and only if a calendar period of the marker frequency starts in that base unit (for a multiplied marker frequency the periods are counted from the one containing the start of the span). A marker frequency which is not accepted raises UnacceptablePeriodError.", "quantifier": "for every base unit frequency and marker frequency accepted, every frame and span", "why_tests_cant": "needs calendar arithmetic over all dates", "anchors": ["timeboard/core.py:_Frame.partition_with_marker", "timeboard/core.py:Marker"]}
{"id": "C06", "title": "A plain pattern labels base units cyclically", "statement": "With layout=[l0,...,lk-1] (k>0) there is one workshift per base unit and workshift i has label l(i mod k); with an empty pattern every workshift has the default label.", "quantifier": "for every frame, pattern and default label", "why_tests_cant": "length of frame and pattern unbounded", "anchors": ["timeboard/timeboard.py:Timeboard.__init__", "timeboard/core.py:_Timeline.__apply_pattern", "timeboard/core.py:_skiperator"]}
{"id": "C07", "title": "Labels of a calendar-periodic pattern do not depend on where the timeboard starts", "statement": "With layout=Organizer(marker=freq, structure=[pattern]) the label of a base unit is pattern[j mod len(pattern)] where j is the number of base units between the start of the calendar period containing the unit and the unit itself. In particular two timeboards with different start/end agree on every common base unit.", "quantifier": "for every unmultiplied base unit frequency and marker frequency accepted, every non-empty pattern, every start and end", "why_tests_cant": "requires counting base units that fall outside of the frame, for all calendar positions", "anchors": ["timeboard/core.py:_Frame.partition_with_marker", "timeboard/core.py:_Timeline.__apply_pattern", "timeboard/core.py:_Span"]}
{"id": "C08", "title": "Structure elements are applied to spans in cyclic order", "statement": "The i-th span produced by an organizer is treated with structure[i mod len(structure)]; an element which is a single label turns the whole span into one workshift with this label whose duration is the number of base units in the span; with an empty structure nothing is changed.", "quantifier": "for every organizer, span sequence and structure", "why_tests_cant": "unbounded numbers of spans and structure lengths", "anchors": ["timeboard/core.py:_Timeline.__organize", "timeboard/core.py:Organizer"]}
{"id": "C09", "title": "RememberingPattern continues where it stopped", "statement": "Through all spans (and organizers) to which one RememberingPattern is applied, the labels it hands out, concatenated in order of application, form an uninterrupted cyclic run of its labels, including the labels consumed by the skipped left dangle; using it as structure consumes exactly one label per span.", "quantifier": "for every list of labels, every sequence of applications", "why_tests_cant": "stateful behaviour over arbitrary histories", "anchors": ["timeboard/core.py:RememberingPattern", "timeboard/core.py:_skiperator", "timeboard/core.py:_Timeline.__organize"]}
{"id": "C10", "title": "RememberingPattern state carries over into the next timeboard", "statement": "When the same layout is used for a second timeboard, the first label drawn from the RememberingPattern is the one following the last label drawn for the first timeboard; layouts without RememberingPattern give identical timeboards when reused.", "quantifier": "for every layout and every sequence of constructions", "why_tests_cant": "depends on hidden state across constructions", "anchors": ["timeboard/core.py:RememberingPattern", "timeboard/timeboard.py:Timeboard.__init__"]}
{"id": "C11", "title": "Organizing a span does not affect the rest of the frame", "statement": "Applying any layout element to a span leaves labels and workshift boundaries of base units outside the span unchanged, and the first base unit of the span always starts a workshift.", "quantifier": "for every layout element (arbitrary nesting) and every span", "why_tests_cant": "recursion depth and layouts are unbounded", "anchors": ["timeboard/core.py:_Timeline.__organize", "timeboard/core.py:_Timeline.__apply_pattern"]}
{"id": "C12", "title": "Amendments change exactly the workshifts they refer to", "statement": "After construction, a workshift which contains an amendment key has that amendment's label, every other workshift has the label given by the layout; workshift boundaries are not affected.", "quantifier": "for every timeline and every dictionary of amendments that is accepted", "why_tests_cant": "unbounded dictionaries and timelines", "anchors": ["timeboard/core.py:_Timeline.amend", "timeboard/timeboard.py:Timeboard.__init__"]}
{"id": "C13", "title": "Conflicting amendments are rejected as a whole", "statement": "Amending fails with KeyError exactly when two keys inside the timeline refer to the same workshift; in this case no label is changed. Keys outside the timeline are ignored by default, and with not_in_range='raise' the first of them (if no conflict occurs before) raises OutOfBoundsError, again without changing any label.", "quantifier": "for every timeline and every dictionary of amendments", "why_tests_cant": "the set of conflicting dictionaries is infinite, atomicity is about all intermediate states", "anchors": ["timeboard/core.py:_Timeline.amend"]}
{"id": "C14", "title": "Order of amendments is irrelevant", "statement": "Permuting the items of the amendments dictionary does not change whether it is accepted nor the resulting labels.", "quantifier": "for every timeline, every dictionary and every permutation of it", "why_tests_cant": "factorially many permutations", "anchors": ["timeboard/core.py:_Timeline.amend"]}
{"id": "C15", "title": "Every workshift is either on duty or off duty under every schedule", "statement": "Under any schedule each workshift is on duty iff the selector accepts its label and is off duty otherwise; the ascending lists of on-duty and off-duty workshifts used in calculations contain exactly the workshifts for which is_on_duty() / is_off_duty() is True.", "quantifier": "for every timeboard, selector and workshift", "why_tests_cant": "selectors are arbitrary functions", "anchors": ["timeboard/core.py:_Schedule", "timeboard/workshift.py:Workshift.is_on_duty", "timeboard/workshift.py:Workshift.is_off_duty"]}
{"id": "C16", "title": "Counts by duty add up", "statement": "For any interval, count('on') + count('off') = count('any') = number of workshifts in the interval, and count(d) is the number of workshifts of the interval having duty d.", "quantifier": "for every timeboard, schedule and interval", "why_tests_cant": "unbounded intervals and schedules", "anchors": ["timeboard/interval.py:Interval.count", "timeboard/interval.py:Interval._get_duty_idx", "timeboard/interval.py:Interval._find_my_bounds_in_idx"]}
{"id": "C17", "title": "Iteration yields exactly the workshifts with the duty, in order", "statement": "list(interval.workshifts(duty)) is the ascending list of precisely those workshifts of the interval which have the duty; its length equals count(duty); iterating over the interval itself yields all its workshifts.", "quantifier": "for every timeboard, schedule, interval and duty", "why_tests_cant": "unbounded", "anchors": ["timeboard/interval.py:Interval.workshifts", "timeboard/interval.py:Interval.__iter__", "timeboard/interval.py:Interval.__len__"]}
{"id": "C18", "title": "nth, first and last agree with iteration", "statement": "interval.nth(n, duty) is list(interval.workshifts(duty))[n] in the sense of Python indexing (negative n counts from the end) and raises OutOfBoundsError exactly when that index is invalid; first() and last() are the first and last elements.", "quantifier": "for every interval, duty, schedule and integer n", "why_tests_cant": "n and intervals are unbounded", "anchors": ["timeboard/interval.py:Interval.nth", "timeboard/interval.py:Interval.first", "timeboard/interval.py:Interval.last"]}
{"id": "C19", "title": "rollforward lands on the right workshift", "statement": "ws.rollforward(steps, duty): let the zero step workshift be the earliest workshift at or after ws having the duty; the result is the workshift having the duty with exactly `steps` (signed) duty workshifts between, i.e. the steps-th one counted from the zero step workshift among workshifts of that duty; OutOfBoundsError is raised exactly when there is no zero step workshift or no such target on the timeline.", "quantifier": "for every timeboard, workshift, schedule, duty and integer steps", "why_tests_cant": "steps and timelines unbounded", "anchors": ["timeboard/workshift.py:Workshift.rollforward", "timeboard/workshift.py:Workshift._get_duty_index"]}
{"id": "C20", "title": "rollback lands on the right workshift", "statement": "Mirror statement for rollback: the zero step workshift is the latest workshift at or before ws having the duty, and positive steps go to the past.", "quantifier": "for every timeboard, workshift, schedule, duty and integer steps", "why_tests_cant": "steps and timelines unbounded", "anchors": ["timeboard/workshift.py:Workshift.rollback", "timeboard/workshift.py:Workshift._get_duty_index"]}
{"id": "C21", "title": "Rolling forward and back compose and cancel", "statement": "If ws has the duty then rollforward(n) and rollback(-n) give the same outcome for every integer n; rollforward(a) followed by rollforward(b) equals rollforward(a+b) whenever the intermediate workshift exists; rollback(n) undoes a successful rollforward(n) (returning the zero step workshift).", "quantifier": "for every workshift, schedule, duty on/off/any and integers a, b, n", "why_tests_cant": "algebraic laws over all integers", "anchors": ["timeboard/workshift.py:Workshift.rollforward", "timeboard/workshift.py:Workshift.rollback"]}
{"id": "C22", "title": "Operators + and - are on-duty rolling", "statement": "ws + n equals ws.rollforward(n, duty='on') and ws - n equals ws.rollback(n, duty='on'); for an on-duty ws, (ws + n) - n = ws whenever ws + n exists, and the interval from ws to ws + n (n >= 0) contains exactly n + 1 on-duty workshifts.", "quantifier": "for every workshift and integer n", "why_tests_cant": "unbounded n", "anchors": ["timeboard/workshift.py:Workshift.__add__", "timeboard/workshift.py:Workshift.__sub__", "timeboard/interval.py:Interval.count"]}
{"id": "C23", "title": "overlap is intersection", "statement": "A workshift belongs to a.overlap(b) iff it belongs to both a and b; when there is none the result is the void interval with zero length, zero counts and no iteration; overlap never raises for two intervals of one timeboard (unless one was made by Interval() of workshifts which were got from other workshifts or intervals, see C120). The operators a * b and a / b are a.overlap(b) and a.what_portion_of(b).", "quantifier": "for every pair of intervals, void or not", "why_tests_cant": "unbounded", "anchors": ["timeboard/interval.py:Interval.overlap", "timeboard/interval.py:_VoidInterval", "timeboard/interval.py:_BaseInterval", "timeboard/interval.py:Interval.__mul__", "timeboard/interval.py:Interval.__truediv__"]}
{"id": "C24", "title": "overlap is commutative, associative and idempotent", "statement": "As sets of workshifts a*b = b*a, (a*b)*c = a*(b*c), a*a = a, also when some of the results are void.", "quantifier": "for all triples of intervals", "why_tests_cant": "algebraic laws over all intervals", "anchors": ["timeboard/interval.py:Interval.overlap", "timeboard/interval.py:_VoidInterval.overlap"]}
{"id": "C25", "title": "what_portion_of is the exact ratio in [0, 1]", "statement": "a.what_portion_of(b, duty) equals (number of workshifts with the duty in both a and b) / (number of workshifts with the duty in b), taken as 0 when the numerator is 0; it lies in [0,1], never divides by zero, and is 1 iff b has workshifts with the duty and all of them are in a.", "quantifier": "for every pair of intervals, duty and schedule (floats idealised as rationals)", "why_tests_cant": "unbounded", "anchors": ["timeboard/interval.py:Interval.what_portion_of", "timeboard/interval.py:Interval.__truediv__"]}
{"id": "C26", "title": "total_duration is the sum of workshift durations", "statement": "interval.total_duration(duty) equals the sum of ws.duration over interval.workshifts(duty); with duty='any' it equals the number of base units between the interval's start_time and end_time; the 'on' and 'off' totals add up to the 'any' total.", "quantifier": "for every timeboard (incl. compound workshifts), interval, schedule and duty", "why_tests_cant": "the fast vectorised computation differs from the per-workshift one", "anchors": ["timeboard/interval.py:Interval.total_duration", "timeboard/core.py:_Timeline.get_durations_for_ws_array", "timeboard/core.py:_Timeline.get_ws_duration"]}
{"id": "C27", "title": "worktime of an interval is the sum of worktimes of its workshifts", "statement": "interval.worktime(duty) equals the sum of ws.worktime(duty) over all workshifts of the interval, for both sources ('duration' and 'labels'), with TypeError when a counted label is not a number; and worktime('on') + worktime('off') = worktime('any').", "quantifier": "for every timeboard, interval, schedule, duty, source and kind of labels (numbers idealised as rationals)", "why_tests_cant": "unbounded", "anchors": ["timeboard/interval.py:Interval.worktime", "timeboard/interval.py:Interval._sum_labels", "timeboard/workshift.py:Workshift.worktime"]}
{"id": "C28", "title": "count_periods is the sum of per-period ratios", "statement": "When interval.count_periods(freq, duty) returns a number, it equals the sum over calendar periods of freq of (workshifts with the duty in the interval whose reference time is in the period) / (workshifts with the duty on the timeboard whose reference time is in the period), where periods with zero denominator contribute nothing. It never fails by dividing by zero or by a missing value. The frequencies which are not refused are 'S', 'T' (or 'min'), 'H', 'D', 'W', 'M', 'Q' and 'A' (or 'Y').", "quantifier": "for every timeboard, interval, supported freq, duty, schedule and workshift_ref (floats idealised as rationals)", "why_tests_cant": "interplay of calendar periods with compound workshifts straddling boundaries", "anchors": ["timeboard/interval.py:Interval.count_periods", "timeboard/timeboard.py:Timeboard.get_interval"]}
{"id": "C29", "title": "count_periods is additive and normalised", "statement": "If the counts of two adjacent intervals and of their union are all defined, the union's count_periods is the sum of the two; an interval consisting exactly of the workshifts of one calendar period with at least one workshift of the duty counts as 1; within a single period the value is between 0 and 1.", "quantifier": "for every pair of adjacent intervals, freq, duty, schedule", "why_tests_cant": "algebraic law over unbounded intervals", "anchors": ["timeboard/interval.py:Interval.count_periods"]}
{"id": "C30", "title": "get_interval from two points in time", "statement": "get_interval((a, b)) with both points on the timeboard returns the interval whose first workshift contains a and whose last workshift contains b if the former is not later than the latter, VoidIntervalError otherwise; null bounds mean the first / last workshift of the timeboard; get_interval() is the whole timeboard.", "quantifier": "for every timeboard and every pair of points", "why_tests_cant": "unbounded", "anchors": ["timeboard/timeboard.py:Timeboard.get_interval", "timeboard/timeboard.py:Timeboard._get_interval_locs_from_reference"]}
{"id": "C31", "title": "Out-of-range interval bounds raise the documented errors", "statement": "With closed='11', get_interval((a, b)) with a point outside raises: OutOfBoundsError if both are outside on the same side, PartialOutOfBoundsError if exactly one is outside or they lie on opposite sides in order, VoidIntervalError if the points are in the reverse order; it never returns an interval.", "quantifier": "for every timeboard and every pair of points", "why_tests_cant": "unbounded combinations", "anchors": ["timeboard/timeboard.py:Timeboard.get_interval", "timeboard/timeboard.py:Timeboard._locations_in_order"]}
{"id": "C32", "title": "`closed` drops the end workshifts", "statement": "With closed='01','10','00' the interval is the one obtained with '11' without its first / last / first and last workshift; if nothing is left VoidIntervalError is raised (bounds on the timeboard).", "quantifier": "for every timeboard and every pair of bounds", "why_tests_cant": "unbounded", "anchors": ["timeboard/timeboard.py:Timeboard._strip_interval_locs", "timeboard/timeboard.py:Timeboard.get_interval"]}
{"id": "C33", "title": "get_interval by length", "statement": "get_interval(t, length=n) for n>0 is the interval of exactly n workshifts starting with the workshift containing t; for n<0 exactly |n| workshifts ending with it; n=0 raises VoidIntervalError; if it does not fit on the timeboard PartialOutOfBoundsError is raised; if t is outside the timeboard, OutOfBoundsError.", "quantifier": "for every timeboard, point in time and integer length", "why_tests_cant": "unbounded n", "anchors": ["timeboard/timeboard.py:Timeboard._get_interval_locs_by_length"]}
{"id": "C34", "title": "get_interval by calendar period collects the workshifts referenced in the period", "statement": "get_interval(period) with a calendar period lying within the timeboard returns the interval of exactly those workshifts whose reference time (start or end, per workshift_ref) is inside the period, and raises VoidIntervalError if there are none.", "quantifier": "for every timeboard, calendar period and workshift_ref", "why_tests_cant": "compound workshifts straddling boundaries, all calendar positions", "anchors": ["timeboard/timeboard.py:Timeboard._get_interval_locs_by_period", "timeboard/core.py:_Timeline.get_ws_pos_by_ref_after", "timeboard/core.py:_Timeline.get_ws_pos_by_ref_before"]}
{"id": "C35", "title": "Clipping of periods", "statement": "For a period not entirely within the timeboard: if at least one workshift has its reference time in the period, clip_period=True (closed='11') yields exactly the timeboard's workshifts referenced in the period and clip_period=False raises PartialOutOfBoundsError; if no workshift is referenced in the period, OutOfBoundsError is raised. In particular a period completely outside raises OutOfBoundsError, and a period extending beyond both ends of the timeboard yields the whole timeboard whatever `closed` is.", "quantifier": "for every timeboard and calendar period", "why_tests_cant": "unbounded", "anchors": ["timeboard/timeboard.py:Timeboard._get_interval_locs_by_period", "timeboard/timeboard.py:Timeboard.get_interval"]}
{"id": "C36", "title": "An empty clipped period is reported as a void interval", "statement": "When clip_period=True and `closed` removes the only workshift left of a clipped period, VoidIntervalError is raised (as documented for an attempt to create an empty interval) and not another error.", "quantifier": "for every timeboard, calendar period and closed value", "why_tests_cant": "corner combination of clipping and stripping", "anchors": ["timeboard/timeboard.py:Timeboard.get_interval", "timeboard/timeboard.py:Timeboard._locations_in_order", "timeboard/timeboard.py:Timeboard._strip_interval_locs"]}
{"id": "C37", "title": "Search of a workshift by reference time terminates with the nearest one", "statement": "The forward search from a point on the timeboard returns the earliest workshift with reference time >= the point (or OutOfBoundsError if there is none), the backward search returns the latest workshift with reference time <= the point (or OutOfBoundsError); both terminate.", "quantifier": "for every timeline, workshift_ref and point in time", "why_tests_cant": "loops over unbounded timelines", "anchors": ["timeboard/core.py:_Timeline.get_ws_pos_by_ref_after", "timeboard/core.py:_Timeline.get_ws_pos_by_ref_before"]}
{"id": "C38", "title": "Calling the timeboard dispatches as documented", "statement": "tb(t) with a single point in time is get_workshift(t) including its OutOfBoundsError; tb() and tb(args...) otherwise are get_interval(args...).", "quantifier": "for every timeboard and argument", "why_tests_cant": "bare except clauses could hide errors", "anchors": ["timeboard/timeboard.py:Timeboard.__call__"]}
{"id": "C39", "title": "to_dataframe rows agree with Workshift attributes", "statement": "Row k of to_dataframe(first, last) shows for workshift first+k the same loc, ws_ref, start, duration, end and label as the corresponding Workshift, and one column per schedule with is_on_duty; there are last-first+1 rows, and none if last < first.", "quantifier": "for every timeboard and 0 <= first, last < N", "why_tests_cant": "computed by a separate vectorised code path", "anchors": ["timeboard/core.py:_Timeline.to_dataframe", "timeboard/timeboard.py:Timeboard.to_dataframe", "timeboard/interval.py:Interval.to_dataframe"]}
{"id": "C40", "title": "Schedules can be added and dropped independently", "statement": "add_schedule registers a new schedule under its name and leaves the default and all other schedules as they were, it raises KeyError and changes nothing if the name is taken; drop_schedule removes exactly that name; the default schedule used by calculations is not affected by adding or dropping schedules.", "quantifier": "for every sequence of add/drop operations", "why_tests_cant": "arbitrary histories", "anchors": ["timeboard/timeboard.py:Timeboard.add_schedule", "timeboard/timeboard.py:Timeboard.drop_schedule", "timeboard/timeboard.py:Timeboard.default_schedule"]}
{"id": "C41", "title": "Workshift constructor accepts exactly the positions on the timeline", "statement": "Workshift(tb, n) succeeds iff 0 <= n < number of workshifts and raises OutOfBoundsError otherwise.", "quantifier": "for every timeboard and integer n", "why_tests_cant": "all integers", "anchors": ["timeboard/workshift.py:Workshift.__init__", "timeboard/core.py:_Timeline.__getitem__"]}
{"id": "C42", "title": "Workshift durations and times are consistent", "statement": "For every workshift on the timeline duration >= 1, start_time <= to_timestamp() <= end_time, the durations of all workshifts add up to the number of base units, and get_workshift(ws.to_timestamp()) (also of start_time and end_time) is ws again.", "quantifier": "for every timeboard and workshift", "why_tests_cant": "round trip over all workshifts", "anchors": ["timeboard/workshift.py:Workshift.to_timestamp", "timeboard/workshift.py:Workshift.duration", "timeboard/core.py:_Timeline.get_ws_duration"]}
{"id": "C43", "title": "An interval can be rebuilt from its own bounds", "statement": "get_interval((ivl.start_time, ivl.end_time)) is an interval with the same workshifts as ivl; so is get_interval((first_ws, last_ws)) made of its first and last workshifts and get_interval(first_ws, length=len(ivl)).", "quantifier": "for every timeboard and interval", "why_tests_cant": "round trip over all intervals", "anchors": ["timeboard/timeboard.py:Timeboard.get_interval", "timeboard/interval.py:Interval.start_time", "timeboard/interval.py:Interval.end_time"]}
{"id": "C44", "title": "A marker with a zero offset is the same as a plain marker", "statement": "Organizer(marker=Marker(each=f, at=[{'days': 0}])) partitions every frame exactly like Organizer(marker=f), including the dangles (documented: the frame is partitioned on the period boundary if the zero offset is given explicitly).", "quantifier": "for every base unit frequency, marker frequency accepted, frame and span", "why_tests_cant": "depends on alignment of calendar periods in the envelope around the span", "anchors": ["timeboard/core.py:_Frame.partition_with_marker", "timeboard/when.py:from_start_of_each", "timeboard/core.py:get_freq_delta"]}
{"id": "C45", "title": "Offsets from the start of each period", "statement": "With Marker(each, at=[offset...]) the candidate marks are (start of period + offset); those beyond the end of the period are dropped; inside the span a base unit (other than the first) starts a sub-span iff it contains a mark coming from some period of `each`; no other marks appear. from_start_of_each with an offset of any sign omits the points (start of period + offset) before the start of their period and those which, snapped to base units, are beyond its end, unless months and the rest of the offset lead opposite ways.", "quantifier": "for every unmultiplied frequency, non-negative offsets of days/hours/minutes/seconds/weeks/months/years, frame and span; for from_start_of_each itself, all offsets, periods and base units", "why_tests_cant": "calendar arithmetic for all dates", "anchors": ["timeboard/when.py:from_start_of_each", "timeboard/core.py:_Frame.partition_with_marker"]}
{"id": "C46", "title": "A marker producing no marks leaves the span whole", "statement": "If `at` is non-empty but yields no point in the neighbourhood of the span, no partitioning occurs, the span is kept whole; a pattern cannot then be applied (OutOfBoundsError as the left dangle is unknown), while a single label can.", "quantifier": "for every frame, span and marker", "why_tests_cant": "unbounded", "anchors": ["timeboard/core.py:_Frame.partition_with_marker", "timeboard/core.py:_Timeline.__apply_pattern"]}
{"id": "C47", "title": "Acceptance of marker frequencies is safe, and it is known exactly which are accepted", "statement": "Whenever a marker frequency is accepted for an unmultiplied base unit frequency, every calendar period boundary of the (unmultiplied) marker frequency is also a base unit boundary, so no base unit belongs to two periods. Conversely, of frequencies of different kinds written without factors, all those are accepted whose periods consist of whole base units; of the same kind only the same denomination, and only for weeks and shorter periods; a multiplied frequency is accepted with simple base units when it is accepted without the factor or has the same denomination, and with multiplied base units when it is a multiple of them. Of the other names of 'T' and 'A', 'min' is never accepted; 'Y' is only accepted with base units 'Y' of the same ending month, if one of the two is multiplied and the base unit's multiplier divides the marker's.", "quantifier": "for every pair of frequencies over all dates", "why_tests_cant": "calendar arithmetic for all dates", "anchors": ["timeboard/core.py:_check_groupby_freq", "timeboard/utils.py:_pandas_is_subperiod"]}
{"id": "C48", "title": "n-th weekday of month (calendars)", "statement": "calendarbase.nth_weekday_of_month(year, [(month, weekday, n, shift)]) yields exactly the date which is the n-th (n>0) or |n|-th from the end (n<0) such weekday of the month, shifted by `shift` days, and yields nothing when the month has no such day. A date given as (month, weekday, n) is not shifted.", "quantifier": "for every year, month, weekday, n in -5..-1, 1..5 and shift", "why_tests_cant": "all years and months", "anchors": ["timeboard/calendars/calendarbase.py:nth_weekday_of_month"]}
{"id": "C49", "title": "n-th weekday of month (markers)", "statement": "With each='A', when.nth_weekday_of_month puts for each year exactly one mark at the n-th weekday of the month plus shift if this weekday exists in the month and none otherwise.", "quantifier": "for every range of years, month, weekday, week and shift", "why_tests_cant": "all years and months; pandas offset arithmetic quirks", "anchors": ["timeboard/when.py:nth_weekday_of_month"]}
{"id": "C50", "title": "extend_weekends adds one free day per weekend holiday", "statement": "extend_weekends keeps all given days with their labels; for each given day falling on the weekend one more day is added which was not amended before, lying after (next), before (previous) or on the nearest side (nearest; a tie goes to next) of the weekend; all days between the weekend's edge and the added day are already amended; non-weekend days add nothing; it terminates.", "quantifier": "for every dictionary of amendments of whole days, weekend definition and how", "why_tests_cant": "unbounded dictionaries, loop termination", "anchors": ["timeboard/calendars/calendarbase.py:extend_weekends"]}
{"id": "C51", "title": "extend_weekends never extends onto the weekend", "statement": "The day added by extend_weekends is a weekday (documented: the label is assigned to a weekday).", "quantifier": "for every dictionary of amendments, weekend and how", "why_tests_cant": "needs dense clusters of holidays", "anchors": ["timeboard/calendars/calendarbase.py:extend_weekends"]}
{"id": "C52", "title": "Preconfigured calendars respect their supported range", "statement": "Constructing a preconfigured calendar with custom_start / custom_end outside the supported range raises OutOfBoundsError; otherwise the timeboard covers exactly the days from custom_start to custom_end (defaulting to the full range). The supported ranges are the years 2000-2020 (US, UK) and 2005-2021 (RU).", "quantifier": "for every custom_start and custom_end", "why_tests_cant": "unbounded", "anchors": ["timeboard/calendars/calendarbase.py:CalendarBase.__new__", "timeboard/calendars/calendarbase.py:CalendarBase._get_bounds", "timeboard/calendars/calendarbase.py:CalendarBase._check_time"]}
{"id": "C53", "title": "Labels of a preconfigured calendar", "statement": "In a Weekly8x5 calendar every day is a workshift whose label is its amendment if there is one, and otherwise 8 from Monday to Friday and 0 on Saturday and Sunday; with do_not_amend=True no amendments apply and with only_custom_amendments=True only the custom ones do.", "quantifier": "for every sub-range of the supported range and custom amendments", "why_tests_cant": "all days of the range, all sub-ranges", "anchors": ["timeboard/calendars/calendarbase.py:CalendarBase.__new__", "timeboard/calendars/US.py:Weekly8x5", "timeboard/calendars/UK.py:Weekly8x5", "timeboard/calendars/RU.py:Weekly8x5"]}
{"id": "C54", "title": "Custom amendments override the holidays", "statement": "custom_amendments given to a preconfigured calendar override the built-in amendments of the same day, whatever the other options.", "quantifier": "for every custom amendments dictionary and options", "why_tests_cant": "combination of key types (strings and timestamps) for all days", "anchors": ["timeboard/calendars/US.py:Weekly8x5.amendments", "timeboard/calendars/UK.py:Weekly8x5.amendments", "timeboard/calendars/RU.py:Weekly8x5.amendments"]}
{"id": "C55", "title": "The status of a day does not depend on the chosen sub-range of a calendar", "statement": "Narrowing a preconfigured calendar by custom_start / custom_end does not change the label of the days which remain.", "quantifier": "for every calendar, pair of sub-ranges and common day", "why_tests_cant": "all sub-ranges", "anchors": ["timeboard/calendars/US.py:fed_holidays", "timeboard/calendars/UK.py:bank_holidays", "timeboard/calendars/RU.py:holidays"]}
{"id": "C56", "title": "One-off US holidays are on the days of the years they are tied to", "statement": "The additional Christmas day granted for 2014 is 26 December 2014, off duty exactly if 2014 is in the calendar range; it does not affect other years.", "quantifier": "for every start_year and end_year", "why_tests_cant": "the tests do not look at the year concerned", "anchors": ["timeboard/calendars/US.py:fed_holidays"]}
{"id": "C57", "title": "Easter-related holidays fall on their weekdays", "statement": "from_easter(year, shifts) yields easter + shift days; the western and the orthodox Easter dates are Sundays, so UK Good Friday is a Friday and Easter Monday is a Monday, every year.", "quantifier": "for every year (Gregorian rule)", "why_tests_cant": "all years", "anchors": ["timeboard/calendars/calendarbase.py:from_easter", "timeboard/when.py:from_easter", "timeboard/calendars/UK.py:bank_holidays"]}
{"id": "C58", "title": "Void interval behaves as an empty interval", "statement": "On a void interval (result of overlap) count, total_duration, worktime, count_periods, what_portion_of are all zero, iteration is empty, nth/first/last raise OutOfBoundsError, and further overlaps stay void.", "quantifier": "for every pair of non-overlapping intervals and parameters", "why_tests_cant": "unbounded", "anchors": ["timeboard/interval.py:_VoidInterval"]}
{"id": "C59", "title": "Interval constructor accepts exactly ordered positions on the timeline", "statement": "Interval(tb, (i, j)) succeeds iff 0 <= i <= j < N with length j-i+1; raises OutOfBoundsError if a bound is off the timeline and VoidIntervalError if i > j on the timeline.", "quantifier": "for every timeboard and integers i, j", "why_tests_cant": "all integers", "anchors": ["timeboard/interval.py:_BaseInterval.__init__"]}
{"id": "C60", "title": "Duty parameter 'same', 'alt', 'any' of rolling", "statement": "rollforward/rollback with duty='same' treads on workshifts with the duty of ws itself, 'alt' on those with the opposite duty, 'any' on all; with 'same' and 'any' zero steps return ws itself; any other value raises ValueError.", "quantifier": "for every workshift, schedule and duty value", "why_tests_cant": "unbounded", "anchors": ["timeboard/workshift.py:Workshift._get_duty_index"]}
{"id": "C61", "title": "OutOfBoundsError is always raised for an interval extending beyond the timeline", "statement": "As the notes to get_interval say: when an interval created from two points in time (given in order) or by length would extend beyond the timeline, OutOfBoundsError is always raised.", "quantifier": "all timeboards, all pairs of points a <= b not both on the timeboard, all points on it with a length which does not fit", "why_tests_cant": "The set of timeboards and of points is unbounded; tests probe a handful of points and pin whichever exception class happens to be raised.", "anchors": ["timeboard/timeboard.py:Timeboard.get_interval", "timeboard/exceptions.py:PartialOutOfBoundsError"]}
{"id": "C62", "title": "Marks related to Easter", "statement": "With each='A', when.from_easter puts for each year one mark at the start of the base unit which contains the day of Easter plus the offset given by shift or keyword arguments, if this point is within the year, and none otherwise; when no offset is given the mark is the day of Easter itself. shift is another way to give days and takes precedence over days.", "quantifier": "for every range of years (western: any; orthodox: 1583-4099), every shift or offset", "why_tests_cant": "Tests check a few years; the rule is about every year and every offset, including those which lead out of the year.", "anchors": ["timeboard/when.py:from_easter"]}
{"id": "C63", "title": "Days off of the American calendar", "statement": "In the American Weekly8x5 calendar a day of the chosen range is off (label 0) exactly if it is Saturday or Sunday, a federal holiday on a fixed date or on the n-th weekday of a month of one of the years of the range (without those not to be observed), a one-off day, or, with long_weekends, the weekday nearest to a holiday on the weekend; all other days have the label 8.", "quantifier": "for every sub-range, list of holidays not to observe, long_weekends and day", "why_tests_cant": "tests check a few dates of a few years", "anchors": ["timeboard/calendars/US.py:fed_holidays", "timeboard/calendars/US.py:Weekly8x5", "timeboard/calendars/calendarbase.py:extend_weekends", "timeboard/calendars/calendarbase.py:nth_weekday_of_month"]}
{"id": "C64", "title": "Days off of the British calendar", "statement": "In the British Weekly8x5 calendar a day is off (label 0) exactly if it is Saturday or Sunday, a bank holiday of the country on a fixed date, on the first or last Monday of a month (with the move of the spring bank holiday in 2002 and 2012) or tied to Easter, a royal event, or, with long_weekends, the substitute day of a holiday on the weekend, that is the next weekday which is neither a holiday nor the substitute of another one; all other days have the label 8.", "quantifier": "for every country, sub-range, list of holidays not to observe, long_weekends and day", "why_tests_cant": "tests check a few dates of a few years", "anchors": ["timeboard/calendars/UK.py:bank_holidays", "timeboard/calendars/UK.py:Weekly8x5", "timeboard/calendars/calendarbase.py:extend_weekends", "timeboard/calendars/calendarbase.py:from_easter"]}
{"id": "C65", "title": "Labels of the Russian calendar", "statement": "In the Russian Weekly8x5 calendar the label of a day is 0 on the fixed holidays of each year (31 December included unless work_on_dec31); otherwise 0 if the decree for the year made it a day off, 7 (8 without short_eves) if it was shortened, 8 if it was made a working day; otherwise 8 from Monday to Friday and 0 at the weekend. In each of the years 2005-2021 the number of days with a positive label and the sum of the labels are the official norms of working days and hours.", "quantifier": "for every sub-range, work_on_dec31, short_eves and day", "why_tests_cant": "tests check single dates", "anchors": ["timeboard/calendars/RU.py:holidays", "timeboard/calendars/RU.py:changes", "timeboard/calendars/RU.py:Weekly8x5"]}
{"id": "C66", "title": "Iterating over an interval", "statement": "A for loop over an interval visits every workshift of the interval once, in ascending order, whatever was done with the interval object before; loops over the same interval can be nested and are independent of each other.", "quantifier": "for every reachable timeboard, interval, state of the interval object and loop body", "why_tests_cant": "the state left by earlier iterators and nesting depth are unbounded", "anchors": ["timeboard/interval.py:Interval.__iter__", "timeboard/interval.py:Interval.__next__", "timeboard/interval.py:Interval.workshifts"]}
{"id": "C67", "title": "Columns of the data frame", "statement": "The data frame of a range of workshifts has one row per workshift in ascending order; the columns 'ws_ref', 'start', 'duration', 'end' and 'label' hold the attributes of the workshift, and for each schedule of the timeboard there is a column under its name telling whether the workshift is on duty under this schedule; there are no other columns.", "quantifier": "for every reachable timeboard (any number and any names of schedules) and every range", "why_tests_cant": "tests use the names of a few schedules", "anchors": ["timeboard/core.py:_Timeline.get_ws_start_time", "timeboard/timeboard.py:Timeboard.to_dataframe", "timeboard/interval.py:Interval.to_dataframe"]}
{"id": "C68", "title": "Additivity of interval calculations", "statement": "If an interval is cut in two, the lengths, the workshift counts, the total durations, the worktimes and the portions of any third interval of both parts add up to those of the whole, for each duty and schedule.", "quantifier": "for every reachable timeboard, interval, cut, duty and schedule", "why_tests_cant": "a law over all triples of intervals", "anchors": ["timeboard/interval.py:Interval.count", "timeboard/interval.py:Interval.total_duration", "timeboard/interval.py:Interval.worktime", "timeboard/interval.py:Interval.what_portion_of"]}
{"id": "C69", "title": "Counting within an interval agrees with rolling", "statement": "nth(n, duty) of an interval returns a workshift exactly when first.rollforward(n, duty) from its first workshift returns one not after the end of the interval, and then both are the same; likewise nth(-1-n, duty) and last.rollback(n, duty).", "quantifier": "for every reachable timeboard, interval, duty, schedule and n", "why_tests_cant": "two independent implementations have to agree on all inputs", "anchors": ["timeboard/interval.py:Interval.nth", "timeboard/workshift.py:Workshift.rollforward", "timeboard/workshift.py:Workshift.rollback"]}
{"id": "C70", "title": "Schedules act only through their decisions", "statement": "Two schedules which decide alike on all labels of a timeboard give the same results in every calculation; two schedules which decide oppositely give the same results after exchanging 'on' and 'off'. Names of schedules and labels not occurring on the timeboard are of no consequence.", "quantifier": "for every timeboard, pair of schedules, interval, workshift, duty and n", "why_tests_cant": "universal over selectors (functions)", "anchors": ["timeboard/core.py:_Schedule", "timeboard/workshift.py:Workshift", "timeboard/interval.py:Interval"]}
{"id": "C71", "title": "Periods partition the timeboard", "statement": "When the calendar is cut into consecutive periods of any frequency, every workshift belongs to the interval get_interval(period) of exactly one period, earlier periods have earlier workshifts, and for every period without an interval VoidIntervalError or OutOfBoundsError is raised.", "quantifier": "for every reachable timeboard, frequency, multiplier and phase", "why_tests_cant": "all periods of an unbounded calendar are considered together", "anchors": ["timeboard/timeboard.py:Timeboard.get_interval", "timeboard/timeboard.py:Timeboard._get_interval_locs_by_period", "timeboard/core.py:_Timeline.get_ws_position"]}
{"id": "C72", "title": "Interval between two points in time", "statement": "The interval between two points in time of the timeboard consists of exactly those workshifts which have a point in common with the span between them; it starts at or before the first and ends at or after the second.", "quantifier": "for every reachable timeboard and pair of points", "why_tests_cant": "all pairs of points", "anchors": ["timeboard/timeboard.py:Timeboard.get_interval", "timeboard/interval.py:Interval.start_time", "timeboard/interval.py:Interval.end_time"]}
{"id": "C73", "title": "A timeboard is the beginning of a longer one", "statement": "If a timeboard with a later end (and otherwise the same arguments) can be built, then so can the timeboard with the earlier end, and its workshifts are the first workshifts of the longer one: same starts and, except possibly for the last workshift, same ends, durations, reference times and labels, with amendments taken into account. The last workshift can only be shorter, and its label differs only if an amendment falls into the part cut off.", "quantifier": "for all layouts of any nesting (patterns, labels, RememberingPatterns in any state) over calendar markers of any multiplier, markers with 'at' (any multiplier) whose points are made for each period on its own and explicit marks; all ends, amendments and reference settings", "why_tests_cant": "universal over recursive layouts and over pairs of timeboards", "anchors": ["timeboard/core.py:_Timeline.__organize", "timeboard/core.py:_Frame.partition_with_marker", "timeboard/core.py:_Frame.partition_at_marks", "timeboard/timeboard.py:Timeboard.__init__"]}
{"id": "C74", "title": "A pattern is anchored at the marks of its marker", "statement": "With Organizer(marker=Marker(each, at=[...], how=...), structure=[pattern]) the label of a base unit is the element of the pattern whose number is the count of base units since the latest mark, even if this mark is before the start of the timeboard; hence labels do not depend on where the timeboard starts or ends. If there is no mark in the period of the marker one period before the start, or later up to the start, OutOfBoundsError is raised.", "quantifier": "for every regular marker (offsets, n-th weekdays, Easter, user-defined), non-empty pattern, start, end and point in time", "why_tests_cant": "universal over start and end of the timeboard", "anchors": ["timeboard/core.py:_Frame.partition_with_marker", "timeboard/core.py:_Timeline.__apply_pattern", "timeboard/core.py:_skiperator"]}
{"id": "C75", "title": "Workshifts start exactly at the marks of a marker", "statement": "With Organizer(marker=Marker(each, at=[...], how=...), structure=[label, ...]) every workshift except the first of the timeboard starts at a mark, every mark within the timeboard starts a workshift, and the workshifts take the labels in turns. The marks are: for nth_weekday_of_month the requested weekdays of each period, for from_easter_western the days at the given distance from Easter within the year, for from_start_of_each the base units to which the offsets lead within each period. For a multiplied frequency periods are counted from the calendar period which contains the point one multiplied period (of the length it has from 1 July 2016) before the start of the timeboard.", "quantifier": "for every regular marker, labels, start and end; marks over all periods of the calendar", "why_tests_cant": "all periods of an unbounded calendar, all bounds of the timeboard", "anchors": ["timeboard/core.py:_Frame.partition_with_marker", "timeboard/when.py:nth_weekday_of_month", "timeboard/when.py:from_easter", "timeboard/when.py:from_start_of_each"]}
{"id": "C76", "title": "A timeboard is refused only for a documented reason", "statement": "Constructing a timeboard fails only if: the layout is neither an iterable nor an Organizer (TypeError); worktime_source is not 'duration' or 'labels' (ValueError); the base unit of the end precedes the base unit of the start (VoidIntervalError); some marker in the layout has a period not acceptable for the base unit (UnacceptablePeriodError); a `how` function of a marker in the layout raises; a pattern is the first element of an Organizer whose marker has `at`, and that Organizer is applied to base units with no mark at or before the start of the first of them (OutOfBoundsError); two amendments refer to the same workshift (KeyError). In particular a layout of patterns, labels and calendar markers with acceptable periods always gives a timeboard when start <= end.", "quantifier": "for all arguments and layouts of any nesting, RememberingPatterns in any state", "why_tests_cant": "a statement that no other failure exists over all recursive layouts", "anchors": ["timeboard/timeboard.py:Timeboard.__init__", "timeboard/core.py:_Timeline.__init__", "timeboard/core.py:_Frame.partition_with_marker", "timeboard/core.py:_Timeline.amend"]}
{"id": "C77", "title": "Lookups raise only documented exceptions", "statement": "get_workshift raises OutOfBoundsError exactly for points in time outside the timeboard and nothing else. get_interval raises ValueError exactly for an unacceptable `closed`, else TypeError exactly for a meaningless combination of arguments, else at most OutOfBoundsError, PartialOutOfBoundsError or VoidIntervalError.", "quantifier": "for every reachable timeboard and every combination of reference, length, period, clip_period, closed and schedule", "why_tests_cant": "a statement that no other exception exists", "anchors": ["timeboard/timeboard.py:Timeboard.get_workshift", "timeboard/timeboard.py:Timeboard.get_interval", "timeboard/timeboard.py:Timeboard._locate"]}
{"id": "C78", "title": "The calendar template applies bounds and amendments as documented", "statement": "A calendar class built on CalendarBase raises OutOfBoundsError exactly when a given custom_start or custom_end lies outside the calendar's own start and end. Otherwise the timeboard spans the custom bounds (the calendar's own where not given) and differs from the one with the plain layout exactly by labels: none with do_not_amend; the custom amendments with only_custom_amendments; else the result of the class's `amendments` called with the effective bounds. CalendarBase itself gives days labelled 1 except for the custom amendments. RU, UK and US calendars are instances of this template.", "quantifier": "for every parameters and amendments of the subclass, all custom bounds, flags and custom amendments", "why_tests_cant": "quantifies over all subclasses of the template; tests use a few fixed calls", "anchors": ["timeboard/calendars/calendarbase.py:CalendarBase.__new__", "timeboard/calendars/calendarbase.py:CalendarBase._get_bounds", "timeboard/calendars/calendarbase.py:CalendarBase._check_time", "timeboard/calendars/calendarbase.py:CalendarBase.amendments"]}
{"id": "C79", "title": "skip_left and skip_right tell how much of the first and the last period falls outside the span", "statement": "When a span is partitioned with a calendar marker, skip_left of the first sub-span is the number of base units between the start of the calendar period and the start of the span, skip_right of the last sub-span is the number of base units between the end of the span and the end of the calendar period, all others are zero. With a marker with `at` the same holds for the latest mark at or before the start of the span and the earliest mark after its end; the number is -1 exactly if there is no such mark in the periods which are looked at. The periods which are looked at extend from one or two periods before the span to one or two periods after it, except for years ending from February to June.", "quantifier": "for every frame, span, marker frequency (multiplied ones too, without `at`) and every set of marks made period by period", "why_tests_cant": "tests check a few months and weeks; boundary errors by one unit show only at particular alignments", "anchors": ["timeboard/core.py:_Frame.partition_with_marker", "timeboard/core.py:_Span"]}
{"id": "C80", "title": "Work time follows the number of workshifts, 8 hours a day in the ready-made calendars", "statement": "If every workshift of an interval which has the duty counts for at least p and at most q, then Interval.worktime is between p and q times Interval.count for the same duty and schedule. In the US and UK calendars with built-in amendments, and in the RU calendar with short_eves=False, the work time of an interval under the calendar's own schedule is 8 hours for each workshift on duty; with short_eves=True it is between 7 and 8 hours for each. With any options and any custom amendments, time off duty counts for nothing and the work time of all workshifts equals the work time on duty.", "quantifier": "for every interval of every timeboard, both worktime sources; for every calendar option, custom range and (last claim) custom amendments", "why_tests_cant": "tests compare a few intervals with hand-computed hours; a wrong label in a table or a wrong slice shows only in particular intervals", "anchors": ["timeboard/interval.py:Interval.worktime", "timeboard/interval.py:Interval.count", "timeboard/calendars/US.py:Weekly8x5", "timeboard/calendars/UK.py:Weekly8x5", "timeboard/calendars/RU.py:Weekly8x5"]}
{"id": "C81", "title": "Order and repetition in the notation of a layout make no difference", "statement": "Two timeboards whose arguments differ only in the layout are the same (and leave RememberingPatterns in the same states) if the layouts differ only by: the order or repetition of marks of an Organizer, the order or repetition of `at` specifications of a Marker, a structure or a pattern written out several times in a row, at any depth of nested organizers. If one of them cannot be built then neither can the other. A pattern given as layout is the same as an Organizer without marks over the pattern.", "quantifier": "for every layout of any nesting, every base unit, range, amendments, `how` function and state of RememberingPatterns", "why_tests_cant": "infinitely many notations and nestings; sortedness and duplicate handling of cut points only shows up for particular positions relative to the span", "anchors": ["timeboard/core.py:_Frame.partition_with_marker", "timeboard/core.py:_Frame.partition_at_marks", "timeboard/core.py:_Frame._locate_subspans", "timeboard/core.py:Organizer", "timeboard/core.py:_skiperator"]}
{"id": "C82", "title": "Results depend on the times and labels of workshifts, not on the base unit", "statement": "If the workshifts of two timeboards have the same start, end and reference times and the same labels, number by number, and their default schedules have the same name and selector, then both timeboards give the same result (or the same error) for every query: get_workshift, get_interval and calls with any arguments, rolling and arithmetic of workshifts, duty of workshifts, members, counts, overlap, what_portion_of, label sums and count_periods of intervals, and worktime taken from labels. In particular a timeboard whose base units of a frequency take labels from a pattern in turns, and a timeboard of smaller base units organized by a Marker of that frequency over the same labels, with the same first and last moment and the same amendments, are both built or both fail with the same error, and if built are interchangeable in this sense.", "quantifier": "for all reachable timeboards with the same workshifts, all schedules and arguments; for every pair of frequencies the Marker accepts (multiplied ones included), every non-empty pattern, amendments, workshift_ref and worktime source", "why_tests_cant": "relates two different timeboards over all queries; tests fix one timeboard with one base unit at a time", "anchors": ["timeboard/timeboard.py:Timeboard.get_interval", "timeboard/timeboard.py:Timeboard.get_workshift", "timeboard/workshift.py:Workshift.rollforward", "timeboard/interval.py:Interval.count_periods", "timeboard/core.py:_Frame.partition_with_marker", "timeboard/core.py:_Timeline.amend"]}
{"id": "C83", "title": "Parameters of a timeboard affect only what they are documented to affect", "statement": "Changing `workshift_ref` of a timeboard changes neither whether it can be built, nor its workshifts, schedules, lookups by point or length, rolling, counts, overlaps, portions, durations and work time: only the questions about calendar periods may be answered differently, and these are answered alike too when no workshift extends over the beginning of a period. Changing `worktime_source` (between the permitted values) affects only work time. Changing `default_selector` or `default_name` affects no question for which a schedule is given.", "quantifier": "for all constructor arguments (layouts, amendments, frequencies), all states of remembering patterns, all other values of the parameter, all points in time, workshifts, intervals, duties, schedules and frequencies of periods", "why_tests_cant": "Tests build timeboards with a handful of parameter values and call a few methods; the claim is the absence of any influence, over every pair of timeboards and every method.", "anchors": ["timeboard/timeboard.py:Timeboard", "timeboard/timeboard.py:get_interval", "timeboard/core.py:get_ws_ref_time", "timeboard/core.py:get_ws_pos_by_ref_after", "timeboard/core.py:get_ws_pos_by_ref_before", "timeboard/interval.py:count_periods", "timeboard/interval.py:worktime"]}
{"id": "C84", "title": "The printed form of an organizer or a timeboard is code which recreates it", "statement": "`repr(organizer)` is a sequence of assignments and a final expression. For every organizer whose markers use built-in rules, executing this code succeeds in any state of the interpreter (no name is used before it is assigned) and its value is a copy of the organizer: the same markers, marks and structures on all levels, with new RememberingPatterns which are shared between the elements in the same way as the original ones and start from the beginning. Every object is created exactly once. Executing the code printed for a timeboard which was made without optional parameters makes a timeboard with the same workshifts and labels, or raises the same exception.", "quantifier": "for all trees of organizers of any depth with arbitrary sharing of markers, organizers and remembering patterns, all labels, all states of the interpreter in which the code is executed, all frequencies and bounds of a timeboard", "why_tests_cant": "There is no test of repr at all; the claim is about nested structures with arbitrary sharing, where the order of lines and the single creation of shared objects matter.", "anchors": ["timeboard/core.py:Organizer._repr_builder", "timeboard/core.py:Organizer.__repr__", "timeboard/core.py:Marker.__repr__", "timeboard/core.py:RememberingPattern.__repr__", "timeboard/timeboard.py:Timeboard.__init__"]}
{"id": "C85", "title": "The printed form of a workshift, interval or timeboard tells what it is", "statement": "repr(workshift) tells, to a reader who knows the ISO notation of dates and that fiscal years are labelled by the year in which they end, the position of the workshift, the name of its schedule unless this is the name of the default schedule, its duration, the frequency of the timeboard and its start time. repr(interval) tells the positions, the schedule in the same way, the length and the same facts about the first and the last workshift; for a void interval only positions and schedule, and that it is void. Timeboard.compact_str tells the frequency, the start time and the last base unit. Hence intervals of one timeboard printed alike have the same positions, length and name of schedule.", "quantifier": "for all timeboards with any base unit frequency, all workshifts and intervals, void or not, all schedules with arbitrary names (also with commas and parentheses)", "why_tests_cant": "There is no test of these texts; the claim is about all frequencies, fiscal year ends, dates and arbitrary names of schedules.", "anchors": ["timeboard/workshift.py:Workshift.__repr__", "timeboard/workshift.py:Workshift.compact_str", "timeboard/interval.py:Interval.compact_str", "timeboard/interval.py:_VoidInterval", "timeboard/timeboard.py:Timeboard.compact_str"]}
{"id": "C86", "title": "Arguments which are not given", "statement": "Methods of an interval called without a duty deal with its workshifts on duty; called without a schedule, methods of intervals and workshifts use the schedule the object was made with, and objects made without a schedule use the default schedule of the timeboard. rollforward() and rollback() without steps find the nearest workshift on duty at or after (at or before) this one. get_interval includes both ends and clips periods. A timeboard built without optional parameters has a single schedule 'on_duty', reference times of its workshifts are their start times and its worktime is duration. US(), UK() and RU() cover all years of the calendar with holidays observed, long weekends (UK: England; RU: 31 December works, short eves) and no custom amendments.", "quantifier": "for all reachable timeboards, workshifts and intervals (void ones included), schedules and remaining arguments", "why_tests_cant": "Tests call methods with defaults on a few intervals where another default would often give the same answer.", "anchors": ["timeboard/interval.py:Interval.count", "timeboard/interval.py:Interval.workshifts", "timeboard/workshift.py:Workshift.rollforward", "timeboard/timeboard.py:Timeboard.get_interval", "timeboard/timeboard.py:Timeboard.__init__", "timeboard/calendars/calendarbase.py:CalendarBase.__new__"]}
{"id": "C87", "title": "Working days and hours between two dates", "statement": "In a ready-made calendar, get_interval((a, b)) for two dates of the calendar is the days from a to b, both included, whatever the times of day: it starts with the midnight at the beginning of the first day, ends with the last moment of the last one, has as many workshifts as there are days, count() (and total_duration()) is the number of the days whose label is not zero, count('off') is the number of the days with label zero, and worktime() is the sum of the labels. If b is on an earlier day than a, it raises VoidIntervalError. The interval of a calendar period of whole days lying within the calendar is the days of the period. In the default Russian calendar the interval of each year 2005-2021 has the officially published numbers of working days and working hours.", "quantifier": "for all US, UK and RU calendars with any options, custom range and custom amendments; all pairs of points in time in it; all periods of days, weeks, months, quarters and years, plain or multiplied; all 17 years of the Russian calendar", "why_tests_cant": "Tests count working days of a few months and years; here the count and the hours are tied to the labels of the days for every pair of dates, and the yearly totals follow for the calendar as a whole.", "anchors": ["timeboard/timeboard.py:Timeboard.get_interval", "timeboard/interval.py:Interval.count", "timeboard/interval.py:Interval.worktime", "timeboard/interval.py:Interval.total_duration", "timeboard/calendars/calendarbase.py:CalendarBase.__new__", "timeboard/calendars/RU.py:Weekly8x5"]}
{"id": "C88", "title": "What a failed construction leaves behind", "statement": "A program may attempt to construct any number of timeboards sharing RememberingPatterns, and some constructions may fail midway, after labels have been drawn. However the attempts end, each RememberingPattern hands out its labels in turn without losing its place: after them it continues with the label following the last one drawn, and a later timeboard built on it carries these labels in order. A failed construction draws from a RememberingPattern no more labels than the completed one would, leaves alone the RememberingPatterns which are not in its layout, and draws nothing at all when the layout is not a layout, worktime_source is wrong or the time range is void. Whether a construction succeeds, the exception it fails with and the times of all workshifts do not depend on what has been drawn before: a failed construction fails again in the same way, and a successful one succeeds again.", "quantifier": "for all sequences of construction attempts with arbitrary layouts (nested organizers, custom `how` functions), all states of the RememberingPatterns", "why_tests_cant": "No test constructs a timeboard after a failed construction with a shared RememberingPattern; the point of failure may be anywhere in a nested layout and the effect shows only in objects built later.", "anchors": ["timeboard/core.py:_Timeline", "timeboard/core.py:RememberingPattern", "timeboard/core.py:_skiperator", "timeboard/timeboard.py:Timeboard.__init__"]}
{"id": "C89", "title": "The same timeboard some time later", "statement": "Move all points in time given to a timeboard (start, end, explicit marks, amendments) by a period of time after which the base unit and the marks of the markers recur: any number of weeks if base units and markers are not longer than a week and points within them are at an offset without years and months; 400 years (146097 days) for all calendar frequencies with points at any offset or on the n-th weekday of a month; in general any time after which they recur, also for custom `how` functions. Then the construction fails with the same error or gives the same workshifts moved by this time: with the same numbers, labels and durations, each start, end and reference time exactly that much later, and RememberingPatterns left in the same state. Everything asked with moved points in time is answered alike: get_workshift, get_interval and calls of the timeboard give the same workshift or interval or the same error; duty, rolling, counts, overlaps, portions, total duration, work time and count_periods (with a frequency which recurs) are the same; added schedules too.", "quantifier": "for all constructor arguments (nested organizers, marks, amendments, custom `how` functions), all times after which the frequencies involved recur, all query arguments", "why_tests_cant": "Tests use a handful of dates around 2017; that nothing depends on the absolute position in time (week and month boundaries, skip counts of dangling spans, margins looked at by markers) needs all layouts and all displacements.", "anchors": ["timeboard/timeboard.py:Timeboard", "timeboard/core.py:_Frame", "timeboard/core.py:_Timeline", "timeboard/when.py:from_start_of_each", "timeboard/when.py:nth_weekday_of_month"]}
{"id": "C90", "title": "Labels come from the layout and the amendments, and mean nothing but what selectors make of them", "statement": "The label of each workshift is one of the labels given in the layout (a single label, a label of a pattern or of a RememberingPattern, at any depth), or the value of an amendment; the default label is seen only if some structure, pattern or RememberingPattern of the layout is empty. Labels are opaque: if every label in the layout, RememberingPatterns and amendments is replaced by another one (of any other type) and the selector decides about the new labels as it did about the old ones, then the construction fails with the same error or gives the same workshifts with the labels replaced and the RememberingPatterns in the corresponding states; lookups, calls, intervals, data frames, added and dropped schedules, duty, rolling, members, counts, overlaps, portions, durations and count_periods of the two timeboards correspond, with the same errors; and so does work time, if the numbers behind the labels are the same.", "quantifier": "for all constructor arguments (nested organizers, RememberingPatterns in any state, amendments), all types of labels and all replacements of labels (also giving one label for several), all queries", "why_tests_cant": "Tests use a few labels (numbers, letters); that no code path compares, orders or converts labels, and that no label appears out of nowhere, is a statement about all labels and all layouts.", "anchors": ["timeboard/core.py:_Timeline", "timeboard/core.py:_skiperator", "timeboard/core.py:RememberingPattern", "timeboard/core.py:_Schedule", "timeboard/timeboard.py:Timeboard", "timeboard/interval.py:Interval"]}
{"id": "C91", "title": "Arguments of a wrong kind are rejected, arguments of any accepted kind mean the same", "statement": "get_workshift(x, schedule) succeeds exactly when x stands for a point in time on the timeboard (a Timestamp-like, a readable string, a number of nanoseconds, a Period - its start, a Workshift - its reference time; None or NaT stands for the end of the timeboard) and schedule is None or a schedule; the result depends only on that point and schedule. An unreadable string is ValueError, another value is TypeError, a point outside is OutOfBoundsError whatever the schedule, a wrong kind of schedule is TypeError. get_interval succeeds exactly when `closed` is one of its four strings, the reference, length and period can be read in one of the documented combinations (a tuple of two points or nulls; null; a Period; a point with an integer length; a point with a frequency; a Period with any frequency, which is ignored), the schedule is None or a schedule, and the call with what they mean succeeds; length together with period is TypeError; everything unreadable is an error. Calling a timeboard with one argument gives the workshift if it is a point in time or null and otherwise what get_interval gives. Workshift() takes integers only, Interval() a sequence whose first two items are integers, booleans or workshifts; ws + x and ws - x take whole numbers only. Amendments need a dictionary whose keys are points in time (null is the end); then they act like the points they denote. Organizer takes exactly one of marker and marks (ValueError otherwise) and an iterable structure which is not a string (TypeError otherwise); a frequency in place of a marker is Marker(each=frequency), a single mark is a list of one.", "quantifier": "for every timeboard and every combination of values of any kind (None, NaT, booleans, integers, floats, strings, points in time, periods, workshifts, schedules, tuples and lists of such values of any length and depth, other objects) as arguments", "why_tests_cant": "Tests try a handful of wrong values for single arguments; the claim is about all combinations of kinds of values, including which of several errors wins and that no unreadable combination slips through the chain of try/except blocks.", "anchors": ["timeboard/core.py:get_timestamp", "timeboard/core.py:get_period", "timeboard/utils.py:is_null", "timeboard/utils.py:is_iterable", "timeboard/utils.py:to_iterable", "timeboard/timeboard.py:__call__", "timeboard/timeboard.py:get_workshift", "timeboard/timeboard.py:get_interval", "timeboard/timeboard.py:_get_interval_locs_from_reference", "timeboard/timeboard.py:_get_interval_locs_by_length", "timeboard/timeboard.py:_get_interval_locs_by_period", "timeboard/interval.py:_BaseInterval", "timeboard/workshift.py:Workshift", "timeboard/core.py:Organizer"]}
{"id": "C92", "title": "What is measured on a part never exceeds what is measured on the whole", "statement": "Let every workshift of interval u also be in interval v, and let every workshift which has the requested duty under the schedule used for u have it under the schedule used for v. Then len(u) <= len(v), u.count() <= v.count(), u.total_duration() <= v.total_duration(), and if v.worktime() is defined then u.worktime() is defined and not greater (provided no label of v counts as negative when worktime is taken from labels). Under one and the same schedule also u.what_portion_of(o) <= v.what_portion_of(o) for every interval o, and if v.count_periods(freq) is defined then u.count_periods(freq) is defined and not greater.", "quantifier": "for all timeboards, pairs of nested intervals, pairs of schedules one of which is richer than the other, duties on/off/any, frequencies, third intervals and functions turning labels into numbers", "why_tests_cant": "Tests compute these quantities for single intervals; monotonicity is a relation between the results for any two nested intervals and any two comparable schedules, and it says in particular that no sub-interval can fail where the whole interval succeeds.", "anchors": ["timeboard/interval.py:count", "timeboard/interval.py:total_duration", "timeboard/interval.py:worktime", "timeboard/interval.py:what_portion_of", "timeboard/interval.py:count_periods", "timeboard/interval.py:Interval"]}
{"id": "C93", "title": "Rolling keeps the order: later starts and more steps lead farther, richer schedules lead nearer", "statement": "Under one schedule and duty, rolling forward from a later (or the same) workshift by at least as many steps never lands earlier, and by strictly more steps lands strictly later; mirrored for rollback. If the later or longer of two such forward rolls with n >= 0 succeeds then so does the other. If every workshift which has the duty under schedule s has it under s', then n >= 0 steps under s' succeed whenever they do under s and land between the start and where s leads. n >= 0 steps lead at least n workshifts away from the start.", "quantifier": "for all timeboards, pairs of workshifts, numbers of steps (including negative ones in the first claim), duties on/off/any, schedules and pairs of comparable schedules", "why_tests_cant": "Tests check single rolls against hand-counted calendars; the claims relate the outcomes of two different rolls, for any two starts, step counts and schedules, including which of the two can fail.", "anchors": ["timeboard/workshift.py:rollforward", "timeboard/workshift.py:rollback", "timeboard/workshift.py:Workshift"]}
{"id": "C94", "title": "A selector may be any function", "statement": "A schedule is made exactly when its selector returns, for every label on the timeline, a value with a truth value; otherwise the exception is the one of the first workshift whose label makes the selector raise or, if it never raises, that of the first answer without a truth value. When constructing a timeboard all exceptions of the library precede those of the selector and do not depend on it. add_schedule with a name already taken raises KeyError without calling the selector; an add_schedule which raises leaves the timeboard as it was. Once the schedule has been made, the timeboard behaves as one with a boolean selector with the same decisions: creation of workshifts, is_on_duty (which returns the selector's answer itself, whose truth value is the decision), is_off_duty, rollforward, rollback, worktime give the same results or the same exceptions of the library, no exception comes from the selector, and the columns of the data frame show the selector's answers.", "quantifier": "for all timelines, timeboards, types of labels, of answers and of exceptions, notions of truth, selectors (total or not), numbers of steps and duties", "why_tests_cant": "The tests use selectors which return booleans or numbers and never fail; the claim is about every partial function and every order of labels, and about the state left behind when a selector raises.", "anchors": ["timeboard/core.py:_Schedule", "timeboard/core.py:is_on_duty", "timeboard/core.py:is_off_duty", "timeboard/timeboard.py:add_schedule", "timeboard/timeboard.py:to_dataframe", "timeboard/timeboard.py:default_selector", "timeboard/workshift.py:_get_duty_index", "timeboard/workshift.py:worktime"]}
{"id": "C95", "title": "Floating point results are accurate", "statement": "count_periods, what_portion_of and the sum of labels in worktime are computed with floats. what_portion_of gives the exact ratio rounded once: a number from 0 to 1, 0 only if no workshift is shared, 1 only if all are (up to 2**53 workshifts); comparing two portions gives never the reverse of the true order, and different portions of up to 67 million workshifts remain different. count_periods fails exactly when and how exact arithmetic would, is off by the relative error of at most three roundings, is the exact value rounded once and at most 1 within a single calendar period, and is exact when the interval has all or none of the workshifts with the duty of every calendar period. worktime from labels, in whichever order they are added, is off by the relative error of n-1 roundings for n labels which are not negative, and exact for integer labels within 2**53 in total. Sums of results are not always exact: 0.2 + 0.4 of a working week is not equal to 0.6.", "quantifier": "for all reachable timeboards, intervals, schedules, duties, periods and labels, all orders of addition, and every rounding which is monotone and accurate to p digits; binary64 with ties to even is proved to be one with p = 53", "why_tests_cant": "Tests compare a few results with literals, often through rounding helpers; a bound on the error of every result, and the absence of wrong comparisons, concern all numbers of workshifts.", "anchors": ["timeboard/interval.py:count_periods", "timeboard/interval.py:what_portion_of", "timeboard/interval.py:worktime", "timeboard/interval.py:_sum_labels"]}
{"id": "C96", "title": "The names of rules mean what the documentation of Marker says", "statement": "Marker(each, at, how) with one of the strings 'from_start_of_each' (the default), 'nth_weekday_of_month', 'from_easter_western', 'from_easter_orthodox' makes a rule which places marks as the documentation of Marker describes: at the given offset from the start of each period, on the (shifted) n-th weekday of the given month of each period, at the given distance from Western or Orthodox Easter of each year; a point outside the period in which it was sought is ignored. On a timeboard with the layout Organizer(marker, [labels]) workshifts start exactly at its start and at the marks within it. Any other string raises KeyError, arguments meant for another rule raise TypeError and impossible months, weeks or weekdays AssertionError when the timeboard is made; a function given as `how` places marks at the points it returns.", "quantifier": "for all frequencies, base units, spans of time, lists of arguments and user-defined functions", "why_tests_cant": "The tests try a few markers over a few years; the correspondence holds for every list of arguments, every calendar frequency and every extent of the timeboard, and the border cases (points leaving the period) depend on the calendar.", "anchors": ["timeboard/core.py:Marker", "timeboard/core.py:partition_with_marker", "timeboard/when.py:from_start_of_each", "timeboard/when.py:nth_weekday_of_month", "timeboard/when.py:from_easter"]}
{"id": "C97", "title": "A timeboard is the list read from its layout", "statement": "The workshifts of a timeboard are exactly those obtained by reading the layout from outside to inside as a list: the frame is divided by the outermost marks or marker; the elements of `structure` take turns on the parts; a label makes a part one workshift; a pattern makes every base unit of its part a workshift, labels being handed out in turn (after those skipped because the first period began before the frame); a nested Organizer divides its part again; the labels of a RememberingPattern continue where it was left by whatever used it before, and a RememberingPattern as `structure` gives one label to each part; the lists are put one after the other; then every amendment replaces the label of the workshift it falls on. If reading meets an error (unacceptable marker, marker's rule failing, pattern on a part of unknown phase, two amendments of one workshift, unknown worktime_source, layout which is no layout, bad frame), the constructor raises that error; otherwise it succeeds.", "quantifier": "for all arguments of the constructor: layouts nested to any depth, sharing RememberingPatterns in any state, any marks, markers with any rules, any amendments", "why_tests_cant": "Tests check a handful of layouts of depth at most two. The code writes labels and a mask into arrays in place while iterators advance; that this agrees with plain concatenation of lists for all nestings is an induction over layouts.", "anchors": ["timeboard/core.py:_Timeline", "timeboard/core.py:__organize", "timeboard/core.py:__apply_pattern", "timeboard/core.py:amend", "timeboard/core.py:RememberingPattern", "timeboard/timeboard.py:Timeboard"]}
{"id": "C98", "title": "The library is a program on the list of workshifts", "statement": "Every timeboard has exactly one list of workshifts (start, end, reference time, duration, label of each), which is the list read from its layout (C97), and everything asked of the timeboard is answered from this list alone. get_workshift finds the only element which contains the time. rollforward/rollback pick from the elements with the duty, counted from the first at or after (last at or before) the workshift. get_interval, with any combination of arguments, returns the elements between the places of its bounds, the given number of elements, or the elements with reference times in the period, less the end elements taken away by `closed`, or the error the reference program names. workshifts, count, nth, first, last, total_duration and worktime filter the elements of the interval by duty and count, pick or add up; overlap keeps the elements which are also in the other interval; what_portion_of divides the counts; count_periods adds, over the calendar periods from the start of the interval to its end, the part of the period's elements with the duty which are in the interval, or raises the error for the first unfit period.", "quantifier": "for all timeboards, schedules, times, workshifts, intervals (including those without workshifts), frequencies, values of duty and closed, steps and lengths of either sign", "why_tests_cant": "A comparison with a reference program on samples covers some timeboards and some arguments; equality here is proved for every timeboard and every argument, including which error is raised.", "anchors": ["timeboard/timeboard.py:get_workshift", "timeboard/timeboard.py:get_interval", "timeboard/workshift.py:rollforward", "timeboard/workshift.py:rollback", "timeboard/interval.py:workshifts", "timeboard/interval.py:count", "timeboard/interval.py:nth", "timeboard/interval.py:total_duration", "timeboard/interval.py:worktime", "timeboard/interval.py:overlap", "timeboard/interval.py:what_portion_of", "timeboard/interval.py:count_periods"]}
{"id": "C99", "title": "Labels which are not numbers", "statement": "With worktime_source='labels', the worktime of an interval is the sum of the labels of its workshifts with the duty, where labels None (workshifts nothing has labelled) and NaN count for nothing; it raises TypeError exactly if a label that counts is a string or an object which cannot be added. Interval._sum_labels adds numbers up, puts strings one after the other in the order of time, and raises TypeError on a mixture. The worktime of a workshift is its label when it is a number or NaN, and TypeError otherwise; 0 if the workshift does not have the duty. With worktime_source='duration' labels of any kind are of no consequence.", "quantifier": "for every timeboard, type of labels, interval, workshift, schedule and duty", "why_tests_cant": "tests use a handful of sequences of labels; here every sequence of labels of every kind on every timeboard is covered", "anchors": ["timeboard/interval.py:_sum_labels", "timeboard/interval.py:worktime", "timeboard/workshift.py:worktime"]}
{"id": "C100", "title": "The limits of time", "statement": "Given two pandas timestamps, a frame of base units between them is made exactly if all of every base unit can be expressed by timestamps (21 September 1677 00:12:43 to 11 April 2262 23:47:16); it is then made and searched as if time were unlimited, and otherwise it is refused with an error (ValueError where pandas raises OutOfBoundsDatetime, RuntimeError where the number of nanoseconds wraps around).", "quantifier": "for every frequency and every two timestamps, for both behaviours of pandas", "why_tests_cant": "the tests try one day at each end; here every frequency with any multiplier and every two points in time are covered, including the ends of the last base units", "anchors": ["timeboard/core.py:_Frame", "timeboard/core.py:get_loc"]}
{"id": "C101", "title": "Inclusion and exclusion", "statement": "If an interval v consists of the workshifts which are in u or in t, then v and the overlap u * t have together what u and t have together: the lengths, and for each duty and schedule the counts of workshifts, the total durations, the worktimes and the portions of any other interval add up to the same. The worktimes of all four exist as soon as that of v does; so do the counts of periods, and they add up to the same too.", "quantifier": "for every reachable timeboard, all intervals u, t, v as described, every duty, schedule and reading of labels as numbers", "why_tests_cant": "tests look at single pairs of intervals and do not compare four of them", "anchors": ["timeboard/interval.py:overlap", "timeboard/interval.py:count", "timeboard/interval.py:total_duration", "timeboard/interval.py:worktime", "timeboard/interval.py:what_portion_of", "timeboard/interval.py:count_periods"]}
{"id": "C102", "title": "Working days of a year in the ready-made calendars", "statement": "In UnitedKingdom.Weekly8x5 with the default long_weekends, the interval of a year which lies within the calendar counts as many working days as the year has days from Monday to Friday, less one for each bank holiday observed in the country (8 in England, 9 in Scotland, 10 in Northern Ireland, 12 under any other name, less those of do_not_observe; in 2011 one more for the royal event; in 2002 and 2012, when the spring holiday was moved to June, two for the royal events and none for the spring holiday; no extra ones if 'royal' is not observed), on whatever days of the week the holidays are and whichever of them are observed. In UnitedStates.Weekly8x5 there are 11 less those of do_not_observe, except that New Year's day on a Saturday takes its day from the previous year (if the next year is within the calendar too), and that 2018 has one day added by one_off and one by xmas_additional_day, and another one (which belongs to 2014) if the calendar begins not later than 2014. The work time of the year is eight times that many hours. In Russia.Weekly8x5 the interval of a year counts the official number of working days and has the official number of working hours; with work_on_dec31=False one day and its 7 hours less in the years in which 31 December was a working day, with short_eves=False 8 hours for each working day.", "quantifier": "for every country name, every list of do_not_observe, all options of the Russian calendar, every custom start and end, every timestamp of a year which lies within the calendar", "why_tests_cant": "tests look at the holidays of some years one by one with some options; the number of days off follows only if no two holidays coincide or share a substitute day in any year and with any options", "anchors": ["timeboard/calendars/UK.py:Weekly8x5", "timeboard/calendars/US.py:Weekly8x5", "timeboard/calendars/calendarbase.py:CalendarBase", "timeboard/interval.py:count", "timeboard/interval.py:worktime", "timeboard/calendars/RU.py:changes", "timeboard/calendars/RU.py:holidays"]}
{"id": "C103", "title": "Intervals of different timeboards", "statement": "The overlap of intervals which belong to different timeboards covers exactly the moments which are in both of them. (The code compares the numbers of the workshifts, so this holds only for timeboards on which the workshifts with the same number are at the same times, e.g. for any two of the ready-made calendars which begin with the same day; otherwise intervals without a common moment may overlap and intervals of the same day may not. If the other interval begins beyond the last number, OutOfBoundsError is raised instead of returning a void interval. The portion of an interval of another timeboard is that of the interval of the same timeboard with the same numbers, as far as there are such.)", "quantifier": "for any two reachable timeboards, all intervals of them, every schedule of the first timeboard", "why_tests_cant": "tests create all intervals from one timeboard", "anchors": ["timeboard/interval.py:overlap", "timeboard/interval.py:what_portion_of", "timeboard/calendars/calendarbase.py:CalendarBase"]}
{"id": "C104", "title": "Elements of an organizer see spans as whole timeboards", "statement": "A timeboard whose layout is an organizer consists of the same workshifts (start and end times, durations, labels, in the same order) as the timeboards made one after the other of the spans into which the organizer divides it, each one with the element of the structure whose turn it is for its whole layout; RememberingPatterns have handed out the same labels afterwards; get_workshift at any time finds workshifts with the same start, end, duration and label in the whole timeboard and in that of the span; and if one of the timeboards of the spans cannot be made, the constructor raises the same error for the whole. (Marks inside the elements must be starts of base units, as all those of markers without 'at' and of regular markers are: in the last base unit of a timeboard the code looks only at the first second, so a mark in the middle of the last base unit of a span divides the span within the whole timeboard but not when it is a timeboard of its own. A pattern in the first place of the structure is applied to a first span with a left dangle not from its first label, see C07, so this is excluded.)", "quantifier": "for every frequency, start, end, marker or marks, non-empty structure of elements of any depth and kind, any state of RememberingPatterns, no amendments", "why_tests_cant": "tests compare a few fixed nested layouts with expected lists; the claim relates each of infinitely many layouts to the layouts of its parts", "anchors": ["timeboard/core.py:_Timeline", "timeboard/core.py:Organizer", "timeboard/core.py:_create_subspans", "timeboard/core.py:partition_with_marker", "timeboard/timeboard.py:Timeboard"]}
{"id": "C105", "title": "Seasons follow each other in turn", "statement": "With a layout which is an organizer whose structure is a list of seasons, each of them an organizer with a calendar marker such as 'W' and one pattern, every moment of the timeboard is in a workshift of one base unit, and its label is the one which the pattern of a season prescribes for the position of the base unit in the calendar period (e.g. for the day of the week), also when the season begins or ends in the middle of the period. Which season it is: for a marker without 'at', e.g. '6M', the seasons alternate every so many calendar periods counted from the period which contains the start of the timeboard; for a marker with 'at' whose marks do not depend on the timeboard, the turn of the season is the number of marks after the start of the timeboard. In particular with two seasons, bounded by two dates of each year, the first in the list is applied to the season which contains the start of the timeboard and the second to the other one, in all the years, however long they are and wherever the timeboard starts.", "quantifier": "for every base unit frequency without multiplier, start, end, list of seasons with their frequencies and patterns, marker, and moment within the timeboard; for the dates: days 1 to 28 of two months, base units from seconds to days; no amendments", "why_tests_cant": "tests show the museum example for one calendar; the claim is about any number of seasons, years and any start", "anchors": ["timeboard/core.py:Organizer", "timeboard/core.py:_Timeline", "timeboard/core.py:_create_subspans", "timeboard/core.py:partition_with_marker", "timeboard/timeboard.py:Timeboard"]}
{"id": "C106", "title": "Schedules of another timeboard", "statement": "Let two timeboards have their workshifts at the same times (start, end and reference time), with whatever labels; e.g. ready-made calendars of two countries with the same start and end. A schedule of the second timeboard may then be used with the first one: get_workshift finds the workshift which the second timeboard finds, its duty is the one on the second timeboard, rolling leads to the workshifts at the same times, get_interval gives the same interval or error, and an interval has the same workshifts, counts, portions and numbers of periods as the interval of the second timeboard with the same start and end. The total duration and the work time of an interval are the sums of the durations or labels on its own timeboard over the workshifts with the duty in the other one (if the base units are of the same frequency, the durations are the same on both); a workshift found under the other schedule has the label, and so the work time by labels, of the other timeboard. If the times are not the same nothing is checked: the duty may be the one of another date, and rolling may lead to a workshift beyond the end of the timeboard, which has no start time.", "quantifier": "for every two timeboards which can be made through the API and have their workshifts at the same times, every schedule of the second one, every interval, workshift, duty, number of steps and period frequency; all ready-made calendars; a concrete witness for what is not checked", "why_tests_cant": "tests use schedules of the same timeboard only", "anchors": ["timeboard/workshift.py:Workshift", "timeboard/interval.py:Interval", "timeboard/interval.py:_get_duty_idx", "timeboard/interval.py:count_periods", "timeboard/core.py:_Schedule", "timeboard/timeboard.py:get_workshift", "timeboard/timeboard.py:get_interval"]}
{"id": "C107", "title": "What further amendments change in the calculations", "statement": "Make a timeboard, and another one with the same arguments and further amendments. get_interval gives the same intervals, and the same errors, on both. For an interval the count of workshifts, the total duration and the work time (with any duty, under schedules with the same selector) are those of the first timeboard plus the effects of the further amendments whose keys are within the interval: each one takes away what the workshift with its key counted for and adds what it counts for with the new label. So nothing changes for an interval without such keys; and if one workshift on duty becomes a day off, every interval with it has exactly one workshift less on duty and one more off duty, and the durations differ by its duration. The same is true for the ready-made calendars and custom amendments for different days, even where these override the amendments of the calendar.", "quantifier": "for all constructor arguments and lists of further amendments with which both timeboards can be made, all intervals, schedules, duties and numeric labels; all ready-made calendars, their parameters, and custom amendments for different days", "why_tests_cant": "tests compare labels of a few amended workshifts; the claim relates two timeboards for every interval", "anchors": ["timeboard/core.py:amend", "timeboard/timeboard.py:Timeboard", "timeboard/interval.py:count", "timeboard/interval.py:total_duration", "timeboard/interval.py:worktime", "timeboard/calendars/calendarbase.py:CalendarBase"]}
{"id": "C108", "title": "A rota is fair", "statement": "Suppose the labels of the workshifts follow a list `xs` in turn, as they do without amendments when the layout is a pattern, an Organizer whose structure is a list of labels, an Organizer whose structure is a RememberingPattern (in turn after the labels already handed out), and in a ready-made calendar with do_not_amend (five times 8, twice 0, beginning with the weekday of the start). Let c be the number of labels in `xs` which a schedule selects. (1) An interval of m*len(xs) workshifts has exactly m*c workshifts on duty, wherever it begins; with worktime_source='labels' its work time is m times that of one turn; in a ready-made calendar any 7*m days have 5*m working days and 40*m hours. (2) An interval of any length has at least (len // len(xs)) * c and at most (len // len(xs) + 1) * c workshifts on duty, so two teams with the same number of turns differ by at most that number. (3) From a workshift on duty rollforward(j*c) leads exactly j*len(xs) workshifts further, rollback(j*c) as far back, and OutOfBoundsError is raised if this is beyond the ends. (1)-(3) hold for duty 'off' and 'any' with the labels of that duty. (4) If at every workshift of an interval exactly one of a family of schedules is on duty, the counts under the schedules add up to the length of the interval, the total durations to its total duration, and the work times to its work time; no rota is needed for this.", "quantifier": "for all timeboards whose labels follow in turn, all lists of labels, all intervals however obtained, all schedules of the timeboard, all workshifts and numbers of turns; for (4) all timeboards and families of schedules of any size", "why_tests_cant": "Tests compare counts in single intervals of single boards; fairness is about every starting point, every length and every pattern.", "anchors": ["timeboard/core.py:_Timeline", "timeboard/core.py:Organizer", "timeboard/core.py:RememberingPattern", "timeboard/interval.py:count", "timeboard/interval.py:worktime", "timeboard/interval.py:total_duration", "timeboard/workshift.py:rollforward", "timeboard/workshift.py:rollback", "timeboard/calendars/calendarbase.py:CalendarBase"]}
{"id": "C109", "title": "Other names of a frequency make no difference", "statement": "Two frequency strings mean the same periods if every point in time is in a period of the same start and end under both; these are exactly the strings with the same multiplier and the same calendar periods: 'W' and 'W-SUN', 'T' and 'min', 'A' and 'A-DEC' and 'Y', 'D' and '1D', and the quarters named after months three, six or nine apart. For such strings get_interval(ref, period=...) and calls of the timeboard give the same interval or error, and so do Period objects of such frequencies; count_periods gives the same number or error for all the names it accepts ('W' but not 'W-SUN'). If the names of the base unit frequency and of the frequencies of markers in the layout are exchanged for others of the same meaning, and each marker is accepted or refused as before, the same timeboard is made (same workshifts, durations included, same answers to all queries) or the same error is raised, whatever the built-in rules of the markers. Acceptance does depend on the name: with base units of 'min' every marker is refused with UnacceptablePeriodError, as are markers of 'min', and of 'Y' unless the base units are of the same 'Y'.", "quantifier": "for all frequency strings from seconds to years with any multiplier and ending day or month, all timeboards, references, values of closed, duty and schedules, all layouts, at any depth, and all built-in rules of markers", "why_tests_cant": "The claim compares runs under different names over all layouts and queries, and says for which pairs of infinitely many strings the names are equivalent.", "anchors": ["timeboard/core.py:get_period", "timeboard/core.py:_check_groupby_freq", "timeboard/core.py:_Frame", "timeboard/timeboard.py:get_interval", "timeboard/interval.py:count_periods", "timeboard/when.py:from_start_of_each", "timeboard/when.py:nth_weekday_of_month", "timeboard/when.py:from_easter"]}
{"id": "C110", "title": "Recipes of the documentation", "statement": "The programs of the 'Common Use Cases' compute what they are meant to. Deadlines: starting with clnd(project_start).rollforward() and going on with end + 1 and start + (duration - 1), the stages of a project take the workshifts on duty from the start of the project one after another without gaps, each stage exactly as many as its duration, and the program shows the first and the last of each; it fails, with OutOfBoundsError, iff there are fewer workshifts on duty than the stages need together. Headcount and salaries: the portions clnd(tenure) / period, multiplied by the rates of the employees and added up, are the average over the working days of the period of the sum of the rates of those employed on the day (with rates of 1, the average headcount). Annual salary: clnd(tenure).overlap(year).count_periods('M'), whenever it is a number, is the sum of clnd(tenure) / month over the twelve months of the year, and the same holds for every interval made up of calendar periods.", "quantifier": "for all timeboards, starts of project and lists of durations of at least one workshift; all staff registers, periods, duties and schedules; all tenures, years and frequencies (floats idealised as rationals)", "why_tests_cant": "The programs are loops over lists of any length on any calendar; the documentation shows one run of each.", "anchors": ["timeboard/workshift.py:rollforward", "timeboard/workshift.py:__add__", "timeboard/interval.py:what_portion_of", "timeboard/interval.py:count_periods", "timeboard/interval.py:overlap", "timeboard/timeboard.py:get_interval"]}
{"id": "C111", "title": "Iterators as patterns", "statement": "A pattern may be 'an iterable or iterator of labels'. An iterator should make the timeboard which the list of its labels makes, since patterns are re-enacted in cycles. What the code does: each time an iterator is used for a span, the labels which are left in it are laid out as a list of these labels would be (repeated if they are too few), and those used, including the ones skipped at the left dangle, are gone; once there are none left the span keeps the default label. With this reading the constructor succeeds exactly when the layout can be read and the timeboard consists of the workshifts read. Hence an iterator makes the same timeboard as the list of its labels if each iterator is used for one span only, and the same as a RememberingPattern of its labels if it has enough labels; iterators which do not end (RememberingPattern, itertools.cycle) are as elsewhere. Every timeboard made with iterators can also be made with an organizer of single labels, so that everything said of timeboards holds for it. An iterator in the place of the whole layout is a TypeError.", "quantifier": "for all frames, nested layouts with any number of iterators of any length (possibly shared between several places of the layout and used before), amendments and default labels", "why_tests_cant": "An iterator is an object with a state; which labels a span gets depends on all spans treated before it, in an order given by the nesting of organizers.", "anchors": ["timeboard/core.py:_skiperator", "timeboard/core.py:__apply_pattern", "timeboard/core.py:__organize", "timeboard/core.py:Organizer", "timeboard/timeboard.py:__init__"]}
{"id": "C112", "title": "Answers depend on the workshifts in question only", "statement": "If two timeboards have the same workshifts (times, durations, labels) in some stretch of time then everything asked within this stretch has the same answer on both, whatever the timeboards are outside of it and wherever the stretch is on either: get_workshift returns the same workshift; get_interval by two points in time or by a calendar period within the stretch raises the same error or returns intervals with the same start and end, likewise by a length if the interval is in the stretch; for intervals with the same start and end and schedules with the same selector, iteration, count, nth, total_duration, worktime, overlap, what_portion_of are the same, and count_periods if the periods at the ends are in the stretch; rolling leads to the same workshift if the workshift steps are counted from and the one reached are in the stretch. Timeboards agree in this way: where they differ in amendments elsewhere only; when they are made of the same pattern for each calendar period, on the base units they have in common; British and Russian calendars of different ranges, on the days they have in common; any two ready-made calendars on days with the same labels.", "quantifier": "for all pairs of timeboards, stretches of time on which they agree, points in time, periods, intervals, steps, duties, schedules with the same selector, values of closed and clip_period", "why_tests_cant": "Tests ask one timeboard; that nothing outside of the question has an influence is a statement about all pairs of timeboards.", "anchors": ["timeboard/timeboard.py:get_workshift", "timeboard/timeboard.py:get_interval", "timeboard/workshift.py:rollforward", "timeboard/workshift.py:rollback", "timeboard/interval.py:count", "timeboard/interval.py:nth", "timeboard/interval.py:count_periods", "timeboard/interval.py:what_portion_of", "timeboard/interval.py:overlap"]}
{"id": "C113", "title": "Generators and iterations do not disturb each other", "statement": "v.workshifts(duty, schedule) returns a generator without any check; however its advances are mixed with advances of other generators, iterations over the same or other Interval objects, membership tests, and adding and dropping of schedules, they give the workshifts of the interval with that duty in ascending order, one by one, and StopIteration ever after (for an invalid duty: ValueError at the first advance, StopIteration after it; for a void interval: StopIteration). After iter(v), next(v) gives all workshifts of the interval likewise as long as no other iteration over the same object is started; before any iteration next(v) raises AttributeError. Every Workshift object handed out is a new object.", "quantifier": "for all sequences of operations on any number of interval objects, generators and workshift objects, in any order", "why_tests_cant": "Tests exhaust one generator at a time; interleavings of operations on several objects are unlimited in number.", "anchors": ["timeboard/interval.py:workshifts", "timeboard/interval.py:__iter__", "timeboard/interval.py:__next__", "timeboard/interval.py:_get_duty_idx", "timeboard/timeboard.py:add_schedule", "timeboard/timeboard.py:drop_schedule"]}
{"id": "C114", "title": "Membership, equality and truth of objects", "statement": "w in v is True exactly if workshift w is one of the workshifts of interval v, and asking has no effect on anything (as coded it is always False and ends any iteration over v); w == x for Workshift objects is identity, so that workshifts delivered by different calls are never equal; bool(v) is True exactly if the interval has at least one workshift, so that `if v.overlap(u):` works.", "quantifier": "for all sessions, intervals, workshift objects and further operations", "why_tests_cant": "The project has no tests of these operators; a test with one pair of objects says nothing about the effect on iterations which are going on.", "anchors": ["timeboard/interval.py:Interval", "timeboard/interval.py:__iter__", "timeboard/interval.py:__next__", "timeboard/interval.py:__len__", "timeboard/workshift.py:Workshift"]}
{"id": "C115", "title": "Calculating with portions", "statement": "Portions of intervals behave as portions (with one schedule and one duty throughout). The portion of u in v times the count of v is the count of what they share, and so is the portion of v in u times the count of u. u.what_portion_of(v) is the same as (u * v).what_portion_of(v). An interval with any workshift of the duty is 1 of itself, otherwise 0. Portions of nested intervals multiply: if u is within v and v within w then u is (u / v) * (v / w) of w. If an interval is split into parts with no workshift in common, in any number and order, then the portions of the parts add up to 1 (if the interval has any workshift of the duty), and the portion of any u in the whole is the mean of its portions of the parts, weighted with the portions of the parts in the whole.", "quantifier": "for all reachable timeboards, intervals on them, lists of parts of an interval, schedules of the timeboard, duties 'on', 'off', 'any'", "why_tests_cant": "These are identities between the results of several calls, for every choice of intervals; tests compare single results with literal numbers.", "anchors": ["timeboard/interval.py:what_portion_of", "timeboard/interval.py:overlap", "timeboard/interval.py:count"]}
{"id": "C116", "title": "Frequency strings mean calendar periods", "statement": "The base units of a timeboard, the periods of get_interval and of Period objects are the periods of the Gregorian calendar. Seconds, minutes and hours are counted from midnight; days begin at midnight; weeks 'W-xxx' begin on the day after xxx ('W' on Monday), months on the first, years 'A-xxx' on the first of the month after xxx ('A' and 'Y' on 1 January), quarters 'Q-xxx' on the first of the month after xxx and of every third month ('Q' on the first of January, April, July, October). The period of a point in time begins with the latest of these beginnings which is not after the point and ends one nanosecond before the next one, or the n-th one if the frequency is multiplied by n. A timeboard begins with the beginning of the base period of `start`; if the frequency is not multiplied it ends with the base period of `end`; all workshifts begin and end at such points. get_interval(t, period='W') and the like, for a calendar period on the timeboard, gives the workshifts whose reference time is in the calendar period of t, VoidIntervalError if there are none.", "quantifier": "for all frequency strings from seconds to years with any suffix and multiplier, all points in time, all timeboards and schedules; the calendar given by lengths of months, leap years and the order of days", "why_tests_cant": "Tests look at a few dates; leap years, ends of centuries, and all the suffixes are out of their reach.", "anchors": ["timeboard/core.py:_Frame", "timeboard/timeboard.py:get_interval", "timeboard/timeboard.py:_get_interval_locs_by_period"]}
{"id": "C117", "title": "RememberingPatterns in the hands of the user", "statement": "A program may take labels from a RememberingPattern itself by next(rp), ask for rp[i], rp.length and bool(rp), and use it in layouts of any number of timeboards, in any order, some of which may be refused. All labels which the pattern hands out, to the program and to the workshifts, are its labels in turn without gaps or repetitions; taking one by hand shifts what the next timeboard gets by one. A pattern which is not in the layout of a timeboard is not affected by its making, nor by what is done with another pattern made of the same labels; a new one starts with its first label. rp[i], rp.length and bool(rp) tell about the labels it was made of, whatever has been drawn, and make no difference to what follows; rp[i] outside of -length..length-1 raises IndexError; next() of a pattern without labels always raises StopIteration.", "quantifier": "for all programs (finite sequences of such steps), all labels, layouts, amendments and numbers of patterns", "why_tests_cant": "The state of a pattern is hidden, and the ways of interleaving are without number.", "anchors": ["timeboard/core.py:RememberingPattern", "timeboard/core.py:_skiperator", "timeboard/timeboard.py:Timeboard.__init__"]}
{"id": "C118", "title": "Iterators as marks, as `at` and as structures", "statement": "Organizer(marks=...), Organizer(structure=...) and Marker(at=...) accept iterators (e.g. generators) where the documentation says iterable, and a timeboard made with iterators is as it would be with the lists of their elements. [In the code this holds for iterators which are fresh and each used for one span of one timeboard, in particular for those of the organizer which is the layout of the first timeboard. Otherwise each organizer works with what is left: no marks left - the span is not divided; no `at` left - the span is not divided and patterns are refused with OutOfBoundsError; from a structure one element is gone for each span, the next use begins with the following element, and when none are left the default labels stay.] Whatever the iterators, the timeboard is one which could have been made without iterators.", "quantifier": "for all layouts of any depth with iterators in any of these places (also shared), all frames, labels, amendments and all states of the iterators; for the second timeboard all arguments", "why_tests_cant": "Tests use lists. Whether an iterator is used up shows only with nested organizers or a second timeboard.", "anchors": ["timeboard/core.py:_Timeline.__organize", "timeboard/core.py:_Frame.partition_at_marks", "timeboard/core.py:_Frame.partition_with_marker", "timeboard/core.py:Organizer.__init__", "timeboard/core.py:Marker.__init__"]}
{"id": "C119", "title": "How frequency strings are read", "statement": "A frequency string is a name such as 'D', 'W-SUN', 'Q-MAR' with or without a decimal factor in front of it. When a marker is checked against the base units, the check on the strings (names compared by pandas, a regular expression, and a recursive call with the names alone) comes to an end and decides exactly by the factors and names which are written; leading zeros of a factor make no difference ('02W' and '2W'); a string is a way to write one frequency only. A factor 1 which is written out does make a difference, though the periods are the same: '1D' is not accepted with 'W' nor 'D' with '1W', nor any other pair of frequencies without factor or with the factor 1 in which the factor 1 is written.", "quantifier": "for all strings which consist of any digits and any of the names (seconds to years, with any ending weekday or month), in both places", "why_tests_cant": "Tests try some dozens of pairs of strings; factors are unbounded and there are 53 names.", "anchors": ["timeboard/core.py:_check_groupby_freq", "timeboard/core.py:get_freq_delta", "timeboard/utils.py"]}
{"id": "C120", "title": "Intervals made of workshifts", "statement": "Interval(tb, (a, b)) may be made of workshifts, wherever they come from, and takes part in overlap (*) and what_portion_of (/) like any other interval: the overlap is the intersection and never raises for intervals of one timeboard. (The code keeps the positions as they come. Those of workshifts got by rollforward, rollback, +, -, first, last, nth, workshifts() or by iterating are integers of numpy, which the constructor refuses when overlap passes them on, in Python 3. So it holds for the intervals whose bounds are integers of Python: those from get_interval and overlap, made of integers, or made of workshifts found by time. For the others it is known exactly when TypeError is raised; it is raised whenever the interval is intersected with one which contains it, such as itself. get_interval from its start to its end, or from its first to its last workshift, is an interval of the same workshifts which has no such defect. For the same reason the number returned by total_duration is not accepted as the length of an interval, while that returned by count for duty 'on' or 'off' is.)", "quantifier": "for every reachable timeboard, all its intervals with bounds of any kind, every schedule and duty", "why_tests_cant": "The tests make intervals of integers or of workshifts created by position, so integers of numpy never become bounds there; in Python 2, for which the code was first written, the defect does not exist.", "anchors": ["timeboard/interval.py:overlap", "timeboard/interval.py:__init__", "timeboard/interval.py:what_portion_of", "timeboard/workshift.py:rollforward", "timeboard/timeboard.py:_get_interval_locs_by_length"]}
{"id": "C121", "title": "Carrying workshifts and intervals over to another timeboard", "statement": "A workshift of one timeboard may be given to another one wherever a point in time is expected: tb.get_workshift(ws) is the workshift of tb which contains the point that stands for ws on its own timeboard (its start or end, by workshift_ref), OutOfBoundsError if there is none. A workshift which lies within a workshift of tb, or has the same start and end, is carried over to that one; the order is kept; a workshift carried over and back is itself exactly if the point that stands for the one found lies within it; days of the ready-made calendars are carried over to the same days. tb.get_interval((ws1, ws2)) is the interval between the workshifts to which ws1 and ws2 are carried over and contains what those between them are carried over to. tb.get_interval((v.start_time, v.end_time)) consists of the workshifts which have a moment in common with the interval v, and lasts exactly as long as v if workshifts of tb start and end where v does. (Two exceptions: Interval(tb, (ws1, ws2)) takes the numbers of the workshifts, whatever their timeboard, so it is the interval between these points in time only if the workshifts with these numbers last equally on both timeboards; and for a void interval v, whose times are null, the result is the interval of the whole timeboard.)", "quantifier": "for every two reachable timeboards, with labels of any types, all their workshifts and intervals, every schedule", "why_tests_cant": "The tests use one timeboard at a time; the two refer to time with different base units, workshifts and workshift_ref, and the claim is about all combinations.", "anchors": ["timeboard/timeboard.py:get_workshift", "timeboard/timeboard.py:get_interval", "timeboard/core.py:get_timestamp", "timeboard/workshift.py:to_timestamp", "timeboard/interval.py:__init__"]}
{"id": "C122", "title": "What may be given as the layout", "statement": "An Organizer given as layout is used as it is; any other iterable which has a length is a pattern of the labels that iterating over it yields (the elements of a list, tuple, array or set; the keys of a dictionary). Iterators and RememberingPatterns, strings and values which are not iterable raise TypeError before any other argument is looked at. Organizers in a list are not applied but are labels like any others: each base unit is a workshift and gets the elements in turn; a timeboard made of one Organizer wrapped in a list has as many workshifts as base units, all labelled by the Organizer and all on duty under the default selector. There is a SyntaxWarning exactly when the layout is one Organizer wrapped in a list (or a dictionary with the only key 0 and an Organizer as the value), no matter whether the timeboard can be made. (Exception: a set with one element raises TypeError and a dictionary with one key other than 0 raises KeyError, though they are iterables of one label.)", "quantifier": "for all values of any of these kinds with any number of elements, all other arguments of the constructor, labels of any type", "why_tests_cant": "The tests give lists and organizers; there are unboundedly many iterables, and that the warning is issued in no other case cannot be seen from cases.", "anchors": ["timeboard/timeboard.py:__init__", "timeboard/utils.py:is_iterable", "timeboard/core.py:Organizer"]}
{"id": "C123", "title": "Arguments of methods which are not what is documented", "statement": "Methods of workshifts and intervals answer only to arguments of the documented kinds. The number of steps and the number of a workshift may be an integer or a boolean; any other number, even a whole one like 2.0, gives no answer: OutOfBoundsError where rounding it (away from the zero step) leads out of bounds, IndexError otherwise; NaN is IndexError, infinities OutOfBoundsError, other values TypeError, unless there is no workshift with the duty at all, which is found out first (OutOfBoundsError). A value which is not a schedule raises AttributeError, or TypeError where an interval is to be made. A duty which is none of the documented strings (five for rolling, three for the rest) raises ValueError, or TypeError in the methods which look it up in a dictionary if it cannot be hashed; an unsupported period raises UnacceptablePeriodError before all. Exceptions: a void interval answers as it always does, without looking at anything (only overlap looks at the schedule), and what_portion_of of intervals with no workshift in common is 0 whatever the duty.", "quantifier": "for all timeboards that can be constructed, all their workshifts and intervals (void ones included), all values of any of these kinds, labels of any type", "why_tests_cant": "The tests give a few wrong duties; that no value of a wrong kind is ever taken for a right one, and which exception comes first when several arguments are wrong, is a claim about all combinations of values.", "anchors": ["timeboard/workshift.py:_get_duty_index", "timeboard/workshift.py:rollforward", "timeboard/workshift.py:rollback", "timeboard/workshift.py:worktime", "timeboard/interval.py:_get_duty_idx", "timeboard/interval.py:nth", "timeboard/interval.py:what_portion_of", "timeboard/interval.py:count_periods"]}
{"id": "C124", "title": "Schedules made of two others", "statement": "Let a workshift be on duty under schedule e whenever it is on duty under s or under t, and under schedule b whenever it is on duty under both (e.g. add_schedule with the selectors 'sel1(label) or sel2(label)' and 'sel1(label) and sel2(label)'). Then for each duty the counts of workshifts of an interval under e and b add up to those under s and t, and so do total durations and worktimes (those under e and b exist iff those under s and t do). The nearest workshift on duty under e, found by rollforward(0) or rollback(0), is the nearer of those found under s and t, OutOfBoundsError only if neither is found; the first and the last workshift on duty of an interval under e are the earlier, respectively later, of those under s and t.", "quantifier": "for all timeboards, intervals, workshifts and schedules s, t, e, b related in this way, duties on/off/any, both sources of worktime, every reading of labels as numbers", "why_tests_cant": "No test combines schedules; the claims are identities between results of several calls over all timeboards and pairs of schedules.", "anchors": ["timeboard/timeboard.py:add_schedule", "timeboard/interval.py:count", "timeboard/interval.py:total_duration", "timeboard/interval.py:worktime", "timeboard/interval.py:first", "timeboard/interval.py:last", "timeboard/workshift.py:rollforward", "timeboard/workshift.py:rollback", "timeboard/core.py:_Schedule"]}
{"id": "C125", "title": "A timeboard can be written down as a table", "statement": "List the starts and the labels of all workshifts of a timeboard. A timeboard built with the same base_unit_freq, workshift_ref, default_name, default_selector and worktime_source, from start_time to end_time, without amendments, with layout Organizer(marks=<the starts>, structure=[<the labels>]) is the same timeboard in every respect: the same workshifts, base units, labels, schedules. The marks may come in any order, with repetitions, with or without the start of the first workshift, with any marks at or before it; default_label does not matter. Consequently two timeboards with these parameters equal and the same list, which end at the same moment, do not differ in anything, whatever layouts and amendments they were built from. Every timeboard has exactly one such list.", "quantifier": "for all frequencies of base units, spans, layouts (any nesting of Organizers and patterns, generators and RememberingPatterns included), amendments, selectors and other parameters with which a timeboard can be built", "why_tests_cant": "Tests build small timeboards from a few layouts and compare them to literal lists; they cannot show that the flat description reproduces every timeboard, nor that nothing else about the layout is observable afterwards.", "anchors": ["timeboard/timeboard.py:__init__", "timeboard/core.py:Organizer", "timeboard/core.py:_Frame", "timeboard/core.py:partition_at_marks", "timeboard/core.py:_Timeline", "timeboard/core.py:__organize", "timeboard/workshift.py:Workshift"]}
{"id": "C126", "title": "RememberingPatterns of iterators and of each other", "statement": "RememberingPattern(labels) takes any iterable of labels. Made of an iterator (a generator) which is not used otherwise, it is like a RememberingPattern of the list of the labels: timeboards made of it, labels taken from it by next, and RememberingPatterns made of it in turn, are the same; length, bool and items are too. Made of a RememberingPattern, it is as good as that one: labels taken from one are gone for the other. If several RememberingPatterns are made of one iterator, and labels are drawn from them and from the iterator in any order, each label of the iterator is handed out exactly once, in turn, to whoever asks; then each RememberingPattern repeats the labels which it has got, and the iterator is at its end. Making a timeboard, whether it succeeds or not, does nothing to such objects except drawing labels from those in its layout.", "quantifier": "for all lists of labels, all programs which make iterators, RememberingPatterns and timeboards (any layouts, marks, markers, failing constructions included) and draw labels by hand in between, and all orders of drawing", "why_tests_cant": "There is no test with a RememberingPattern of an iterator; states of several objects which draw from each other depend on the whole history of the program, and only a few histories can be tried.", "anchors": ["timeboard/core.py:RememberingPattern", "timeboard/core.py:__init__", "timeboard/core.py:__next__", "timeboard/core.py:next", "timeboard/core.py:__getitem__", "timeboard/core.py:length", "timeboard/core.py:__bool__", "timeboard/core.py:_skiperator", "timeboard/core.py:__organize"]}
{"id": "C127", "title": "A timeboard can be made in two goes", "statement": "Take the start of a span of the outermost Organizer, later than the start of the timeboard, at which the turns of `structure` begin anew (its number is a multiple of the number of elements of structure; or any span, if structure is a RememberingPattern); with a plain pattern for the layout, the base unit after any number of whole turns of the pattern; with a single RememberingPattern, any base unit. Build one timeboard which ends just before this point in time and then, with the same RememberingPattern objects, another one which starts there, with all other arguments the same. The workshifts of the two, one list after the other, are the workshifts of the timeboard built at once: starts, ends, reference times, durations, labels, amendments included; RememberingPatterns have handed out the same labels; and the timeboard built at once agrees with each of the two on its time, so that questions within this time have the same answers (C112). If the first or the second one cannot be built, neither can the whole, and the exception is the same (except that, if amendments of the first part collide, the whole may fail for another reason in the second part).", "quantifier": "for all base units, starts, ends, amendments, states of RememberingPatterns and layouts of any nesting whose marks are starts of base units; the outermost marks given, made by calendar periods of any multiplier, or by rules of 'at' made for each (not multiplied) calendar period on its own", "why_tests_cant": "A test compares a handful of split points for a handful of layouts; alignment of multiplied periods, numbers of base units missing from the first span, state of RememberingPatterns and turns of nested structures interact at every split point.", "anchors": ["timeboard/timeboard.py:__init__", "timeboard/core.py:_Frame", "timeboard/core.py:partition_with_marker", "timeboard/core.py:partition_at_marks", "timeboard/core.py:_Timeline", "timeboard/core.py:__organize", "timeboard/core.py:RememberingPattern", "timeboard/core.py:Organizer"]}
{"id": "C128", "title": "Calendar patterns go on through the borders of all organizers around them", "statement": "A calendar pattern is an Organizer whose marker is a calendar period (weeks, say, not multiplied and without `at`) and whose structure is one list of labels. Take a layout made of calendar patterns with any number of Organizers around them, one inside the other, divided by marks or markers of any kind. Then every base unit is a workshift of its own. At each point in time exactly one calendar pattern is in force: the one which is found by going from the outermost Organizer inwards, each time to the element whose turn it is in the span which contains the time. The label of the workshift is the label of this pattern for the place of the base unit in its calendar period (the number of base units since the start of the week), no matter where the spans of the Organizers begin or end; an amendment of this base unit goes before it. So, if all the calendar patterns in the layout are the same, the timeboard is equal to the one with this calendar pattern alone for its layout.", "quantifier": "for all labels, starts, ends, amendments, base units (not multiplied), calendar patterns of accepted frequencies, and layouts of any depth, all marks and all markers with any `at`, for which the timeboard can be built", "why_tests_cant": "Tests have organizers nested once or twice, with borders at the starts of weeks or months. The number of base units missing from the first period is computed anew on each level for each span; an error shows only for particular alignments of a span with the calendar.", "anchors": ["timeboard/timeboard.py:__init__", "timeboard/core.py:partition_with_marker", "timeboard/core.py:partition_at_marks", "timeboard/core.py:_Timeline", "timeboard/core.py:__organize", "timeboard/core.py:Organizer"]}
{"id": "C129", "title": "The workshift at a point in time is found from the outside inwards", "statement": "To tell the workshift at a point in time within a timeboard, whatever its layout, take the span of the outermost Organizer which contains the time; count the spans before it; take the element of `structure` whose turn it is; if it is an Organizer, do the same with its spans within this span, and so on. If one arrives at a single label, the workshift is the whole span and has this label; if at a pattern, the workshift is the base unit, and its label is found by counting base units from the start of the span (with those missing from its first period); if at a RememberingPattern, the workshift is the base unit (or the span, if the RememberingPattern is the structure of an Organizer) and its label is one of those of the pattern; if there are no labels at all, the workshift is the base unit with the default label. An amendment within the workshift goes before all this. A workshift never crosses the border of a span met on the way to it. Nothing else matters: there is exactly one way inwards, and a change of one element of a structure makes no difference in the spans of the other elements (except for labels drawn from RememberingPatterns).", "quantifier": "for all timeboards (layouts of any depth, marks, markers with any `at`, amendments, states of RememberingPatterns, schedules) and all points in time within them", "why_tests_cant": "The code fills arrays of labels for all base units in one pass over all spans of all levels; whether the label found at a place depends only on the way to this place cannot be seen from a few layouts, as any part of the pass might overwrite the labels or the borders of another.", "anchors": ["timeboard/timeboard.py:get_workshift", "timeboard/core.py:_Timeline", "timeboard/core.py:__organize", "timeboard/core.py:__apply_pattern", "timeboard/core.py:partition_with_marker", "timeboard/core.py:partition_at_marks", "timeboard/core.py:amend", "timeboard/core.py:Organizer"]}
{"id": "C130", "title": "A timeboard made of calendar periods is measured exactly by these periods", "statement": "If, whichever way one goes inwards in a layout, one meets an Organizer with the plain marker of a calendar frequency (not multiplied) or arrives at a pattern of base units, then no workshift extends over the beginning of a period of this frequency, nor of a longer one made of such periods (months and quarters, for example). Hence get_interval by such a period within the timeboard (also of several periods taken together) returns exactly the workshifts which lie within the period, its start_time and end_time are those of the period, and `workshift_ref` makes no difference to get_interval by these periods and to count_periods. On the interval of several such periods count_periods returns the number of those which have workshifts of the duty.", "quantifier": "for all timeboards with such layouts (any depth, marks and markers around and inside, RememberingPatterns, amendments), all periods, schedules, values of `clip_period` and `closed`", "why_tests_cant": "Whether a workshift is cut at the beginning of a period depends on all levels of organizers around it and on where their spans begin; tests see a few layouts and dates only.", "anchors": ["timeboard/core.py:partition_with_marker", "timeboard/core.py:__organize", "timeboard/core.py:_Timeline", "timeboard/timeboard.py:get_interval", "timeboard/timeboard.py:_get_interval_locs_by_period", "timeboard/interval.py:count_periods"]}
{"id": "C131", "title": "Superfluous Organizers make no difference", "statement": "An Organizer which divides nothing can be left out of a layout: an Organizer without marks around anything but a pattern; directly within an Organizer by calendar periods, an Organizer by the same periods, or (around anything but a pattern) by longer periods made of them. In each case the first element of its structure takes its place; the further elements have no turn. The timeboard is the same (all workshifts, labels, schedules and reference points), RememberingPatterns are left in the same states, and if one construction fails, the other fails with the same error. The only exception is a layout which would be left as a single label, as this is not accepted as a layout. Around a whole layout, an Organizer without marks makes no difference for patterns either.", "quantifier": "for all layouts, at any depth and any number of places, all frequencies and multiplied base units, frames, amendments and states of RememberingPatterns", "why_tests_cant": "Each level of Organizers counts the base units missing from the first period anew, restarts the cycle of its structure and copies spans; whether all this has no effect for every calendar frequency and every start of the frame inside a period cannot be told from examples.", "anchors": ["timeboard/timeboard.py:Timeboard", "timeboard/core.py:_Timeline", "timeboard/core.py:__organize", "timeboard/core.py:partition_with_marker", "timeboard/core.py:partition_at_marks", "timeboard/core.py:_create_subspans", "timeboard/core.py:Organizer"]}
{"id": "C132", "title": "Dividing at two levels and at one", "statement": "If an Organizer by marks has a single element in its structure which is another Organizer by marks, itself with a single element, then the layout is the same as one Organizer with all the marks of both. If an Organizer by calendar periods has a single element which is an Organizer by shorter calendar periods of which the longer ones are made (e.g. months in years), itself with a single element, then the layout is the same as the inner Organizer alone, also if the element is a pattern. The same holds at any depth of a layout. The same means: the same timeboard, the same states of RememberingPatterns, the same errors. With more elements in the inner structure, or with periods which are not parts of one another, it is not the same.", "quantifier": "for all lists of marks (in any order, with repetitions, outside the frame), all calendar frequencies, frames beginning and ending inside a period, elements (labels, patterns, RememberingPatterns, further organizers), amendments", "why_tests_cant": "Marks in the last base unit of the frame, at borders of spans, or in the first base unit of an inner span are treated in their own ways by the code, and the base units missing from a period are counted at each level; all combinations of these would have to be tried for all frequencies.", "anchors": ["timeboard/timeboard.py:Timeboard", "timeboard/core.py:__organize", "timeboard/core.py:partition_with_marker", "timeboard/core.py:partition_at_marks", "timeboard/core.py:_create_subspans", "timeboard/core.py:_locate_subspans", "timeboard/core.py:Organizer"]}
{"id": "C133", "title": "An Organizer by the base units is a pattern", "statement": "A layout which divides the timeboard by the frequency of its own base units and gives a label to each part in turn, `Organizer(marker=base_unit_freq, structure=labels)`, makes the same timeboard as the pattern of these labels; likewise an Organizer by base units whose structure is a RememberingPattern makes the same timeboard, and leaves the RememberingPattern in the same state, as the RememberingPattern as the element of an Organizer without marks. Anywhere inside a layout the Organizer by base units is the same as the pattern in an Organizer without marks, i.e. it begins with the span whereas a bare pattern goes on with the place in the calendar period. This needs a frequency which is accepted as a marker of itself: 'S', 'T', 'H', 'D', 'W' without a multiplier, or any one (not spelled 'min') with a multiplier other than 1; with the others ('M', 'Q', 'A', '1D', ...) the timeboard is refused with UnacceptablePeriodError.", "quantifier": "for all frequencies, multipliers, frames, lists of labels (also empty), states of the RememberingPattern, amendments", "why_tests_cant": "The labels are written by two different parts of the code: one base unit at a time as compound workshifts of one unit, or all at once from an iterator; the equality for all frequencies with multipliers rests on the partitioning having every base unit as a part of its own, whatever the start of the frame.", "anchors": ["timeboard/timeboard.py:Timeboard", "timeboard/core.py:__organize", "timeboard/core.py:__apply_pattern", "timeboard/core.py:partition_with_marker", "timeboard/core.py:_check_groupby_freq", "timeboard/core.py:_skiperator", "timeboard/core.py:RememberingPattern"]}
{"id": "C134", "title": "The order of divisions makes no difference", "statement": "Suppose several Organizers are put one inside the other, each with a single element in its structure and dividing by marks, by calendar periods or by a Marker with `at` (days from the start of periods, n-th weekdays, Easter), e.g. weeks inside months inside marks, around a label or around an Organizer of any kind. Then they may be put in any other order: the timeboard, the states of RememberingPatterns and the error, if there is one, are the same. The Organizers may be anywhere in a layout. Together they amount to a single Organizer with marks at all base units which begin a period, are marked by a Marker or hold a mark of any of the levels; if the innermost element is a label, workshifts begin exactly with these base units and with the timeboard. If the innermost element is a pattern, or if the structures have several elements, the order does matter.", "quantifier": "for any number of levels, all marks, calendar frequencies without a multiplier (accepted ones or not) and regular markers, i.e. ones whose points are made for each period on its own and are starts of base units within it, all orders, frames, innermost elements, amendments, states of RememberingPatterns", "why_tests_cant": "The code divides span after span, and each level starts from spans cut by the level above, e.g. inside a week or a month; that the outcome is the same for all orders of all frequencies, also at the borders of the frame where marks are treated in a special way, is a statement about infinitely many pairs of programs.", "anchors": ["timeboard/timeboard.py:Timeboard", "timeboard/core.py:__organize", "timeboard/core.py:partition_with_marker", "timeboard/core.py:partition_at_marks", "timeboard/core.py:_locate_subspans", "timeboard/core.py:Organizer"]}
