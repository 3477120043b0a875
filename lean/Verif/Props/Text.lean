import Verif.Lemmas.Text
import Verif.Lemmas.Timeboard
import Verif.Examples.Boards
/-!
# C85: what a printed workshift, interval or timeboard tells
-/
namespace TB
variable {L : Type}

/-- The name of the schedule which is to be seen: none for the name of the default schedule. -/
def Timeboard.shownName (tb : Timeboard L) (s : Schedule L) : Option Text :=
  if s.name = tb.defaultSchedule.name then none else some s.name.toList

/-- The text of a workshift without the head. -/
def shownText (f : Freq) (d o : Int) : Text :=
  (if d ≠ 1 then intText d ++ ['x'] else []) ++ '\'' :: f.text ++ "' at ".toList ++ f.base.periodText o

theorem readShown_text (f : Freq) (d o : Int) :
    readShown (shownText f d o) = some ⟨d, f.factor, f.denom, f.base.startOf o⟩ := by
  have hq : '\'' ∉ (if d ≠ 1 then intText d ++ ['x'] else []) := by
    split
    · intro h
      rcases List.mem_append.1 h with h | h
      · exact not_mem_of (intText_chars d) (by decide) h
      · simp at h
    · simp
  have hf : '\'' ∉ f.text := not_mem_of (freqText_chars f) (by decide)
  have e : shownText f d o = (if d ≠ 1 then intText d ++ ['x'] else []) ++ '\'' :: (f.text ++ '\'' :: (" at ".toList ++ f.base.periodText o)) := by
    simp [shownText]
  rw [e]
  simp only [readShown, splitFirst_append _ hq, splitFirst_append _ hf, after_append, Option.bind_eq_bind, Option.bind_some,
    readFreq_text, show f.denom.base = f.base from rfl, readPeriod_periodText]
  by_cases hd : d = 1
  · simp [hd]
  · have : intText d ++ ['x'] ≠ [] := by simp
    simp only [ne_eq, hd, not_false_eq_true, if_true, this, if_false, before_append, Option.bind_some, readInt_intText]
    rfl

theorem shownText_chars (f : Freq) (d o : Int) : ∀ c ∈ shownText f d o, c ∈ 'x' :: '\'' :: 'a' :: 't' :: (freqChars ++ periodChars) := by
  intro c hc
  have h1 := intText_chars d
  have h2 := freqText_chars f
  have h3 := periodText_chars f.base o
  have h4 : ∀ c ∈ numChars, c ∈ periodChars := fun c h => List.mem_append_right _ h
  have h5 : ∀ c ∈ "' at ".toList, c ∈ 'x' :: '\'' :: 'a' :: 't' :: (freqChars ++ periodChars) := by decide +kernel
  simp only [shownText, List.mem_append, List.mem_cons] at hc
  simp only [List.mem_append, List.mem_cons] at h5 ⊢
  rcases hc with ((hc | rfl | hc) | hc) | hc
  · split at hc
    · rcases List.mem_append.1 hc with hc | hc
      · exact .inr (.inr (.inr (.inr (.inr (h4 c (h1 c hc))))))
      · exact .inl (List.mem_singleton.1 hc)
    · simp at hc
  · simp
  · exact .inr (.inr (.inr (.inr (.inl (h2 c hc)))))
  · exact h5 c hc
  · exact .inr (.inr (.inr (.inr (.inr (h3 c hc)))))

/-- What is to be seen of a workshift: its duration, the frequency of the timeboard and the start time. -/
def Workshift.shown (w : Workshift L) (tb : Timeboard L) : Except Err Shown := do
  let d ← w.duration tb
  let t ← w.startTime tb
  return ⟨d, tb.timeline.frame.freq.factor, tb.timeline.frame.freq.denom, t⟩

theorem Workshift.compactStr_eq {tb : Timeboard L} (hv : tb.Valid) {w : Workshift L} (h0 : 0 ≤ w.loc) (h1 : w.loc < tb.timeline.len) :
    ∃ d o, w.compactStr tb = .ok (shownText tb.timeline.frame.freq d o) ∧
      w.shown tb = .ok ⟨d, tb.timeline.frame.freq.factor, tb.timeline.frame.freq.denom, tb.timeline.frame.freq.base.startOf o⟩ := by
  refine ⟨tb.timeline.bnd (w.loc + 1) - tb.timeline.bnd w.loc, tb.timeline.frame.ord (tb.timeline.bnd w.loc), ?_, ?_⟩
  · simp only [Workshift.compactStr, Workshift.duration, Workshift.startTime, hv.wf.wsDuration_eq h0 h1, hv.wf.wsStart_eq h0 h1,
      Bind.bind, Except.bind, pure, Except.pure, Period.ofTime, Frame.unitStart, Base.ordOf_startOf]
    rfl
  · simp only [Workshift.shown, Workshift.duration, Workshift.startTime, hv.wf.wsDuration_eq h0 h1, hv.wf.wsStart_eq h0 h1,
      Bind.bind, Except.bind, pure, Except.pure, Frame.unitStart]

theorem readLabel_text (tb : Timeboard L) (s : Schedule L) : readLabel (scheduleLabel tb s) = some (tb.shownName s) := by
  unfold readLabel scheduleLabel Timeboard.shownName
  split
  · rfl
  · rename_i h
    have : ", ".toList ++ s.name.toList ≠ [] := by simp
    rw [if_neg this, after_append]; rfl

/-- **C85**, workshifts: the printed form of a workshift of a timeboard tells its position, its schedule unless this has the name of
the default schedule, its duration, the frequency of the timeboard and its start time. -/
theorem C85_workshift {tb : Timeboard L} (h : tb.Reachable) {k : Int} (h0 : 0 ≤ k) {s : Option (Schedule L)} {w : Workshift L}
    (hw : Workshift.new tb k s = .ok w) :
    ∃ text d t, w.repr tb = .ok text ∧ w.duration tb = .ok d ∧ w.startTime tb = .ok t ∧
      readWorkshift text = some (k, tb.shownName (tb.effective s),
        ⟨d, tb.timeline.frame.freq.factor, tb.timeline.frame.freq.denom, t⟩) := by
  have hv := h.valid
  have h1 : k < tb.timeline.len := by
    rcases Int.lt_or_le k tb.timeline.len with hl | hl
    · exact hl
    · have hlab := Workshift.new_label hw
      have hlen := hv.wf.labels_len
      unfold Timeline.len at hl
      unfold Timeline.label at hlab
      rw [pyGet?_ge _ (by omega)] at hlab
      simp [orIndexError] at hlab
  have el := Workshift.new_loc hw
  have es := Workshift.new_schedule hw
  obtain ⟨d, o, hc, hs⟩ := Workshift.compactStr_eq hv (w := w) (by omega) (by omega)
  have hs' : w.duration tb = .ok d ∧ w.startTime tb = .ok (tb.timeline.frame.freq.base.startOf o) := by
    revert hs
    unfold Workshift.shown
    cases w.duration tb with
    | error e => simp [Bind.bind, Except.bind]
    | ok d' =>
      cases w.startTime tb with
      | error e => simp [Bind.bind, Except.bind]
      | ok t' => simp [Bind.bind, Except.bind, pure, Except.pure]
  refine ⟨_, d, _, by unfold Workshift.repr; rw [hc]; rfl, hs'.1, hs'.2, ?_⟩
  rw [el, es]
  have hp : ')' ∉ " of ".toList ++ shownText tb.timeline.frame.freq d o := by
    intro hm
    rcases List.mem_append.1 hm with hm | hm
    · revert hm; decide +kernel
    · exact not_mem_of (shownText_chars _ d o) (by decide +kernel) hm
  have e : "Workshift(".toList ++ intText k ++ scheduleLabel tb (tb.effective s) ++ ") of ".toList ++ shownText tb.timeline.frame.freq d o =
      "Workshift(".toList ++ ((intText k ++ scheduleLabel tb (tb.effective s)) ++ ')' :: (" of ".toList ++ shownText tb.timeline.frame.freq d o)) := by
    simp
  rw [e]
  have hcm : ',' ∉ intText k := not_mem_of (intText_chars k) (by decide)
  simp only [readWorkshift, after_append, Option.bind_eq_bind, Option.bind_some, splitLast_append _ hp, readShown_text]
  unfold scheduleLabel Timeboard.shownName
  by_cases hn : (tb.effective s).name = tb.defaultSchedule.name
  · simp only [hn, if_true, List.append_nil, splitFirst_none hcm, readInt_intText, Option.bind_some]
    rfl
  · have e2 : intText k ++ (", ".toList ++ (tb.effective s).name.toList) = intText k ++ ',' :: ([' '] ++ (tb.effective s).name.toList) := by simp
    simp only [hn, if_false, e2, splitFirst_append _ hcm, readInt_intText, Option.bind_some, after_append]
    rfl

theorem readInterval_head (tb : Timeboard L) (s : Schedule L) (a b : Int) :
    splitFirst ',' (intText a ++ ", ".toList ++ intText b ++ ')' :: scheduleLabel tb s) =
      some (intText a, ([' '] ++ intText b) ++ ')' :: scheduleLabel tb s) ∧
    splitFirst ')' (([' '] ++ intText b) ++ ')' :: scheduleLabel tb s) = some ([' '] ++ intText b, scheduleLabel tb s) := by
  have h1 : ',' ∉ intText a := not_mem_of (intText_chars a) (by decide)
  have h2 : ')' ∉ [' '] ++ intText b := by
    intro h
    rcases List.mem_append.1 h with h | h
    · revert h; decide
    · exact not_mem_of (intText_chars b) (by decide) h
  have e : intText a ++ ", ".toList ++ intText b ++ ')' :: scheduleLabel tb s =
      intText a ++ ',' :: (([' '] ++ intText b) ++ ')' :: scheduleLabel tb s) := by simp
  exact ⟨by rw [e, splitFirst_append _ h1], splitFirst_append _ h2⟩

theorem readInterval_text {tb : Timeboard L} (s : Schedule L) (a b d o d' o' n : Int) (f : Freq) :
    readInterval ("Interval(".toList ++ ('(' :: intText a ++ ", ".toList ++ intText b ++ [')']) ++ scheduleLabel tb s ++ "): ".toList ++
      shownText f d o ++ " -> ".toList ++ shownText f d' o' ++ " [".toList ++ intText n ++ [']']) =
    some (a, b, tb.shownName s, some (⟨d, f.factor, f.denom, f.base.startOf o⟩, ⟨d', f.factor, f.denom, f.base.startOf o'⟩, n)) := by
  have hs : ∀ d o, ∀ c, c ∉ 'x' :: '\'' :: 'a' :: 't' :: (freqChars ++ periodChars) → c ∉ shownText f d o :=
    fun d o c h => not_mem_of (shownText_chars f d o) h
  have e : "Interval(".toList ++ ('(' :: intText a ++ ", ".toList ++ intText b ++ [')']) ++ scheduleLabel tb s ++ "): ".toList ++
      shownText f d o ++ " -> ".toList ++ shownText f d' o' ++ " [".toList ++ intText n ++ [']'] =
      "Interval".toList ++ ('(' :: '(' :: ((intText a ++ ", ".toList ++ intText b ++ ')' :: scheduleLabel tb s) ++ ')' :: (": ".toList ++
        ((shownText f d o ++ " -".toList) ++ '>' :: ([' '] ++ (shownText f d' o' ++ [' '])) ++ '[' :: (intText n ++ [']']))))) := by
    simp
  have hp : ')' ∉ ": ".toList ++ ((shownText f d o ++ " -".toList) ++ '>' :: ([' '] ++ (shownText f d' o' ++ [' '])) ++ '[' :: (intText n ++ [']'])) := by
    have h1 := hs d o ')' (by decide +kernel)
    have h2 := hs d' o' ')' (by decide +kernel)
    have h3 : ')' ∉ intText n := not_mem_of (intText_chars n) (by decide)
    simp [h1, h2, h3]
  have hb : '[' ∉ intText n ++ [']'] := by
    have h3 : '[' ∉ intText n := not_mem_of (intText_chars n) (by decide)
    simp [h3]
  have hg : '>' ∉ shownText f d o ++ " -".toList := by
    have h1 := hs d o '>' (by decide +kernel)
    simp [h1]
  have e2 : '(' :: '(' :: ((intText a ++ ", ".toList ++ intText b ++ ')' :: scheduleLabel tb s) ++ ')' :: (": ".toList ++
        ((shownText f d o ++ " -".toList) ++ '>' :: ([' '] ++ (shownText f d' o' ++ [' '])) ++ '[' :: (intText n ++ [']'])))) =
      "((".toList ++ ((intText a ++ ", ".toList ++ intText b ++ ')' :: scheduleLabel tb s) ++ ')' :: (": ".toList ++
        ((shownText f d o ++ " -".toList) ++ '>' :: ([' '] ++ (shownText f d' o' ++ [' '])) ++ '[' :: (intText n ++ [']'])))) := by simp
  rw [e]
  have e3 : ∀ y, readInterval ("Interval".toList ++ '(' :: y) = readIntervalRest false ('(' :: y) := by
    intro y
    unfold readInterval
    rw [after_append]
    split
    · simp_all
    · rename_i h; simp at h
    · rename_i h; simp at h; rw [← h]
  rw [e3, e2]
  simp only [readIntervalRest, Option.bind_eq_bind, after_append, Option.bind_some, splitLast_append _ hp, (readInterval_head tb s a b).1, (readInterval_head tb s a b).2,
    readInt_intText, readLabel_text, Bool.false_eq_true, if_false, splitLast_append _ hb, before_append, splitFirst_append _ hg,
    readShown_text]
  rfl

/-- **C85**, intervals: the printed form of an interval tells its positions, its schedule unless this has the name of the default
schedule, its length, and durations, start times and the frequency of its first and last workshifts. -/
theorem C85_interval {tb : Timeboard L} (h : tb.Reachable) {a b : Int} {s : Option (Schedule L)} {v : Interval L}
    (hi : Interval.new tb (a, b) s = .ok v) :
    ∃ text w w' x y, v.repr tb = .ok text ∧
      Workshift.new tb a = .ok w ∧ w.shown tb = .ok x ∧ Workshift.new tb b = .ok w' ∧ w'.shown tb = .ok y ∧
      readInterval text = some (a, b, tb.shownName (tb.effective s), some (x, y, b - a + 1)) := by
  have hv := h.valid
  obtain ⟨h0, h1, h2, rfl⟩ := Interval.new_ok_iff.1 hi
  obtain ⟨l, _, hw⟩ := Workshift.new_ok_of_range hv none h0 (show a < tb.timeline.len by omega)
  obtain ⟨l', _, hw'⟩ := Workshift.new_ok_of_range hv none (show 0 ≤ b by omega) h2
  obtain ⟨d, o, hc, hs⟩ := Workshift.compactStr_eq hv (w := { loc := a, label := l, schedule := tb.effective none }) h0 (show a < tb.timeline.len by omega)
  obtain ⟨d', o', hc', hs'⟩ := Workshift.compactStr_eq hv (w := { loc := b, label := l', schedule := tb.effective none }) (show 0 ≤ b by omega) h2
  have hr : Interval.repr { lo := a, hi := b, length := b - a + 1, isVoid := false, schedule := tb.effective s } tb =
      .ok ("Interval(".toList ++ ('(' :: intText a ++ ", ".toList ++ intText b ++ [')']) ++ scheduleLabel tb (tb.effective s) ++ "): ".toList ++
      shownText tb.timeline.frame.freq d o ++ " -> ".toList ++ shownText tb.timeline.frame.freq d' o' ++
      " [".toList ++ intText (b - a + 1) ++ [']']) := by
    simp only [Interval.repr, Bool.false_eq_true, if_false, Bind.bind, Except.bind, hw, hc, hw', hc', pure, Except.pure]
  refine ⟨_, _, _, _, _, hr, hw, hs, hw', hs', ?_⟩
  exact readInterval_text (tb := tb) ..

/-- **C85**, void intervals: the printed form tells its positions and its schedule unless this has the name of the default
schedule. -/
theorem C85_void {tb : Timeboard L} {a b : Int} {s : Option (Schedule L)} {v : Interval L}
    (hi : Interval.newVoid tb (a, b) s = .ok v) :
    ∃ text, v.repr tb = .ok text ∧ readInterval text = some (a, b, tb.shownName (tb.effective s), none) := by
  obtain ⟨h0, h1, h2, rfl⟩ := Interval.newVoid_ok_iff.1 hi
  refine ⟨_, rfl, ?_⟩
  have e : "Interval (".toList ++ ('(' :: intText a ++ ", ".toList ++ intText b ++ [')']) ++ scheduleLabel tb (tb.effective s) ++ "): void [0]".toList =
      "Interval".toList ++ (' ' :: ("((".toList ++ ((intText a ++ ", ".toList ++ intText b ++ ')' :: scheduleLabel tb (tb.effective s)) ++
        ')' :: (": ".toList ++ "void [0]".toList)))) := by
    simp
  have hp : ')' ∉ ": ".toList ++ "void [0]".toList := by decide +kernel
  simp only
  rw [e]
  simp only [readInterval, after_append, readIntervalRest, Option.bind_eq_bind, Option.bind_some, splitLast_append _ hp,
    (readInterval_head tb (tb.effective s) a b).1, (readInterval_head tb (tb.effective s) a b).2, readInt_intText, readLabel_text, if_true]

/-- **C85**, timeboards: the printed form tells the frequency, the start of the timeboard and the start of its last base unit, with
which the timeboard ends. -/
theorem C85_timeboard (tb : Timeboard L) :
    ∃ t, readTimeboard tb.compactStr = some ((tb.timeline.frame.freq.factor, tb.timeline.frame.freq.denom), tb.startTime, t) ∧
      tb.endTime = (Period.ofTime tb.timeline.frame.freq t).endTime := by
  refine ⟨tb.timeline.frame.unitStart (tb.timeline.frame.n - 1), ?_, ?_⟩
  · generalize hf : tb.timeline.frame = f
    have e : tb.compactStr = "Timeboard of '".toList ++ (f.freq.text ++ '\'' :: (": ".toList ++
        ((f.freq.base.periodText (f.ord 0) ++ " -".toList) ++ '>' :: ([' '] ++ f.freq.base.periodText (f.ord (f.n - 1)))))) := by
      unfold Timeboard.compactStr
      rw [hf]
      simp only
      generalize f.freq.base.periodText (f.ord 0) = x
      generalize f.freq.base.periodText (f.ord (f.n - 1)) = y
      simp
    have h1 : '\'' ∉ f.freq.text := not_mem_of (freqText_chars _) (by decide +kernel)
    have h2 : '>' ∉ f.freq.base.periodText (f.ord 0) ++ " -".toList := by
      have := not_mem_of (periodText_chars f.freq.base (f.ord 0)) (c := '>') (by decide)
      simp [this]
    rw [e]
    simp only [readTimeboard, after_append, Option.bind_eq_bind, Option.bind_some, splitFirst_append _ h1, readFreq_text,
      splitFirst_append _ h2, before_append, show f.freq.denom.base = f.freq.base from rfl, readPeriod_periodText]
    unfold Timeboard.startTime Frame.startTime Frame.unitStart
    rw [hf]; rfl
  · unfold Timeboard.endTime Frame.endTime Frame.unitEnd Period.ofTime Period.endTime Frame.unitStart
    rw [Base.ordOf_startOf]

/-- **C85**, consequence: intervals of one timeboard which are printed alike have the same positions, are both void or both not,
and have schedules of the same name. -/
theorem C85_same_print {tb : Timeboard L} (h : tb.Reachable) {a b a' b' : Int} {s s' : Option (Schedule L)} {v v' : Interval L}
    (hi : Interval.new tb (a, b) s = .ok v ∨ Interval.newVoid tb (a, b) s = .ok v)
    (hi' : Interval.new tb (a', b') s' = .ok v' ∨ Interval.newVoid tb (a', b') s' = .ok v')
    (he : v.repr tb = v'.repr tb) :
    v.lo = v'.lo ∧ v.hi = v'.hi ∧ v.isVoid = v'.isVoid ∧ v.length = v'.length ∧ v.schedule.name = v'.schedule.name := by
  have key : ∀ {a b : Int} {s : Option (Schedule L)} {v : Interval L}, Interval.new tb (a, b) s = .ok v ∨ Interval.newVoid tb (a, b) s = .ok v →
      ∃ text x, v.repr tb = .ok text ∧ readInterval text = some (v.lo, v.hi, tb.shownName v.schedule, x) ∧ v.isVoid = x.isNone ∧
        v.length = (if v.isVoid then 0 else v.hi - v.lo + 1) := by
    intro a b s v hi
    rcases hi with hi | hi
    · obtain ⟨text, w, w', x, y, h1, _, _, _, _, h6⟩ := C85_interval h hi
      obtain ⟨_, _, _, rfl⟩ := Interval.new_ok_iff.1 hi
      exact ⟨text, _, h1, h6, rfl, rfl⟩
    · obtain ⟨text, h1, h2⟩ := C85_void hi
      obtain ⟨_, _, _, rfl⟩ := Interval.newVoid_ok_iff.1 hi
      exact ⟨text, _, h1, h2, rfl, rfl⟩
  obtain ⟨t, x, h1, h2, h3, h4⟩ := key hi
  obtain ⟨t', x', h1', h2', h3', h4'⟩ := key hi'
  rw [h1, h1'] at he
  injection he with he
  subst he
  rw [h2] at h2'
  simp only [Option.some.injEq, Prod.mk.injEq] at h2'
  obtain ⟨e1, e2, e3, e4⟩ := h2'
  refine ⟨e1, e2, by rw [h3, h3', e4], by rw [h4, h4', h3, h3', e1, e2, e4], ?_⟩
  unfold Timeboard.shownName at e3
  split at e3 <;> split at e3
  · rename_i p q; rw [p, q]
  · simp at e3
  · simp at e3
  · simp only [Option.some.injEq] at e3
    exact String.toList_inj.1 e3

/-! ## Examples, partly from the documentation -/

namespace Ex

example : (Workshift.new week 3).bind (·.repr week) = .ok "Workshift(3) of 'D' at 2017-01-04".toList := by decide +kernel

example : readWorkshift "Workshift(3, my (own), schedule) of 3x'8H' at 2017-01-04 16:00".toList =
    some (3, some "my (own), schedule".toList, ⟨3, some 8, .H, date 2017 1 4 + 16 * nsHour⟩) := by decide +kernel

example : (Interval.new week (3, 9)).bind (·.repr week) =
    .ok "Interval((3, 9)): 'D' at 2017-01-04 -> 'D' at 2017-01-10 [7]".toList := by decide +kernel

example : (Interval.newVoid week (10, 9)).bind (·.repr week) = .ok "Interval ((10, 9)): void [0]".toList := by decide +kernel

example : week.compactStr = "Timeboard of 'D': 2017-01-01 -> 2017-01-31".toList := by decide +kernel

/-- Fiscal quarters and years are labelled by the year in which they end. -/
example : (Base.Q 2).periodText ((Base.Q 2).ordOf (date 2016 5 3)) = "2017Q1".toList ∧
    (Base.A 5).periodText ((Base.A 5).ordOf (date 2016 8 3)) = "2017".toList ∧
    (Base.W 6).periodText ((Base.W 6).ordOf (date 2017 9 27)) = "2017-09-25/2017-10-01".toList := by decide +kernel

end Ex

end TB
