import Verif.Lemmas.Labels
import Verif.Lemmas.Renamed2
import Verif.Props.Schedules
import Verif.Lemmas.Construct
import Verif.Examples.Boards
/-! Properties C90: labels are taken from the layout and the amendments, and are opaque to everything but selectors and work time. -/
namespace TB
variable {L M : Type}

theorem mem_ilocAssign {x : L} : ∀ {items : List (Int × L)} {ls : List L}, x ∈ ilocAssign ls items → x ∈ ls ∨ ∃ k, (k, x) ∈ items
  | [], _, h => .inl h
  | p :: ps, ls, h => by
    rcases mem_ilocAssign (items := ps) (ls := ls.set p.1.toNat p.2) h with h | ⟨k, h⟩
    · rcases List.mem_or_eq_of_mem_set h with h | h
      · exact .inl h
      · exact .inr ⟨p.1, by rw [h]; exact List.mem_cons_self⟩
    · exact .inr ⟨k, List.mem_cons_of_mem _ h⟩

theorem Timeline.amendLocate_mem {tl : Timeline L} {r : Bool} : ∀ {items : List (Time × L)} {acc out : List (Int × L)}, tl.amendLocate r items acc = .ok out →
    ∀ k x, (k, x) ∈ out → (k, x) ∈ acc ∨ ∃ t, (t, x) ∈ items := by
  intro items
  induction items with
  | nil => intro acc out h k x hx; cases h; exact .inl hx
  | cons p items ih =>
    intro acc out h k x hx
    obtain ⟨t, v⟩ := p
    simp only [Timeline.amendLocate] at h
    cases hp : tl.wsPosition t with
    | error e =>
      rw [hp] at h
      cases e
      case outOfBounds =>
        simp only at h
        split at h
        · cases h
        · rcases ih h k x hx with h | ⟨s, h⟩
          · exact .inl h
          · exact .inr ⟨s, List.mem_cons_of_mem _ h⟩
      all_goals cases h
    | ok loc =>
      rw [hp] at h
      simp only at h
      split at h
      · cases h
      · rcases ih h k x hx with h | ⟨s, h⟩
        · rcases List.mem_append.1 h with h | h
          · exact .inl h
          · simp only [List.mem_singleton, Prod.mk.injEq] at h
            exact .inr ⟨t, by rw [h.2]; exact List.mem_cons_self⟩
        · exact .inr ⟨s, List.mem_cons_of_mem _ h⟩

/-- **C90**, where labels come from: the label of a workshift is offered by the layout, or is the value of an amendment, or is the
default label. -/
theorem C90_from_layout {a : Args L} {heap heap' : Heap L} {tb : Timeboard L} (h : Timeboard.new a heap = .ok (tb, heap'))
    {k : Int} {s : Option (Schedule L)} {w : Workshift L} (hw : Workshift.new tb k s = .ok w) :
    a.layout.Offers heap w.label ∨ (∃ t, (t, w.label) ∈ a.amendments) ∨ (w.label = a.defaultLabel ∧ ¬ a.layout.Filled heap) := by
  have hx : w.label ∈ tb.timeline.labels := by
    unfold Workshift.new at hw
    cases hl : tb.timeline.label k with
    | error e => rw [hl] at hw; cases hw
    | ok l => rw [hl] at hw; cases hw; exact Timeline.label_mem hl
  obtain ⟨org, f, tl0, tl, ho, _, hf, htl, ham, rfl⟩ := Timeboard.new_ok_iff.1 h
  have hx' : w.label ∈ tl.labels := hx
  unfold Timeline.amend at ham
  cases hal : tl0.amendLocate false a.amendments [] with
  | error e => rw [hal] at ham; cases ham
  | ok items =>
    rw [hal] at ham
    cases ham
    rcases mem_ilocAssign hx' with hm | ⟨j, hm⟩
    · have hmade := makeOrganizer_made ho (Layout.made_of_offers (heap := heap))
      simp only [Timeline.new] at htl
      cases hr : Layout.run f org { first := 0, last := (f.n : Int) - 1 } { labels := fun _ => a.defaultLabel, mask := fun _ => true, heap := heap } with
      | error e => rw [hr] at htl; cases htl
      | ok st =>
        rw [hr] at htl
        cases htl
        simp only [List.mem_map] at hm
        obtain ⟨i, hi, e⟩ := hm
        unfold nonzeroMask at hi
        obtain ⟨hi1, hi2⟩ := List.mem_filter.1 hi
        simp only [List.mem_map, List.mem_range] at hi1
        obtain ⟨n, hn, rfl⟩ := hi1
        have hle : (0 : Int) ≤ (f.n : Int) - 1 := by omega
        by_cases hfill : a.layout.Filled heap
        · have := (Layout.run_gives f org hmade _ _ _ hle Heap.good_of_offers hr).2.2 hfill n (by simp) (by simp only; omega) hi2
          rw [e] at this
          exact .inl this
        · have hmade2 : org.Made a.layout.UsesRP (fun x => a.layout.Offers heap x ∨ x = a.defaultLabel) (a.layout.Filled heap) :=
            ⟨fun x hx => .inl (hmade.label x hx), fun xs hx => ⟨fun x hm => .inl ((hmade.list xs hx).1 x hm), (hmade.list xs hx).2⟩, hmade.rp, hmade.elems⟩
          have hg : Heap.Good a.layout.UsesRP (fun x => a.layout.Offers heap x ∨ x = a.defaultLabel) (a.layout.Filled heap) heap :=
            fun id hi => ⟨fun x hx => .inl (.inr (.inr ⟨id, hi, .inl hx⟩)), fun x hx => .inl (.inr (.inr ⟨id, hi, .inr hx⟩)), fun h => h.2.2 id hi⟩
          have := (Layout.run_gives f org hmade2 _ _ _ hle hg hr).2.1 (fun _ => .inr rfl) n
          rw [e] at this
          rcases this with h | h
          · exact .inl h
          · exact .inr (.inr ⟨h, hfill⟩)
    · rcases Timeline.amendLocate_mem hal j w.label hm with h | h
      · cases h
      · exact .inr (.inl h)

/-- **C90**, other labels: with each label replaced by another one and the selector making the same decisions, the construction
fails with the same error or gives the same timeboard with the labels replaced. -/
theorem C90_renamed (g : L → M) (a : Args L) (sel : M → Bool) (hsel : ∀ x, sel (g x) = a.selector x) (heap : Heap L) :
    Corresponds (fun p q => p.1.Renamed g q.1 ∧ q.2 = p.2.map g) (Timeboard.new a heap) (Timeboard.new (a.map g sel) (heap.map g)) :=
  Timeboard.new_renamed a sel hsel heap

/-- **C90**, timeboards which differ in the labels only: lookups, schedules and data frames correspond. -/
theorem C90_lookup {g : L → M} {tb : Timeboard L} {tb' : Timeboard M} (h : tb.Renamed g tb') :
    tb'.startTime = tb.startTime ∧ tb'.endTime = tb.endTime ∧
    (∀ k o o', OptRenamed g o o' → Corresponds (Workshift.Renamed g) (Workshift.new tb k o) (Workshift.new tb' k o')) ∧
    (∀ t o o', OptRenamed g o o' → Corresponds (Workshift.Renamed g) (tb.getWorkshift t o) (tb'.getWorkshift t o')) ∧
    (∀ ref n p c cl o o', OptRenamed g o o' → Corresponds (Interval.Renamed g) (tb.getInterval ref n p c cl o) (tb'.getInterval ref n p c cl o')) ∧
    (∀ b o o', OptRenamed g o o' → Corresponds (Interval.Renamed g) (Interval.new tb b o) (Interval.new tb' b o')) ∧
    (∀ ref, Corresponds (CallResult.Renamed g) (tb.call1 ref) (tb'.call1 ref)) ∧
    (∀ ref n p c cl o o', OptRenamed g o o' → Corresponds (CallResult.Renamed g) (tb.callN ref n p c cl o) (tb'.callN ref n p c cl o')) ∧
    (∀ name sel0 sel, (∀ x, sel (g x) = sel0 x) → Corresponds (fun p q => p.1.Renamed g q.1 ∧ p.2.Renamed g q.2) (tb.addSchedule name sel0) (tb'.addSchedule name sel)) ∧
    (∀ s s', s.Renamed g s' → Corresponds (Timeboard.Renamed g) (tb.dropSchedule s) (tb'.dropSchedule s')) ∧
    (∀ x y, tb'.toDataframe x y = (tb.toDataframe x y).map (List.map (TbRow.map g))) := by
  have hs := h.sim
  refine ⟨?_, ?_, fun k o o' => hs.workshift k, fun t o o' => hs.getWorkshift t, fun ref n p c cl o o' => hs.getInterval ref n p c cl,
    fun b o o' => hs.interval b false, hs.call1, fun ref n p c cl o o' => hs.callN ref n p c cl, ?_, ?_, hs.toDataframe⟩
  · unfold Timeboard.startTime; rw [h.frame]
  · unfold Timeboard.endTime; rw [h.frame]
  · intro name sel0 sel hsel
    have := hs.addSchedule name hsel
    generalize tb.addSchedule name sel0 = x at this ⊢
    generalize tb'.addSchedule name sel = y at this ⊢
    cases this with
    | error e => exact .error e
    | ok r => exact .ok ⟨r.1, r.2.renamed⟩
  · intro s s' hss
    have := hs.dropSchedule hss
    generalize tb.dropSchedule s = x at this ⊢
    generalize tb'.dropSchedule s' = y at this ⊢
    cases this with
    | error e => exact .error e
    | ok r => exact .ok r.renamed

/-- **C90**, workshifts with other labels: times, duty and stepping are the same; the work time too if the numbers are. -/
theorem C90_workshifts {g : L → M} {tb : Timeboard L} {tb' : Timeboard M} (h : tb.Renamed g tb') {w : Workshift L} {w' : Workshift M} (hw : w.Renamed g w')
    {o : Option (Schedule L)} {o' : Option (Schedule M)} (ho : OptRenamed g o o') :
    w'.startTime tb' = w.startTime tb ∧ w'.endTime tb' = w.endTime tb ∧ w'.duration tb' = w.duration tb ∧ w'.toTimestamp tb' = w.toTimestamp tb ∧
    w'.isOnDuty tb' o' = w.isOnDuty tb o ∧ w'.isOffDuty tb' o' = w.isOffDuty tb o ∧
    (∀ n d, Corresponds (Workshift.Renamed g) (w.rollforward tb n d o) (w'.rollforward tb' n d o')) ∧
    (∀ n d, Corresponds (Workshift.Renamed g) (w.rollback tb n d o) (w'.rollback tb' n d o')) ∧
    (∀ num num', (∀ x, num' (g x) = num x) → ∀ d, w'.worktime tb' num' d o' = w.worktime tb num d o) := by
  have hs := h.sim
  obtain ⟨t1, t2, t3, t4⟩ := hw.times hs
  exact ⟨t1, t2, t3, t4, (hw.isOnDuty hs ho).1, (hw.isOnDuty hs ho).2, fun n d => hw.rollforward hs n d ho, fun n d => hw.rollback hs n d ho,
    fun num num' hn d => hw.worktime hs hn d ho⟩

/-- **C90**, intervals with other labels: everything is the same but the labels; the work time too if the numbers are. -/
theorem C90_intervals {g : L → M} {tb : Timeboard L} {tb' : Timeboard M} (h : tb.Renamed g tb') {v u : Interval L} {v' u' : Interval M} (hv : v.Renamed g v') (hu : u.Renamed g u')
    {o : Option (Schedule L)} {o' : Option (Schedule M)} (ho : OptRenamed g o o') :
    v'.startTime tb' = v.startTime tb ∧ v'.endTime tb' = v.endTime tb ∧ v'.len = v.len ∧
    (∀ d, Corresponds (ListRenamed (Workshift.Renamed g)) (v.workshifts tb d o) (v'.workshifts tb' d o')) ∧
    (∀ n d, Corresponds (Workshift.Renamed g) (v.nth tb n d o) (v'.nth tb' n d o')) ∧
    (∀ d, v'.count tb' d o' = v.count tb d o) ∧
    Corresponds (Interval.Renamed g) (v.overlap tb u o) (v'.overlap tb' u' o') ∧
    (∀ d, v'.whatPortionOf tb' u' d o' = v.whatPortionOf tb u d o) ∧
    (∀ d, v'.totalDuration tb' d o' = v.totalDuration tb d o) ∧
    (∀ f d, v'.countPeriods tb' f d o' = v.countPeriods tb f d o) ∧
    (∀ num num', (∀ x, num' (g x) = num x) → ∀ d, v'.worktime tb' num' d o' = v.worktime tb num d o) := by
  have hs := h.sim
  obtain ⟨t1, t2, t3⟩ := hv.times hs
  exact ⟨t1, t2, t3, fun d => hv.workshifts hs d ho, fun n d => hv.nth hs n d ho, fun d => hv.count hs d ho, hv.overlap hs hu ho,
    fun d => hv.whatPortionOf hs hu d ho, fun d => hv.totalDuration hs d ho, fun f d => hv.countPeriods hs f d ho,
    fun num num' hn d => hv.worktime hs hn d ho⟩

/-! The hypotheses are met: the layout of the week is filled; a structure without elements leaves the default label; the week with
texts for labels. -/
namespace Ex

theorem week_filled : weekArgs.layout.Filled heap0 := by
  have hw : ∀ x, Layout.Within x weekArgs.layout → x = weekArgs.layout ∨ x = .pattern (.list [8, 8, 8, 8, 8, 0, 0]) := by
    intro x hx
    cases hx with
    | here => exact .inl rfl
    | elem h1 h2 =>
      simp only [List.mem_singleton] at h1
      subst h1
      cases h2
      exact .inr rfl
  refine ⟨fun cut h => ?_, fun h => ?_, fun id h => ?_⟩
  · rcases hw _ h with e | e <;> cases e
  · rcases hw _ h with e | e <;> cases e
  · rcases h with h | ⟨c, h⟩ <;> rcases hw _ h with e | e <;> cases e

/-- No workshift of the week has a label other than those of the pattern and of the amendments. -/
example (k : Int) (w : Workshift Int) (h : Workshift.new week k = .ok w) : weekArgs.layout.Offers heap0 w.label ∨ ∃ t, (t, w.label) ∈ weekArgs.amendments := by
  obtain ⟨heap', hb⟩ := board_ok weekArgs (by decide +kernel)
  rcases C90_from_layout hb h with h | h | h
  · exact .inl h
  · exact .inr h
  · exact absurd week_filled h.2

/- A structure without elements: the default label. -/
#guard (match Timeboard.new { weekArgs with layout := .organizer (.marker { each := fW, ats := [] }) [], amendments := [], defaultLabel := 77 } heap0 with
  | .ok (tb, _) => tb.timeline.labels.all (· == 77)
  | .error _ => false)

/-- A text for a label. -/
def asText (n : Int) : String := if n = 0 then "free" else if n = 8 then "full day" else "part of a day"

theorem asText_free (n : Int) : (asText n != "free") = (n != 0) := by
  unfold asText
  by_cases h : n = 0
  · simp [h]
  · rw [if_neg h, show (n != 0) = true by simp [h]]
    split <;> decide

/-- The week with texts for labels. -/
theorem week_texts : ∃ r, Timeboard.new (weekArgs.map asText (fun t => t != "free")) (heap0.map asText) = .ok r ∧ week.Renamed asText r.1 := by
  have h := C90_renamed asText weekArgs (fun t : String => t != "free") asText_free heap0
  obtain ⟨heap', hb⟩ := board_ok weekArgs (by decide +kernel)
  rw [hb] at h
  unfold week
  generalize board weekArgs _ = b at h ⊢
  generalize Timeboard.new (weekArgs.map asText (fun t => t != "free")) (heap0.map asText) = r at h ⊢
  cases h with
  | ok r => exact ⟨_, rfl, r.1⟩

end Ex
end TB
