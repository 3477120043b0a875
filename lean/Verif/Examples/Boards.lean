import Verif.Spec.Reachable
/-! Concrete timeboards used by the examples. -/
namespace TB.Ex
open TB

/-- No RememberingPattern has any labels. -/
def heap0 : Heap Int := fun _ => Cycle.start []

/-- The timeboard made with the given arguments. -/
def board (a : Args Int) (h : (Timeboard.new a heap0).isOk = true) : Timeboard Int :=
  match hm : Timeboard.new a heap0 with
  | .ok r => r.1
  | .error _ => by rw [hm] at h; cases h

theorem board_ok (a : Args Int) (h : (Timeboard.new a heap0).isOk = true) :
    ∃ heap', Timeboard.new a heap0 = .ok (board a h, heap') := by
  unfold board
  split
  · rename_i r hr; exact ⟨r.2, hr⟩
  · rename_i e he; rw [he] at h; cases h

theorem board_reachable (a : Args Int) (h : (Timeboard.new a heap0).isOk = true) : (board a h).Reachable := by
  obtain ⟨heap', h'⟩ := board_ok a h
  exact .new h'

def fD : Freq := Denom.D.freq
def fH : Freq := Denom.H.freq
def fM : Freq := Denom.M.freq
def fW : Freq := (Denom.W none).freq
def fQ : Freq := (Denom.Q none).freq
def fA : Freq := (Denom.A none).freq

/-- A standard week from Sunday 1 January 2017 to Tuesday 31 January 2017; 1 January 2017 is free anyway,
Monday 2 January is made a day off and Sunday 8 January a working day. -/
def weekArgs : Args Int where
  freq := fD
  start := date 2017 1 1
  stop := date 2017 1 31
  layout := .organizer (.marker { each := fW, ats := [] }) [.pattern (.list [8, 8, 8, 8, 8, 0, 0])]
  amendments := [(date 2017 1 2, 0), (date 2017 1 8 + 10 * nsHour, 7), (date 2018 1 1, 5)]
  selector := fun l => l != 0
  defaultLabel := 0

def week : Timeboard Int := board weekArgs (by decide +kernel)

theorem week_reachable : week.Reachable := board_reachable _ _

/-- Shifts of 10 and 14 hours from 8:00 and 18:00 each day, on base units of one hour; the shifts are
referred to by their end times, the worktime is given by the labels. -/
def shiftArgs : Args Int where
  freq := fH
  start := date 2017 10 30 + 8 * nsHour
  stop := date 2017 11 2 + 7 * nsHour
  layout := .organizer
    (.marks [date 2017 10 30 + 18 * nsHour, date 2017 10 31 + 8 * nsHour, date 2017 10 31 + 18 * nsHour,
             date 2017 11 1 + 8 * nsHour, date 2017 11 1 + 18 * nsHour]) [.label 10, .label 0, .label 6]
  selector := fun l => decide (l > 0)
  refEnd := true
  defaultLabel := -1
  worktimeSource := "labels"

def shifts : Timeboard Int := board shiftArgs (by decide +kernel)

theorem shifts_reachable : shifts.Reachable := board_reachable _ _

end TB.Ex
