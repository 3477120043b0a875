import Verif.Model.Calendar
/-! What the extension of weekends means, in terms of day numbers. -/
namespace TB

/-- The weekend consists of consecutive weekdays (0 is Monday, 6 precedes 0), at most six of them. -/
def ConsecutiveDays (weekend : List Int) : Prop :=
  weekend.length ≤ 6 ∧ ∃ w, ∀ (i : Nat) (h : i < weekend.length), weekend[i] = (w + i) % 7

/-- `e` is the first day after the weekend containing the day `h`. -/
def DayAfterWeekend (weekend : List Int) (h e : Int) : Prop :=
  h < e ∧ (∀ x, h ≤ x → x < e → weekday x ∈ weekend) ∧ weekday e ∉ weekend

/-- `e` is the last day before the weekend containing the day `h`. -/
def DayBeforeWeekend (weekend : List Int) (h e : Int) : Prop :=
  e < h ∧ (∀ x, e < x → x ≤ h → weekday x ∈ weekend) ∧ weekday e ∉ weekend

/-- Where the search for a day off instead of `h` begins, and in which direction it goes. -/
def SearchFrom (how : String) (weekend : List Int) (h e dir : Int) : Prop :=
  (how = "previous" ∧ DayBeforeWeekend weekend h e ∧ dir = -1) ∨
  (how = "next" ∧ DayAfterWeekend weekend h e ∧ dir = 1) ∨
  (how = "nearest" ∧ ∃ p n, DayBeforeWeekend weekend h p ∧ DayAfterWeekend weekend h n ∧
    ((h - p < n - h ∧ e = p ∧ dir = -1) ∨ (n - h ≤ h - p ∧ e = n ∧ dir = 1)))

/-- The pairs (holiday, added day), in turn: each added day is the first one not taken, looking in the direction from
the edge of the weekend; it is taken from now on. -/
inductive Extension (how : String) (weekend : List Int) : (Int → Prop) → List (Int × Int) → Prop where
  | nil {taken : Int → Prop} : Extension how weekend taken []
  | cons {taken : Int → Prop} {h e dir : Int} {j : Nat} {rest : List (Int × Int)} :
      SearchFrom how weekend h e dir →
      (∀ i : Nat, i < j → taken (e + dir * i)) →
      ¬ taken (e + dir * j) →
      Extension how weekend (fun y => taken y ∨ y = e + dir * j) rest →
      Extension how weekend taken ((h, e + dir * j) :: rest)

end TB
