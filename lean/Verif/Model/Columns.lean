import Verif.Model.Calendars
/-!
# Columns of the data frame

`Timeboard.to_dataframe` (`timeboard/timeboard.py` 320-368) adds a column per schedule to the data frame of the
timeline (`timeboard/core.py` 1115-1125) by assignment `df[activity] = ...`, which replaces a column with the same
name if there is one.
-/
namespace TB

variable {L : Type}

/-- A value in the data frame. -/
inductive Cell (L : Type) where
  | time (t : Time)
  | number (n : Int)
  | label (l : L)
  | duty (b : Bool)
  deriving DecidableEq

/-- The columns of the timeline's data frame ('loc' is the index): core.py 1115-1125. -/
def Row.columns (r : Row L) : Dict String (Cell L) :=
  [("ws_ref", .time r.wsRef), ("start", .time r.start), ("duration", .number r.duration), ("end", .time r.stop),
   ("label", .label r.label)]

/-- The columns after the assignments in the loop over the schedules: timeboard.py 363-368. -/
def TbRow.columns (r : TbRow L) : Dict String (Cell L) :=
  r.row.columns.update (r.duty.map (fun p => (p.1, .duty p.2)))

/-- `df.loc[loc]` of the data frame `df = tb.to_dataframe(first_ws, last_ws)`: every row with its columns. -/
def Timeboard.dataframe (tb : Timeboard L) (firstWs lastWs : Option Int) :
    Except Err (List (Int × Dict String (Cell L))) :=
  (tb.toDataframe firstWs lastWs).map (fun rows => rows.map (fun r => (r.row.loc, r.columns)))

end TB
