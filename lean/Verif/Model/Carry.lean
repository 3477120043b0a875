import Verif.Model.Interval
/-! Workshifts and intervals of one timeboard as arguments of methods of another one. -/
namespace TB
variable {L K : Type}

/-- `tb.get_workshift(ws)` for a workshift of the timeboard `src`: timeboard.py 438-496. The point in time is `ws.to_timestamp()` (timeboard.py 397, core.py
29-33), told by the timeboard to which the workshift belongs (workshift.py 119-133). -/
def Timeboard.getWorkshiftOf (tb : Timeboard L) (src : Timeboard K) (w : Workshift K) (schedule : Option (Schedule L) := none) : Except Err (Workshift L) :=
  match w.toTimestamp src with
  | .error e => .error e
  | .ok t => tb.getWorkshift t schedule

/-- `tb.get_interval((ws1, ws2))` for workshifts of the timeboard `src`: timeboard.py 498-788; each of them stands for its `to_timestamp()`, as above. -/
def Timeboard.getIntervalOf (tb : Timeboard L) (src : Timeboard K) (w1 w2 : Workshift K) (clip : Bool := true) (closed : String := "11")
    (schedule : Option (Schedule L) := none) : Except Err (Interval L) :=
  match w1.toTimestamp src with
  | .error e => .error e
  | .ok t1 => match w2.toTimestamp src with
    | .error e => .error e
    | .ok t2 => tb.getInterval (some (.pair (some t1) (some t2))) none none clip closed schedule

/-- `tb.get_interval((v.start_time, v.end_time))` for an interval of the timeboard `src` which is not void: timeboard.py 498-788, interval.py 168-190. (The
times of a void interval are `NaT`; the result then is the one of the pair of these.) -/
def Timeboard.getIntervalOver (tb : Timeboard L) (src : Timeboard K) (v : Interval K) (clip : Bool := true) (closed : String := "11")
    (schedule : Option (Schedule L) := none) : Except Err (Interval L) :=
  match v.startTime src with
  | .error e => .error e
  | .ok a => match v.endTime src with
    | .error e => .error e
    | .ok b => tb.getInterval (some (.pair a b)) none none clip closed schedule

/-- `Interval(tb, (ws1, ws2))` for workshifts of any timeboard: interval.py 11-63; a workshift stands for its position (14-15), and nothing tells to which
timeboard it belongs. -/
def Interval.ofWorkshifts (tb : Timeboard L) (w1 w2 : Workshift K) (schedule : Option (Schedule L) := none) : Except Err (Interval L) :=
  Interval.new tb (w1.loc, w2.loc) schedule

end TB
