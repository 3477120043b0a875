import Verif.Model.Layout
/-!
# The division of a span

What becomes of a span of base units under marks or a marker, by a program on lists: the base units are taken one after the other, a new
part is begun with each one in which a mark falls.  There are no searches in arrays, no slices, no differences of indexes.
-/
namespace TB

/-- The list is broken before every element with the property. -/
def groups (p : Int → Bool) : List Int → List (List Int)
  | [] => []
  | i :: is => match groups p is with
    | [] => [[i]]
    | g :: gs => if p (g.headD 0) then [i] :: g :: gs else (i :: g) :: gs

/-- The point in time falls in the base unit; in the last base unit of the frame only the first second is looked at. -/
def Frame.fallsIn (f : Frame) (i : Int) (t : Time) : Bool :=
  decide (f.unitStart i ≤ t ∧ if i = f.n - 1 then t < f.unitStart i + nsSec else t ≤ f.unitEnd i)

/-- A new part begins with each base unit, after the first one, in which a mark falls. -/
def Frame.divide (f : Frame) (s : Span) (marks : List Time) : List Span :=
  (groups (fun i => marks.any (f.fallsIn i)) (intRange s.first (s.last + 1))).map
    (fun g => { first := g.headD 0, last := g.getLastD 0 })

/-- The numbers of the base units missing from the first and from the last part. -/
def withSkips (left right : Int) (ss : List Span) : List Span :=
  ss.mapIdx (fun k x => { x with skipLeft := if k = 0 then left else 0, skipRight := if k + 1 = ss.length then right else 0 })

/-- How many base units, counted in steps of the multiplier and rounded up, the point in time is before the base unit. -/
def Frame.unitsBefore (f : Frame) (i : Int) (t : Time) : Int := -((f.freq.base.ordOf t - f.ord i) / f.freq.mult)

/-- How many base units, counted in steps of the multiplier and rounded down, the point in time is after the base unit. -/
def Frame.unitsAfter (f : Frame) (i : Int) (t : Time) : Int := (f.freq.base.ordOf t - f.ord i) / f.freq.mult

/-- The periods of the frequency, counted in steps of its multiplier from the one which contains `a`, up to the one which contains `b`. -/
def Freq.periodsOver (g : Freq) (a b : Time) : Frame :=
  { freq := g, o0 := g.base.ordOf a, n := ((g.base.ordOf b - g.base.ordOf a) / g.mult + 1).toNat }

/-- The points in time delivered by all rules of a marker. -/
def Marker.deliver (m : Marker) (bu : Freq) (pi : Frame) : Except Err (List Time) :=
  (m.ats.mapM (fun (how : Frame → Freq → Except Err (List Time)) => how pi bu)).map List.flatten

/-- The division of a span by marks or by a marker. -/
def Frame.cut (f : Frame) (s : Span) : Cut → Except Err (List Span)
  | .marks ts => .ok (f.divide s ts)
  | .marker m =>
    let a := f.unitStart s.first
    let b := f.unitEnd s.last
    if checkGroupbyFreq f.freq m.each = false then .error .unacceptablePeriod
    else if m.ats.isEmpty then
      let pi := m.each.periodsOver a b
      .ok (withSkips (f.unitsBefore s.first (pi.unitStart 0)) (f.unitsAfter s.last (pi.unitStart pi.n - 1))
        (f.divide s ((intRange 0 pi.n).map pi.unitStart)))
    else match m.deliver f.freq (m.each.periodsOver (a - getFreqDelta m.each) (b + getFreqDelta m.each)) with
      | .error e => .error e
      | .ok [] => .ok [{ first := s.first, last := s.last, skipLeft := -1, skipRight := -1 }]
      | .ok pts =>
        let left := match (pts.filter (fun t => decide (t ≤ a))).max? with
          | none => -1
          | some t => f.unitsBefore s.first t
        let right := match (pts.filter (fun t => decide (b ≤ t))).min? with
          | none => -1
          | some t => f.unitsAfter s.last (max b (t - nsSec))
        .ok (withSkips left right (f.divide s pts))

end TB
