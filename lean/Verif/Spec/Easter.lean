/-! The date of Easter by the algorithms of the literature, for comparison. -/
namespace TB

/-- Month and day of the Gregorian Easter by the anonymous algorithm as published by Meeus ("Astronomical Algorithms", chapter 8). -/
def gregorianEaster (y : Int) : Int × Int :=
  let a := y % 19
  let b := y / 100
  let c := y % 100
  let d := b / 4
  let e := b % 4
  let f := (b + 8) / 25
  let g := (b - f + 1) / 3
  let h := (19 * a + b - d - g + 15) % 30
  let i := c / 4
  let k := c % 4
  let l := (32 + 2 * e + 2 * i - h - k) % 7
  let m := (a + 11 * h + 22 * l) / 451
  ((h + l - 7 * m + 114) / 31, (h + l - 7 * m + 114) % 31 + 1)

/-- Month and day, in the Julian calendar, of the Julian Easter by the algorithm of Meeus. -/
def julianEaster (y : Int) : Int × Int :=
  let a := y % 4
  let b := y % 7
  let c := y % 19
  let d := (19 * c + 15) % 30
  let e := (2 * a + 4 * b - d + 34) % 7
  ((d + e + 114) / 31, (d + e + 114) % 31 + 1)

end TB
