import Verif.Conformance.Support
/-!
# `timeboard/tests/calendars/test_calendars_ru_us_uk.py`

Generated by `tools/conformance.py`.  One example per unit test: the statements of the test, performed by the
model, succeed.  These are checks of the model on single inputs, not proofs of properties.
-/
set_option linter.unusedVariables false
namespace TB.Conf

/- timeboard/tests/calendars/test_calendars_ru_us_uk.py 12: `TestCalendarsRU.test_calendar_RU_week8x5`. -/
#guard passes (do
    let x1 ← (ruCalendar true true).new none none false false none
    check 18 (decide (x1.startTime = (Period.ofTime (⟨none, .D, by decide⟩ : Freq) (ts 2005 1 1)).startTime))
    check 19 (decide (x1.endTime = (Period.ofTime (⟨none, .D, by decide⟩ : Freq) (ts 2021 12 31 23 59 59)).endTime))
    let x2 ← x1.getInterval (some (.point (ts 2005 1 1))) none (some (⟨none, .A none, by decide⟩ : Freq)) true "11" none
    let x3 ← x2.count x1 .on none
    check 27 (decide (x3 = 248))
    let x4 ← x1.getInterval (some (.point (ts 2006 1 1))) none (some (⟨none, .A none, by decide⟩ : Freq)) true "11" none
    let x5 ← x4.count x1 .on none
    check 27 (decide (x5 = 248))
    let x6 ← x1.getInterval (some (.point (ts 2007 1 1))) none (some (⟨none, .A none, by decide⟩ : Freq)) true "11" none
    let x7 ← x6.count x1 .on none
    check 27 (decide (x7 = 249))
    let x8 ← x1.getInterval (some (.point (ts 2008 1 1))) none (some (⟨none, .A none, by decide⟩ : Freq)) true "11" none
    let x9 ← x8.count x1 .on none
    check 27 (decide (x9 = 250))
    let x10 ← x1.getInterval (some (.point (ts 2009 1 1))) none (some (⟨none, .A none, by decide⟩ : Freq)) true "11" none
    let x11 ← x10.count x1 .on none
    check 27 (decide (x11 = 249))
    let x12 ← x1.getInterval (some (.point (ts 2010 1 1))) none (some (⟨none, .A none, by decide⟩ : Freq)) true "11" none
    let x13 ← x12.count x1 .on none
    check 27 (decide (x13 = 249))
    let x14 ← x1.getInterval (some (.point (ts 2011 1 1))) none (some (⟨none, .A none, by decide⟩ : Freq)) true "11" none
    let x15 ← x14.count x1 .on none
    check 27 (decide (x15 = 248))
    let x16 ← x1.getInterval (some (.point (ts 2012 1 1))) none (some (⟨none, .A none, by decide⟩ : Freq)) true "11" none
    let x17 ← x16.count x1 .on none
    check 27 (decide (x17 = 249))
    let x18 ← x1.getInterval (some (.point (ts 2013 1 1))) none (some (⟨none, .A none, by decide⟩ : Freq)) true "11" none
    let x19 ← x18.count x1 .on none
    check 27 (decide (x19 = 247))
    let x20 ← x1.getInterval (some (.point (ts 2014 1 1))) none (some (⟨none, .A none, by decide⟩ : Freq)) true "11" none
    let x21 ← x20.count x1 .on none
    check 27 (decide (x21 = 247))
    let x22 ← x1.getInterval (some (.point (ts 2015 1 1))) none (some (⟨none, .A none, by decide⟩ : Freq)) true "11" none
    let x23 ← x22.count x1 .on none
    check 27 (decide (x23 = 247))
    let x24 ← x1.getInterval (some (.point (ts 2016 1 1))) none (some (⟨none, .A none, by decide⟩ : Freq)) true "11" none
    let x25 ← x24.count x1 .on none
    check 27 (decide (x25 = 247))
    let x26 ← x1.getInterval (some (.point (ts 2017 1 1))) none (some (⟨none, .A none, by decide⟩ : Freq)) true "11" none
    let x27 ← x26.count x1 .on none
    check 27 (decide (x27 = 247))
    let x28 ← x1.getInterval (some (.point (ts 2018 1 1))) none (some (⟨none, .A none, by decide⟩ : Freq)) true "11" none
    let x29 ← x28.count x1 .on none
    check 27 (decide (x29 = 247))
    let x30 ← x1.getInterval (some (.point (ts 2019 1 1))) none (some (⟨none, .A none, by decide⟩ : Freq)) true "11" none
    let x31 ← x30.count x1 .on none
    check 27 (decide (x31 = 247))
    let x32 ← x1.getInterval (some (.point (ts 2015 1 1))) none (some (⟨none, .A none, by decide⟩ : Freq)) true "11" none
    let x33 ← x32.worktime x1 (fun (n : Int) => some (n : Rat)) .on none
    check 34 (decide (x33 = (1971 : Rat)))
    let x34 ← x1.getInterval (some (.point (ts 2016 1 1))) none (some (⟨none, .A none, by decide⟩ : Freq)) true "11" none
    let x35 ← x34.worktime x1 (fun (n : Int) => some (n : Rat)) .on none
    check 34 (decide (x35 = (1974 : Rat)))
    let x36 ← x1.getInterval (some (.point (ts 2017 1 1))) none (some (⟨none, .A none, by decide⟩ : Freq)) true "11" none
    let x37 ← x36.worktime x1 (fun (n : Int) => some (n : Rat)) .on none
    check 34 (decide (x37 = (1973 : Rat)))
    let x38 ← x1.getInterval (some (.point (ts 2018 1 1))) none (some (⟨none, .A none, by decide⟩ : Freq)) true "11" none
    let x39 ← x38.worktime x1 (fun (n : Int) => some (n : Rat)) .on none
    check 34 (decide (x39 = (1970 : Rat)))
    let x40 ← x1.getInterval (some (.point (ts 2019 1 1))) none (some (⟨none, .A none, by decide⟩ : Freq)) true "11" none
    let x41 ← x40.worktime x1 (fun (n : Int) => some (n : Rat)) .on none
    check 34 (decide (x41 = (1970 : Rat)))
    let x42 ← x1.call1 (.point (ts 2017 11 20))
    let x43 ← asWs x42
    let x44 ← x43.isOnDuty x1 none
    check 40 (x44)
    check 41 (decide (x43.label = 8))
    let x45 ← x1.call1 (.point (ts 2017 11 21))
    let x46 ← asWs x45
    let x47 ← x46.isOnDuty x1 none
    check 40 (x47)
    check 41 (decide (x46.label = 8))
    let x48 ← x1.call1 (.point (ts 2017 11 22))
    let x49 ← asWs x48
    let x50 ← x49.isOnDuty x1 none
    check 40 (x50)
    check 41 (decide (x49.label = 8))
    let x51 ← x1.call1 (.point (ts 2017 11 23))
    let x52 ← asWs x51
    let x53 ← x52.isOnDuty x1 none
    check 40 (x53)
    check 41 (decide (x52.label = 8))
    let x54 ← x1.call1 (.point (ts 2017 11 24))
    let x55 ← asWs x54
    let x56 ← x55.isOnDuty x1 none
    check 40 (x56)
    check 41 (decide (x55.label = 8))
    let x57 ← x1.call1 (.point (ts 2017 11 25))
    let x58 ← asWs x57
    let x59 ← x58.isOffDuty x1 none
    check 44 (x59)
    check 45 (decide (x58.label = 0))
    let x60 ← x1.call1 (.point (ts 2017 11 26))
    let x61 ← asWs x60
    let x62 ← x61.isOffDuty x1 none
    check 44 (x62)
    check 45 (decide (x61.label = 0))
    let x63 ← x1.call1 (.pair (some (ts 2017 11 20)) (some (ts 2017 11 26)))
    let x64 ← asIvl x63
    let x65 ← x64.worktime x1 (fun (n : Int) => some (n : Rat)) .on none
    check 46 (decide (x65 = (40 : Rat)))
    let x66 ← x1.call1 (.point (ts 2008 1 1))
    let x67 ← asWs x66
    let x68 ← x67.isOffDuty x1 none
    check 49 (x68)
    let x69 ← x1.call1 (.point (ts 2017 2 23))
    let x70 ← asWs x69
    let x71 ← x70.isOffDuty x1 none
    check 50 (x71)
    let x72 ← x1.call1 (.point (ts 2017 2 24))
    let x73 ← asWs x72
    let x74 ← x73.isOffDuty x1 none
    check 52 (x74)
    let x75 ← x1.call1 (.point (ts 2012 5 5))
    let x76 ← asWs x75
    let x77 ← x76.isOnDuty x1 none
    check 54 (x77)
    let x78 ← x1.call1 (.point (ts 2015 12 31))
    let x79 ← asWs x78
    let x80 ← x79.isOnDuty x1 none
    check 56 (x80)
    let x81 ← x1.call1 (.point (ts 2017 2 22))
    let x82 ← asWs x81
    check 58 (decide (x82.label = 7))
    pure ())

/- timeboard/tests/calendars/test_calendars_ru_us_uk.py 60: `TestCalendarsRU.test_calendar_RU_week8x5_31dec_off`. -/
#guard passes (do
    let x1 ← (ruCalendar false true).new none none false false none
    let x2 ← x1.call1 (.point (ts 2008 12 31))
    let x3 ← asWs x2
    let x4 ← x3.isOffDuty x1 none
    check 63 (x4)
    let x5 ← x1.call1 (.point (ts 2009 12 31))
    let x6 ← asWs x5
    let x7 ← x6.isOffDuty x1 none
    check 63 (x7)
    let x8 ← x1.call1 (.point (ts 2010 12 31))
    let x9 ← asWs x8
    let x10 ← x9.isOffDuty x1 none
    check 63 (x10)
    let x11 ← x1.call1 (.point (ts 2011 12 31))
    let x12 ← asWs x11
    let x13 ← x12.isOffDuty x1 none
    check 63 (x13)
    let x14 ← x1.call1 (.point (ts 2012 12 31))
    let x15 ← asWs x14
    let x16 ← x15.isOffDuty x1 none
    check 63 (x16)
    let x17 ← x1.call1 (.point (ts 2013 12 31))
    let x18 ← asWs x17
    let x19 ← x18.isOffDuty x1 none
    check 63 (x19)
    let x20 ← x1.call1 (.point (ts 2014 12 31))
    let x21 ← asWs x20
    let x22 ← x21.isOffDuty x1 none
    check 63 (x22)
    let x23 ← x1.call1 (.point (ts 2015 12 31))
    let x24 ← asWs x23
    let x25 ← x24.isOffDuty x1 none
    check 63 (x25)
    let x26 ← x1.call1 (.point (ts 2016 12 31))
    let x27 ← asWs x26
    let x28 ← x27.isOffDuty x1 none
    check 63 (x28)
    let x29 ← x1.call1 (.point (ts 2017 12 31))
    let x30 ← asWs x29
    let x31 ← x30.isOffDuty x1 none
    check 63 (x31)
    let x32 ← x1.call1 (.point (ts 2018 12 31))
    let x33 ← asWs x32
    let x34 ← x33.isOffDuty x1 none
    check 63 (x34)
    let x35 ← x1.call1 (.point (ts 2019 12 31))
    let x36 ← asWs x35
    let x37 ← x36.isOffDuty x1 none
    check 63 (x37)
    pure ())

/- timeboard/tests/calendars/test_calendars_ru_us_uk.py 65: `TestCalendarsRU.test_calendar_RU_week8x5_no_short_eves`. -/
#guard passes (do
    let x1 ← (ruCalendar true false).new none none false false none
    let x2 ← x1.call1 (.point (ts 2017 2 22))
    let x3 ← asWs x2
    check 67 (decide (x3.label = 8))
    pure ())

/- timeboard/tests/calendars/test_calendars_ru_us_uk.py 69: `TestCalendarsRU.test_calendar_RU_week8x5_custom_amds`. -/
#guard passes (do
    let x1 ← (ruCalendar true true).new none none false false (some [((ts 2017 2 22), 0), ((ts 2017 2 23), 8)])
    let x2 ← x1.call1 (.point (ts 2017 2 21))
    let x3 ← asWs x2
    let x4 ← x3.isOnDuty x1 none
    check 72 (x4)
    let x5 ← x1.call1 (.point (ts 2017 2 22))
    let x6 ← asWs x5
    let x7 ← x6.isOffDuty x1 none
    check 73 (x7)
    let x8 ← x1.call1 (.point (ts 2017 2 23))
    let x9 ← asWs x8
    let x10 ← x9.isOnDuty x1 none
    check 74 (x10)
    let x11 ← x1.call1 (.point (ts 2017 2 24))
    let x12 ← asWs x11
    let x13 ← x12.isOffDuty x1 none
    check 75 (x13)
    let x14 ← x1.call1 (.point (ts 2017 5 1))
    let x15 ← asWs x14
    let x16 ← x15.isOffDuty x1 none
    check 76 (x16)
    pure ())

/- timeboard/tests/calendars/test_calendars_ru_us_uk.py 78: `TestCalendarsRU.test_calendar_RU_week8x5_custom_amds_ambiguous`. -/
#guard passes (do
    let x1 ← (ruCalendar true true).new none none false false (some [((ts 2017 2 22 13), 0), ((ts 2017 2 23 15), 8)])
    let x2 ← x1.call1 (.point (ts 2017 2 21))
    let x3 ← asWs x2
    let x4 ← x3.isOnDuty x1 none
    check 87 (x4)
    let x5 ← x1.call1 (.point (ts 2017 2 22))
    let x6 ← asWs x5
    let x7 ← x6.isOffDuty x1 none
    check 88 (x7)
    let x8 ← x1.call1 (.point (ts 2017 2 23))
    let x9 ← asWs x8
    let x10 ← x9.isOnDuty x1 none
    check 89 (x10)
    let x11 ← x1.call1 (.point (ts 2017 2 24))
    let x12 ← asWs x11
    let x13 ← x12.isOffDuty x1 none
    check 90 (x13)
    let x14 ← x1.call1 (.point (ts 2017 5 1))
    let x15 ← asWs x14
    let x16 ← x15.isOffDuty x1 none
    check 91 (x16)
    pure ())

/- timeboard/tests/calendars/test_calendars_ru_us_uk.py 94: `TestCalendarsRU.test_calendar_RU_week8x5_only_custom_amds`. -/
#guard passes (do
    let x1 ← (ruCalendar true true).new none none false true (some [((ts 2017 2 22), 0), ((ts 2017 2 23), 8)])
    let x2 ← x1.call1 (.point (ts 2017 2 21))
    let x3 ← asWs x2
    let x4 ← x3.isOnDuty x1 none
    check 98 (x4)
    let x5 ← x1.call1 (.point (ts 2017 2 22))
    let x6 ← asWs x5
    let x7 ← x6.isOffDuty x1 none
    check 99 (x7)
    let x8 ← x1.call1 (.point (ts 2017 2 23))
    let x9 ← asWs x8
    let x10 ← x9.isOnDuty x1 none
    check 100 (x10)
    let x11 ← x1.call1 (.point (ts 2017 2 24))
    let x12 ← asWs x11
    let x13 ← x12.isOnDuty x1 none
    check 101 (x13)
    let x14 ← x1.call1 (.point (ts 2017 5 1))
    let x15 ← asWs x14
    let x16 ← x15.isOnDuty x1 none
    check 102 (x16)
    pure ())

/- timeboard/tests/calendars/test_calendars_ru_us_uk.py 105: `TestCalendarsRU.test_calendar_RU_week8x5_no_amds`. -/
#guard passes (do
    let x1 ← (ruCalendar true true).new none none true true (some [((ts 2017 2 22), 0), ((ts 2017 2 23), 8)])
    let x2 ← x1.call1 (.point (ts 2017 2 21))
    let x3 ← asWs x2
    let x4 ← x3.isOnDuty x1 none
    check 111 (x4)
    let x5 ← x1.call1 (.point (ts 2017 2 22))
    let x6 ← asWs x5
    let x7 ← x6.isOnDuty x1 none
    check 112 (x7)
    let x8 ← x1.call1 (.point (ts 2017 2 23))
    let x9 ← asWs x8
    let x10 ← x9.isOnDuty x1 none
    check 113 (x10)
    let x11 ← x1.call1 (.point (ts 2017 2 24))
    let x12 ← asWs x11
    let x13 ← x12.isOnDuty x1 none
    check 114 (x13)
    let x14 ← x1.call1 (.point (ts 2017 5 1))
    let x15 ← asWs x14
    let x16 ← x15.isOnDuty x1 none
    check 115 (x16)
    pure ())

/- timeboard/tests/calendars/test_calendars_ru_us_uk.py 117: `TestCalendarsRU.test_calendar_RU_week8x5_select_years`. -/
#guard passes (do
    let x1 ← (ruCalendar true true).new (some (ts 2010 1 1)) (some (ts 2015 12 31)) false false none
    check 120 (decide (x1.startTime = (ts 2010 1 1)))
    check 121 (decide (x1.endTime > (ts 2015 12 31 23 59 59)))
    check 122 (decide (x1.endTime < (ts 2016 1 1)))
    let x2 ← (ruCalendar true true).new (some (ts 2010 1 1)) (some (ts 2015 1 1)) false false none
    check 125 (decide (x2.startTime = (ts 2010 1 1)))
    check 126 (decide (x2.endTime > (ts 2015 1 1 23 59 59)))
    check 127 (decide (x2.endTime < (ts 2015 1 2)))
    pure ())

/- timeboard/tests/calendars/test_calendars_ru_us_uk.py 129: `TestCalendarsRU.test_calendar_RU_week8x5_OOB`. -/
#guard passes (do
    raises 130 [.outOfBounds] (do
      let x1 ← (ruCalendar true true).new (some (ts 1990 1 1)) none false false none
      pure ())
    raises 132 [.outOfBounds] (do
      let x2 ← (ruCalendar true true).new (some (ts 2008 1 1)) (some (ts 2050 12 31)) false false none
      pure ())
    pure ())

/- timeboard/tests/calendars/test_calendars_ru_us_uk.py 137: `TestCalendarsUS.test_calendar_US_week8x5`. -/
#guard passes (do
    let x1 ← (usCalendar [] true).new none none true false none
    let x2 ← x1.call1 (.point (ts 2010 12 31))
    let x3 ← asWs x2
    let x4 ← x3.isOnDuty x1 none
    let x5 ← x1.call1 (.point (ts 2011 1 17))
    let x6 ← asWs x5
    let x7 ← x6.isOnDuty x1 none
    let x8 ← x1.call1 (.point (ts 2011 2 21))
    let x9 ← asWs x8
    let x10 ← x9.isOnDuty x1 none
    let x11 ← x1.call1 (.point (ts 2011 5 30))
    let x12 ← asWs x11
    let x13 ← x12.isOnDuty x1 none
    let x14 ← x1.call1 (.point (ts 2011 7 4))
    let x15 ← asWs x14
    let x16 ← x15.isOnDuty x1 none
    let x17 ← x1.call1 (.point (ts 2011 9 5))
    let x18 ← asWs x17
    let x19 ← x18.isOnDuty x1 none
    let x20 ← x1.call1 (.point (ts 2011 10 10))
    let x21 ← asWs x20
    let x22 ← x21.isOnDuty x1 none
    let x23 ← x1.call1 (.point (ts 2011 11 11))
    let x24 ← asWs x23
    let x25 ← x24.isOnDuty x1 none
    let x26 ← x1.call1 (.point (ts 2011 11 24))
    let x27 ← asWs x26
    let x28 ← x27.isOnDuty x1 none
    let x29 ← x1.call1 (.point (ts 2011 11 25))
    let x30 ← asWs x29
    let x31 ← x30.isOnDuty x1 none
    let x32 ← x1.call1 (.point (ts 2011 12 26))
    let x33 ← asWs x32
    let x34 ← x33.isOnDuty x1 none
    check 145 ((x4) && (x7) && (x10) && (x13) && (x16) && (x19) && (x22) && (x25) && (x28) && (x31) && (x34))
    let x35 ← (usCalendar [] true).new none none false false none
    let x36 ← x35.call1 (.pair (some (ts 2017 12 4)) (some (ts 2017 12 10)))
    let x37 ← asIvl x36
    let x38 ← x37.worktime x35 (fun (n : Int) => some (n : Rat)) .on none
    check 149 (decide (x38 = (40 : Rat)))
    let x39 ← x35.call1 (.point (ts 2010 12 31))
    let x40 ← asWs x39
    let x41 ← x40.isOffDuty x35 none
    let x42 ← x35.call1 (.point (ts 2011 1 17))
    let x43 ← asWs x42
    let x44 ← x43.isOffDuty x35 none
    let x45 ← x35.call1 (.point (ts 2011 2 21))
    let x46 ← asWs x45
    let x47 ← x46.isOffDuty x35 none
    let x48 ← x35.call1 (.point (ts 2011 5 30))
    let x49 ← asWs x48
    let x50 ← x49.isOffDuty x35 none
    let x51 ← x35.call1 (.point (ts 2011 7 4))
    let x52 ← asWs x51
    let x53 ← x52.isOffDuty x35 none
    let x54 ← x35.call1 (.point (ts 2011 9 5))
    let x55 ← asWs x54
    let x56 ← x55.isOffDuty x35 none
    let x57 ← x35.call1 (.point (ts 2011 10 10))
    let x58 ← asWs x57
    let x59 ← x58.isOffDuty x35 none
    let x60 ← x35.call1 (.point (ts 2011 11 11))
    let x61 ← asWs x60
    let x62 ← x61.isOffDuty x35 none
    let x63 ← x35.call1 (.point (ts 2011 11 24))
    let x64 ← asWs x63
    let x65 ← x64.isOffDuty x35 none
    let x66 ← x35.call1 (.point (ts 2011 11 25))
    let x67 ← asWs x66
    let x68 ← x67.isOffDuty x35 none
    let x69 ← x35.call1 (.point (ts 2011 12 26))
    let x70 ← asWs x69
    let x71 ← x70.isOffDuty x35 none
    check 151 ((x41) && (x44) && (x47) && (x50) && (x53) && (x56) && (x59) && (x62) && (x65) && (x68) && (x71))
    let x72 ← x1.getInterval (some (.point (ts 2011 1 1))) none (some (⟨none, .A none, by decide⟩ : Freq)) true "11" none
    let x73 ← x72.count x1 .on none
    let x74 ← x35.getInterval (some (.point (ts 2011 1 1))) none (some (⟨none, .A none, by decide⟩ : Freq)) true "11" none
    let x75 ← x74.count x35 .on none
    check 152 (decide (x73 = ((x75 + 11) - 1)))
    let x76 ← x35.call1 (.point (ts 2010 12 31))
    let x77 ← asWs x76
    let x78 ← x77.isOffDuty x35 none
    check 157 (x78)
    let x79 ← x35.call1 (.point (ts 2018 12 5))
    let x80 ← asWs x79
    let x81 ← x80.isOffDuty x35 none
    check 160 (x81)
    let x82 ← x35.call1 (.point (ts 2018 12 24))
    let x83 ← asWs x82
    let x84 ← x83.isOffDuty x35 none
    check 161 (x84)
    let x85 ← x35.call1 (.point (ts 2018 12 26))
    let x86 ← asWs x85
    let x87 ← x86.isOffDuty x35 none
    check 162 (x87)
    pure ())

/- timeboard/tests/calendars/test_calendars_ru_us_uk.py 164: `TestCalendarsUS.test_calendar_US_week8x5_exclusions`. -/
#guard passes (do
    let x1 ← (usCalendar ["independence", "christmas", "black_friday", "one_off", "xmas_additional_day"] true).new none none false false none
    let x2 ← x1.call1 (.point (ts 2011 7 4))
    let x3 ← asWs x2
    let x4 ← x3.isOnDuty x1 none
    check 174 (x4)
    let x5 ← x1.call1 (.point (ts 2011 11 25))
    let x6 ← asWs x5
    let x7 ← x6.isOnDuty x1 none
    check 175 (x7)
    let x8 ← x1.call1 (.point (ts 2011 12 25))
    let x9 ← asWs x8
    let x10 ← x9.isOffDuty x1 none
    check 176 (x10)
    let x11 ← x1.call1 (.point (ts 2011 12 26))
    let x12 ← asWs x11
    let x13 ← x12.isOnDuty x1 none
    check 177 (x13)
    let x14 ← x1.call1 (.point (ts 2018 12 24))
    let x15 ← asWs x14
    let x16 ← x15.isOnDuty x1 none
    check 178 (x16)
    let x17 ← x1.call1 (.point (ts 2018 12 26))
    let x18 ← asWs x17
    let x19 ← x18.isOnDuty x1 none
    check 179 (x19)
    pure ())

/- timeboard/tests/calendars/test_calendars_ru_us_uk.py 181: `TestCalendarsUS.test_calendar_US_week8x5_short_weekends`. -/
#guard passes (do
    let x1 ← (usCalendar [] false).new none none false false none
    let x2 ← x1.call1 (.point (ts 2010 12 31))
    let x3 ← asWs x2
    let x4 ← x3.isOnDuty x1 none
    check 188 (x4)
    let x5 ← x1.call1 (.point (ts 2011 7 4))
    let x6 ← asWs x5
    let x7 ← x6.isOffDuty x1 none
    check 189 (x7)
    let x8 ← x1.call1 (.point (ts 2011 12 25))
    let x9 ← asWs x8
    let x10 ← x9.isOffDuty x1 none
    check 190 (x10)
    let x11 ← x1.call1 (.point (ts 2011 12 26))
    let x12 ← asWs x11
    let x13 ← x12.isOnDuty x1 none
    check 191 (x13)
    pure ())

/- timeboard/tests/calendars/test_calendars_ru_us_uk.py 193: `TestCalendarsUS.test_calendar_US_week8x5_shortened`. -/
#guard passes (do
    let x1 ← (usCalendar [] true).new (some (ts 2011 1 1)) (some (ts 2011 11 30)) true false none
    let x2 ← x1.call1 (.point (ts 2011 1 17))
    let x3 ← asWs x2
    let x4 ← x3.isOnDuty x1 none
    let x5 ← x1.call1 (.point (ts 2011 2 21))
    let x6 ← asWs x5
    let x7 ← x6.isOnDuty x1 none
    let x8 ← x1.call1 (.point (ts 2011 5 30))
    let x9 ← asWs x8
    let x10 ← x9.isOnDuty x1 none
    let x11 ← x1.call1 (.point (ts 2011 7 4))
    let x12 ← asWs x11
    let x13 ← x12.isOnDuty x1 none
    let x14 ← x1.call1 (.point (ts 2011 9 5))
    let x15 ← asWs x14
    let x16 ← x15.isOnDuty x1 none
    let x17 ← x1.call1 (.point (ts 2011 10 10))
    let x18 ← asWs x17
    let x19 ← x18.isOnDuty x1 none
    let x20 ← x1.call1 (.point (ts 2011 11 11))
    let x21 ← asWs x20
    let x22 ← x21.isOnDuty x1 none
    let x23 ← x1.call1 (.point (ts 2011 11 24))
    let x24 ← asWs x23
    let x25 ← x24.isOnDuty x1 none
    let x26 ← x1.call1 (.point (ts 2011 11 25))
    let x27 ← asWs x26
    let x28 ← x27.isOnDuty x1 none
    check 200 ((x4) && (x7) && (x10) && (x13) && (x16) && (x19) && (x22) && (x25) && (x28))
    let x29 ← (usCalendar [] true).new (some (ts 2011 1 1)) (some (ts 2011 11 30)) false false none
    let x30 ← x29.call1 (.point (ts 2011 1 17))
    let x31 ← asWs x30
    let x32 ← x31.isOffDuty x29 none
    let x33 ← x29.call1 (.point (ts 2011 2 21))
    let x34 ← asWs x33
    let x35 ← x34.isOffDuty x29 none
    let x36 ← x29.call1 (.point (ts 2011 5 30))
    let x37 ← asWs x36
    let x38 ← x37.isOffDuty x29 none
    let x39 ← x29.call1 (.point (ts 2011 7 4))
    let x40 ← asWs x39
    let x41 ← x40.isOffDuty x29 none
    let x42 ← x29.call1 (.point (ts 2011 9 5))
    let x43 ← asWs x42
    let x44 ← x43.isOffDuty x29 none
    let x45 ← x29.call1 (.point (ts 2011 10 10))
    let x46 ← asWs x45
    let x47 ← x46.isOffDuty x29 none
    let x48 ← x29.call1 (.point (ts 2011 11 11))
    let x49 ← asWs x48
    let x50 ← x49.isOffDuty x29 none
    let x51 ← x29.call1 (.point (ts 2011 11 24))
    let x52 ← asWs x51
    let x53 ← x52.isOffDuty x29 none
    let x54 ← x29.call1 (.point (ts 2011 11 25))
    let x55 ← asWs x54
    let x56 ← x55.isOffDuty x29 none
    check 202 ((x32) && (x35) && (x38) && (x41) && (x44) && (x47) && (x50) && (x53) && (x56))
    let x57 ← x1.getInterval none none none true "11" none
    let x58 ← x57.count x1 .on none
    let x59 ← x29.getInterval none none none true "11" none
    let x60 ← x59.count x29 .on none
    check 203 (decide (x58 = (x60 + 9)))
    pure ())

/- timeboard/tests/calendars/test_calendars_ru_us_uk.py 207: `TestCalendarsUS.test_calendar_US_week8x5_custom_amds`. -/
#guard passes (do
    let x1 ← (usCalendar [] true).new none none false false (some [((ts 2011 1 18), 0), ((ts 2011 12 26), 8)])
    let x2 ← x1.call1 (.point (ts 2011 1 18))
    let x3 ← asWs x2
    let x4 ← x3.isOffDuty x1 none
    check 216 (x4)
    let x5 ← x1.call1 (.point (ts 2011 7 4))
    let x6 ← asWs x5
    let x7 ← x6.isOffDuty x1 none
    check 217 (x7)
    let x8 ← x1.call1 (.point (ts 2011 12 25))
    let x9 ← asWs x8
    let x10 ← x9.isOffDuty x1 none
    check 218 (x10)
    let x11 ← x1.call1 (.point (ts 2011 12 26))
    let x12 ← asWs x11
    let x13 ← x12.isOnDuty x1 none
    check 219 (x13)
    pure ())

/- timeboard/tests/calendars/test_calendars_ru_us_uk.py 235: `TestCalendarsUK.test_calendar_UK_week8x5_nirl`. -/
#guard passes (do
    let x1 ← (ukCalendar "northern_ireland" [] true).new none none true false none
    let x2 ← x1.call1 (.point (ts 2016 1 1))
    let x3 ← asWs x2
    let x4 ← x3.isOnDuty x1 none
    let x5 ← x1.call1 (.point (ts 2016 3 17))
    let x6 ← asWs x5
    let x7 ← x6.isOnDuty x1 none
    let x8 ← x1.call1 (.point (ts 2016 3 25))
    let x9 ← asWs x8
    let x10 ← x9.isOnDuty x1 none
    let x11 ← x1.call1 (.point (ts 2016 3 28))
    let x12 ← asWs x11
    let x13 ← x12.isOnDuty x1 none
    let x14 ← x1.call1 (.point (ts 2016 5 2))
    let x15 ← asWs x14
    let x16 ← x15.isOnDuty x1 none
    let x17 ← x1.call1 (.point (ts 2016 5 30))
    let x18 ← asWs x17
    let x19 ← x18.isOnDuty x1 none
    let x20 ← x1.call1 (.point (ts 2016 7 12))
    let x21 ← asWs x20
    let x22 ← x21.isOnDuty x1 none
    let x23 ← x1.call1 (.point (ts 2016 8 29))
    let x24 ← asWs x23
    let x25 ← x24.isOnDuty x1 none
    let x26 ← x1.call1 (.point (ts 2016 12 26))
    let x27 ← asWs x26
    let x28 ← x27.isOnDuty x1 none
    let x29 ← x1.call1 (.point (ts 2016 12 27))
    let x30 ← asWs x29
    let x31 ← x30.isOnDuty x1 none
    check 242 ((x4) && (x7) && (x10) && (x13) && (x16) && (x19) && (x22) && (x25) && (x28) && (x31))
    let x32 ← (ukCalendar "northern_ireland" [] true).new none none false false none
    let x33 ← x32.call1 (.pair (some (ts 2017 12 4)) (some (ts 2017 12 10)))
    let x34 ← asIvl x33
    let x35 ← x34.worktime x32 (fun (n : Int) => some (n : Rat)) .on none
    check 246 (decide (x35 = (40 : Rat)))
    let x36 ← x32.call1 (.point (ts 2016 1 1))
    let x37 ← asWs x36
    let x38 ← x37.isOffDuty x32 none
    let x39 ← x32.call1 (.point (ts 2016 3 17))
    let x40 ← asWs x39
    let x41 ← x40.isOffDuty x32 none
    let x42 ← x32.call1 (.point (ts 2016 3 25))
    let x43 ← asWs x42
    let x44 ← x43.isOffDuty x32 none
    let x45 ← x32.call1 (.point (ts 2016 3 28))
    let x46 ← asWs x45
    let x47 ← x46.isOffDuty x32 none
    let x48 ← x32.call1 (.point (ts 2016 5 2))
    let x49 ← asWs x48
    let x50 ← x49.isOffDuty x32 none
    let x51 ← x32.call1 (.point (ts 2016 5 30))
    let x52 ← asWs x51
    let x53 ← x52.isOffDuty x32 none
    let x54 ← x32.call1 (.point (ts 2016 7 12))
    let x55 ← asWs x54
    let x56 ← x55.isOffDuty x32 none
    let x57 ← x32.call1 (.point (ts 2016 8 29))
    let x58 ← asWs x57
    let x59 ← x58.isOffDuty x32 none
    let x60 ← x32.call1 (.point (ts 2016 12 26))
    let x61 ← asWs x60
    let x62 ← x61.isOffDuty x32 none
    let x63 ← x32.call1 (.point (ts 2016 12 27))
    let x64 ← asWs x63
    let x65 ← x64.isOffDuty x32 none
    check 248 ((x38) && (x41) && (x44) && (x47) && (x50) && (x53) && (x56) && (x59) && (x62) && (x65))
    let x66 ← x1.getInterval (some (.point (ts 2016 1 1))) none (some (⟨none, .A none, by decide⟩ : Freq)) true "11" none
    let x67 ← x66.count x1 .on none
    let x68 ← x32.getInterval (some (.point (ts 2016 1 1))) none (some (⟨none, .A none, by decide⟩ : Freq)) true "11" none
    let x69 ← x68.count x32 .on none
    check 249 (decide (x67 = (x69 + 10)))
    pure ())

/- timeboard/tests/calendars/test_calendars_ru_us_uk.py 253: `TestCalendarsUK.test_calendar_UK_week8x5_scot`. -/
#guard passes (do
    let x1 ← (ukCalendar "scotland" [] true).new none none true false none
    let x2 ← x1.call1 (.point (ts 2012 1 2))
    let x3 ← asWs x2
    let x4 ← x3.isOnDuty x1 none
    let x5 ← x1.call1 (.point (ts 2012 1 3))
    let x6 ← asWs x5
    let x7 ← x6.isOnDuty x1 none
    let x8 ← x1.call1 (.point (ts 2012 4 6))
    let x9 ← asWs x8
    let x10 ← x9.isOnDuty x1 none
    let x11 ← x1.call1 (.point (ts 2012 5 7))
    let x12 ← asWs x11
    let x13 ← x12.isOnDuty x1 none
    let x14 ← x1.call1 (.point (ts 2012 6 4))
    let x15 ← asWs x14
    let x16 ← x15.isOnDuty x1 none
    let x17 ← x1.call1 (.point (ts 2012 6 5))
    let x18 ← asWs x17
    let x19 ← x18.isOnDuty x1 none
    let x20 ← x1.call1 (.point (ts 2012 8 6))
    let x21 ← asWs x20
    let x22 ← x21.isOnDuty x1 none
    let x23 ← x1.call1 (.point (ts 2012 11 30))
    let x24 ← asWs x23
    let x25 ← x24.isOnDuty x1 none
    let x26 ← x1.call1 (.point (ts 2012 12 25))
    let x27 ← asWs x26
    let x28 ← x27.isOnDuty x1 none
    let x29 ← x1.call1 (.point (ts 2012 12 26))
    let x30 ← asWs x29
    let x31 ← x30.isOnDuty x1 none
    check 260 ((x4) && (x7) && (x10) && (x13) && (x16) && (x19) && (x22) && (x25) && (x28) && (x31))
    let x32 ← (ukCalendar "scotland" [] true).new none none false false none
    let x33 ← x32.call1 (.point (ts 2012 1 2))
    let x34 ← asWs x33
    let x35 ← x34.isOffDuty x32 none
    let x36 ← x32.call1 (.point (ts 2012 1 3))
    let x37 ← asWs x36
    let x38 ← x37.isOffDuty x32 none
    let x39 ← x32.call1 (.point (ts 2012 4 6))
    let x40 ← asWs x39
    let x41 ← x40.isOffDuty x32 none
    let x42 ← x32.call1 (.point (ts 2012 5 7))
    let x43 ← asWs x42
    let x44 ← x43.isOffDuty x32 none
    let x45 ← x32.call1 (.point (ts 2012 6 4))
    let x46 ← asWs x45
    let x47 ← x46.isOffDuty x32 none
    let x48 ← x32.call1 (.point (ts 2012 6 5))
    let x49 ← asWs x48
    let x50 ← x49.isOffDuty x32 none
    let x51 ← x32.call1 (.point (ts 2012 8 6))
    let x52 ← asWs x51
    let x53 ← x52.isOffDuty x32 none
    let x54 ← x32.call1 (.point (ts 2012 11 30))
    let x55 ← asWs x54
    let x56 ← x55.isOffDuty x32 none
    let x57 ← x32.call1 (.point (ts 2012 12 25))
    let x58 ← asWs x57
    let x59 ← x58.isOffDuty x32 none
    let x60 ← x32.call1 (.point (ts 2012 12 26))
    let x61 ← asWs x60
    let x62 ← x61.isOffDuty x32 none
    check 262 ((x35) && (x38) && (x41) && (x44) && (x47) && (x50) && (x53) && (x56) && (x59) && (x62))
    let x63 ← x1.getInterval (some (.point (ts 2012 1 1))) none (some (⟨none, .A none, by decide⟩ : Freq)) true "11" none
    let x64 ← x63.count x1 .on none
    let x65 ← x32.getInterval (some (.point (ts 2012 1 1))) none (some (⟨none, .A none, by decide⟩ : Freq)) true "11" none
    let x66 ← x65.count x32 .on none
    check 263 (decide (x64 = (x66 + 10)))
    pure ())

/- timeboard/tests/calendars/test_calendars_ru_us_uk.py 267: `TestCalendarsUK.test_calendar_UK_week8x5_exclusions`. -/
#guard passes (do
    let x1 ← (ukCalendar "scotland" ["new_year", "good_friday", "royal", "summer"] true).new none none false false none
    let x2 ← x1.call1 (.point (ts 2012 1 1))
    let x3 ← asWs x2
    let x4 ← x3.isOffDuty x1 none
    check 276 (x4)
    let x5 ← x1.call1 (.point (ts 2012 1 3))
    let x6 ← asWs x5
    let x7 ← x6.isOnDuty x1 none
    check 277 (x7)
    let x8 ← x1.call1 (.point (ts 2012 4 6))
    let x9 ← asWs x8
    let x10 ← x9.isOnDuty x1 none
    check 278 (x10)
    let x11 ← x1.call1 (.point (ts 2012 5 7))
    let x12 ← asWs x11
    let x13 ← x12.isOffDuty x1 none
    check 279 (x13)
    let x14 ← x1.call1 (.point (ts 2012 5 28))
    let x15 ← asWs x14
    let x16 ← x15.isOnDuty x1 none
    check 280 (x16)
    let x17 ← x1.call1 (.point (ts 2012 6 4))
    let x18 ← asWs x17
    let x19 ← x18.isOnDuty x1 none
    check 281 (x19)
    let x20 ← x1.call1 (.point (ts 2012 6 5))
    let x21 ← asWs x20
    let x22 ← x21.isOnDuty x1 none
    check 282 (x22)
    let x23 ← x1.call1 (.point (ts 2012 8 6))
    let x24 ← asWs x23
    let x25 ← x24.isOnDuty x1 none
    check 283 (x25)
    let x26 ← x1.call1 (.point (ts 2012 11 30))
    let x27 ← asWs x26
    let x28 ← x27.isOffDuty x1 none
    check 284 (x28)
    pure ())

/- timeboard/tests/calendars/test_calendars_ru_us_uk.py 286: `TestCalendarsUK.test_calendar_UK_week8x5_short_weekends`. -/
#guard passes (do
    let x1 ← (ukCalendar "northern_ireland" [] false).new none none false false none
    let x2 ← x1.call1 (.point (ts 2015 12 28))
    let x3 ← asWs x2
    let x4 ← x3.isOnDuty x1 none
    check 288 (x4)
    let x5 ← x1.call1 (.point (ts 2015 7 13))
    let x6 ← asWs x5
    let x7 ← x6.isOnDuty x1 none
    check 289 (x7)
    let x8 ← x1.call1 (.point (ts 2016 12 27))
    let x9 ← asWs x8
    let x10 ← x9.isOnDuty x1 none
    check 290 (x10)
    let x11 ← (ukCalendar "scotland" [] false).new none none false false none
    let x12 ← x11.call1 (.point (ts 2012 1 3))
    let x13 ← asWs x12
    let x14 ← x13.isOnDuty x11 none
    check 292 (x14)
    pure ())

/- timeboard/tests/calendars/test_calendars_ru_us_uk.py 294: `TestCalendarsUK.test_calendar_UK_week8x5_shortened`. -/
#guard passes (do
    let x1 ← (ukCalendar "northern_ireland" [] true).new (some (ts 2016 1 1)) (some (ts 2016 11 30)) true false none
    let x2 ← x1.call1 (.point (ts 2016 1 1))
    let x3 ← asWs x2
    let x4 ← x3.isOnDuty x1 none
    let x5 ← x1.call1 (.point (ts 2016 3 17))
    let x6 ← asWs x5
    let x7 ← x6.isOnDuty x1 none
    let x8 ← x1.call1 (.point (ts 2016 3 25))
    let x9 ← asWs x8
    let x10 ← x9.isOnDuty x1 none
    let x11 ← x1.call1 (.point (ts 2016 3 28))
    let x12 ← asWs x11
    let x13 ← x12.isOnDuty x1 none
    let x14 ← x1.call1 (.point (ts 2016 5 2))
    let x15 ← asWs x14
    let x16 ← x15.isOnDuty x1 none
    let x17 ← x1.call1 (.point (ts 2016 5 30))
    let x18 ← asWs x17
    let x19 ← x18.isOnDuty x1 none
    let x20 ← x1.call1 (.point (ts 2016 7 12))
    let x21 ← asWs x20
    let x22 ← x21.isOnDuty x1 none
    let x23 ← x1.call1 (.point (ts 2016 8 29))
    let x24 ← asWs x23
    let x25 ← x24.isOnDuty x1 none
    check 302 ((x4) && (x7) && (x10) && (x13) && (x16) && (x19) && (x22) && (x25))
    let x26 ← (ukCalendar "northern_ireland" [] true).new (some (ts 2016 1 1)) (some (ts 2016 11 30)) false false none
    let x27 ← x26.call1 (.point (ts 2016 1 1))
    let x28 ← asWs x27
    let x29 ← x28.isOffDuty x26 none
    let x30 ← x26.call1 (.point (ts 2016 3 17))
    let x31 ← asWs x30
    let x32 ← x31.isOffDuty x26 none
    let x33 ← x26.call1 (.point (ts 2016 3 25))
    let x34 ← asWs x33
    let x35 ← x34.isOffDuty x26 none
    let x36 ← x26.call1 (.point (ts 2016 3 28))
    let x37 ← asWs x36
    let x38 ← x37.isOffDuty x26 none
    let x39 ← x26.call1 (.point (ts 2016 5 2))
    let x40 ← asWs x39
    let x41 ← x40.isOffDuty x26 none
    let x42 ← x26.call1 (.point (ts 2016 5 30))
    let x43 ← asWs x42
    let x44 ← x43.isOffDuty x26 none
    let x45 ← x26.call1 (.point (ts 2016 7 12))
    let x46 ← asWs x45
    let x47 ← x46.isOffDuty x26 none
    let x48 ← x26.call1 (.point (ts 2016 8 29))
    let x49 ← asWs x48
    let x50 ← x49.isOffDuty x26 none
    check 305 ((x29) && (x32) && (x35) && (x38) && (x41) && (x44) && (x47) && (x50))
    let x51 ← x1.getInterval none none none true "11" none
    let x52 ← x51.count x1 .on none
    let x53 ← x26.getInterval none none none true "11" none
    let x54 ← x53.count x26 .on none
    check 306 (decide (x52 = (x54 + 8)))
    pure ())

/- timeboard/tests/calendars/test_calendars_ru_us_uk.py 310: `TestCalendarsUK.test_calendar_UK_week8x5_custom_amds`. -/
#guard passes (do
    let x1 ← (ukCalendar "scotland" [] true).new none none false false (some [((ts 2012 1 18), 0), ((ts 2012 12 26), 8)])
    let x2 ← x1.call1 (.point (ts 2012 1 18))
    let x3 ← asWs x2
    let x4 ← x3.isOffDuty x1 none
    check 320 (x4)
    let x5 ← x1.call1 (.point (ts 2012 6 4))
    let x6 ← asWs x5
    let x7 ← x6.isOffDuty x1 none
    check 321 (x7)
    let x8 ← x1.call1 (.point (ts 2012 12 25))
    let x9 ← asWs x8
    let x10 ← x9.isOffDuty x1 none
    check 322 (x10)
    let x11 ← x1.call1 (.point (ts 2012 12 26))
    let x12 ← asWs x11
    let x13 ← x12.isOnDuty x1 none
    check 323 (x13)
    pure ())

end TB.Conf
