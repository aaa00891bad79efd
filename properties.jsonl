{"id": "C01", "title": "Year values are the exact Suriyayatra quantities", "statement": "For every CE year from 638 on, SuriyaYear.Init sets BE = CE+543, CS = CE-638, and Horakhun, Kammacubala, Avoman, Masaken, Tithi, Uccabala are the unique integers with 800*(Horakhun-1) + (800-Kammacubala) = 292207*CS + 373, 1<=Kammacubala<=800, 692*q + Avoman = 11*Horakhun + 650 with 0<=Avoman<692, 30*Masaken + Tithi = Horakhun + q with 0<=Tithi<30, and Uccabala congruent to Horakhun+2611 mod 3232 in [0,3232).", "quantifier": "every CE year >= 638 (unbounded)", "why_tests_cant": "The repo checks two years (1963, 1496); the ranges and identities must hold for every year.", "anchors": ["suriya_year.go:SuriyaYear.Init", "suriya.go:constants"]}
{"id": "C02", "title": "Machine arithmetic in Init is exact", "statement": "SuriyaYear.Init, executed with Go's 64-bit wrapping ints and with float64 conversion, division and Floor rounded to nearest-even, returns exactly the integer-arithmetic values for every year with |year| <= 10^12: no overflow, and no float rounding ever moves a Floor to the neighbouring integer; the same holds for the two cycle positions. At year 10^14 it fails.", "quantifier": "every year in [-10^12, 10^12]", "why_tests_cant": "A rounding error at one quotient among billions is invisible to sampling.", "anchors": ["suriya_year.go:SuriyaYear.Init"]}
{"id": "C03", "title": "Before the era the year values leave their ranges", "statement": "For every CE year before 638, Tithi and Masaken are <= 0, so Would_Be_Adhikamasa can only hold when Tithi = 0; Kammacubala is at least 800, and exactly 800 only in years congruent to 99 mod 800. The range guarantees of C01 therefore fail for essentially all such years.", "quantifier": "every CE year < 638", "why_tests_cant": "Universally quantified negative statement over infinitely many years.", "anchors": ["suriya_year.go:SuriyaYear.Init", "suriya_year.go:Would_Be_Adhikamasa"]}
{"id": "C04", "title": "Horakhun of consecutive New Years; Suriya leap years", "statement": "For every year y >= 638, Horakhun(y+1) - Horakhun(y) is 365 or 366, and it is 366 exactly when Is_Suriya_Leap(y); Horakhun(y+800) = Horakhun(y) + 292207 and any 800 consecutive years contain exactly 207 Suriya leap years.", "quantifier": "every year >= 638", "why_tests_cant": "Needs all years and all 800-year windows.", "anchors": ["suriya_year.go:Init", "suriya_year.go:Is_Suriya_Leap"]}
{"id": "C05", "title": "Tithi and Masaken progress", "statement": "For every y >= 638 the age of the moon at New Year advances by 10, 11 or 12 (mod 30) and the elapsed months advance by 12 or 13 per year.", "quantifier": "every year >= 638", "why_tests_cant": "All years.", "anchors": ["suriya_year.go:Init"]}
{"id": "C06", "title": "Adhikamasa years are 2 or 3 years apart", "statement": "No two consecutive years are adhikamasa (any year, even before the era), and for years >= 638 the distance from one adhikamasa year to the next is always exactly 2 or 3.", "quantifier": "every year", "why_tests_cant": "The test table covers 1950-2018; exceptional patterns could appear in any century.", "anchors": ["suriya_year.go:Is_Adhikamasa", "suriya_year.go:Would_Be_Adhikamasa"]}
{"id": "C07", "title": "Intercalary months never drift from the Masaken count", "statement": "For all years y1 <= y2 (>= 638), the number of lunar months the calendar puts into years y1..y2-1 (12 each plus one per adhikamasa year) differs from Masaken(y2)-Masaken(y1) by at most 1.", "quantifier": "all pairs of years", "why_tests_cant": "Accumulated error over arbitrarily long spans.", "anchors": ["suriya_year.go:Is_Adhikamasa", "suriya_year.go:Init"]}
{"id": "C08", "title": "A year is never both adhikamasa and adhikavara", "statement": "For every year, with the default settings or with UseExceptions and the shipped exception table, Is_Adhikamasa and Is_Adhikavara are not both true. With a caller-edited exception table the guarantee fails exactly when an entry marks an adhikamasa year as adhikavara.", "quantifier": "every year, both settings, every exception table", "why_tests_cant": "All years and all exception tables.", "anchors": ["suriya_year.go:Is_Adhikavara", "suriya.go:AdhikavaraExceptions"]}
{"id": "C09", "title": "YearLength is 354, 355 or 384", "statement": "For every year and setting YearLength is 384 iff Is_Adhikamasa, 355 iff not adhikamasa but Is_Adhikavara, and 354 otherwise.", "quantifier": "every year, every exception table", "why_tests_cant": "All years.", "anchors": ["suriya_year.go:YearLength"]}
{"id": "C10", "title": "Spacing of adhikavara years", "statement": "For default settings and years >= 639: a year's own adhikavara condition (Would_Be_Adhikavara) holds exactly when the year gains only 5 extra tithis (instead of 6) or is a Suriya leap year with Avoman exactly 126 (a boundary year); two adhikavara years less than 4 years apart occur only if the first, or the year before it, is a boundary year; two consecutive ones only if the first is a boundary year, the first such pair being 4098/4099; any seven consecutive years from 638 contain an adhikavara year, so DeltaAdhikavara is 1..7 from 645 on. With the official exceptions any eight consecutive years from 638 contain one, but not any seven: there is none from 1990 to 1996.", "quantifier": "every year >= 639", "why_tests_cant": "The in-code comment 'Both <= and < seems to work' is only true up to year 4097; tests never reach the first counterexample.", "anchors": ["suriya_year.go:Would_Be_Adhikavara", "suriya_year.go:Has_Carried_Adhikavara", "suriya_year.go:Is_Adhikavara"]}
{"id": "C11", "title": "The lunar calendar stays phase-locked to the Horakhun/Tithi arithmetic", "statement": "With the default settings, for every year y from 638 to 10^9, the day number of the Kattika full moon before y equals that of HorakhunToDate(Horakhun(y)) minus the age of the moon (the representative of Tithi mod 30 in 6..35), minus 133, minus 1 if an adhikavara is carried into y, plus 1 if y-1 is a boundary year (Suriya leap, Avoman 126) and adhikamasa, plus the surplus days of the boundary years so far; until 4098 that surplus is 0 and in 4099 it is 1. With the official exceptions the same holds, but one day earlier in 1995, 1996 and 1997.", "quantifier": "every year 638..10^9", "why_tests_cant": "Relates an iterated stepping computation to a closed form over unboundedly many years.", "anchors": ["helpers.go:CalculatePreviousKattika", "suriya_year.go:Init"]}
{"id": "C12", "title": "Kattika stepping is path-independent", "statement": "For every year y (past or future), CalculatePreviousKattika(y+1) is exactly YearLength(y) days after CalculatePreviousKattika(y), and CalculatePreviousKattika(2016) = 2015-11-25 00:00 UTC; the forward and backward loops terminate for every year and agree on one consistent calendar, for every setting of the exception table.", "quantifier": "every integer year, every exception table", "why_tests_cant": "Two different loops over unbounded ranges.", "anchors": ["helpers.go:CalculatePreviousKattika", "suriya_year.go:YearLength"]}
{"id": "C13", "title": "Where CalculatePreviousKattika is really in the previous year", "statement": "With the default settings and with the official exceptions: for every year 631 <= y <= 4116 the result lies in calendar year y-1; this is the maximal such interval (fails at 630 and 4117), and for every y >= 10000 the result lies in year y or later.", "quantifier": "every year", "why_tests_cant": "The TODO says it 'only works for a few years'; the exact valid interval needs a proof.", "anchors": ["helpers.go:CalculatePreviousKattika"]}
{"id": "C14", "title": "Asalha Puja position in the lunar year", "statement": "For every year and exception table, AsalhaPuja(y) lies between CalculatePreviousKattika(y) and CalculatePreviousKattika(y+1), exactly 118 days before the latter, and AsalhaPuja(y+1) is YearLength(y+1) days after AsalhaPuja(y).", "quantifier": "every year, every exception table", "why_tests_cant": "All years.", "anchors": ["suriya_year.go:AsalhaPuja"]}
{"id": "C15", "title": "Asalha Puja falls on the full-moon tithi", "statement": "With the default settings and with the official exceptions, for every year from 638 to 4098 the Suriya tithi of the AsalhaPuja day (elapsed-tithi count of its Horakhun, mod 30) is 14 or 15. With the default settings, for all later years it is so for the day that is the accumulated surplus days earlier, and in 4099 the tithi of AsalhaPuja is 16. HorakhunToDate of the Horakhun that SuriyaDay.Init gives for lunar day 103 (133 in an adhikamasa year whose Tithi >= 24) is the AsalhaPuja day up to: one day earlier in an adhikavara year without carry, one day after an adhikamasa boundary year, and the surplus days.", "quantifier": "every year 638..10^9 (tithi: every year >= 638)", "why_tests_cant": "Cross-checks two independent computations for thousands of years.", "anchors": ["suriya_year.go:AsalhaPuja", "suriya_day.go:SuriyaDay.Init", "helpers.go:HorakhunToDate"]}
{"id": "C16", "title": "HorakhunToDate is a day-for-day bijection", "statement": "For every horakhun with |horakhun| <= 10^12, HorakhunToDate returns 1963-07-05 23:59:59 UTC plus exactly (horakhun-484049) days: the 290-year stepping loop terminates and never overflows time.Duration, so successive horakhuns are successive days.", "quantifier": "every horakhun in range", "why_tests_cant": "Overflow would occur only at unsampled magnitudes.", "anchors": ["helpers.go:HorakhunToDate"]}
{"id": "C17", "title": "NextUposatha spacing and alternation", "statement": "For every UposathaMoon whatsoever and setting, NextUposatha yields phase full iff the input phase is new (else new), a Date exactly U_Days*24h later with U_Days 14 or 15, U_Days=15 for full moons, and a full moon keeps the month, month length, season, year of its input and has HasAdhikavara=false; HasAdhikavara is only set on the new moon of month 8 of an adhikavara year.", "quantifier": "every UposathaMoon value, every setting", "why_tests_cant": "Arbitrary states, including ones no table contains.", "anchors": ["uposatha_moon.go:NextUposatha"]}
{"id": "C18", "title": "Month order", "statement": "From any moon with LunarMonth in 1..13, repeatedly applying NextUposatha any number of times keeps the month in 1..13, changes month only at new moons, and visits months in the cyclic order 1..8,[13],9..12 where 13 occurs exactly when the year of the last month-8 full moon is adhikamasa.", "quantifier": "every start state, every number of steps", "why_tests_cant": "Induction over arbitrarily long chains.", "anchors": ["uposatha_moon.go:NextUposatha"]}
{"id": "C19", "title": "One lunar year of uposathas closes on the next Kattika", "statement": "For the default and the official settings and every year y in 631..4115, iterating NextUposatha from the Kattika seed that GenerateSolarYear builds for y reaches, after exactly 24 steps (26 in an adhikamasa year), exactly the seed that GenerateSolarYear builds for y+1; on the way seasons are numbered 1,2,3 with S_Number running 1..S_Total (8, or 10 in the hot season of an adhikamasa year). At 4116 the chain reaches the next Kattika with a wrong lunar year. With any settings the date is still that of the next Kattika as long as the first Kattika is at most 88 days before its year and the second at most 28 days after 1 January.", "quantifier": "every year 631..4115, shipped settings; for the date every year and setting with the Kattika full moons in the given window", "why_tests_cant": "Relates two independent date computations along every step of every year.", "anchors": ["uposatha_moon.go:NextUposatha", "cal_day.go:GenerateSolarYear", "helpers.go:CalculatePreviousKattika"]}
{"id": "C20", "title": "Year-to-year continuity of GenerateSolarYear", "statement": "For the shipped settings and every run of consecutive years within 631..4116 the concatenated uposathas of GenerateSolarYear form one unbroken NextUposatha chain: no uposatha is missing or duplicated at a year boundary. The Kattika full moon of 4117 is returned for no year. In general, with any settings, the Kattika full moon from which a year is generated is returned for no year if it falls into that year; for the shipped settings and every y in 631..5834, if the Kattika full moon of y+1 falls into y+1, the last uposatha of y is 15 days before it (29 days from the sixteenth day of the year on) and the first of y+1 is 15 days after it: a gap of 30 or 44 days.", "quantifier": "every run of years within 631..4116 and every turn of the year up to 5834/5835, shipped settings; lost Kattika full moons: any settings and year", "why_tests_cant": "Boundary behaviour of every year.", "anchors": ["cal_day.go:GenerateSolarYear"]}
{"id": "C21", "title": "Exactly one of each major event per year, and where that fails", "statement": "For the shipped settings and every year y in 631..5834 the major events of GenerateSolarYear(y) are exactly Magha Puja, Vesakha Puja, Asalha Puja, First day of Vassa, Pavarana Day and Last day of Vassa, in that order, Asalha Puja at AsalhaPuja(y), Vassa beginning the day after, and the others at fixed distances from it; before them there is a second Magha Puja exactly if y is an adhikamasa year whose Kattika full moon falls more than 74 days before 1 January, which never happens from 1290 on (1289 is the last). In 5835 Pavarana Day and the last day of Vassa are lost. For any settings without years that are both adhikamasa and adhikavara the same list follows from the days of the two Kattika full moons alone (at most 88 days before their years, the second at most 28 days after 1 January): the full moon of the third month asks the adhikamasa rule of the year before if the Kattika is more than 74 days early.", "quantifier": "every year 631..5834 with the shipped settings; every year and every exception table with the Kattika full moons in the given window", "why_tests_cant": "A doubled festival appears only in isolated years (e.g. 1289), a lost one only after millennia, and the tests look at single years near 2015.", "anchors": ["cal_day.go:GenerateSolarYear", "uposatha_moon.go:NextUposatha", "suriya_year.go:AsalhaPuja"]}
{"id": "C22", "title": "GenerateSolarYear terminates and stays in its year", "statement": "For every year and setting the generation loop terminates, every uposatha and half-moon it returns has a date in that calendar year, and so has every major event except that the First day of Vassa is the day after a full moon of the year; the uposathas returned are exactly the moons after the Kattika that fall in the year, the major events exactly those attached to them.", "quantifier": "every integer year, every setting", "why_tests_cant": "Termination and containment for every input.", "anchors": ["cal_day.go:GenerateSolarYear"]}
{"id": "C23", "title": "Half moons", "statement": "The half moons returned by GenerateSolarYear are exactly the eighth days after the uposathas after the Kattika that fall in the year, with phase waxing after a new moon and waning after a full moon, strictly between that uposatha and the next one.", "quantifier": "every year, every setting", "why_tests_cant": "All years.", "anchors": ["cal_day.go:GenerateSolarYear"]}
{"id": "C24", "title": "Number of uposathas per solar year, and over many years", "statement": "For the shipped settings and every y in 631..4115, GenerateSolarYear(y) returns 24 or 25 uposathas and 24 or 25 half moons; for every y in 4116..5834 it returns 22 to 25 of each. For any settings and any run of n consecutive years in which no year is both adhikamasa and adhikavara and the Kattika full moon comes between 88 days before New Year and 28 days after, let s be the number of days from a year's Kattika to New Year: the uposathas returned over the n years, plus one for each year with s <= 0 and one more for each with s <= -15, are exactly 24n + 2(number of adhikamasa years) + floor((4s'-3)/59) - floor((4s-3)/59) for the s of the first year and the s' of the year after the last. The half moons, plus one for each year with s <= 8, s <= -7 and s <= -21, are the same with 35 in place of 3. Hence with the shipped settings the uposathas of any run of years in 638..5834, lost ones included, never differ by more than nine from twice the growth of Masaken.", "quantifier": "every year 631..5834, shipped settings; every run of years, any settings within the window", "why_tests_cant": "All years and all lengths of runs; the identity shows that nothing accumulates.", "anchors": ["cal_day.go:GenerateSolarYear"]}
{"id": "C25", "title": "Exactly which years have no events", "statement": "Whatever the exception tables, GenerateSolarYear returns the empty list for a year exactly if the stepped Kattika of that year falls in its last 15 days or later. With the tables as shipped (either value of UseExceptions) no year up to 593 has any event, the years 594 to 25329 all have some, 25330 is the first year that has none, 26992 is the last that has any, exactly 836 of the 1663 years from 25330 to 26992 have none, and every year from 26993 on has none.", "quantifier": "every year and every exception table for the criterion; every year for the shipped tables, the years 25331 to 26991 by number", "why_tests_cant": "Infinite family; the criterion also covers every table.", "anchors": ["cal_day.go:GenerateSolarYear", "helpers.go:CalculatePreviousKattika"]}
{"id": "C26", "title": "GetCalDays is strictly sorted with one entry per day", "statement": "For every from/to and any astro data, the result of GetCalDays is strictly increasing in Date and no two entries fall on the same UTC calendar day; hence the result does not depend on the (unstable) sorting algorithm.", "quantifier": "all from/to times, all embedded data", "why_tests_cant": "All inputs; sort.Sort is unstable so any tie would make the output unspecified.", "anchors": ["cal_day.go:GetCalDays", "cal_day.go:mergeIntoCalDays", "cal_day.go:findCalDay", "cal_day.go:CalDaySlice"]}
{"id": "C27", "title": "GetCalDays contains every event in range and nothing else", "statement": "For every from/to: an uposatha, half moon or major event is stored in the result iff GenerateSolarYear yields it for a year of the range and its Date is within [from,to]; a CalDay's Date is the date of an event stored in it; the result is empty when to precedes from.", "quantifier": "all from/to times", "why_tests_cant": "Completeness over all ranges.", "anchors": ["cal_day.go:GetCalDays", "cal_day.go:mergeIntoCalDays"]}
{"id": "C28", "title": "At most one uposatha, half moon and astro moon per CalDay", "statement": "In the result of GetCalDays each CalDay has at most one uposatha moon, one half moon and one astro moon, and setter/getter pairs obey the last-write law.", "quantifier": "all inputs, all histories of Set calls", "why_tests_cant": "All operation histories.", "anchors": ["cal_day.go:SetUposathaMoon", "cal_day.go:SetHalfMoon", "cal_day.go:SetAstroMoon"]}
{"id": "C29", "title": "mergeIntoCalDays and findCalDay", "statement": "Merging an event into a list of days with pairwise distinct calendar days keeps them distinct, adds exactly one day iff none matched, leaves all other days untouched and puts the event in the day with its date; findCalDay compares by local midnight and returns the first match.", "quantifier": "all lists and events", "why_tests_cant": "All lists.", "anchors": ["cal_day.go:mergeIntoCalDays", "cal_day.go:findCalDay"]}
{"id": "C30", "title": "AddHalfMoonDays", "statement": "AddHalfMoonDays returns its input unchanged as a prefix followed by exactly one half-moon day per uposatha day with phase new or full, 8 days later, in order, and nothing for other days.", "quantifier": "all lists of days", "why_tests_cant": "All lists.", "anchors": ["cal_day.go:AddHalfMoonDays"]}
{"id": "C31", "title": "GetAstroMoons range and stop rule", "statement": "GetAstroMoons returns only moons with from <= Date <= to, and exactly those in files of years from from.Year() up to the first missing file; failed or error responses contribute nothing; an out-of-range phase code or undecodable file panics.", "quantifier": "all data sets, all ranges", "why_tests_cant": "All data sets.", "anchors": ["astro_moon.go:GetAstroMoons", "aeris_moon.go:phaseCodes"]}
{"id": "C32", "title": "Exception table effect is confined", "statement": "Switching UseExceptions on with the shipped table changes CalculatePreviousKattika only for 1995, 1996, 1997 (one day) and AsalhaPuja only for 1994, 1995 and 1996.", "quantifier": "every year", "why_tests_cant": "All years.", "anchors": ["suriya.go:AdhikavaraExceptions", "suriya_year.go:Is_Adhikavara"]}
{"id": "C33", "title": "Cycle positions", "statement": "AdhikavaraCyclePos is always in 1..57 and AdhikamasaCyclePos in 1..19; from 1414 (resp. 1794) on they advance by one per year modulo the cycle with 1984 -> 1; before those years they run backwards.", "quantifier": "every year", "why_tests_cant": "All years.", "anchors": ["suriya_year.go:AdhikavaraCyclePos", "suriya_year.go:AdhikamasaCyclePos"]}
{"id": "C34", "title": "Delta functions return the true distance", "statement": "DeltaAdhikamasa returns d iff y-d is adhikamasa and none of y-1..y-d+1 is, with d <= 7, else -1; for y >= 641 it is 1, 2 or 3; DeltaAdhikavara likewise with bound 13, for any exceptions; from 645 on it is 1..7 with the default settings, and from 646 on 1..8 with the official exceptions.", "quantifier": "every year", "why_tests_cant": "All years.", "anchors": ["suriya_year.go:DeltaAdhikamasa", "suriya_year.go:DeltaAdhikavara"]}
{"id": "C35", "title": "SuriyaDay depends only on the absolute day", "statement": "For every year and lunar day, SuriyaDay.Init records the year in three eras and the day; Horakhun advances by one and Kammacubala by 800 per lunar day, from their New Year values; two (year, day) pairs with equal Horakhun get the same Avoman, Masaken, Tithi and Uccabala; on the New Year day itself they equal the SuriyaYear values; for a non-negative Horakhun H they satisfy the division identities 692*(30*Masaken + Tithi - H) + Avoman = 11*H + 650 and Uccabala = (H + 2611) mod 3232 with their ranges; per day the tithi advances by 1 or 2 mod 30.", "quantifier": "all years and lunar days", "why_tests_cant": "All pairs.", "anchors": ["suriya_day.go:SuriyaDay.Init"]}
{"id": "C36", "title": "Ical output contains each event once, in order", "statement": "For every range for which GetCalDays succeeds, the components of the ical command are a rearrangement of the calendar events of the range (the events GenerateSolarYear returns for its years, cut to the range): each exactly once and no astronomical moon. They are, day by day, the uposatha, half moon, major and plain events. Every component is an all-day event in UTC from a midnight in the range to the next midnight, and the starts are nondecreasing.", "quantifier": "all settings, all astro files, all ranges", "why_tests_cant": "All ranges.", "anchors": ["suriya/suriya.go:actionIcal", "calendar_event.go:icalEvent"]}
{"id": "C37", "title": "CalDays JSON grouping", "statement": "The caldays command puts each CalDay into exactly one group, the one keyed by its year; each group keeps the order of GetCalDays and concatenating the groups in year order gives back its result. For ranges in UTC every day's year lies between those of the two ends, so with both flags given all years are in 0..9999, where encoding dates as JSON cannot fail.", "quantifier": "all settings, all astro files, all ranges; all flag strings", "why_tests_cant": "All ranges.", "anchors": ["suriya/suriya.go:actionCalDays"]}
{"id": "C38", "title": "Embedded file reads under concurrency", "statement": "For any number of concurrent FSByte calls and every interleaving of their steps: every call on a file that decodes returns its whole contents without error; a call on an absent name returns ErrNotExist; on a file that fails to decode at most one call returns the error, and every call started after another has returned gets a nil error with whatever could be read; the data is never read while it may be written, calls cannot deadlock and take at most 11 steps; Stat's name is the base of the decoding caller's argument.", "quantifier": "all schedules, any number of calls, all file contents", "why_tests_cant": "All interleavings.", "anchors": ["data.go:prepare", "data.go:FSByte"]}
{"id": "C39", "title": "Degrees to rasi, angsa and lipda", "statement": "For every float64 d with 0 <= d < 2^53, DegreeToRal(d) = (x, y, z) has 30x + y = floor(d), 0 <= y < 30 and 0 <= z < 60. From 8 degrees on z is exactly the floor of 60 times the fraction of d; below, rounding may make it one too large (0.35 gives 21'). RalToDegree is the float64 nearest to the value truncated to four decimals, and the round trip loses less than 1/60 + 1/10000 and gains at most 2^-49 degrees (d < 2^38). For negative d the parts are 30 degrees short unless floor(d) is a multiple of 30.", "quantifier": "every float64 value in the stated ranges", "why_tests_cant": "All float64 values; the tests convert a few positions.", "anchors": ["helpers.go:DegreeToRal", "helpers.go:RalToDegree"]}
{"id": "C40", "title": "NormalizeDegree", "statement": "NormalizeDegree leaves every value up to 360 unchanged (negative values too, and 360 itself) and maps every float64 d with 360 < d < 2^56 without any rounding to its exact remainder modulo 360, in [0, 360). The bound is sharp: for 2^56 + 112 the result is 16, the remainder 8.", "quantifier": "every float64 value below 2^56", "why_tests_cant": "All float64 values.", "anchors": ["helpers.go:NormalizeDegree"]}
{"id": "C41", "title": "Name tables", "statement": "MonthToInt, SeasonToInt, CalendarToInt and StatusToInt are injective on known names and return 0 on every other string, so an unknown calendar or status is indistinguishable from mahanikaya or draft; SeasonName is empty outside 1..3.", "quantifier": "all strings, all ints", "why_tests_cant": "All strings.", "anchors": ["helpers.go:MonthToInt", "helpers.go:SeasonName"]}
{"id": "C42", "title": "CLI date range", "statement": "cliInit takes each bound from its flag if that is non-empty, else from the clock: Jan 1 or Dec 31 of the year the clock shows when that bound is computed, at UTC midnight. It succeeds iff every non-empty flag is a date YYYY-MM-DD that exists in the Gregorian calendar (year 0000..9999), and parsing inverts formatting for all of them.", "quantifier": "all pairs of strings, all pairs of clock values", "why_tests_cant": "All strings.", "anchors": ["suriya/suriya.go:cliInit"]}
{"id": "C43", "title": "Half moons lost at the year boundary", "statement": "For the shipped settings and every year y in 631..4116: when the eighth day after the Kattika full moon before y falls in year y (the Kattika lies in the last eight days of y-1), that waning half moon is returned by GenerateSolarYear for no year at all; otherwise it is returned for y-1. No half moon is lost before 3572 and 3572 loses one.", "quantifier": "every year 631..4116, shipped settings", "why_tests_cant": "The repository's tests cover a few recent years; the first loss occurs in 3572.", "anchors": ["cal_day.go:GenerateSolarYear"]}
{"id": "C44", "title": "Text of the generated events", "statement": "For the shipped settings and every year, the String of every uposatha returned by GenerateSolarYear is '<New|Full> Moon - <14|15> day <Hemanta|Gimha|Vassāna> n/t' where full moons have 15 days, t is 10 (only in Gimha) or 8 and 1 <= n <= t. For every year and setting the String of every half moon is 'Waxing Moon' or 'Waning Moon'. The capital letters come from a function that, for every ASCII text, raises the first character of each word (letters, digits, '_') and leaves all else.", "quantifier": "every year, shipped settings", "why_tests_cant": "The tests look at a handful of recent years; this is over all generated moons.", "anchors": ["uposatha_moon.go:String", "half_moon.go:String", "helpers.go"]}
{"id": "C46", "title": "Astronomical moons only for ranges starting in the embedded years", "statement": "With astro files for exactly the years 1900..2040 (as embedded), GetAstroMoons returns no moon at all for a range starting before 1900 or after 2040, even for those of its years that have a file; a range starting in 1900..2040 uses the files of its years up to 2040.", "quantifier": "all file contents, all ranges", "why_tests_cant": "The range is unbounded and the contents arbitrary; tests use ranges inside the embedded years.", "anchors": ["astro_moon.go:GetAstroMoons"]}
{"id": "C47", "title": "Mean sun", "statement": "For years >= 638, from the solar New Year day up to lunar day 100000, SuriyaDay's MeanSun lies between the exact position (360 degrees per 292207/800 days since the New Year moment) less 4 arc minutes less 1/10000 and the exact position less 3 arc minutes plus 1e-9. On the earlier days of the lunar year it is 30 degrees short of that (DegreeToRal of a negative degree), so MeanSun jumps by more than 30.9 degrees between the day before the New Year and the New Year day, unless that moment is exactly a day boundary.", "quantifier": "every year >= 638, every day of the lunar year", "why_tests_cant": "Unbounded years; the tests look at three days, none of them before the New Year.", "anchors": ["suriya_day.go:Init", "helpers.go:DegreeToRal"]}
{"id": "C48", "title": "Ranges of the positions", "statement": "For years >= 638, lunar days from the New Year day to 1000 and any sine with values in [-1, 1]: TrueSun is within 134/60 + 1/5000 of MeanSun, MeanMoon lies in [-3, 360], TrueMoon is within 296/60 + 1/5000 of MeanMoon and lies in (-8, 365), Raek lies in (0.4, 28.4). TrueMoon is not reduced to [0, 360]: day 275 of 2026 gives -4.8154 with Raek below 1, day 191 of 1942 gives 364.9154 with Raek above 28.", "quantifier": "every year >= 638, every day, every bounded sine", "why_tests_cant": "Unbounded years and every implementation of the sine.", "anchors": ["suriya_day.go:Init"]}
{"id": "C49", "title": "Text of a calendar day", "statement": "For every range and the shipped settings, the String of a day returned by GetCalDays is the texts of its uposatha, astronomical moon and half moon in this order, joined by \", \"; a text is empty exactly when the day has no such moon; the astronomical moon's text names its phase; the whole has exactly two commas, so it can be taken apart again.", "quantifier": "all ranges, all astronomical data, all days", "why_tests_cant": "All ranges and all data files.", "anchors": ["cal_day.go:CalDay.String", "astro_moon.go:AstroMoon.String", "half_moon.go:HalfMoon.String", "uposatha_moon.go:UposathaMoon.String"]}
{"id": "C50", "title": "Formulas of the daily positions", "statement": "For years >= 638, lunar days 0..1000 with a non-negative Horakhun and any sine with values in [-1, 1], up to 1e-9 of rounding and four-decimal truncation: TrueSun = MeanSun + floor(134 sin|MeanSun-80|)/60; MeanMoon = TrueSun + (Avoman + Avoman/25)/60 + 12*Tithi - 0.6666 less whole turns, at most 360; TrueMoon = MeanMoon - 296 sin(a)/60 with a = MeanMoon - (90/808*(Uccabala of the year + elapsed days) + 2/60); Raek = TrueMoon/13.3333 + 1.", "quantifier": "every year >= 638, every lunar day to 1000, every bounded sine", "why_tests_cant": "Rounding errors of long chains of float64 operations over unboundedly many years.", "anchors": ["suriya_day.go:Init"]}
{"id": "C51", "title": "The sun's correction has the same sign on both sides of 80 degrees", "statement": "The sine is taken of |MeanSun - 80|. For any sine in [-1, 1] that is not negative from 0 to 180 degrees, TrueSun is never behind MeanSun (beyond truncation) while MeanSun is within 180 degrees of 80, before or after it; and the corrections at equal distances before and after 80 degrees agree up to truncation. (An equation of centre changes sign there.)", "quantifier": "every year >= 638, every lunar day to 1000, every such sine", "why_tests_cant": "The repository's only test of these positions is at 79.47 degrees, on one side.", "anchors": ["suriya_day.go:Init lines 103-112"]}
{"id": "C52", "title": "When GetCalDays panics", "statement": "GetCalDays panics exactly when GetAstroMoons does, and that exactly when some year of the range, with no file missing from the first year of the range up to it, has data that is not decodable, or a successful response without error code holding a moon within the range whose phase code is not 0..3. The computed calendar itself never panics.", "quantifier": "all ranges, all data files, all settings", "why_tests_cant": "All data files and ranges.", "anchors": ["astro_moon.go:GetAstroMoons", "cal_day.go:GetCalDays"]}
{"id": "C53", "title": "What the embedded astronomical data holds and what GetAstroMoons returns for it", "statement": "The embedded data has a file exactly for the years 1900 to 2040; ten of them (1900, 1901, 1970, 2034..2040) hold only an error code. For a range starting in 1900 or later GetAstroMoons returns exactly the embedded moons in the range (for bounds in UTC; for other bounds also restricted to the years of the two ends), in the order of the data. With the embedded data neither GetAstroMoons nor GetCalDays panics. In the result no two moons share a day, each moon is followed by the next quarter 6.5 to 8.3 days later, except across 1970 and at the end of 18 named years, where the moon of 31 December is missing.", "quantifier": "all ranges; all 6432 embedded moons", "why_tests_cant": "The repository's tests look at single days of two years; that files are empty or lack moons is visible only when all data is read against what it should hold.", "anchors": ["data.go:_escData", "data/astro", "astro_moon.go:GetAstroMoons", "cal_day.go:GetCalDays"]}
{"id": "C54", "title": "Calculated uposathas against the embedded astronomical moons", "statement": "For both shipped settings: every new and full moon of the embedded data falls from one day before to two days after a calculated uposatha of its phase; every first and last quarter at most two days from a calculated half moon of its phase. Conversely every uposatha calculated for 1902..2032 except 1970 has its moon in the embedded data within those days, except exactly eleven named uposathas on 30 or 31 December, for which the data lacks the moon.", "quantifier": "both shipped settings, all 6432 embedded moons, all uposathas of 1902..2032 without 1970", "why_tests_cant": "Agreement of calculation and data over 131 years; the tests compare a handful of dates.", "anchors": ["uposatha_moon.go:NextUposatha", "cal_day.go:GenerateSolarYear", "data/astro"]}
{"id": "C55", "title": "GetCalDays over a range: completeness, locality and splitting", "statement": "For both shipped settings and years 631..11148 every event generated for a year is dated in that year, and 11149 is the first later year for which this fails; it fails exactly for the years on whose last day the Āsāḷha full moon falls, because First day of Vassa is then dated in the next year. For a range in UTC GetCalDays returns exactly the uposathas and half moons of any year, and (with the embedded data, from 1900) exactly the embedded astronomical moons, that lie in the range. The entry of a day is the same in every range that cuts the same part out of that day, and cutting a range at any midnight gives two results whose concatenation is the result of the whole range. For bounds in other zones events can be lost: a range ending 2017-12-31T23:00-05:00 contains the uposatha of 2018-01-01 but does not return it.", "quantifier": "all ranges in UTC (locality and splitting: from 1900 to 11148, both shipped settings, embedded data)", "why_tests_cant": "Relates the results of infinitely many pairs of ranges; tests call the function on single ranges.", "anchors": ["cal_day.go:GetCalDays", "cal_day.go:GenerateSolarYear", "cal_day.go:mergeIntoCalDays", "astro_moon.go:GetAstroMoons"]}
{"id": "C56", "title": "The command line range drops the astronomical moons of its last day", "statement": "The bounds the command line computes are at midnight UTC, so for a range from 1900 on the output holds exactly the embedded astronomical moons from the first day of the range to the day before the last one: the moon of the last day is never printed, although the calculated uposatha of that day is. Example: --from 2015-11-01 --to 2015-11-25 omits the full moon of 25 November 2015.", "quantifier": "all command line arguments giving a range from 1900 on, both defaults and explicit dates; all embedded moons", "why_tests_cant": "No test runs the command line; the loss concerns one boundary day per call.", "anchors": ["suriya/suriya.go:cliInit", "suriya/suriya.go:actionCalDays", "cal_day.go:GetCalDays", "astro_moon.go:GetAstroMoons"]}
{"id": "C57", "title": "The JSON text of caldays can be read back and loses nothing", "statement": "The text that caldays writes is JSON: read by a reader of RFC 8259 it is an object whose keys are the years of the days found, sorted as texts and each once, and under each year the array of all days of that year in order, every day with its time and all fields of its moons and events, empty lists left out. The text determines the days. Nothing is written exactly if some day lies outside the years 0..9999, which cannot happen if both flags are given. For years 1000..9999 the keys ascend as numbers; before that they do not: the year 1000 comes before the year 999.", "quantifier": "all settings, all astronomical data, all flags and clock readings for which the days are found", "why_tests_cant": "The repository has one sample output of four years; escaping, the order of keys and the year limits of time.MarshalJSON are outside it.", "anchors": ["suriya/suriya.go:actionCalDays", "cal_day.go:CalDay", "uposatha_moon.go:UposathaMoon", "half_moon.go:HalfMoon", "astro_moon.go:AstroMoon", "event.go:Event"]}
{"id": "C58", "title": "The text of ical is a valid calendar holding exactly the calculated events", "statement": "The text that ical writes can be read as RFC 5545 says: a VCALENDAR with exactly twelve properties (among them version, product id, name, Gregorian scale, method PUBLISH, refresh every 12 hours), and for every calculated uposatha, half moon and major event of the range exactly one VEVENT, in the order of the days, whose DTSTART is the day of the event, whose DTEND is the next day, whose SUMMARY needs no escaping and is the text of the event, and which has the UID and time stamp taken for it. With the shipped settings no line exceeds the 75 octets after which lines must be folded.", "quantifier": "all settings, data files, flags and clock readings giving a range in the years 0..9998, all UUIDs and clock readings for the stamps; line length for the shipped settings", "why_tests_cant": "The repository has one sample output with random UIDs that no test compares; escaping and folding matter for texts outside the sample.", "anchors": ["suriya/suriya.go:actionIcal", "calendar_event.go:icalEvent", "uposatha_moon.go:UposathaMoon.IcalEvent", "half_moon.go:HalfMoon.IcalEvent", "major_event.go:MajorEvent.IcalEvent"]}
{"id": "C59", "title": "A year's file name finds that year's embedded file, and path.Clean means what paths mean", "statement": "Cleaning a path gives the shortest name of the place the path leads to when . and .. are resolved one segment at a time; cleaning twice changes nothing. The name that GetAstroMoons builds for a year is /data/astro/astro-YEAR.json, already clean, and finds the file of that very year for 1900..2040 and nothing for any other year. A directory given to Dir does not confine: from any rooted directory every entry of the whole table is reached by enough '..'. The name reported for a file is the last part of the path as first asked for: right if that part is a file name, always wrong if it is . or .. from the root.", "quantifier": "all paths (any characters, any length), all years (any integer), all prefixes and names from the root", "why_tests_cant": "The set of spellings of a path is infinite; no test opens a file by an unclean name, through Dir, or for a negative year.", "anchors": ["astro_moon.go:GetAstroMoons", "data.go:_escStaticFS.prepare", "data.go:_escDirectory.Open", "data.go:Dir"]}
{"id": "C60", "title": "The compressed texts in data.go decode to the moons of their years, for every caller", "statement": "Each of the 141 texts in _escData, one for each year 1900..2040, is valid base64 of a gzip file with right checksum and length that inflates to the JSON text of that year's moons as tabulated (timestamp, UTC-offset moment, code, name; or the no-data message), and the recorded size is the length of that text. However many FSByte calls run concurrently, in any interleaving, a call that asks by any name leading to a year's file and has returned got exactly that text and no error; for the name GetAstroMoons builds, every other year gives 'not exist'.", "quantifier": "all embedded files; all names; all years (any integer); all numbers of concurrent calls and all schedules", "why_tests_cant": "The tests read a handful of years, one at a time, and never compare a file with anything; schedules cannot be enumerated.", "anchors": ["data.go:_escData", "data.go:_escStaticFS.prepare", "data.go:FSByte", "astro_moon.go:GetAstroMoons"]}
{"id": "C61", "title": "The data files are decoded as JSON and RFC 3339 say, and the embedded strings end up as the tabulated moons", "statement": "json.Unmarshal into AerisResp accepts exactly the JSON texts of RFC 8259 (each has one value) with at most 10000 arrays and objects inside one another, read from bytes as UTF-8 (RFC 3629, a byte with which no character begins counting as U+FFFD), and fills every field with the last non-null value given under its name, whatever the order and the case of the keys, with unknown keys ignored and absent ones zero; of a key given several times the error gets the members of all objects, and the moons are filled in layers: the last list says how many there are, but each keeps members from the same place of any list given since the last null or empty one, even if a shorter list stood between; strings mean what their escapes say, whole numbers must fit 64 bits, and dateTimeISO is accepted exactly if it is an RFC 3339 time with capital T/Z and no leap second and then denotes that instant and offset. The text of any list of valid moons is decoded to these moons; so looking up, decompressing and decoding the embedded string of a year gives exactly the tabulated response, for every year. A record without dateTimeISO silently vanishes and one without code becomes a new moon.", "quantifier": "all texts (any length, any nesting, any white space); all lists of moons; all years (any integer)", "why_tests_cant": "The set of JSON texts is infinite, and the tests only read well-formed embedded files of a few years.", "anchors": ["astro_moon.go:GetAstroMoons", "aeris_moon.go:AerisResp", "aeris_moon.go:AerisMoon", "aeris_moon.go:AerisError", "data.go:_escData"]}
{"id": "C62", "title": "The computed sine is the sine, and the positions are those of the real sine", "statement": "With Go's math.Sin (argument reduction, polynomials and every rounding): for all angles up to 50000 degrees either way the float64 value math.Sin(a*radconv) is within 2e-11 of the real sine of a degrees, never leaves [-1, 1], and is not negative from 0 to 180 degrees. Hence, for years >= 638 and lunar days 0..1000, TrueSun is below MeanSun + 134/60 sin|MeanSun-80| by less than 1/60 + 1/10000 degree and not above it (up to 1e-8), TrueMoon is MeanMoon - 296/60 sin(MeanMoon - apogee) truncated to four decimals (up to 1e-8; Horakhun not negative), the ranges of C48 hold without any assumption on the sine, and the true sun is never behind the mean sun within 180 degrees of 80.", "quantifier": "all angles (rational, |a| <= 50000); all years >= 638; lunar days 0..1000", "why_tests_cant": "The tests compare three days; the accuracy of a floating-point algorithm over all arguments and its relation to the real sine cannot be sampled.", "anchors": ["suriya_day.go:SuriyaDay.Init", "suriya_day.go:106-112", "suriya_day.go:172-186"]}
{"id": "C63", "title": "The calendar stays consistent for every exception table a caller sets up", "statement": "With exceptions switched on or off and any exception table: the Kattika full moon of a year is moved from the computed one by at most one day per entry between that year and 2016. If no entry marks an adhikamasa year as adhikavara, then with at most 10 entries (years 632 to 3410; at most 30 entries: 634 to 2255) the uposathas of each year end exactly at the Kattika of the next, the uposathas of consecutive years form one unbroken chain, each year has 24 or 25 uposathas and half moons, everything generated for a year is dated in it, and ranges in UTC from 1900 on can be cut at any midnight; with at most 5 entries the major events of 1610 to 3806 are the usual six. An entry that does mark an adhikamasa year as adhikavara breaks this: with 2015 marked, the uposathas of 2015 end a day after the Kattika from which 2016 is generated.", "quantifier": "all exception tables with a bounded number of entries, at any years and with any values; all years of the stated intervals; all ranges", "why_tests_cant": "The table is an exported variable; the tests use the shipped table only, and the number of possible tables is infinite.", "anchors": ["suriya.go:AdhikavaraExceptions", "suriya.go:UseExceptions", "suriya_year.go:Is_Adhikavara", "suriya_year.go:YearLength", "suriya_year.go:CalculatePreviousKattika", "cal_day.go:GenerateSolarYear", "uposatha_moon.go:NextUposatha"]}
{"id": "C64", "title": "Opened embedded files: positions are private, contents are not", "statement": "For any sequence of the exported file operations (Open through FS and Dir, Read, Seek, Stat, Readdir, Close, FSByte, FSString and their Must variants, and stores by callers into slices got from FSByte): without stores, what a caller gets through one opened handle is what it would get if nobody else did anything; consecutive reads in any portions give the contents from the position on without gap or repetition, and the end of the file exactly when all has been given; Seek moves to the asked position or fails without moving; a file of the library, opened by any name that leads to it after any history, gives the text of its year, with its length as size; Must variants panic exactly where the others return an error. Limits, also proved: a store into a slice from FSByte changes the file for all later readers; the Name of Stat is the last element of the spelling the first caller used (possibly \"..\"); directories have IsDir true but mode 0; Readdir lists nothing and never reports the end, so that reading a directory until io.EOF never ends; Close has no effect.", "quantifier": "all sequences of operations by any number of callers; all names; all portions and offsets; all files", "why_tests_cant": "The tests never open a file; interleavings of callers and spellings of names are unbounded.", "anchors": ["data.go:File", "data.go:FS", "data.go:Dir", "data.go:FSByte", "data.go:FSMustByte", "data.go:FSString", "data.go:FSMustString", "data.go:Stat", "data.go:prepare"]}
{"id": "C65", "title": "On 64-bit machine numbers the calendar is the same", "statement": "With every operation on int, int64 and Duration wrapped at 64 bits (years, leap rules, year lengths, the loops of DeltaAdhikamasa, DeltaAdhikavara and CalculatePreviousKattika, AsalhaPuja, SuriyaDay.Init, the steps to the next month, full moon, new moon and uposatha, GenerateSolarYear and GetCalDays, and the seconds of time.Time.Add) the results are those of the functions on unbounded integers: for years up to ±10^11 for the rules of a year, up to ±10^12 for the values of a day, up to ±10^9 for the Kattika search, AsalhaPuja, whole generated years and GetCalDays.", "quantifier": "all years, days and ranges within the stated bounds; all exception tables; all data files", "why_tests_cant": "Overflow would only show at extreme years, and the tests cover a few dozen usual ones.", "anchors": ["suriya_year.go:Init", "suriya_year.go:Is_Adhikavara", "suriya_year.go:YearLength", "helpers.go:CalculatePreviousKattika", "suriya_day.go:Init", "uposatha_moon.go:NextUposatha", "cal_day.go:GenerateSolarYear", "cal_day.go:GetCalDays"]}
{"id": "C66", "title": "A run of caldays or ical leaves other files alone, never a readable half file, and exit code 0 means the whole text", "statement": "For all flags, settings, data files, prior files and behaviours of the system (opening fails, writes take any portions and fail anywhere, standard output fails anywhere): wherever the process is killed, every file but the output file is as before, and the output file is as before or holds the first bytes of the text of C57 or C58. Without a text (wrong date, panic, year that JSON cannot hold) no file is touched and the exit code is not 0. Exit code 0 with an output file means it holds exactly the text. A file that did not exist before and was cut off by a kill or a full disk cannot be read as JSON, respectively as a calendar, unless complete. A later run that ends with 0 leaves nothing of a killed one. The exit code is always 0, 1 or 2, and 2 exactly if the dates are good and looking up the days panics. With the embedded data and a clock whose year has at most four digits the exit code is 0 or 1, and it is 0 exactly if each date option is missing or an existing date and the output goes to standard output or to a file that can be opened and takes all bytes of the text. With both dates given, embedded data and a writable file, caldays ends with 0 and the file holds JSON with exactly the days of the range. Limits, also proved: replacing an existing file is not atomic (killed after opening, the old contents are lost), and a failing standard output still gives exit code 0.", "quantifier": "all flags, clocks, settings and data files; all prior contents; all points of interruption; all sequences of short or failing writes", "why_tests_cant": "The tests run no command; interruptions and failing writes cannot be enumerated.", "anchors": ["suriya/suriya.go:actionCalDays", "suriya/suriya.go:actionIcal", "suriya/suriya.go:cliInit"]}
{"id": "C67", "title": "The texts of a year can be read back", "statement": "For any nine values, the text of SuriyaValuesString, read as nine lines of label, colon, space and decimal number, gives back the nine values; so it determines them. String gives the year, and different years have different texts.", "quantifier": "all values of the nine fields, negative ones included", "why_tests_cant": "A swapped field or a lost sign shows only for some values; no test reads this text.", "anchors": ["suriya_year.go:SuriyaValuesString", "suriya_year.go:String"]}
{"id": "C68", "title": "The table of years is complete and its test column is right", "statement": "utils/years-csv.go, with the field name BE_year read as BE_Year (it does not compile otherwise): for any two years and any settings yearsCsv gives a header of fourteen names and one line for each year in order; each line splits at its semicolons into the fourteen columns: the year in both eras, the values of Init, the positions in both cycles, the distance to the previous adhikamasa or adhikavara year (empty in other years; x where adhikavara was suppressed), the calculated Asalha as an ISO date, and for the 47 recorded years the recorded date, source and comment with OK exactly if the dates agree. Without exceptions, as main sets it, the test column fails exactly in 1978, 1984, 1985, 1986, 1989 and 1994 to 1996, each time by one day; with the shipped exceptions exactly in the five years the source marks as FAIL.", "quantifier": "all intervals of years; all exception tables", "why_tests_cant": "The program is not tested and does not compile.", "anchors": ["utils/years-csv.go:yearsCsv", "suriya_year.go:DeltaAdhikamasa", "suriya_year.go:DeltaAdhikavara", "suriya_year.go:AsalhaPuja"]}
{"id": "C69", "title": "Embedded files are decoded as RFC 4648, 1951 and 1952 say", "statement": "The decoder applied to an embedded string (base64, then gzip with DEFLATE) agrees with the RFCs, stated as relations between bits and bytes (canonical Huffman codes from code lengths, fixed, dynamic and stored blocks, length and distance tables, overlapping copies, check value by the sample code of RFC 1952, headers with the optional extra bytes, name, comment and check value): it accepts a text exactly if it is the base64 text of a gzip file, with any blocks and members, and gives its contents. Gzip files are here those of RFC 1952 with two departures of the Go package: names and comments of more than 511 bytes are refused, and the reserved flags are ignored. So a file has one contents only; a file is refused if check value or size do not fit what its blocks hold, or if any bytes are missing at the end of its single member; any bytes are the contents of some file. The embedded strings are base64 texts of gzip files that hold the texts of the table (C60).", "quantifier": "all byte strings; all embedded files", "why_tests_cant": "The tests read only the files shipped; truncated or damaged data and other block types never occur in them.", "anchors": ["data.go:prepare"]}
{"id": "C70", "title": "Local files: only listed paths are opened, contents agree, files stay open", "statement": "With useLocal = true, whatever names are asked for (with .., doubled slashes or a prefix directory) and in whatever order, only 144 paths are ever handed to os.Open: data/astro/astro-1900.json to astro-2040.json relative to the working directory, and the absolute directories /, /data and /data/astro. A name not in the table is ErrNotExist and nothing is looked for. If the working directory holds the repository's file of a year, FSByte, FSMustByte and Open give the bytes that the embedded file gives. The three directories are those of the machine: opening / opens the machine's root, and FSByte of a directory fails where the embedded one is empty without error. FSByte never closes its file: each success takes one of the files the process may have open until garbage collection, and at the bound FSByte fails and FSMustByte panics. A file from Open counts until its caller closes it: each close gives one place back, and opening and closing in turn can go on for ever. Dir(true, dir).Open(name) knows only the joined text, without a slash between: in /data/astro no data file is found under its bare name, and every one under its name with a leading slash.", "quantifier": "all machines (files, bound on open files), all names, all sequences of calls", "why_tests_cant": "No test passes useLocal = true, and files left open show only after many calls on a machine with a bound.", "anchors": ["data.go:_escLocalFS.Open", "data.go:FSByte", "data.go:FS", "data.go:Dir"]}
{"id": "C71", "title": "Changing the settings during a calculation", "statement": "UseExceptions and AdhikavaraExceptions are variables that another goroutine may assign while a calculation reads them. Whatever settings the successive reads find: GenerateSolarYear ends; CalculatePreviousKattika gives the result of one fixed table made of answers that were read; the events of a year are those of one fixed answer for the year, from the Kattika found. If all tables list only years before Y (Y at most 2016), no change has any effect on the days from the year Y on; so switching UseExceptions with the shipped table has no effect on ranges from 1998 on. Earlier the Kattika moves by at most one day, not later for 1995 to 1997. Findings: it can fall on a day that neither setting gives (29 November 1993), and a table replaced between the two lookups of Is_Adhikavara makes a year common that both tables and the rule call adhikavara. And if the switch is set between two years of one GetCalDays call, the full moon of 25 December 1996 is followed by a new moon after 13 days instead of 14.", "quantifier": "all sequences of settings found by the reads; all years (events: 631 to 4116); all ranges and data files", "why_tests_cant": "Tests set the switch before a calculation and never during it; the interleavings are unbounded.", "anchors": ["suriya_year.go:Is_Adhikavara", "helpers.go:CalculatePreviousKattika", "uposatha_moon.go:NextUposatha", "cal_day.go:GenerateSolarYear", "cal_day.go:GetCalDays", "suriya.go:UseExceptions"]}
{"id": "C72", "title": "The files written by caldays and ical are a printed almanac", "statement": "The almanac is given by one date (full moon of Kattika on 25 November 2015), the divisions of the traditional rule for long years, the table of exceptions and the literal lists of months with their days; there is exactly one. With the shipped settings, any flags (a date left out is the first or last day of the clock's year) and both dates in the years 1290 to 4115: if caldays ends with exit code 0, the output file holds, or without one standard output was sent, JSON that, read after RFC 8259, has exactly the uposathas of the almanac between the dates (each with date, phase, month, year, fortnight, season, number and festival), exactly its half moons except those after the last full moon of a lunar year when the civil year changes in between, exactly its festivals with the first and last day of Vassa, and the embedded astronomical moons from the first day to the day before the last; days in order and nothing twice. If ical ends with exit code 0, the file or standard output likewise has an iCalendar object that, read after RFC 5545, has exactly the same entries as whole-day events with their texts, in order and none twice. Both end with exit code 0 if they print or the system lets them write the file. In every year from 639 on the uposathas generated for the year, apart from their festivals, and the half moons are exactly those of the almanac in the year after the Kattika full moon that the loop starts with, so that from 4116 on those up to and including a Kattika in January or later are missing; the lunar year written is one too high when that Kattika is in the year itself. In every year from 1290 on the festivals written with these uposathas are those of the almanac too, and the major events are exactly the feasts of these uposathas (the first day of Vassa with its full moon, so that in 11149 it is dated in the next year); up to 5834 they are all festivals of the almanac in the year.", "quantifier": "all flags and clocks with a date range in 1290 to 4115, both settings, all systems and UIDs; the moons of each year from 639 on, the festivals of each year from 1290 on", "why_tests_cant": "There are some 5*10^11 ranges; a test compares a few files with files made by the same program, not with an almanac stated independently of it.", "anchors": ["suriya/suriya.go:actionCalDays", "suriya/suriya.go:actionIcal", "cal_day.go:GetCalDays", "cal_day.go:GenerateSolarYear", "helpers.go:CalculatePreviousKattika", "suriya_year.go:Is_Adhikavara", "uposatha_moon.go:NextUposatha"]}
{"id": "C73", "title": "On 32-bit platforms the calendar is the same up to the year 7986", "statement": "Where Go's int has 32 bits, Init gives the values of a 64-bit platform exactly for the years -6711..7987 (in 7988 and -6712 the first product overflows), and the predicates, year lengths, Kattika dates, Asalha Pujas, generated events, daily values and GetCalDays are those of the unbounded model for years -6000..7986, any settings and data files. The embedded files decode to the same moons, so both platforms have the same calendar. Any text that a 32-bit platform decodes is decoded to the same on 64 bits; a data file in the form of the service is refused on 32 bits, and GetAstroMoons panics, exactly if it has a moon before 1901-12-13 20:45:52 or from 2038-01-19 03:14:08 on.", "quantifier": "all years of the ranges; all settings, data files and ranges; all texts; all lists of moons", "why_tests_cant": "Tests run on the developer's 64-bit machine. The claim is about every intermediate product of every year in the range on another platform, about the exact year of the first overflow, and about all possible data files.", "anchors": ["suriya_year.go:Init", "suriya_day.go:Init", "helpers.go:HorakhunToDate", "helpers.go:CalculatePreviousKattika", "cal_day.go:GenerateSolarYear", "cal_day.go:GetCalDays", "aeris_moon.go:AerisMoon", "astro_moon.go:GetAstroMoons"]}
{"id": "C74", "title": "The positions do not depend on whether the compiler fuses multiplications and additions", "statement": "Go lets the compiler round x*y + z once or twice, and platforms differ. Whatever it does at each of the 24 places of Init, the helpers and math.Sin: MeanSun is the same on every day of every year from 638 CE (lunar days 0 to 100000); from the New Year day to lunar day 400 TrueSun and MeanMoon are the same too, TrueMoon differs by at most one unit of its fourth decimal, and Raek does not if TrueMoon does not. Before the New Year day TrueSun differs by less than 61 arc seconds, and on lunar day 1 of 1985 it does differ.", "quantifier": "all 2^24 choices of fused operations; all years from 638 CE; all days of the ranges", "why_tests_cant": "Tests run on one platform with one compiler. The claim compares all possible roundings of every year; a program that rounds differently by one unit agrees with the tests and disagrees on a few days per century.", "anchors": ["suriya_day.go:Init", "helpers.go:DegreeToRal", "helpers.go:RalToDegree", "helpers.go:NormalizeDegree"]}
{"id": "C75", "title": "The program that writes years.csv writes the committed tables, and hides write errors", "statement": "utils/years-csv.go, with BE_year read as BE_Year: main writes, byte for byte, the file utils/years.csv of the repository if the system lets it; killed at any point it has touched no other file, and years.csv is as it was or holds the first bytes of that file. If years.csv cannot be created it panics and changes nothing. Finding: once the file is created the exit code is 0 whatever could be written; a full disk leaves an empty years.csv and prints the number of bytes that were written. yearsCsvSimple, which nothing calls, gives no table for any interval of years and any settings: the header names nine columns, the first line of values has seven, every further one eight, beginning with the left-over values of the previous year, and the last two. The second committed table, the spreadsheet years-1970-2041.xlsx, is what yearsCsv gives with the shipped exceptions switched on. Settings of any kind give one of the two tables exactly if their adhikavara answers in the years 1968 to 2041 are those of the rule (years.csv) or of the shipped exceptions (the spreadsheet), so no settings give both.", "quantifier": "all behaviours of the system (creation failing, writes of any sizes failing at any byte, output cut), all points of interruption; for yearsCsvSimple all intervals of years and exception tables; for the two tables all settings", "why_tests_cant": "The program has no test and does not compile; write errors at every byte cannot be produced by a test.", "anchors": ["utils/years-csv.go:main", "utils/years-csv.go:yearsCsv", "utils/years-csv.go:yearsCsvSimple", "utils/years.csv", "utils/years-1970-2041.xlsx"]}
{"id": "C76", "title": "The calendar repeats after 16608000 years, with a fixed share of each kind of year", "statement": "From 638 CE on the values Kammacubala, Avoman and Tithi repeat after exactly 16608000 = 800*692*30 years: years with the same three values are a multiple of that apart, and in any such stretch each of the possible combinations occurs exactly once. From 639 on the kinds and lengths of years repeat too. Any 16608000 consecutive years have exactly 6125521 adhikamasa years, 3223416 adhikavara years (default settings) and 4297320 leap years of the sun. Over any number of years the number of adhikamasa years is within 1.07 of 6125521/16608000 of them; nineteen years have six, seven or eight (all three occur), not always seven. Finding: the calendar's days of such a period are 3726 more than the solar days of the same code, so the moon of the calendar falls behind for good.", "quantifier": "all years from 638 (639) CE on, all stretches of years", "why_tests_cant": "The period is longer than any table; the statements are about all stretches of years.", "anchors": ["suriya_year.go:SuriyaYear.Init", "suriya_year.go:Is_Adhikamasa", "suriya_year.go:Is_Adhikavara", "suriya_year.go:Is_Suriya_Leap", "helpers.go:CalculatePreviousKattika"]}
{"id": "C77", "title": "Which tables of exceptions give the recorded dates of Asalha", "statement": "utils/years-csv.go records the dates of Asalha Puja 1970 to 2016 from printed calendars. Settings (UseExceptions and any table) give all 47 dates exactly if their adhikavara years among the years 1971 to 2016 that are not adhikamasa are 1973, 1979, 1987, 1990, 1997, 2000, 2005, 2009 and 2016. Every such table has entries for 1978, 1979, 1984, 1987, 1989, 1990, 1994 and 1997; the shipped one has only the last two, so that five dates are wrong. With the six missing entries added all dates are given, the uposathas of the years 632 to 3410 still form one unbroken chain, and nothing changes from 1998 on.", "quantifier": "all exception tables, on or off; all recorded dates; all ranges from 1998 to 4116", "why_tests_cant": "The claim is about all tables; the FAIL marks of the program only concern the shipped one.", "anchors": ["suriya_year.go:Is_Adhikavara", "suriya_year.go:AsalhaPuja", "suriya.go:AdhikavaraExceptions", "utils/years-csv.go:testYears"]}
{"id": "C78", "title": "From the words of the command line to the output", "statement": "A command (caldays or ical) followed by the options from, to and output, in any order and in any of the forms -name value, --name value, -name=value and --name=value, works with the last value given for each option; options left out are empty. So the whole program leaves the almanac of the days asked for in the file asked for (years 1290 to 4115), and the entries of C80 for all years from 640 to 11148 (ical: 9998). The exit code is then 0 or 1, and 0 exactly if the dates exist and the output can be written (clock years of up to four digits). Whatever the words are and whenever the program is killed, a file changes only if the name of a command and the name of that file are among the words. Wrong command lines end with exit code 0: options before the command, unknown options, options without a value, and a misspelt command only print something. With the versions of the library of 2016 a stray word makes all options after it ineffective without any message. The option help (or h) of a command, switched on, makes it only print; switched off with one of Go's six words for false it has no effect; with any other value, or with both names used, even switched off, the command only prints.", "quantifier": "all lists of words; all option values not starting with a minus sign; for the first and the third claim all versions of the library cli that hand well written options to package flag as they are, or hand on no words of their own", "why_tests_cant": "There are infinitely many command lines, and the repository has no test of main.", "anchors": ["suriya/suriya.go:main", "suriya/suriya.go:cliInit", "suriya/suriya.go:actionCalDays", "suriya/suriya.go:actionIcal"]}
{"id": "C79", "title": "The script that fetched the astronomical data", "statement": "utils/get-astromoons.sh, given two years written as numbers, asks about each year from the first to the last exactly once and in order, each with the bounds 1 January and 31 December of that year, and saves the answer under the name that GetAstroMoons looks for; stopped early it has asked about the first ones of them. If the clock goes on it ends with exit code 0. Without its variables or arguments it asks nothing and ends with exit code 1. However long its steps take, more than 60 seconds pass from one question to the 22nd after it, and before 61 seconds have passed there are at most 11 questions; both bounds are reached, so the ten requests per minute of the comment are not kept. A first year with a leading zero and a digit 8 or 9 makes it ask about that year without end. No embedded answer has more than 50 records, so the limit of 250 never cut one off.", "quantifier": "all words for the variables and arguments; all readings of the clock; all times at which the steps happen; all moments at which the script is stopped", "why_tests_cant": "The rate depends on the timing of every step, and the number of possible words is unbounded; the script needs a paid service and has no test.", "anchors": ["utils/get-astromoons.sh", "astro_moon.go:GetAstroMoons"]}
{"id": "C80", "title": "The files for years before 1290 and after 4115: what they lack and what is wrong", "statement": "With the shipped settings, any flags and both dates in the years 640 to 11148: if caldays ends with exit code 0, the JSON written has between the dates exactly the uposathas of the almanac of C72 that come after the Kattika full moon belonging to their civil year, the half moons of those uposathas that come after the Kattika full moon belonging to the half moon's civil year, and exactly the feasts of those uposathas, with two differences: the lunar year written is one too high for the uposathas whose Kattika full moon is in the same civil year, and the full moon of the third month of a lunar year with an extra month is written as Māgha Pūjā, with an event of that name, if the new moon before it is in the civil year before. Days are in order and nothing is written twice. If ical ends with exit code 0 (dates up to 9998), the calendar has exactly the same entries, each as one whole-day event with its text, in order. So in 5600 the uposathas up to 27 January are missing and Pavāraṇā on 18 December is shown with the lunar year 6144; in 1289 Māgha Pūjā is on 15 January and on 13 February. From 1290 on there is no second Māgha Pūjā. Whatever the settings and the dates, no major event is listed twice.", "quantifier": "all flags and clocks with a date range in 640 to 11148 (ical: 9998), both settings, all systems and UIDs; the last claim all settings and ranges", "why_tests_cant": "The errors begin with the year 4116, and only a comparison with an independent almanac for all ranges shows exactly which entries are missing or wrong.", "anchors": ["cal_day.go:GenerateSolarYear", "suriya/suriya.go:actionCalDays", "suriya/suriya.go:actionIcal", "cal_day.go:GetCalDays", "helpers.go:CalculatePreviousKattika"]}
{"id": "C81", "title": "Where in the Gregorian year Asalha Puja and the other festivals fall", "statement": "With either shipped setting, for every year y from 638 CE, 800 times the days from 1 January to Asalha Puja (without the surplus days of C11) minus 13*(y-638) lies between 128597 and 154030, and with the default settings both ends are reached in any 16608000 consecutive years: Asalha Puja moves one day later in 61.5 years within a band of 32 days. 16608000 years later it is, with the default settings, exactly 273606 days later in the year. With either shipped setting it falls between 12 June and 21 July in 638-1289, 23 June and 26 July in 1290-1582, 27 June and 31 July in 1583-1899, 3 July and 3 August in 1900-2100, 6 July and 17 August in 2101-3000, 21 July and 4 September in 3001-4097; each of these dates occurs. Up to 11186 it is dated in its own year; that of 11187 falls on 1 January 11188. In the events generated for 1900-2100 Magha Puja falls between 6 February and 8 March, Vesakha Puja between 5 May and 5 June, the first day of Vassa between 4 July and 4 August, Pavarana and the last day of Vassa between 30 September and 31 October; each of these dates occurs.", "quantifier": "every year >= 638 for the band; every year 638..4097 for the dates and 638..11187 for the civil year; both settings, the ends and the period for the default", "why_tests_cant": "The drift is 13 days in 800 years under a monthly swing of 30 days; tests compare single years with known dates and cannot show a bound for all years or that it is the best one.", "anchors": ["suriya_year.go:AsalhaPuja", "suriya_year.go:YearLength", "helpers.go:CalculatePreviousKattika", "major_event.go", "cal_day.go:GenerateSolarYear"]}
{"id": "C82", "title": "The date of Asalha Puja after nineteen years", "statement": "With either shipped setting and for every year y from 638 CE: among the years y+1 to y+19 there are six, seven or eight adhikamasa years. With seven, Asalha Puja of y+19 is on the Gregorian date of Asalha Puja of y or at most one day earlier or three days later in the year; with six it is 27 to 30 days earlier, with eight 29 to 32 days later. All thirteen shifts occur.", "quantifier": "every year >= 638, both shipped settings", "why_tests_cant": "Some of the shifts first occur after more than a million years, so sampled years suggest narrower bounds than the true ones.", "anchors": ["suriya_year.go:AsalhaPuja", "suriya_year.go:Is_Adhikamasa", "suriya_year.go:Is_Adhikavara", "helpers.go:CalculatePreviousKattika"]}
