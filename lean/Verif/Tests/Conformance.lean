import Verif.Model.Ical
import Verif.Model.Names
import Verif.Model.Horakhun
import Verif.Model.SuriyaDayFloat
/-
Conformance tests: the model evaluated on the expectations shipped with the repository (suriya_test.go, utils/years.csv,
suriya/testdata). These are tests, not theorems: `#guard` evaluates the model at build time and fails the build on a
difference. Nothing else depends on this file.
-/
set_option autoImplicit false

namespace Verif.Tests
open Verif.Go Verif.Model

def pad (n : Nat) (i : Int) : String :=
  let s := toString i.natAbs
  (if i < 0 then "-" else "") ++ String.ofList (List.replicate (n - s.length) '0') ++ s

/-- `2006-01-02`. -/
def fmtDate (t : Time) : String := pad 4 t.year ++ "-" ++ pad 2 t.month ++ "-" ++ pad 2 t.dayOfMonth

/-- RFC 3339 in UTC with whole seconds. -/
def fmtTime (t : Time) : String :=
  let s := t.sinceMidnight / nsPerSec
  fmtDate t ++ "T" ++ pad 2 (s / 3600) ++ ":" ++ pad 2 (s / 60 % 60) ++ ":" ++ pad 2 (s % 60) ++ "Z"

def year (y : Int) : SuriyaYear := SuriyaYear.init y

/-! suriya_test.go:8-91 `TestAdhikamasa` -/
#guard [(1950, true), (1951, false), (1952, false), (1953, true), (1954, false), (1955, false), (1956, true), (1957, false), (1958, true), (1959, false), (1960, false), (1961, true), (1962, false), (1963, false), (1964, true), (1965, false), (1966, true), (1967, false), (1968, false), (1969, true), (1970, false), (1971, false), (1972, true), (1973, false), (1974, false), (1975, true), (1976, false), (1977, true), (1978, false), (1979, false), (1980, true), (1981, false), (1982, false), (1983, true), (1984, false), (1985, true), (1986, false), (1987, false), (1988, true), (1989, false), (1990, false), (1991, true), (1992, false), (1993, true), (1994, false), (1995, false), (1996, true), (1997, false), (1998, false), (1999, true), (2000, false), (2001, false), (2002, true), (2003, false), (2004, true), (2005, false), (2006, false), (2007, true), (2008, false), (2009, false), (2010, true), (2011, false), (2012, true), (2013, false), (2014, false), (2015, true), (2016, false), (2017, false), (2018, true)].all fun (y, b) => (year y).isAdhikamasa == b

/-! suriya_test.go:93-129 `TestAdhikavara` -/
#guard [(1993, false), (1994, true), (1995, false), (1996, false), (1997, false), (1998, false), (1999, false), (2000, true), (2001, false), (2002, false), (2003, false), (2004, false), (2005, true), (2006, false), (2007, false), (2008, false), (2009, true), (2010, false), (2011, false), (2012, false), (2013, false), (2014, false), (2015, false), (2016, true)].all fun (y, b) => (year y).isAdhikavara Config.default == b

/-! suriya_test.go:131-187 `TestCalculateSuriyaValues` -/
#guard year 1963 = { Year := 1963, BE_Year := 2506, CS_Year := 1325, Horakhun := 483969, Kammacubala := 552, Uccabala := 1780, Avoman := 61, Masaken := 16388, Tithi := 23 }
#guard year 1496 = { Year := 1496, BE_Year := 2039, CS_Year := 858, Horakhun := 313393, Kammacubala := 421, Uccabala := 2500, Avoman := 429, Masaken := 10612, Tithi := 15 }

/-! suriya_test.go:189-270 `TestSuriyaDayInit`; the sine is given by its values at the two angles used. -/
def sines (a s u x : ℚ) : ℚ := if x = a then s else u

#guard SuriyaDay.init 1963 103 = { Year := 1963, Day := 103, BE_Year := 2506, CS_Year := 1325, Masaken := 16391, Avoman := 249, Horakhun := 484049, Kammacubala := 64552, Uccabala := 1860, Tithi := 14 }
#guard (SuriyaDayPositions.init .none (sines (18767344072183 / 35184372088832) (1341633390733131 / 144115188075855872) (3123090155859151 / 4503599627370496)) 1963 103).TrueSun = fl (794832 / 10000)
#guard (SuriyaDayPositions.init .none (sines (18767344072183 / 35184372088832) (1341633390733131 / 144115188075855872) (3123090155859151 / 4503599627370496)) 1963 103).TrueMoon = fl (2476955 / 10000)
#guard SuriyaDay.init 2015 133 = { Year := 2015, Day := 133, BE_Year := 2558, CS_Year := 1377, Masaken := 17035, Avoman := 463, Horakhun := 503067, Kammacubala := 84188, Uccabala := 1486, Tithi := 14 }
#guard (SuriyaDayPositions.init .none (sines (1665388920955103 / 70368744177664) (3615615269752951 / 9007199254740992) (8206158547488807 / 9007199254740992)) 2015 133).TrueSun = fl (1045499 / 10000)
#guard (SuriyaDayPositions.init .none (sines (1665388920955103 / 70368744177664) (3615615269752951 / 9007199254740992) (8206158547488807 / 9007199254740992)) 2015 133).TrueMoon = fl (2754053 / 10000)
#guard SuriyaDay.init 2015 118 = { Year := 2015, Day := 118, BE_Year := 2558, CS_Year := 1377, Masaken := 17034, Avoman := 298, Horakhun := 503052, Kammacubala := 72188, Uccabala := 1471, Tithi := 29 }
#guard (SuriyaDayPositions.init .none (sines (625106665153443 / 70368744177664) (5563653992373407 / 36028797018963968) (-2230871518970091 / 2251799813685248)) 2015 118).TrueSun = fl (892166 / 10000)
#guard (SuriyaDayPositions.init .none (sines (625106665153443 / 70368744177664) (5563653992373407 / 36028797018963968) (-2230871518970091 / 2251799813685248)) 2015 118).TrueMoon = fl (865874 / 10000)

/-! suriya_test.go:272-364 `TestAsalhaPuja` -/
#guard [(1950, "1950-07-29"),
  (1951, "1951-07-18"),
  (1954, "1954-07-15"),
  (1955, "1955-07-04"),
  (1956, "1956-07-22"),
  (1959, "1959-07-20"),
  (1960, "1960-07-08"),
  (1961, "1961-07-27"),
  (1962, "1962-07-16"),
  (1963, "1963-07-06"),
  (1964, "1964-07-24"),
  (1965, "1965-07-13"),
  (1966, "1966-08-01"),
  (1967, "1967-07-21"),
  (1970, "1970-07-18"),
  (1971, "1971-07-07"),
  (1972, "1972-07-25"),
  (1973, "1973-07-15"),
  (1974, "1974-07-04"),
  (1975, "1975-07-23"),
  (1976, "1976-07-11"),
  (1977, "1977-07-30"),
  (1978, "1978-07-20"),
  (1979, "1979-07-09"),
  (1980, "1980-07-27"),
  (1981, "1981-07-16"),
  (1982, "1982-07-05"),
  (1983, "1983-07-24"),
  (1984, "1984-07-13"),
  (1985, "1985-08-01"),
  (1986, "1986-07-21"),
  (1987, "1987-07-10"),
  (1988, "1988-07-28"),
  (1989, "1989-07-18"),
  (1990, "1990-07-07"),
  (1991, "1991-07-26"),
  (1992, "1992-07-14"),
  (1993, "1993-08-02"),
  (1994, "1994-07-23"),
  (1995, "1995-07-12"),
  (1996, "1996-07-30"),
  (1997, "1997-07-19"),
  (1998, "1998-07-08"),
  (1999, "1999-07-27"),
  (2000, "2000-07-16"),
  (2001, "2001-07-05"),
  (2002, "2002-07-24"),
  (2003, "2003-07-13"),
  (2004, "2004-07-31"),
  (2005, "2005-07-21"),
  (2006, "2006-07-10"),
  (2007, "2007-07-29"),
  (2008, "2008-07-17"),
  (2009, "2009-07-07"),
  (2010, "2010-07-26"),
  (2011, "2011-07-15"),
  (2012, "2012-08-02"),
  (2013, "2013-07-22"),
  (2014, "2014-07-11"),
  (2015, "2015-07-30"),
  (2016, "2016-07-19"),
  (2017, "2017-07-08"),
  (2018, "2018-07-27"),
  (2019, "2019-07-16"),
  (2024, "2024-07-20"),
  (2025, "2025-07-10")].all fun (y, s) => fmtDate ((year y).asalhaPuja Config.default) == s

/-! suriya_test.go:366-435 `TestRaek` -/
#guard degreeToRalString (SuriyaDayPositions.init .none (sines (18767344072183 / 35184372088832) (1341633390733131 / 144115188075855872) (3123090155859151 / 4503599627370496)) 1963 103).Raek = "0:19°34'"
#guard degreeToRalString (SuriyaDayPositions.init .none (sines (18767344072183 / 35184372088832) (1341633390733131 / 144115188075855872) (3123090155859151 / 4503599627370496)) 1963 103).TrueSun = "2:19°28'"
#guard degreeToRalString (SuriyaDayPositions.init .none (sines (18767344072183 / 35184372088832) (1341633390733131 / 144115188075855872) (3123090155859151 / 4503599627370496)) 1963 103).TrueMoon = "8:7°41'"
#guard degreeToRalString (SuriyaDayPositions.init .none (sines (92944796528463 / 8796093022208) (3303450262147027 / 18014398509481984) (8888745722615413 / 9007199254740992)) 1962 103).Raek = "0:20°39'"
#guard degreeToRalString (SuriyaDayPositions.init .none (sines (625106665153443 / 70368744177664) (5563653992373407 / 36028797018963968) (-2230871518970091 / 2251799813685248)) 2015 118).TrueMoon = "2:26°35'"
#guard degreeToRalString (SuriyaDayPositions.init .none (sines (4361694017861819 / 70368744177664) (3975829715000127 / 4503599627370496) (4175079577222445 / 4503599627370496)) 1288 41).TrueSun = "0:19°58'"
#guard degreeToRalString (SuriyaDayPositions.init .none (sines (4361694017861819 / 70368744177664) (3975829715000127 / 4503599627370496) (4175079577222445 / 4503599627370496)) 1288 41).TrueMoon = "5:11°27'"
#guard degreeToRalString (SuriyaDayPositions.init .none (sines (60988590578781 / 70368744177664) (8719655876438851 / 576460752303423488) (7305780991523311 / 18014398509481984)) 1288 103).TrueSun = "2:19°9'"
#guard degreeToRalString (SuriyaDayPositions.init .none (sines (60988590578781 / 70368744177664) (8719655876438851 / 576460752303423488) (7305780991523311 / 18014398509481984)) 1288 103).TrueMoon = "8:19°1'"

/-! suriya_test.go:437-535 `TestDay` -/
#guard [(0, "0638-03-24"), (205184, "1200-01-01"), (237396, "1288-03-11"), (237430, "1288-04-14"), (237437, "1288-04-21"), (237499, "1288-06-22"), (338796, "1565-10-26"), (351281, "1600-01-01"), (387806, "1700-01-01"), (408625, "1757-01-01"), (408805, "1757-06-30"), (483946, "1963-03-24"), (484049, "1963-07-05"), (502857, "2015-01-01")].all fun (h, s) => fmtDate (horakhunToDate .bits64 h) == s
#guard (SuriyaDay.init 638 1).Horakhun = 1 ∧ (SuriyaDay.init 638 1).Tithi = 1 ∧ fmtDate (horakhunToDate .bits64 1) = "0638-03-25"
#guard degreeToRalString (SuriyaDayPositions.init .none (sines (2798332739089911 / 35184372088832) (553583013870903 / 562949953421312) (4489965956867263 / 4503599627370496)) 638 1).TrueSun = "0:2°38'"
#guard degreeToRalString (SuriyaDayPositions.init .none (sines (2798332739089911 / 35184372088832) (553583013870903 / 562949953421312) (4489965956867263 / 4503599627370496)) 638 1).TrueMoon = "0:20°30'"
#guard (SuriyaDay.init 1565 298).Horakhun = 338865 ∧ (SuriyaDay.init 1565 298).Tithi = 2 ∧ fmtDate (horakhunToDate .bits64 338865) = "1566-01-03"
#guard degreeToRalString (SuriyaDayPositions.init .none (sines (1633727384121665 / 8796093022208) (-7198413413197739 / 72057594037927936) (7749423505003429 / 9007199254740992)) 1565 298).TrueSun = "8:25°29'"
#guard degreeToRalString (SuriyaDayPositions.init .none (sines (1633727384121665 / 8796093022208) (-7198413413197739 / 72057594037927936) (7749423505003429 / 9007199254740992)) 1565 298).TrueMoon = "9:20°50'"

/-! utils/years.csv, columns 1-10: CE year; BE year; K; A; T; nM; dM; nV; dV; Asalha by calculation -/
def showDelta (d : Option Int) : String := match d with | some n => toString n | none => "no result"

/-- utils/years-csv.go:114-172, the computed columns. -/
def csvRow (y : Int) : List String :=
  let su := year y
  [toString su.Year, toString su.BE_Year, toString su.Kammacubala, toString su.Avoman, toString su.Tithi,
    toString su.adhikamasaCyclePos, (if su.isAdhikamasa then showDelta su.deltaAdhikamasa else ""),
    toString su.adhikavaraCyclePos, (if su.isAdhikavara Config.default then showDelta (su.deltaAdhikavara Config.default)
      else if su.wouldBeAdhikavara then "x" else ""),
    fmtDate (su.asalhaPuja Config.default)]

#guard [
  (1970, ["1970", "2513", "703", "508", "10", "6", "", "44", "", "1970-07-18"]),
  (1971, ["1971", "2514", "496", "371", "21", "7", "", "45", "", "1971-07-07"]),
  (1972, ["1972", "2515", "289", "234", "2", "8", "3", "46", "", "1972-07-25"]),
  (1973, ["1973", "2516", "82", "97", "13", "9", "", "47", "5", "1973-07-15"]),
  (1974, ["1974", "2517", "675", "663", "24", "10", "", "48", "", "1974-07-04"]),
  (1975, ["1975", "2518", "468", "526", "5", "11", "3", "49", "", "1975-07-23"]),
  (1976, ["1976", "2519", "261", "389", "16", "12", "", "50", "", "1976-07-11"]),
  (1977, ["1977", "2520", "54", "252", "27", "13", "2", "51", "", "1977-07-30"]),
  (1978, ["1978", "2521", "647", "126", "9", "14", "", "52", "5", "1978-07-20"]),
  (1979, ["1979", "2522", "440", "681", "19", "15", "", "53", "", "1979-07-09"]),
  (1980, ["1980", "2523", "233", "544", "0", "16", "3", "54", "", "1980-07-27"]),
  (1981, ["1981", "2524", "26", "407", "11", "17", "", "55", "", "1981-07-16"]),
  (1982, ["1982", "2525", "619", "281", "23", "18", "", "56", "", "1982-07-05"]),
  (1983, ["1983", "2526", "412", "144", "4", "19", "3", "57", "", "1983-07-24"]),
  (1984, ["1984", "2527", "205", "7", "15", "1", "", "1", "6", "1984-07-13"]),
  (1985, ["1985", "2528", "798", "573", "26", "2", "2", "2", "", "1985-08-01"]),
  (1986, ["1986", "2529", "591", "436", "7", "3", "", "3", "", "1986-07-21"]),
  (1987, ["1987", "2530", "384", "299", "18", "4", "", "4", "", "1987-07-10"]),
  (1988, ["1988", "2531", "177", "162", "29", "5", "3", "5", "", "1988-07-28"]),
  (1989, ["1989", "2532", "770", "36", "11", "6", "", "6", "5", "1989-07-18"]),
  (1990, ["1990", "2533", "563", "591", "21", "7", "", "7", "", "1990-07-07"]),
  (1991, ["1991", "2534", "356", "454", "2", "8", "3", "8", "", "1991-07-26"]),
  (1992, ["1992", "2535", "149", "317", "13", "9", "", "9", "", "1992-07-14"]),
  (1993, ["1993", "2536", "742", "191", "25", "10", "2", "10", "", "1993-08-02"]),
  (1994, ["1994", "2537", "535", "54", "6", "11", "", "11", "5", "1994-07-23"]),
  (1995, ["1995", "2538", "328", "609", "16", "12", "", "12", "", "1995-07-12"]),
  (1996, ["1996", "2539", "121", "472", "27", "13", "3", "13", "", "1996-07-30"]),
  (1997, ["1997", "2540", "714", "346", "9", "14", "", "14", "", "1997-07-19"]),
  (1998, ["1998", "2541", "507", "209", "20", "15", "", "15", "", "1998-07-08"]),
  (1999, ["1999", "2542", "300", "72", "1", "16", "3", "16", "x", "1999-07-27"]),
  (2000, ["2000", "2543", "93", "627", "11", "17", "", "17", "6", "2000-07-16"]),
  (2001, ["2001", "2544", "686", "501", "23", "18", "", "18", "", "2001-07-05"]),
  (2002, ["2002", "2545", "479", "364", "4", "19", "3", "19", "", "2002-07-24"]),
  (2003, ["2003", "2546", "272", "227", "15", "1", "", "20", "", "2003-07-13"]),
  (2004, ["2004", "2547", "65", "90", "26", "2", "2", "21", "x", "2004-07-31"]),
  (2005, ["2005", "2548", "658", "656", "7", "3", "", "22", "5", "2005-07-21"]),
  (2006, ["2006", "2549", "451", "519", "18", "4", "", "23", "", "2006-07-10"]),
  (2007, ["2007", "2550", "244", "382", "29", "5", "3", "24", "", "2007-07-29"]),
  (2008, ["2008", "2551", "37", "245", "10", "6", "", "25", "", "2008-07-17"]),
  (2009, ["2009", "2552", "630", "119", "22", "7", "", "26", "4", "2009-07-07"]),
  (2010, ["2010", "2553", "423", "674", "2", "8", "3", "27", "", "2010-07-26"]),
  (2011, ["2011", "2554", "216", "537", "13", "9", "", "28", "", "2011-07-15"]),
  (2012, ["2012", "2555", "9", "400", "24", "10", "2", "29", "", "2012-08-02"]),
  (2013, ["2013", "2556", "602", "274", "6", "11", "", "30", "", "2013-07-22"]),
  (2014, ["2014", "2557", "395", "137", "17", "12", "", "31", "", "2014-07-11"]),
  (2015, ["2015", "2558", "188", "0", "28", "13", "3", "32", "x", "2015-07-30"]),
  (2016, ["2016", "2559", "781", "566", "9", "14", "", "33", "7", "2016-07-19"]),
  (2017, ["2017", "2560", "574", "429", "20", "15", "", "34", "", "2017-07-08"]),
  (2018, ["2018", "2561", "367", "292", "1", "16", "3", "35", "", "2018-07-27"]),
  (2019, ["2019", "2562", "160", "155", "12", "17", "", "36", "", "2019-07-16"]),
  (2020, ["2020", "2563", "753", "29", "24", "18", "", "37", "4", "2020-07-05"]),
  (2021, ["2021", "2564", "546", "584", "4", "19", "3", "38", "", "2021-07-24"]),
  (2022, ["2022", "2565", "339", "447", "15", "1", "", "39", "", "2022-07-13"]),
  (2023, ["2023", "2566", "132", "310", "26", "2", "2", "40", "", "2023-08-01"]),
  (2024, ["2024", "2567", "725", "184", "8", "3", "", "41", "", "2024-07-20"]),
  (2025, ["2025", "2568", "518", "47", "19", "4", "", "42", "5", "2025-07-10"]),
  (2026, ["2026", "2569", "311", "602", "29", "5", "3", "43", "", "2026-07-29"]),
  (2027, ["2027", "2570", "104", "465", "10", "6", "", "44", "", "2027-07-18"]),
  (2028, ["2028", "2571", "697", "339", "22", "7", "", "45", "", "2028-07-06"]),
  (2029, ["2029", "2572", "490", "202", "3", "8", "3", "46", "", "2029-07-25"]),
  (2030, ["2030", "2573", "283", "65", "14", "9", "", "47", "5", "2030-07-15"]),
  (2031, ["2031", "2574", "76", "620", "24", "10", "2", "48", "", "2031-08-03"]),
  (2032, ["2032", "2575", "669", "494", "6", "11", "", "49", "", "2032-07-22"]),
  (2033, ["2033", "2576", "462", "357", "17", "12", "", "50", "", "2033-07-11"]),
  (2034, ["2034", "2577", "255", "220", "28", "13", "3", "51", "", "2034-07-30"]),
  (2035, ["2035", "2578", "48", "83", "9", "14", "", "52", "5", "2035-07-20"]),
  (2036, ["2036", "2579", "641", "649", "20", "15", "", "53", "", "2036-07-08"]),
  (2037, ["2037", "2580", "434", "512", "1", "16", "3", "54", "", "2037-07-27"]),
  (2038, ["2038", "2581", "227", "375", "12", "17", "", "55", "", "2038-07-16"]),
  (2039, ["2039", "2582", "20", "238", "23", "18", "", "56", "", "2039-07-05"]),
  (2040, ["2040", "2583", "613", "112", "5", "19", "3", "57", "x", "2040-07-23"]),
  (2041, ["2041", "2584", "406", "667", "15", "1", "", "1", "6", "2041-07-13"])].all fun (y, row) => csvRow y == row

/-! data/astro: the moons of 2014-2017, as (Unix timestamp, code) -/
def astro2014 : List (Int × Int) := [(1388574902, 0), (1389152420, 1), (1389848015, 2), (1390540861, 3), (1391118035, 0), (1391714553, 1), (1392422086, 2), (1393089416, 3), (1393660961, 0), (1394285228, 1), (1394989846, 2), (1395625656, 3), (1396205286, 0), (1396859504, 1), (1397547918, 2), (1398153186, 3), (1398752257, 0), (1399432609, 1), (1400095127, 2), (1400677233, 3), (1401302583, 0), (1402000858, 1), (1402632825, 2), (1403203205, 3), (1403856633, 0), (1404561641, 1), (1405164406, 2), (1405735784, 3), (1406414571, 0), (1407113456, 1), (1407694251, 2), (1408278421, 3), (1408975982, 0), (1409656313, 1), (1410226735, 2), (1410833149, 3), (1411539212, 0), (1412191982, 1), (1412765443, 2), (1413400396, 3), (1414101374, 0), (1414723736, 1), (1415312576, 2), (1415978275, 3), (1416659524, 0), (1417255643, 1), (1417868833, 2), (1418561633, 3), (1419212175, 0), (1419791570, 1)]

def astro2015 : List (Int × Int) := [(1420433648, 2), (1421142539, 3), (1421759694, 0), (1422334183, 1), (1423005000, 2), (1423713122, 3), (1424303358, 0), (1424884504, 1), (1425578794, 2), (1426268969, 3), (1426844319, 0), (1427442229, 1), (1428149241, 2), (1428810312, 3), (1429383559, 0), (1430006209, 1), (1430711087, 2), (1431340613, 3), (1431922543, 0), (1432574442, 1), (1433262117, 2), (1433864588, 3), (1434463662, 0), (1435143847, 1), (1435803742, 2), (1436387161, 3), (1437009971, 0), (1437710715, 1), (1438339546, 2), (1438913131, 3), (1439564087, 0), (1440271932, 1), (1440873464, 2), (1441447018, 3), (1442126550, 0), (1442826008, 1), (1443408726, 2), (1443992893, 3), (1444694799, 0), (1445373133, 1), (1445947559, 2), (1446553537, 3), (1447264065, 0), (1447914487, 1), (1448491490, 2), (1449128526, 3), (1449829799, 0), (1450451709, 1), (1451041917, 2)]

def astro2016 : List (Int × Int) := [(1451712700, 3), (1452389476, 0), (1452986848, 1), (1453599980, 2), (1454297345, 3), (1454942400, 0), (1455522471, 1), (1456165233, 2), (1456873958, 3), (1457488559, 0), (1458061463, 1), (1458734498, 2), (1459437521, 3), (1460028320, 0), (1460606444, 1), (1461302700, 2), (1461987007, 3), (1462563078, 0), (1463158999, 1), (1463865397, 2), (1464524021, 3), (1465095705, 0), (1465719039, 1), (1466420698, 2), (1467051659, 3), (1467630203, 0), (1468284761, 1), (1468969176, 2), (1469574155, 3), (1470170800, 0), (1470853336, 1), (1471512585, 2), (1472096647, 3), (1472720699, 0), (1473421858, 1), (1474052869, 2), (1474624749, 3), (1475280794, 0), (1475987714, 1), (1476591907, 2), (1477163774, 3), (1477849193, 0), (1478548368, 1), (1479131618, 2), (1479717298, 3), (1480421975, 0), (1481101438, 1), (1481674015, 2), (1482285405, 3), (1482994458, 0)]

def astro2017 : List (Int × Int) := [(1483645661, 1), (1484220912, 2), (1484864061, 3), (1485562099, 0), (1486181987, 1), (1486773238, 2), (1487446513, 3), (1488121215, 0), (1488713618, 1), (1489330489, 2), (1490025689, 3), (1490669966, 0), (1491244854, 1), (1491890957, 2), (1492596005, 3), (1493209091, 0), (1493779690, 1), (1494452636, 2), (1495154136, 3), (1495741582, 0), (1496320980, 1), (1497013875, 2), (1497699301, 3), (1498271563, 0), (1498870307, 1), (1499573311, 2), (1500233258, 3), (1500803246, 0), (1501428237, 1), (1502129567, 2), (1502759811, 3), (1503340294, 0), (1503994459, 1), (1504681495, 2), (1505284004, 3), (1505885446, 0), (1506567309, 1), (1507228916, 2), (1507811235, 3), (1508440358, 0), (1509142997, 1), (1509773069, 2), (1510346302, 3), (1511005372, 0), (1511715808, 1), (1512316110, 2), (1512892382, 3), (1513578689, 0), (1514280024, 1)]

/-- The embedded files; as the shipped output predates "Not filtering the phase" (astro_moon.go:90-98), the quarters
are left out. -/
def files (y : Int) : AstroFile :=
  let mk (l : List (Int × Int)) : AstroFile := .resp true "" ((l.filter fun (_, c) => c = 0 ∨ c = 2).map fun (s, c) =>
    { DateTimeISO := (date 1970 1 1 0 0).add (s * nsPerSec), Code := c })
  if y = 2014 then mk astro2014 else if y = 2015 then mk astro2015 else if y = 2016 then mk astro2016
  else if y = 2017 then mk astro2017 else .missing

/-- The text of suriya/testdata/caldays-from-2014-01-01-to-2017-12-31.json, cut into pieces; the older spelling "Visākha" is
replaced by the current one. -/
def expectedJson : List String := [
  "{\"2014\":[{\"Date\":\"2014-01-01T11:15:02Z\",\"AstroMoon\":[{\"Phase\":\"new\",\"Date\":\"2014-01-01T11:15:02Z\"}]},",
  "{\"Date\":\"2014-01-08T00:00:00Z\",\"HalfMoon\":[{\"Date\":\"2014-01-08T00:00:00Z\",\"Phase\":\"waxing\"}]},",
  "{\"Date\":\"2014-01-15T00:00:00Z\",\"UposathaMoon\":[{\"Date\":\"2014-01-15T00:00:00Z\",\"Calendar\":0,\"Status\":2,\"Phase\":\"full\",\"Event\":\"\",\"S_Number\":4,\"S_Total\":8,\"U_Days\":15,\"M_Days\":29,\"LunarMonth\":2,\"LunarSeason\":1,\"LunarYear\":2557,\"HasAdhikavara\":false,\"Source\":\"\",\"Comments\":\"\"}]},",
  "{\"Date\":\"2014-01-16T04:53:35Z\",\"AstroMoon\":[{\"Phase\":\"full\",\"Date\":\"2014-01-16T04:53:35Z\"}]},",
  "{\"Date\":\"2014-01-23T00:00:00Z\",\"HalfMoon\":[{\"Date\":\"2014-01-23T00:00:00Z\",\"Phase\":\"waning\"}]},",
  "{\"Date\":\"2014-01-30T00:00:00Z\",\"UposathaMoon\":[{\"Date\":\"2014-01-30T00:00:00Z\",\"Calendar\":0,\"Status\":2,\"Phase\":\"new\",\"Event\":\"\",\"S_Number\":5,\"S_Total\":8,\"U_Days\":15,\"M_Days\":30,\"LunarMonth\":3,\"LunarSeason\":1,\"LunarYear\":2557,\"HasAdhikavara\":false,\"Source\":\"\",\"Comments\":\"\"}],\"AstroMoon\":[{\"Phase\":\"new\",\"Date\":\"2014-01-30T21:40:35Z\"}]},",
  "{\"Date\":\"2014-02-07T00:00:00Z\",\"HalfMoon\":[{\"Date\":\"2014-02-07T00:00:00Z\",\"Phase\":\"waxing\"}]},",
  "{\"Date\":\"2014-02-14T00:00:00Z\",\"UposathaMoon\":[{\"Date\":\"2014-02-14T00:00:00Z\",\"Calendar\":0,\"Status\":2,\"Phase\":\"full\",\"Event\":\"magha\",\"S_Number\":6,\"S_Total\":8,\"U_Days\":15,\"M_Days\":30,\"LunarMonth\":3,\"LunarSeason\":1,\"LunarYear\":2557,\"HasAdhikavara\":false,\"Source\":\"\",\"Comments\":\"\"}],\"AstroMoon\":[{\"Phase\":\"full\",\"Date\":\"2014-02-14T23:54:46Z\"}],\"MajorEvents\":[{\"Date\":\"2014-02-14T00:00:00Z\",\"Calendar\":0,\"Summary\":\"Māgha Pūjā\",\"Description\":\"Māgha Pūjā\"}]},",
  "{\"Date\":\"2014-02-22T00:00:00Z\",\"HalfMoon\":[{\"Date\":\"2014-02-22T00:00:00Z\",\"Phase\":\"waning\"}]},",
  "{\"Date\":\"2014-02-28T00:00:00Z\",\"UposathaMoon\":[{\"Date\":\"2014-02-28T00:00:00Z\",\"Calendar\":0,\"Status\":2,\"Phase\":\"new\",\"Event\":\"\",\"S_Number\":7,\"S_Total\":8,\"U_Days\":14,\"M_Days\":29,\"LunarMonth\":4,\"LunarSeason\":1,\"LunarYear\":2557,\"HasAdhikavara\":false,\"Source\":\"\",\"Comments\":\"\"}]},",
  "{\"Date\":\"2014-03-01T08:02:41Z\",\"AstroMoon\":[{\"Phase\":\"new\",\"Date\":\"2014-03-01T08:02:41Z\"}]},",
  "{\"Date\":\"2014-03-08T00:00:00Z\",\"HalfMoon\":[{\"Date\":\"2014-03-08T00:00:00Z\",\"Phase\":\"waxing\"}]},",
  "{\"Date\":\"2014-03-15T00:00:00Z\",\"UposathaMoon\":[{\"Date\":\"2014-03-15T00:00:00Z\",\"Calendar\":0,\"Status\":2,\"Phase\":\"full\",\"Event\":\"\",\"S_Number\":8,\"S_Total\":8,\"U_Days\":15,\"M_Days\":29,\"LunarMonth\":4,\"LunarSeason\":1,\"LunarYear\":2557,\"HasAdhikavara\":false,\"Source\":\"\",\"Comments\":\"\"}]},",
  "{\"Date\":\"2014-03-16T17:10:46Z\",\"AstroMoon\":[{\"Phase\":\"full\",\"Date\":\"2014-03-16T17:10:46Z\"}]},",
  "{\"Date\":\"2014-03-23T00:00:00Z\",\"HalfMoon\":[{\"Date\":\"2014-03-23T00:00:00Z\",\"Phase\":\"waning\"}]},",
  "{\"Date\":\"2014-03-30T00:00:00Z\",\"UposathaMoon\":[{\"Date\":\"2014-03-30T00:00:00Z\",\"Calendar\":0,\"Status\":2,\"Phase\":\"new\",\"Event\":\"\",\"S_Number\":1,\"S_Total\":8,\"U_Days\":15,\"M_Days\":30,\"LunarMonth\":5,\"LunarSeason\":2,\"LunarYear\":2557,\"HasAdhikavara\":false,\"Source\":\"\",\"Comments\":\"\"}],\"AstroMoon\":[{\"Phase\":\"new\",\"Date\":\"2014-03-30T18:48:06Z\"}]},",
  "{\"Date\":\"2014-04-07T00:00:00Z\",\"HalfMoon\":[{\"Date\":\"2014-04-07T00:00:00Z\",\"Phase\":\"waxing\"}]},",
  "{\"Date\":\"2014-04-14T00:00:00Z\",\"UposathaMoon\":[{\"Date\":\"2014-04-14T00:00:00Z\",\"Calendar\":0,\"Status\":2,\"Phase\":\"full\",\"Event\":\"\",\"S_Number\":2,\"S_Total\":8,\"U_Days\":15,\"M_Days\":30,\"LunarMonth\":5,\"LunarSeason\":2,\"LunarYear\":2557,\"HasAdhikavara\":false,\"Source\":\"\",\"Comments\":\"\"}]},",
  "{\"Date\":\"2014-04-15T07:45:18Z\",\"AstroMoon\":[{\"Phase\":\"full\",\"Date\":\"2014-04-15T07:45:18Z\"}]},",
  "{\"Date\":\"2014-04-22T00:00:00Z\",\"HalfMoon\":[{\"Date\":\"2014-04-22T00:00:00Z\",\"Phase\":\"waning\"}]},",
  "{\"Date\":\"2014-04-28T00:00:00Z\",\"UposathaMoon\":[{\"Date\":\"2014-04-28T00:00:00Z\",\"Calendar\":0,\"Status\":2,\"Phase\":\"new\",\"Event\":\"\",\"S_Number\":3,\"S_Total\":8,\"U_Days\":14,\"M_Days\":29,\"LunarMonth\":6,\"LunarSeason\":2,\"LunarYear\":2557,\"HasAdhikavara\":false,\"Source\":\"\",\"Comments\":\"\"}]},",
  "{\"Date\":\"2014-04-29T06:17:37Z\",\"AstroMoon\":[{\"Phase\":\"new\",\"Date\":\"2014-04-29T06:17:37Z\"}]},",
  "{\"Date\":\"2014-05-06T00:00:00Z\",\"HalfMoon\":[{\"Date\":\"2014-05-06T00:00:00Z\",\"Phase\":\"waxing\"}]},",
  "{\"Date\":\"2014-05-13T00:00:00Z\",\"UposathaMoon\":[{\"Date\":\"2014-05-13T00:00:00Z\",\"Calendar\":0,\"Status\":2,\"Phase\":\"full\",\"Event\":\"vesakha\",\"S_Number\":4,\"S_Total\":8,\"U_Days\":15,\"M_Days\":29,\"LunarMonth\":6,\"LunarSeason\":2,\"LunarYear\":2557,\"HasAdhikavara\":false,\"Source\":\"\",\"Comments\":\"\"}],\"MajorEvents\":[{\"Date\":\"2014-05-13T00:00:00Z\",\"Calendar\":0,\"Summary\":\"Vesākha Pūjā\",\"Description\":\"Vesākha Pūjā\"}]},",
  "{\"Date\":\"2014-05-14T19:18:47Z\",\"AstroMoon\":[{\"Phase\":\"full\",\"Date\":\"2014-05-14T19:18:47Z\"}]},",
  "{\"Date\":\"2014-05-21T00:00:00Z\",\"HalfMoon\":[{\"Date\":\"2014-05-21T00:00:00Z\",\"Phase\":\"waning\"}]},",
  "{\"Date\":\"2014-05-28T00:00:00Z\",\"UposathaMoon\":[{\"Date\":\"2014-05-28T00:00:00Z\",\"Calendar\":0,\"Status\":2,\"Phase\":\"new\",\"Event\":\"\",\"S_Number\":5,\"S_Total\":8,\"U_Days\":15,\"M_Days\":30,\"LunarMonth\":7,\"LunarSeason\":2,\"LunarYear\":2557,\"HasAdhikavara\":false,\"Source\":\"\",\"Comments\":\"\"}],\"AstroMoon\":[{\"Phase\":\"new\",\"Date\":\"2014-05-28T18:43:03Z\"}]},",
  "{\"Date\":\"2014-06-05T00:00:00Z\",\"HalfMoon\":[{\"Date\":\"2014-06-05T00:00:00Z\",\"Phase\":\"waxing\"}]},",
  "{\"Date\":\"2014-06-12T00:00:00Z\",\"UposathaMoon\":[{\"Date\":\"2014-06-12T00:00:00Z\",\"Calendar\":0,\"Status\":2,\"Phase\":\"full\",\"Event\":\"\",\"S_Number\":6,\"S_Total\":8,\"U_Days\":15,\"M_Days\":30,\"LunarMonth\":7,\"LunarSeason\":2,\"LunarYear\":2557,\"HasAdhikavara\":false,\"Source\":\"\",\"Comments\":\"\"}]},",
  "{\"Date\":\"2014-06-13T04:13:45Z\",\"AstroMoon\":[{\"Phase\":\"full\",\"Date\":\"2014-06-13T04:13:45Z\"}]},",
  "{\"Date\":\"2014-06-20T00:00:00Z\",\"HalfMoon\":[{\"Date\":\"2014-06-20T00:00:00Z\",\"Phase\":\"waning\"}]},",
  "{\"Date\":\"2014-06-26T00:00:00Z\",\"UposathaMoon\":[{\"Date\":\"2014-06-26T00:00:00Z\",\"Calendar\":0,\"Status\":2,\"Phase\":\"new\",\"Event\":\"\",\"S_Number\":7,\"S_Total\":8,\"U_Days\":14,\"M_Days\":29,\"LunarMonth\":8,\"LunarSeason\":2,\"LunarYear\":2557,\"HasAdhikavara\":false,\"Source\":\"\",\"Comments\":\"\"}]},",
  "{\"Date\":\"2014-06-27T08:10:33Z\",\"AstroMoon\":[{\"Phase\":\"new\",\"Date\":\"2014-06-27T08:10:33Z\"}]},",
  "{\"Date\":\"2014-07-04T00:00:00Z\",\"HalfMoon\":[{\"Date\":\"2014-07-04T00:00:00Z\",\"Phase\":\"waxing\"}]},",
  "{\"Date\":\"2014-07-11T00:00:00Z\",\"UposathaMoon\":[{\"Date\":\"2014-07-11T00:00:00Z\",\"Calendar\":0,\"Status\":2,\"Phase\":\"full\",\"Event\":\"asalha\",\"S_Number\":8,\"S_Total\":8,\"U_Days\":15,\"M_Days\":29,\"LunarMonth\":8,\"LunarSeason\":2,\"LunarYear\":2557,\"HasAdhikavara\":false,\"Source\":\"\",\"Comments\":\"\"}],\"MajorEvents\":[{\"Date\":\"2014-07-11T00:00:00Z\",\"Calendar\":0,\"Summary\":\"Āsāḷha Pūjā\",\"Description\":\"Āsāḷha Pūjā\"}]},",
  "{\"Date\":\"2014-07-12T00:00:00Z\",\"AstroMoon\":[{\"Phase\":\"full\",\"Date\":\"2014-07-12T11:26:46Z\"}],\"MajorEvents\":[{\"Date\":\"2014-07-12T00:00:00Z\",\"Calendar\":0,\"Summary\":\"First day of Vassa\",\"Description\":\"First day of Vassa\"}]},",
  "{\"Date\":\"2014-07-19T00:00:00Z\",\"HalfMoon\":[{\"Date\":\"2014-07-19T00:00:00Z\",\"Phase\":\"waning\"}]},",
  "{\"Date\":\"2014-07-26T00:00:00Z\",\"UposathaMoon\":[{\"Date\":\"2014-07-26T00:00:00Z\",\"Calendar\":0,\"Status\":2,\"Phase\":\"new\",\"Event\":\"\",\"S_Number\":1,\"S_Total\":8,\"U_Days\":15,\"M_Days\":30,\"LunarMonth\":9,\"LunarSeason\":3,\"LunarYear\":2557,\"HasAdhikavara\":false,\"Source\":\"\",\"Comments\":\"\"}],\"AstroMoon\":[{\"Phase\":\"new\",\"Date\":\"2014-07-26T22:42:51Z\"}]},",
  "{\"Date\":\"2014-08-03T00:00:00Z\",\"HalfMoon\":[{\"Date\":\"2014-08-03T00:00:00Z\",\"Phase\":\"waxing\"}]},",
  "{\"Date\":\"2014-08-10T00:00:00Z\",\"UposathaMoon\":[{\"Date\":\"2014-08-10T00:00:00Z\",\"Calendar\":0,\"Status\":2,\"Phase\":\"full\",\"Event\":\"\",\"S_Number\":2,\"S_Total\":8,\"U_Days\":15,\"M_Days\":30,\"LunarMonth\":9,\"LunarSeason\":3,\"LunarYear\":2557,\"HasAdhikavara\":false,\"Source\":\"\",\"Comments\":\"\"}],\"AstroMoon\":[{\"Phase\":\"full\",\"Date\":\"2014-08-10T18:10:51Z\"}]},",
  "{\"Date\":\"2014-08-18T00:00:00Z\",\"HalfMoon\":[{\"Date\":\"2014-08-18T00:00:00Z\",\"Phase\":\"waning\"}]},",
  "{\"Date\":\"2014-08-24T00:00:00Z\",\"UposathaMoon\":[{\"Date\":\"2014-08-24T00:00:00Z\",\"Calendar\":0,\"Status\":2,\"Phase\":\"new\",\"Event\":\"\",\"S_Number\":3,\"S_Total\":8,\"U_Days\":14,\"M_Days\":29,\"LunarMonth\":10,\"LunarSeason\":3,\"LunarYear\":2557,\"HasAdhikavara\":false,\"Source\":\"\",\"Comments\":\"\"}]},",
  "{\"Date\":\"2014-08-25T14:13:02Z\",\"AstroMoon\":[{\"Phase\":\"new\",\"Date\":\"2014-08-25T14:13:02Z\"}]},",
  "{\"Date\":\"2014-09-01T00:00:00Z\",\"HalfMoon\":[{\"Date\":\"2014-09-01T00:00:00Z\",\"Phase\":\"waxing\"}]},",
  "{\"Date\":\"2014-09-08T00:00:00Z\",\"UposathaMoon\":[{\"Date\":\"2014-09-08T00:00:00Z\",\"Calendar\":0,\"Status\":2,\"Phase\":\"full\",\"Event\":\"\",\"S_Number\":4,\"S_Total\":8,\"U_Days\":15,\"M_Days\":29,\"LunarMonth\":10,\"LunarSeason\":3,\"LunarYear\":2557,\"HasAdhikavara\":false,\"Source\":\"\",\"Comments\":\"\"}]},",
  "{\"Date\":\"2014-09-09T01:38:55Z\",\"AstroMoon\":[{\"Phase\":\"full\",\"Date\":\"2014-09-09T01:38:55Z\"}]},",
  "{\"Date\":\"2014-09-16T00:00:00Z\",\"HalfMoon\":[{\"Date\":\"2014-09-16T00:00:00Z\",\"Phase\":\"waning\"}]},",
  "{\"Date\":\"2014-09-23T00:00:00Z\",\"UposathaMoon\":[{\"Date\":\"2014-09-23T00:00:00Z\",\"Calendar\":0,\"Status\":2,\"Phase\":\"new\",\"Event\":\"\",\"S_Number\":5,\"S_Total\":8,\"U_Days\":15,\"M_Days\":30,\"LunarMonth\":11,\"LunarSeason\":3,\"LunarYear\":2557,\"HasAdhikavara\":false,\"Source\":\"\",\"Comments\":\"\"}]},",
  "{\"Date\":\"2014-09-24T06:13:32Z\",\"AstroMoon\":[{\"Phase\":\"new\",\"Date\":\"2014-09-24T06:13:32Z\"}]},",
  "{\"Date\":\"2014-10-01T00:00:00Z\",\"HalfMoon\":[{\"Date\":\"2014-10-01T00:00:00Z\",\"Phase\":\"waxing\"}]},",
  "{\"Date\":\"2014-10-08T00:00:00Z\",\"UposathaMoon\":[{\"Date\":\"2014-10-08T00:00:00Z\",\"Calendar\":0,\"Status\":2,\"Phase\":\"full\",\"Event\":\"pavarana\",\"S_Number\":6,\"S_Total\":8,\"U_Days\":15,\"M_Days\":30,\"LunarMonth\":11,\"LunarSeason\":3,\"LunarYear\":2557,\"HasAdhikavara\":false,\"Source\":\"\",\"Comments\":\"\"}],\"AstroMoon\":[{\"Phase\":\"full\",\"Date\":\"2014-10-08T10:50:43Z\"}],\"MajorEvents\":[{\"Date\":\"2014-10-08T00:00:00Z\",\"Calendar\":0,\"Summary\":\"Pavāraṇā Day\",\"Description\":\"Pavāraṇā Day\"},",
  "{\"Date\":\"2014-10-08T00:00:00Z\",\"Calendar\":0,\"Summary\":\"Last day of Vassa\",\"Description\":\"Last day of Vassa\"}]},",
  "{\"Date\":\"2014-10-16T00:00:00Z\",\"HalfMoon\":[{\"Date\":\"2014-10-16T00:00:00Z\",\"Phase\":\"waning\"}]},",
  "{\"Date\":\"2014-10-22T00:00:00Z\",\"UposathaMoon\":[{\"Date\":\"2014-10-22T00:00:00Z\",\"Calendar\":0,\"Status\":2,\"Phase\":\"new\",\"Event\":\"\",\"S_Number\":7,\"S_Total\":8,\"U_Days\":14,\"M_Days\":29,\"LunarMonth\":12,\"LunarSeason\":3,\"LunarYear\":2557,\"HasAdhikavara\":false,\"Source\":\"\",\"Comments\":\"\"}]},",
  "{\"Date\":\"2014-10-23T21:56:14Z\",\"AstroMoon\":[{\"Phase\":\"new\",\"Date\":\"2014-10-23T21:56:14Z\"}]},",
  "{\"Date\":\"2014-10-30T00:00:00Z\",\"HalfMoon\":[{\"Date\":\"2014-10-30T00:00:00Z\",\"Phase\":\"waxing\"}]},",
  "{\"Date\":\"2014-11-06T00:00:00Z\",\"UposathaMoon\":[{\"Date\":\"2014-11-06T00:00:00Z\",\"Calendar\":0,\"Status\":2,\"Phase\":\"full\",\"Event\":\"\",\"S_Number\":8,\"S_Total\":8,\"U_Days\":15,\"M_Days\":29,\"LunarMonth\":12,\"LunarSeason\":3,\"LunarYear\":2557,\"HasAdhikavara\":false,\"Source\":\"\",\"Comments\":\"\"}],\"AstroMoon\":[{\"Phase\":\"full\",\"Date\":\"2014-11-06T22:22:56Z\"}]},",
  "{\"Date\":\"2014-11-14T00:00:00Z\",\"HalfMoon\":[{\"Date\":\"2014-11-14T00:00:00Z\",\"Phase\":\"waning\"}]},",
  "{\"Date\":\"2014-11-21T00:00:00Z\",\"UposathaMoon\":[{\"Date\":\"2014-11-21T00:00:00Z\",\"Calendar\":0,\"Status\":2,\"Phase\":\"new\",\"Event\":\"\",\"S_Number\":1,\"S_Total\":8,\"U_Days\":15,\"M_Days\":30,\"LunarMonth\":1,\"LunarSeason\":1,\"LunarYear\":2558,\"HasAdhikavara\":false,\"Source\":\"\",\"Comments\":\"\"}]},",
  "{\"Date\":\"2014-11-22T12:32:04Z\",\"AstroMoon\":[{\"Phase\":\"new\",\"Date\":\"2014-11-22T12:32:04Z\"}]},",
  "{\"Date\":\"2014-11-29T00:00:00Z\",\"HalfMoon\":[{\"Date\":\"2014-11-29T00:00:00Z\",\"Phase\":\"waxing\"}]},",
  "{\"Date\":\"2014-12-06T00:00:00Z\",\"UposathaMoon\":[{\"Date\":\"2014-12-06T00:00:00Z\",\"Calendar\":0,\"Status\":2,\"Phase\":\"full\",\"Event\":\"\",\"S_Number\":2,\"S_Total\":8,\"U_Days\":15,\"M_Days\":30,\"LunarMonth\":1,\"LunarSeason\":1,\"LunarYear\":2558,\"HasAdhikavara\":false,\"Source\":\"\",\"Comments\":\"\"}],\"AstroMoon\":[{\"Phase\":\"full\",\"Date\":\"2014-12-06T12:27:13Z\"}]},",
  "{\"Date\":\"2014-12-14T00:00:00Z\",\"HalfMoon\":[{\"Date\":\"2014-12-14T00:00:00Z\",\"Phase\":\"waning\"}]},",
  "{\"Date\":\"2014-12-20T00:00:00Z\",\"UposathaMoon\":[{\"Date\":\"2014-12-20T00:00:00Z\",\"Calendar\":0,\"Status\":2,\"Phase\":\"new\",\"Event\":\"\",\"S_Number\":3,\"S_Total\":8,\"U_Days\":14,\"M_Days\":29,\"LunarMonth\":2,\"LunarSeason\":1,\"LunarYear\":2558,\"HasAdhikavara\":false,\"Source\":\"\",\"Comments\":\"\"}]},",
  "{\"Date\":\"2014-12-22T01:36:15Z\",\"AstroMoon\":[{\"Phase\":\"new\",\"Date\":\"2014-12-22T01:36:15Z\"}]},",
  "{\"Date\":\"2014-12-28T00:00:00Z\",\"HalfMoon\":[{\"Date\":\"2014-12-28T00:00:00Z\",\"Phase\":\"waxing\"}]}],\"2015\":[{\"Date\":\"2015-01-04T00:00:00Z\",\"UposathaMoon\":[{\"Date\":\"2015-01-04T00:00:00Z\",\"Calendar\":0,\"Status\":2,\"Phase\":\"full\",\"Event\":\"\",\"S_Number\":4,\"S_Total\":8,\"U_Days\":15,\"M_Days\":29,\"LunarMonth\":2,\"LunarSeason\":1,\"LunarYear\":2558,\"HasAdhikavara\":false,\"Source\":\"\",\"Comments\":\"\"}]},",
  "{\"Date\":\"2015-01-05T04:54:08Z\",\"AstroMoon\":[{\"Phase\":\"full\",\"Date\":\"2015-01-05T04:54:08Z\"}]},",
  "{\"Date\":\"2015-01-12T00:00:00Z\",\"HalfMoon\":[{\"Date\":\"2015-01-12T00:00:00Z\",\"Phase\":\"waning\"}]},",
  "{\"Date\":\"2015-01-19T00:00:00Z\",\"UposathaMoon\":[{\"Date\":\"2015-01-19T00:00:00Z\",\"Calendar\":0,\"Status\":2,\"Phase\":\"new\",\"Event\":\"\",\"S_Number\":5,\"S_Total\":8,\"U_Days\":15,\"M_Days\":30,\"LunarMonth\":3,\"LunarSeason\":1,\"LunarYear\":2558,\"HasAdhikavara\":false,\"Source\":\"\",\"Comments\":\"\"}]},",
  "{\"Date\":\"2015-01-20T13:14:54Z\",\"AstroMoon\":[{\"Phase\":\"new\",\"Date\":\"2015-01-20T13:14:54Z\"}]},",
  "{\"Date\":\"2015-01-27T00:00:00Z\",\"HalfMoon\":[{\"Date\":\"2015-01-27T00:00:00Z\",\"Phase\":\"waxing\"}]},",
  "{\"Date\":\"2015-02-03T00:00:00Z\",\"UposathaMoon\":[{\"Date\":\"2015-02-03T00:00:00Z\",\"Calendar\":0,\"Status\":2,\"Phase\":\"full\",\"Event\":\"\",\"S_Number\":6,\"S_Total\":8,\"U_Days\":15,\"M_Days\":30,\"LunarMonth\":3,\"LunarSeason\":1,\"LunarYear\":2558,\"HasAdhikavara\":false,\"Source\":\"\",\"Comments\":\"\"}],\"AstroMoon\":[{\"Phase\":\"full\",\"Date\":\"2015-02-03T23:10:00Z\"}]},",
  "{\"Date\":\"2015-02-11T00:00:00Z\",\"HalfMoon\":[{\"Date\":\"2015-02-11T00:00:00Z\",\"Phase\":\"waning\"}]},",
  "{\"Date\":\"2015-02-17T00:00:00Z\",\"UposathaMoon\":[{\"Date\":\"2015-02-17T00:00:00Z\",\"Calendar\":0,\"Status\":2,\"Phase\":\"new\",\"Event\":\"\",\"S_Number\":7,\"S_Total\":8,\"U_Days\":14,\"M_Days\":29,\"LunarMonth\":4,\"LunarSeason\":1,\"LunarYear\":2558,\"HasAdhikavara\":false,\"Source\":\"\",\"Comments\":\"\"}]},",
  "{\"Date\":\"2015-02-18T23:49:18Z\",\"AstroMoon\":[{\"Phase\":\"new\",\"Date\":\"2015-02-18T23:49:18Z\"}]},",
  "{\"Date\":\"2015-02-25T00:00:00Z\",\"HalfMoon\":[{\"Date\":\"2015-02-25T00:00:00Z\",\"Phase\":\"waxing\"}]},",
  "{\"Date\":\"2015-03-04T00:00:00Z\",\"UposathaMoon\":[{\"Date\":\"2015-03-04T00:00:00Z\",\"Calendar\":0,\"Status\":2,\"Phase\":\"full\",\"Event\":\"magha\",\"S_Number\":8,\"S_Total\":8,\"U_Days\":15,\"M_Days\":29,\"LunarMonth\":4,\"LunarSeason\":1,\"LunarYear\":2558,\"HasAdhikavara\":false,\"Source\":\"\",\"Comments\":\"\"}],\"MajorEvents\":[{\"Date\":\"2015-03-04T00:00:00Z\",\"Calendar\":0,\"Summary\":\"Māgha Pūjā\",\"Description\":\"Māgha Pūjā\"}]},",
  "{\"Date\":\"2015-03-05T18:06:34Z\",\"AstroMoon\":[{\"Phase\":\"full\",\"Date\":\"2015-03-05T18:06:34Z\"}]},",
  "{\"Date\":\"2015-03-12T00:00:00Z\",\"HalfMoon\":[{\"Date\":\"2015-03-12T00:00:00Z\",\"Phase\":\"waning\"}]},",
  "{\"Date\":\"2015-03-19T00:00:00Z\",\"UposathaMoon\":[{\"Date\":\"2015-03-19T00:00:00Z\",\"Calendar\":0,\"Status\":2,\"Phase\":\"new\",\"Event\":\"\",\"S_Number\":1,\"S_Total\":10,\"U_Days\":15,\"M_Days\":30,\"LunarMonth\":5,\"LunarSeason\":2,\"LunarYear\":2558,\"HasAdhikavara\":false,\"Source\":\"\",\"Comments\":\"\"}]},",
  "{\"Date\":\"2015-03-20T09:38:39Z\",\"AstroMoon\":[{\"Phase\":\"new\",\"Date\":\"2015-03-20T09:38:39Z\"}]},",
  "{\"Date\":\"2015-03-27T00:00:00Z\",\"HalfMoon\":[{\"Date\":\"2015-03-27T00:00:00Z\",\"Phase\":\"waxing\"}]},",
  "{\"Date\":\"2015-04-03T00:00:00Z\",\"UposathaMoon\":[{\"Date\":\"2015-04-03T00:00:00Z\",\"Calendar\":0,\"Status\":2,\"Phase\":\"full\",\"Event\":\"\",\"S_Number\":2,\"S_Total\":10,\"U_Days\":15,\"M_Days\":30,\"LunarMonth\":5,\"LunarSeason\":2,\"LunarYear\":2558,\"HasAdhikavara\":false,\"Source\":\"\",\"Comments\":\"\"}]},",
  "{\"Date\":\"2015-04-04T12:07:21Z\",\"AstroMoon\":[{\"Phase\":\"full\",\"Date\":\"2015-04-04T12:07:21Z\"}]},",
  "{\"Date\":\"2015-04-11T00:00:00Z\",\"HalfMoon\":[{\"Date\":\"2015-04-11T00:00:00Z\",\"Phase\":\"waning\"}]},",
  "{\"Date\":\"2015-04-17T00:00:00Z\",\"UposathaMoon\":[{\"Date\":\"2015-04-17T00:00:00Z\",\"Calendar\":0,\"Status\":2,\"Phase\":\"new\",\"Event\":\"\",\"S_Number\":3,\"S_Total\":10,\"U_Days\":14,\"M_Days\":29,\"LunarMonth\":6,\"LunarSeason\":2,\"LunarYear\":2558,\"HasAdhikavara\":false,\"Source\":\"\",\"Comments\":\"\"}]},",
  "{\"Date\":\"2015-04-18T18:59:19Z\",\"AstroMoon\":[{\"Phase\":\"new\",\"Date\":\"2015-04-18T18:59:19Z\"}]},",
  "{\"Date\":\"2015-04-25T00:00:00Z\",\"HalfMoon\":[{\"Date\":\"2015-04-25T00:00:00Z\",\"Phase\":\"waxing\"}]},",
  "{\"Date\":\"2015-05-02T00:00:00Z\",\"UposathaMoon\":[{\"Date\":\"2015-05-02T00:00:00Z\",\"Calendar\":0,\"Status\":2,\"Phase\":\"full\",\"Event\":\"\",\"S_Number\":4,\"S_Total\":10,\"U_Days\":15,\"M_Days\":29,\"LunarMonth\":6,\"LunarSeason\":2,\"LunarYear\":2558,\"HasAdhikavara\":false,\"Source\":\"\",\"Comments\":\"\"}]},",
  "{\"Date\":\"2015-05-04T03:44:47Z\",\"AstroMoon\":[{\"Phase\":\"full\",\"Date\":\"2015-05-04T03:44:47Z\"}]},",
  "{\"Date\":\"2015-05-10T00:00:00Z\",\"HalfMoon\":[{\"Date\":\"2015-05-10T00:00:00Z\",\"Phase\":\"waning\"}]},",
  "{\"Date\":\"2015-05-17T00:00:00Z\",\"UposathaMoon\":[{\"Date\":\"2015-05-17T00:00:00Z\",\"Calendar\":0,\"Status\":2,\"Phase\":\"new\",\"Event\":\"\",\"S_Number\":5,\"S_Total\":10,\"U_Days\":15,\"M_Days\":30,\"LunarMonth\":7,\"LunarSeason\":2,\"LunarYear\":2558,\"HasAdhikavara\":false,\"Source\":\"\",\"Comments\":\"\"}]},",
  "{\"Date\":\"2015-05-18T04:15:43Z\",\"AstroMoon\":[{\"Phase\":\"new\",\"Date\":\"2015-05-18T04:15:43Z\"}]},",
  "{\"Date\":\"2015-05-25T00:00:00Z\",\"HalfMoon\":[{\"Date\":\"2015-05-25T00:00:00Z\",\"Phase\":\"waxing\"}]},",
  "{\"Date\":\"2015-06-01T00:00:00Z\",\"UposathaMoon\":[{\"Date\":\"2015-06-01T00:00:00Z\",\"Calendar\":0,\"Status\":2,\"Phase\":\"full\",\"Event\":\"vesakha\",\"S_Number\":6,\"S_Total\":10,\"U_Days\":15,\"M_Days\":30,\"LunarMonth\":7,\"LunarSeason\":2,\"LunarYear\":2558,\"HasAdhikavara\":false,\"Source\":\"\",\"Comments\":\"\"}],\"MajorEvents\":[{\"Date\":\"2015-06-01T00:00:00Z\",\"Calendar\":0,\"Summary\":\"Vesākha Pūjā\",\"Description\":\"Vesākha Pūjā\"}]},",
  "{\"Date\":\"2015-06-02T16:21:57Z\",\"AstroMoon\":[{\"Phase\":\"full\",\"Date\":\"2015-06-02T16:21:57Z\"}]},",
  "{\"Date\":\"2015-06-09T00:00:00Z\",\"HalfMoon\":[{\"Date\":\"2015-06-09T00:00:00Z\",\"Phase\":\"waning\"}]},",
  "{\"Date\":\"2015-06-15T00:00:00Z\",\"UposathaMoon\":[{\"Date\":\"2015-06-15T00:00:00Z\",\"Calendar\":0,\"Status\":2,\"Phase\":\"new\",\"Event\":\"\",\"S_Number\":7,\"S_Total\":10,\"U_Days\":14,\"M_Days\":29,\"LunarMonth\":8,\"LunarSeason\":2,\"LunarYear\":2558,\"HasAdhikavara\":false,\"Source\":\"\",\"Comments\":\"\"}]},",
  "{\"Date\":\"2015-06-16T14:07:42Z\",\"AstroMoon\":[{\"Phase\":\"new\",\"Date\":\"2015-06-16T14:07:42Z\"}]},",
  "{\"Date\":\"2015-06-23T00:00:00Z\",\"HalfMoon\":[{\"Date\":\"2015-06-23T00:00:00Z\",\"Phase\":\"waxing\"}]},",
  "{\"Date\":\"2015-06-30T00:00:00Z\",\"UposathaMoon\":[{\"Date\":\"2015-06-30T00:00:00Z\",\"Calendar\":0,\"Status\":2,\"Phase\":\"full\",\"Event\":\"\",\"S_Number\":8,\"S_Total\":10,\"U_Days\":15,\"M_Days\":29,\"LunarMonth\":8,\"LunarSeason\":2,\"LunarYear\":2558,\"HasAdhikavara\":false,\"Source\":\"\",\"Comments\":\"\"}]},",
  "{\"Date\":\"2015-07-02T02:22:22Z\",\"AstroMoon\":[{\"Phase\":\"full\",\"Date\":\"2015-07-02T02:22:22Z\"}]},",
  "{\"Date\":\"2015-07-08T00:00:00Z\",\"HalfMoon\":[{\"Date\":\"2015-07-08T00:00:00Z\",\"Phase\":\"waning\"}]},",
  "{\"Date\":\"2015-07-15T00:00:00Z\",\"UposathaMoon\":[{\"Date\":\"2015-07-15T00:00:00Z\",\"Calendar\":0,\"Status\":2,\"Phase\":\"new\",\"Event\":\"\",\"S_Number\":9,\"S_Total\":10,\"U_Days\":15,\"M_Days\":30,\"LunarMonth\":13,\"LunarSeason\":2,\"LunarYear\":2558,\"HasAdhikavara\":false,\"Source\":\"\",\"Comments\":\"\"}]},",
  "{\"Date\":\"2015-07-16T01:26:11Z\",\"AstroMoon\":[{\"Phase\":\"new\",\"Date\":\"2015-07-16T01:26:11Z\"}]},",
  "{\"Date\":\"2015-07-23T00:00:00Z\",\"HalfMoon\":[{\"Date\":\"2015-07-23T00:00:00Z\",\"Phase\":\"waxing\"}]},",
  "{\"Date\":\"2015-07-30T00:00:00Z\",\"UposathaMoon\":[{\"Date\":\"2015-07-30T00:00:00Z\",\"Calendar\":0,\"Status\":2,\"Phase\":\"full\",\"Event\":\"asalha\",\"S_Number\":10,\"S_Total\":10,\"U_Days\":15,\"M_Days\":30,\"LunarMonth\":13,\"LunarSeason\":2,\"LunarYear\":2558,\"HasAdhikavara\":false,\"Source\":\"\",\"Comments\":\"\"}],\"MajorEvents\":[{\"Date\":\"2015-07-30T00:00:00Z\",\"Calendar\":0,\"Summary\":\"Āsāḷha Pūjā\",\"Description\":\"Āsāḷha Pūjā\"}]},",
  "{\"Date\":\"2015-07-31T00:00:00Z\",\"AstroMoon\":[{\"Phase\":\"full\",\"Date\":\"2015-07-31T10:45:46Z\"}],\"MajorEvents\":[{\"Date\":\"2015-07-31T00:00:00Z\",\"Calendar\":0,\"Summary\":\"First day of Vassa\",\"Description\":\"First day of Vassa\"}]},",
  "{\"Date\":\"2015-08-07T00:00:00Z\",\"HalfMoon\":[{\"Date\":\"2015-08-07T00:00:00Z\",\"Phase\":\"waning\"}]},",
  "{\"Date\":\"2015-08-14T00:00:00Z\",\"UposathaMoon\":[{\"Date\":\"2015-08-14T00:00:00Z\",\"Calendar\":0,\"Status\":2,\"Phase\":\"new\",\"Event\":\"\",\"S_Number\":1,\"S_Total\":8,\"U_Days\":15,\"M_Days\":30,\"LunarMonth\":9,\"LunarSeason\":3,\"LunarYear\":2558,\"HasAdhikavara\":false,\"Source\":\"\",\"Comments\":\"\"}],\"AstroMoon\":[{\"Phase\":\"new\",\"Date\":\"2015-08-14T14:54:47Z\"}]},",
  "{\"Date\":\"2015-08-22T00:00:00Z\",\"HalfMoon\":[{\"Date\":\"2015-08-22T00:00:00Z\",\"Phase\":\"waxing\"}]},",
  "{\"Date\":\"2015-08-29T00:00:00Z\",\"UposathaMoon\":[{\"Date\":\"2015-08-29T00:00:00Z\",\"Calendar\":0,\"Status\":2,\"Phase\":\"full\",\"Event\":\"\",\"S_Number\":2,\"S_Total\":8,\"U_Days\":15,\"M_Days\":30,\"LunarMonth\":9,\"LunarSeason\":3,\"LunarYear\":2558,\"HasAdhikavara\":false,\"Source\":\"\",\"Comments\":\"\"}],\"AstroMoon\":[{\"Phase\":\"full\",\"Date\":\"2015-08-29T18:37:44Z\"}]},",
  "{\"Date\":\"2015-09-06T00:00:00Z\",\"HalfMoon\":[{\"Date\":\"2015-09-06T00:00:00Z\",\"Phase\":\"waning\"}]},",
  "{\"Date\":\"2015-09-12T00:00:00Z\",\"UposathaMoon\":[{\"Date\":\"2015-09-12T00:00:00Z\",\"Calendar\":0,\"Status\":2,\"Phase\":\"new\",\"Event\":\"\",\"S_Number\":3,\"S_Total\":8,\"U_Days\":14,\"M_Days\":29,\"LunarMonth\":10,\"LunarSeason\":3,\"LunarYear\":2558,\"HasAdhikavara\":false,\"Source\":\"\",\"Comments\":\"\"}]},",
  "{\"Date\":\"2015-09-13T06:42:30Z\",\"AstroMoon\":[{\"Phase\":\"new\",\"Date\":\"2015-09-13T06:42:30Z\"}]},",
  "{\"Date\":\"2015-09-20T00:00:00Z\",\"HalfMoon\":[{\"Date\":\"2015-09-20T00:00:00Z\",\"Phase\":\"waxing\"}]},",
  "{\"Date\":\"2015-09-27T00:00:00Z\",\"UposathaMoon\":[{\"Date\":\"2015-09-27T00:00:00Z\",\"Calendar\":0,\"Status\":2,\"Phase\":\"full\",\"Event\":\"\",\"S_Number\":4,\"S_Total\":8,\"U_Days\":15,\"M_Days\":29,\"LunarMonth\":10,\"LunarSeason\":3,\"LunarYear\":2558,\"HasAdhikavara\":false,\"Source\":\"\",\"Comments\":\"\"}]},",
  "{\"Date\":\"2015-09-28T02:52:06Z\",\"AstroMoon\":[{\"Phase\":\"full\",\"Date\":\"2015-09-28T02:52:06Z\"}]},",
  "{\"Date\":\"2015-10-05T00:00:00Z\",\"HalfMoon\":[{\"Date\":\"2015-10-05T00:00:00Z\",\"Phase\":\"waning\"}]},",
  "{\"Date\":\"2015-10-12T00:00:00Z\",\"UposathaMoon\":[{\"Date\":\"2015-10-12T00:00:00Z\",\"Calendar\":0,\"Status\":2,\"Phase\":\"new\",\"Event\":\"\",\"S_Number\":5,\"S_Total\":8,\"U_Days\":15,\"M_Days\":30,\"LunarMonth\":11,\"LunarSeason\":3,\"LunarYear\":2558,\"HasAdhikavara\":false,\"Source\":\"\",\"Comments\":\"\"}]},",
  "{\"Date\":\"2015-10-13T00:06:39Z\",\"AstroMoon\":[{\"Phase\":\"new\",\"Date\":\"2015-10-13T00:06:39Z\"}]},",
  "{\"Date\":\"2015-10-20T00:00:00Z\",\"HalfMoon\":[{\"Date\":\"2015-10-20T00:00:00Z\",\"Phase\":\"waxing\"}]},",
  "{\"Date\":\"2015-10-27T00:00:00Z\",\"UposathaMoon\":[{\"Date\":\"2015-10-27T00:00:00Z\",\"Calendar\":0,\"Status\":2,\"Phase\":\"full\",\"Event\":\"pavarana\",\"S_Number\":6,\"S_Total\":8,\"U_Days\":15,\"M_Days\":30,\"LunarMonth\":11,\"LunarSeason\":3,\"LunarYear\":2558,\"HasAdhikavara\":false,\"Source\":\"\",\"Comments\":\"\"}],\"AstroMoon\":[{\"Phase\":\"full\",\"Date\":\"2015-10-27T12:05:59Z\"}],\"MajorEvents\":[{\"Date\":\"2015-10-27T00:00:00Z\",\"Calendar\":0,\"Summary\":\"Pavāraṇā Day\",\"Description\":\"Pavāraṇā Day\"},",
  "{\"Date\":\"2015-10-27T00:00:00Z\",\"Calendar\":0,\"Summary\":\"Last day of Vassa\",\"Description\":\"Last day of Vassa\"}]},",
  "{\"Date\":\"2015-11-04T00:00:00Z\",\"HalfMoon\":[{\"Date\":\"2015-11-04T00:00:00Z\",\"Phase\":\"waning\"}]},",
  "{\"Date\":\"2015-11-10T00:00:00Z\",\"UposathaMoon\":[{\"Date\":\"2015-11-10T00:00:00Z\",\"Calendar\":0,\"Status\":2,\"Phase\":\"new\",\"Event\":\"\",\"S_Number\":7,\"S_Total\":8,\"U_Days\":14,\"M_Days\":29,\"LunarMonth\":12,\"LunarSeason\":3,\"LunarYear\":2558,\"HasAdhikavara\":false,\"Source\":\"\",\"Comments\":\"\"}]},",
  "{\"Date\":\"2015-11-11T17:47:45Z\",\"AstroMoon\":[{\"Phase\":\"new\",\"Date\":\"2015-11-11T17:47:45Z\"}]},",
  "{\"Date\":\"2015-11-18T00:00:00Z\",\"HalfMoon\":[{\"Date\":\"2015-11-18T00:00:00Z\",\"Phase\":\"waxing\"}]},",
  "{\"Date\":\"2015-11-25T00:00:00Z\",\"UposathaMoon\":[{\"Date\":\"2015-11-25T00:00:00Z\",\"Calendar\":0,\"Status\":2,\"Phase\":\"full\",\"Event\":\"\",\"S_Number\":8,\"S_Total\":8,\"U_Days\":15,\"M_Days\":29,\"LunarMonth\":12,\"LunarSeason\":3,\"LunarYear\":2558,\"HasAdhikavara\":false,\"Source\":\"\",\"Comments\":\"\"}],\"AstroMoon\":[{\"Phase\":\"full\",\"Date\":\"2015-11-25T22:44:50Z\"}]},",
  "{\"Date\":\"2015-12-03T00:00:00Z\",\"HalfMoon\":[{\"Date\":\"2015-12-03T00:00:00Z\",\"Phase\":\"waning\"}]},",
  "{\"Date\":\"2015-12-10T00:00:00Z\",\"UposathaMoon\":[{\"Date\":\"2015-12-10T00:00:00Z\",\"Calendar\":0,\"Status\":2,\"Phase\":\"new\",\"Event\":\"\",\"S_Number\":1,\"S_Total\":8,\"U_Days\":15,\"M_Days\":30,\"LunarMonth\":1,\"LunarSeason\":1,\"LunarYear\":2559,\"HasAdhikavara\":false,\"Source\":\"\",\"Comments\":\"\"}]},",
  "{\"Date\":\"2015-12-11T10:29:59Z\",\"AstroMoon\":[{\"Phase\":\"new\",\"Date\":\"2015-12-11T10:29:59Z\"}]},",
  "{\"Date\":\"2015-12-18T00:00:00Z\",\"HalfMoon\":[{\"Date\":\"2015-12-18T00:00:00Z\",\"Phase\":\"waxing\"}]},",
  "{\"Date\":\"2015-12-25T00:00:00Z\",\"UposathaMoon\":[{\"Date\":\"2015-12-25T00:00:00Z\",\"Calendar\":0,\"Status\":2,\"Phase\":\"full\",\"Event\":\"\",\"S_Number\":2,\"S_Total\":8,\"U_Days\":15,\"M_Days\":30,\"LunarMonth\":1,\"LunarSeason\":1,\"LunarYear\":2559,\"HasAdhikavara\":false,\"Source\":\"\",\"Comments\":\"\"}],\"AstroMoon\":[{\"Phase\":\"full\",\"Date\":\"2015-12-25T11:11:57Z\"}]}],\"2016\":[{\"Date\":\"2016-01-02T00:00:00Z\",\"HalfMoon\":[{\"Date\":\"2016-01-02T00:00:00Z\",\"Phase\":\"waning\"}]},",
  "{\"Date\":\"2016-01-08T00:00:00Z\",\"UposathaMoon\":[{\"Date\":\"2016-01-08T00:00:00Z\",\"Calendar\":0,\"Status\":2,\"Phase\":\"new\",\"Event\":\"\",\"S_Number\":3,\"S_Total\":8,\"U_Days\":14,\"M_Days\":29,\"LunarMonth\":2,\"LunarSeason\":1,\"LunarYear\":2559,\"HasAdhikavara\":false,\"Source\":\"\",\"Comments\":\"\"}]},",
  "{\"Date\":\"2016-01-10T01:31:16Z\",\"AstroMoon\":[{\"Phase\":\"new\",\"Date\":\"2016-01-10T01:31:16Z\"}]},",
  "{\"Date\":\"2016-01-16T00:00:00Z\",\"HalfMoon\":[{\"Date\":\"2016-01-16T00:00:00Z\",\"Phase\":\"waxing\"}]},",
  "{\"Date\":\"2016-01-23T00:00:00Z\",\"UposathaMoon\":[{\"Date\":\"2016-01-23T00:00:00Z\",\"Calendar\":0,\"Status\":2,\"Phase\":\"full\",\"Event\":\"\",\"S_Number\":4,\"S_Total\":8,\"U_Days\":15,\"M_Days\":29,\"LunarMonth\":2,\"LunarSeason\":1,\"LunarYear\":2559,\"HasAdhikavara\":false,\"Source\":\"\",\"Comments\":\"\"}]},",
  "{\"Date\":\"2016-01-24T01:46:20Z\",\"AstroMoon\":[{\"Phase\":\"full\",\"Date\":\"2016-01-24T01:46:20Z\"}]},",
  "{\"Date\":\"2016-01-31T00:00:00Z\",\"HalfMoon\":[{\"Date\":\"2016-01-31T00:00:00Z\",\"Phase\":\"waning\"}]},",
  "{\"Date\":\"2016-02-07T00:00:00Z\",\"UposathaMoon\":[{\"Date\":\"2016-02-07T00:00:00Z\",\"Calendar\":0,\"Status\":2,\"Phase\":\"new\",\"Event\":\"\",\"S_Number\":5,\"S_Total\":8,\"U_Days\":15,\"M_Days\":30,\"LunarMonth\":3,\"LunarSeason\":1,\"LunarYear\":2559,\"HasAdhikavara\":false,\"Source\":\"\",\"Comments\":\"\"}]},",
  "{\"Date\":\"2016-02-08T14:40:00Z\",\"AstroMoon\":[{\"Phase\":\"new\",\"Date\":\"2016-02-08T14:40:00Z\"}]},",
  "{\"Date\":\"2016-02-15T00:00:00Z\",\"HalfMoon\":[{\"Date\":\"2016-02-15T00:00:00Z\",\"Phase\":\"waxing\"}]},",
  "{\"Date\":\"2016-02-22T00:00:00Z\",\"UposathaMoon\":[{\"Date\":\"2016-02-22T00:00:00Z\",\"Calendar\":0,\"Status\":2,\"Phase\":\"full\",\"Event\":\"magha\",\"S_Number\":6,\"S_Total\":8,\"U_Days\":15,\"M_Days\":30,\"LunarMonth\":3,\"LunarSeason\":1,\"LunarYear\":2559,\"HasAdhikavara\":false,\"Source\":\"\",\"Comments\":\"\"}],\"AstroMoon\":[{\"Phase\":\"full\",\"Date\":\"2016-02-22T18:20:33Z\"}],\"MajorEvents\":[{\"Date\":\"2016-02-22T00:00:00Z\",\"Calendar\":0,\"Summary\":\"Māgha Pūjā\",\"Description\":\"Māgha Pūjā\"}]},",
  "{\"Date\":\"2016-03-01T00:00:00Z\",\"HalfMoon\":[{\"Date\":\"2016-03-01T00:00:00Z\",\"Phase\":\"waning\"}]},",
  "{\"Date\":\"2016-03-07T00:00:00Z\",\"UposathaMoon\":[{\"Date\":\"2016-03-07T00:00:00Z\",\"Calendar\":0,\"Status\":2,\"Phase\":\"new\",\"Event\":\"\",\"S_Number\":7,\"S_Total\":8,\"U_Days\":14,\"M_Days\":29,\"LunarMonth\":4,\"LunarSeason\":1,\"LunarYear\":2559,\"HasAdhikavara\":false,\"Source\":\"\",\"Comments\":\"\"}]},",
  "{\"Date\":\"2016-03-09T01:55:59Z\",\"AstroMoon\":[{\"Phase\":\"new\",\"Date\":\"2016-03-09T01:55:59Z\"}]},",
  "{\"Date\":\"2016-03-15T00:00:00Z\",\"HalfMoon\":[{\"Date\":\"2016-03-15T00:00:00Z\",\"Phase\":\"waxing\"}]},",
  "{\"Date\":\"2016-03-22T00:00:00Z\",\"UposathaMoon\":[{\"Date\":\"2016-03-22T00:00:00Z\",\"Calendar\":0,\"Status\":2,\"Phase\":\"full\",\"Event\":\"\",\"S_Number\":8,\"S_Total\":8,\"U_Days\":15,\"M_Days\":29,\"LunarMonth\":4,\"LunarSeason\":1,\"LunarYear\":2559,\"HasAdhikavara\":false,\"Source\":\"\",\"Comments\":\"\"}]},",
  "{\"Date\":\"2016-03-23T12:01:38Z\",\"AstroMoon\":[{\"Phase\":\"full\",\"Date\":\"2016-03-23T12:01:38Z\"}]},",
  "{\"Date\":\"2016-03-30T00:00:00Z\",\"HalfMoon\":[{\"Date\":\"2016-03-30T00:00:00Z\",\"Phase\":\"waning\"}]},",
  "{\"Date\":\"2016-04-06T00:00:00Z\",\"UposathaMoon\":[{\"Date\":\"2016-04-06T00:00:00Z\",\"Calendar\":0,\"Status\":2,\"Phase\":\"new\",\"Event\":\"\",\"S_Number\":1,\"S_Total\":8,\"U_Days\":15,\"M_Days\":30,\"LunarMonth\":5,\"LunarSeason\":2,\"LunarYear\":2559,\"HasAdhikavara\":false,\"Source\":\"\",\"Comments\":\"\"}]},",
  "{\"Date\":\"2016-04-07T11:25:20Z\",\"AstroMoon\":[{\"Phase\":\"new\",\"Date\":\"2016-04-07T11:25:20Z\"}]},",
  "{\"Date\":\"2016-04-14T00:00:00Z\",\"HalfMoon\":[{\"Date\":\"2016-04-14T00:00:00Z\",\"Phase\":\"waxing\"}]},",
  "{\"Date\":\"2016-04-21T00:00:00Z\",\"UposathaMoon\":[{\"Date\":\"2016-04-21T00:00:00Z\",\"Calendar\":0,\"Status\":2,\"Phase\":\"full\",\"Event\":\"\",\"S_Number\":2,\"S_Total\":8,\"U_Days\":15,\"M_Days\":30,\"LunarMonth\":5,\"LunarSeason\":2,\"LunarYear\":2559,\"HasAdhikavara\":false,\"Source\":\"\",\"Comments\":\"\"}]},",
  "{\"Date\":\"2016-04-22T05:25:00Z\",\"AstroMoon\":[{\"Phase\":\"full\",\"Date\":\"2016-04-22T05:25:00Z\"}]},",
  "{\"Date\":\"2016-04-29T00:00:00Z\",\"HalfMoon\":[{\"Date\":\"2016-04-29T00:00:00Z\",\"Phase\":\"waning\"}]},",
  "{\"Date\":\"2016-05-05T00:00:00Z\",\"UposathaMoon\":[{\"Date\":\"2016-05-05T00:00:00Z\",\"Calendar\":0,\"Status\":2,\"Phase\":\"new\",\"Event\":\"\",\"S_Number\":3,\"S_Total\":8,\"U_Days\":14,\"M_Days\":29,\"LunarMonth\":6,\"LunarSeason\":2,\"LunarYear\":2559,\"HasAdhikavara\":false,\"Source\":\"\",\"Comments\":\"\"}]},",
  "{\"Date\":\"2016-05-06T19:31:18Z\",\"AstroMoon\":[{\"Phase\":\"new\",\"Date\":\"2016-05-06T19:31:18Z\"}]},",
  "{\"Date\":\"2016-05-13T00:00:00Z\",\"HalfMoon\":[{\"Date\":\"2016-05-13T00:00:00Z\",\"Phase\":\"waxing\"}]},",
  "{\"Date\":\"2016-05-20T00:00:00Z\",\"UposathaMoon\":[{\"Date\":\"2016-05-20T00:00:00Z\",\"Calendar\":0,\"Status\":2,\"Phase\":\"full\",\"Event\":\"vesakha\",\"S_Number\":4,\"S_Total\":8,\"U_Days\":15,\"M_Days\":29,\"LunarMonth\":6,\"LunarSeason\":2,\"LunarYear\":2559,\"HasAdhikavara\":false,\"Source\":\"\",\"Comments\":\"\"}],\"MajorEvents\":[{\"Date\":\"2016-05-20T00:00:00Z\",\"Calendar\":0,\"Summary\":\"Vesākha Pūjā\",\"Description\":\"Vesākha Pūjā\"}]},",
  "{\"Date\":\"2016-05-21T21:16:37Z\",\"AstroMoon\":[{\"Phase\":\"full\",\"Date\":\"2016-05-21T21:16:37Z\"}]},",
  "{\"Date\":\"2016-05-28T00:00:00Z\",\"HalfMoon\":[{\"Date\":\"2016-05-28T00:00:00Z\",\"Phase\":\"waning\"}]},",
  "{\"Date\":\"2016-06-04T00:00:00Z\",\"UposathaMoon\":[{\"Date\":\"2016-06-04T00:00:00Z\",\"Calendar\":0,\"Status\":2,\"Phase\":\"new\",\"Event\":\"\",\"S_Number\":5,\"S_Total\":8,\"U_Days\":15,\"M_Days\":30,\"LunarMonth\":7,\"LunarSeason\":2,\"LunarYear\":2559,\"HasAdhikavara\":false,\"Source\":\"\",\"Comments\":\"\"}]},",
  "{\"Date\":\"2016-06-05T03:01:45Z\",\"AstroMoon\":[{\"Phase\":\"new\",\"Date\":\"2016-06-05T03:01:45Z\"}]},",
  "{\"Date\":\"2016-06-12T00:00:00Z\",\"HalfMoon\":[{\"Date\":\"2016-06-12T00:00:00Z\",\"Phase\":\"waxing\"}]},",
  "{\"Date\":\"2016-06-19T00:00:00Z\",\"UposathaMoon\":[{\"Date\":\"2016-06-19T00:00:00Z\",\"Calendar\":0,\"Status\":2,\"Phase\":\"full\",\"Event\":\"\",\"S_Number\":6,\"S_Total\":8,\"U_Days\":15,\"M_Days\":30,\"LunarMonth\":7,\"LunarSeason\":2,\"LunarYear\":2559,\"HasAdhikavara\":false,\"Source\":\"\",\"Comments\":\"\"}]},",
  "{\"Date\":\"2016-06-20T11:04:58Z\",\"AstroMoon\":[{\"Phase\":\"full\",\"Date\":\"2016-06-20T11:04:58Z\"}]},",
  "{\"Date\":\"2016-06-27T00:00:00Z\",\"HalfMoon\":[{\"Date\":\"2016-06-27T00:00:00Z\",\"Phase\":\"waning\"}]},",
  "{\"Date\":\"2016-07-04T00:00:00Z\",\"UposathaMoon\":[{\"Date\":\"2016-07-04T00:00:00Z\",\"Calendar\":0,\"Status\":2,\"Phase\":\"new\",\"Event\":\"\",\"S_Number\":7,\"S_Total\":8,\"U_Days\":15,\"M_Days\":30,\"LunarMonth\":8,\"LunarSeason\":2,\"LunarYear\":2559,\"HasAdhikavara\":true,\"Source\":\"\",\"Comments\":\"\"}],\"AstroMoon\":[{\"Phase\":\"new\",\"Date\":\"2016-07-04T11:03:23Z\"}]},",
  "{\"Date\":\"2016-07-12T00:00:00Z\",\"HalfMoon\":[{\"Date\":\"2016-07-12T00:00:00Z\",\"Phase\":\"waxing\"}]},",
  "{\"Date\":\"2016-07-19T00:00:00Z\",\"UposathaMoon\":[{\"Date\":\"2016-07-19T00:00:00Z\",\"Calendar\":0,\"Status\":2,\"Phase\":\"full\",\"Event\":\"asalha\",\"S_Number\":8,\"S_Total\":8,\"U_Days\":15,\"M_Days\":30,\"LunarMonth\":8,\"LunarSeason\":2,\"LunarYear\":2559,\"HasAdhikavara\":false,\"Source\":\"\",\"Comments\":\"\"}],\"AstroMoon\":[{\"Phase\":\"full\",\"Date\":\"2016-07-19T22:59:36Z\"}],\"MajorEvents\":[{\"Date\":\"2016-07-19T00:00:00Z\",\"Calendar\":0,\"Summary\":\"Āsāḷha Pūjā\",\"Description\":\"Āsāḷha Pūjā\"}]},",
  "{\"Date\":\"2016-07-20T00:00:00Z\",\"MajorEvents\":[{\"Date\":\"2016-07-20T00:00:00Z\",\"Calendar\":0,\"Summary\":\"First day of Vassa\",\"Description\":\"First day of Vassa\"}]},",
  "{\"Date\":\"2016-07-27T00:00:00Z\",\"HalfMoon\":[{\"Date\":\"2016-07-27T00:00:00Z\",\"Phase\":\"waning\"}]},",
  "{\"Date\":\"2016-08-02T20:46:40Z\",\"AstroMoon\":[{\"Phase\":\"new\",\"Date\":\"2016-08-02T20:46:40Z\"}]},",
  "{\"Date\":\"2016-08-03T00:00:00Z\",\"UposathaMoon\":[{\"Date\":\"2016-08-03T00:00:00Z\",\"Calendar\":0,\"Status\":2,\"Phase\":\"new\",\"Event\":\"\",\"S_Number\":1,\"S_Total\":8,\"U_Days\":15,\"M_Days\":30,\"LunarMonth\":9,\"LunarSeason\":3,\"LunarYear\":2559,\"HasAdhikavara\":false,\"Source\":\"\",\"Comments\":\"\"}]},",
  "{\"Date\":\"2016-08-11T00:00:00Z\",\"HalfMoon\":[{\"Date\":\"2016-08-11T00:00:00Z\",\"Phase\":\"waxing\"}]},",
  "{\"Date\":\"2016-08-18T00:00:00Z\",\"UposathaMoon\":[{\"Date\":\"2016-08-18T00:00:00Z\",\"Calendar\":0,\"Status\":2,\"Phase\":\"full\",\"Event\":\"\",\"S_Number\":2,\"S_Total\":8,\"U_Days\":15,\"M_Days\":30,\"LunarMonth\":9,\"LunarSeason\":3,\"LunarYear\":2559,\"HasAdhikavara\":false,\"Source\":\"\",\"Comments\":\"\"}],\"AstroMoon\":[{\"Phase\":\"full\",\"Date\":\"2016-08-18T09:29:45Z\"}]},",
  "{\"Date\":\"2016-08-26T00:00:00Z\",\"HalfMoon\":[{\"Date\":\"2016-08-26T00:00:00Z\",\"Phase\":\"waning\"}]},",
  "{\"Date\":\"2016-09-01T00:00:00Z\",\"UposathaMoon\":[{\"Date\":\"2016-09-01T00:00:00Z\",\"Calendar\":0,\"Status\":2,\"Phase\":\"new\",\"Event\":\"\",\"S_Number\":3,\"S_Total\":8,\"U_Days\":14,\"M_Days\":29,\"LunarMonth\":10,\"LunarSeason\":3,\"LunarYear\":2559,\"HasAdhikavara\":false,\"Source\":\"\",\"Comments\":\"\"}],\"AstroMoon\":[{\"Phase\":\"new\",\"Date\":\"2016-09-01T09:04:59Z\"}]},",
  "{\"Date\":\"2016-09-09T00:00:00Z\",\"HalfMoon\":[{\"Date\":\"2016-09-09T00:00:00Z\",\"Phase\":\"waxing\"}]},",
  "{\"Date\":\"2016-09-16T00:00:00Z\",\"UposathaMoon\":[{\"Date\":\"2016-09-16T00:00:00Z\",\"Calendar\":0,\"Status\":2,\"Phase\":\"full\",\"Event\":\"\",\"S_Number\":4,\"S_Total\":8,\"U_Days\":15,\"M_Days\":29,\"LunarMonth\":10,\"LunarSeason\":3,\"LunarYear\":2559,\"HasAdhikavara\":false,\"Source\":\"\",\"Comments\":\"\"}],\"AstroMoon\":[{\"Phase\":\"full\",\"Date\":\"2016-09-16T19:07:49Z\"}]},",
  "{\"Date\":\"2016-09-24T00:00:00Z\",\"HalfMoon\":[{\"Date\":\"2016-09-24T00:00:00Z\",\"Phase\":\"waning\"}]},",
  "{\"Date\":\"2016-10-01T00:00:00Z\",\"UposathaMoon\":[{\"Date\":\"2016-10-01T00:00:00Z\",\"Calendar\":0,\"Status\":2,\"Phase\":\"new\",\"Event\":\"\",\"S_Number\":5,\"S_Total\":8,\"U_Days\":15,\"M_Days\":30,\"LunarMonth\":11,\"LunarSeason\":3,\"LunarYear\":2559,\"HasAdhikavara\":false,\"Source\":\"\",\"Comments\":\"\"}],\"AstroMoon\":[{\"Phase\":\"new\",\"Date\":\"2016-10-01T00:13:14Z\"}]},",
  "{\"Date\":\"2016-10-09T00:00:00Z\",\"HalfMoon\":[{\"Date\":\"2016-10-09T00:00:00Z\",\"Phase\":\"waxing\"}]},",
  "{\"Date\":\"2016-10-16T00:00:00Z\",\"UposathaMoon\":[{\"Date\":\"2016-10-16T00:00:00Z\",\"Calendar\":0,\"Status\":2,\"Phase\":\"full\",\"Event\":\"pavarana\",\"S_Number\":6,\"S_Total\":8,\"U_Days\":15,\"M_Days\":30,\"LunarMonth\":11,\"LunarSeason\":3,\"LunarYear\":2559,\"HasAdhikavara\":false,\"Source\":\"\",\"Comments\":\"\"}],\"AstroMoon\":[{\"Phase\":\"full\",\"Date\":\"2016-10-16T04:25:07Z\"}],\"MajorEvents\":[{\"Date\":\"2016-10-16T00:00:00Z\",\"Calendar\":0,\"Summary\":\"Pavāraṇā Day\",\"Description\":\"Pavāraṇā Day\"},",
  "{\"Date\":\"2016-10-16T00:00:00Z\",\"Calendar\":0,\"Summary\":\"Last day of Vassa\",\"Description\":\"Last day of Vassa\"}]},",
  "{\"Date\":\"2016-10-24T00:00:00Z\",\"HalfMoon\":[{\"Date\":\"2016-10-24T00:00:00Z\",\"Phase\":\"waning\"}]},",
  "{\"Date\":\"2016-10-30T00:00:00Z\",\"UposathaMoon\":[{\"Date\":\"2016-10-30T00:00:00Z\",\"Calendar\":0,\"Status\":2,\"Phase\":\"new\",\"Event\":\"\",\"S_Number\":7,\"S_Total\":8,\"U_Days\":14,\"M_Days\":29,\"LunarMonth\":12,\"LunarSeason\":3,\"LunarYear\":2559,\"HasAdhikavara\":false,\"Source\":\"\",\"Comments\":\"\"}],\"AstroMoon\":[{\"Phase\":\"new\",\"Date\":\"2016-10-30T17:39:53Z\"}]},",
  "{\"Date\":\"2016-11-07T00:00:00Z\",\"HalfMoon\":[{\"Date\":\"2016-11-07T00:00:00Z\",\"Phase\":\"waxing\"}]},",
  "{\"Date\":\"2016-11-14T00:00:00Z\",\"UposathaMoon\":[{\"Date\":\"2016-11-14T00:00:00Z\",\"Calendar\":0,\"Status\":2,\"Phase\":\"full\",\"Event\":\"\",\"S_Number\":8,\"S_Total\":8,\"U_Days\":15,\"M_Days\":29,\"LunarMonth\":12,\"LunarSeason\":3,\"LunarYear\":2559,\"HasAdhikavara\":false,\"Source\":\"\",\"Comments\":\"\"}],\"AstroMoon\":[{\"Phase\":\"full\",\"Date\":\"2016-11-14T13:53:38Z\"}]},",
  "{\"Date\":\"2016-11-22T00:00:00Z\",\"HalfMoon\":[{\"Date\":\"2016-11-22T00:00:00Z\",\"Phase\":\"waning\"}]},",
  "{\"Date\":\"2016-11-29T00:00:00Z\",\"UposathaMoon\":[{\"Date\":\"2016-11-29T00:00:00Z\",\"Calendar\":0,\"Status\":2,\"Phase\":\"new\",\"Event\":\"\",\"S_Number\":1,\"S_Total\":8,\"U_Days\":15,\"M_Days\":30,\"LunarMonth\":1,\"LunarSeason\":1,\"LunarYear\":2560,\"HasAdhikavara\":false,\"Source\":\"\",\"Comments\":\"\"}],\"AstroMoon\":[{\"Phase\":\"new\",\"Date\":\"2016-11-29T12:19:35Z\"}]},",
  "{\"Date\":\"2016-12-07T00:00:00Z\",\"HalfMoon\":[{\"Date\":\"2016-12-07T00:00:00Z\",\"Phase\":\"waxing\"}]},",
  "{\"Date\":\"2016-12-14T00:00:00Z\",\"UposathaMoon\":[{\"Date\":\"2016-12-14T00:00:00Z\",\"Calendar\":0,\"Status\":2,\"Phase\":\"full\",\"Event\":\"\",\"S_Number\":2,\"S_Total\":8,\"U_Days\":15,\"M_Days\":30,\"LunarMonth\":1,\"LunarSeason\":1,\"LunarYear\":2560,\"HasAdhikavara\":false,\"Source\":\"\",\"Comments\":\"\"}],\"AstroMoon\":[{\"Phase\":\"full\",\"Date\":\"2016-12-14T00:06:55Z\"}]},",
  "{\"Date\":\"2016-12-22T00:00:00Z\",\"HalfMoon\":[{\"Date\":\"2016-12-22T00:00:00Z\",\"Phase\":\"waning\"}]},",
  "{\"Date\":\"2016-12-28T00:00:00Z\",\"UposathaMoon\":[{\"Date\":\"2016-12-28T00:00:00Z\",\"Calendar\":0,\"Status\":2,\"Phase\":\"new\",\"Event\":\"\",\"S_Number\":3,\"S_Total\":8,\"U_Days\":14,\"M_Days\":29,\"LunarMonth\":2,\"LunarSeason\":1,\"LunarYear\":2560,\"HasAdhikavara\":false,\"Source\":\"\",\"Comments\":\"\"}]},",
  "{\"Date\":\"2016-12-29T06:54:18Z\",\"AstroMoon\":[{\"Phase\":\"new\",\"Date\":\"2016-12-29T06:54:18Z\"}]}],\"2017\":[{\"Date\":\"2017-01-05T00:00:00Z\",\"HalfMoon\":[{\"Date\":\"2017-01-05T00:00:00Z\",\"Phase\":\"waxing\"}]},",
  "{\"Date\":\"2017-01-12T00:00:00Z\",\"UposathaMoon\":[{\"Date\":\"2017-01-12T00:00:00Z\",\"Calendar\":0,\"Status\":2,\"Phase\":\"full\",\"Event\":\"\",\"S_Number\":4,\"S_Total\":8,\"U_Days\":15,\"M_Days\":29,\"LunarMonth\":2,\"LunarSeason\":1,\"LunarYear\":2560,\"HasAdhikavara\":false,\"Source\":\"\",\"Comments\":\"\"}],\"AstroMoon\":[{\"Phase\":\"full\",\"Date\":\"2017-01-12T11:35:12Z\"}]},",
  "{\"Date\":\"2017-01-20T00:00:00Z\",\"HalfMoon\":[{\"Date\":\"2017-01-20T00:00:00Z\",\"Phase\":\"waning\"}]},",
  "{\"Date\":\"2017-01-27T00:00:00Z\",\"UposathaMoon\":[{\"Date\":\"2017-01-27T00:00:00Z\",\"Calendar\":0,\"Status\":2,\"Phase\":\"new\",\"Event\":\"\",\"S_Number\":5,\"S_Total\":8,\"U_Days\":15,\"M_Days\":30,\"LunarMonth\":3,\"LunarSeason\":1,\"LunarYear\":2560,\"HasAdhikavara\":false,\"Source\":\"\",\"Comments\":\"\"}]},",
  "{\"Date\":\"2017-01-28T00:08:19Z\",\"AstroMoon\":[{\"Phase\":\"new\",\"Date\":\"2017-01-28T00:08:19Z\"}]},",
  "{\"Date\":\"2017-02-04T00:00:00Z\",\"HalfMoon\":[{\"Date\":\"2017-02-04T00:00:00Z\",\"Phase\":\"waxing\"}]},",
  "{\"Date\":\"2017-02-11T00:00:00Z\",\"UposathaMoon\":[{\"Date\":\"2017-02-11T00:00:00Z\",\"Calendar\":0,\"Status\":2,\"Phase\":\"full\",\"Event\":\"magha\",\"S_Number\":6,\"S_Total\":8,\"U_Days\":15,\"M_Days\":30,\"LunarMonth\":3,\"LunarSeason\":1,\"LunarYear\":2560,\"HasAdhikavara\":false,\"Source\":\"\",\"Comments\":\"\"}],\"AstroMoon\":[{\"Phase\":\"full\",\"Date\":\"2017-02-11T00:33:58Z\"}],\"MajorEvents\":[{\"Date\":\"2017-02-11T00:00:00Z\",\"Calendar\":0,\"Summary\":\"Māgha Pūjā\",\"Description\":\"Māgha Pūjā\"}]},",
  "{\"Date\":\"2017-02-19T00:00:00Z\",\"HalfMoon\":[{\"Date\":\"2017-02-19T00:00:00Z\",\"Phase\":\"waning\"}]},",
  "{\"Date\":\"2017-02-25T00:00:00Z\",\"UposathaMoon\":[{\"Date\":\"2017-02-25T00:00:00Z\",\"Calendar\":0,\"Status\":2,\"Phase\":\"new\",\"Event\":\"\",\"S_Number\":7,\"S_Total\":8,\"U_Days\":14,\"M_Days\":29,\"LunarMonth\":4,\"LunarSeason\":1,\"LunarYear\":2560,\"HasAdhikavara\":false,\"Source\":\"\",\"Comments\":\"\"}]},",
  "{\"Date\":\"2017-02-26T15:00:15Z\",\"AstroMoon\":[{\"Phase\":\"new\",\"Date\":\"2017-02-26T15:00:15Z\"}]},",
  "{\"Date\":\"2017-03-05T00:00:00Z\",\"HalfMoon\":[{\"Date\":\"2017-03-05T00:00:00Z\",\"Phase\":\"waxing\"}]},",
  "{\"Date\":\"2017-03-12T00:00:00Z\",\"UposathaMoon\":[{\"Date\":\"2017-03-12T00:00:00Z\",\"Calendar\":0,\"Status\":2,\"Phase\":\"full\",\"Event\":\"\",\"S_Number\":8,\"S_Total\":8,\"U_Days\":15,\"M_Days\":29,\"LunarMonth\":4,\"LunarSeason\":1,\"LunarYear\":2560,\"HasAdhikavara\":false,\"Source\":\"\",\"Comments\":\"\"}],\"AstroMoon\":[{\"Phase\":\"full\",\"Date\":\"2017-03-12T14:54:49Z\"}]},",
  "{\"Date\":\"2017-03-20T00:00:00Z\",\"HalfMoon\":[{\"Date\":\"2017-03-20T00:00:00Z\",\"Phase\":\"waning\"}]},",
  "{\"Date\":\"2017-03-27T00:00:00Z\",\"UposathaMoon\":[{\"Date\":\"2017-03-27T00:00:00Z\",\"Calendar\":0,\"Status\":2,\"Phase\":\"new\",\"Event\":\"\",\"S_Number\":1,\"S_Total\":8,\"U_Days\":15,\"M_Days\":30,\"LunarMonth\":5,\"LunarSeason\":2,\"LunarYear\":2560,\"HasAdhikavara\":false,\"Source\":\"\",\"Comments\":\"\"}]},",
  "{\"Date\":\"2017-03-28T02:59:26Z\",\"AstroMoon\":[{\"Phase\":\"new\",\"Date\":\"2017-03-28T02:59:26Z\"}]},",
  "{\"Date\":\"2017-04-04T00:00:00Z\",\"HalfMoon\":[{\"Date\":\"2017-04-04T00:00:00Z\",\"Phase\":\"waxing\"}]},",
  "{\"Date\":\"2017-04-11T00:00:00Z\",\"UposathaMoon\":[{\"Date\":\"2017-04-11T00:00:00Z\",\"Calendar\":0,\"Status\":2,\"Phase\":\"full\",\"Event\":\"\",\"S_Number\":2,\"S_Total\":8,\"U_Days\":15,\"M_Days\":30,\"LunarMonth\":5,\"LunarSeason\":2,\"LunarYear\":2560,\"HasAdhikavara\":false,\"Source\":\"\",\"Comments\":\"\"}],\"AstroMoon\":[{\"Phase\":\"full\",\"Date\":\"2017-04-11T06:09:17Z\"}]},",
  "{\"Date\":\"2017-04-19T00:00:00Z\",\"HalfMoon\":[{\"Date\":\"2017-04-19T00:00:00Z\",\"Phase\":\"waning\"}]},",
  "{\"Date\":\"2017-04-25T00:00:00Z\",\"UposathaMoon\":[{\"Date\":\"2017-04-25T00:00:00Z\",\"Calendar\":0,\"Status\":2,\"Phase\":\"new\",\"Event\":\"\",\"S_Number\":3,\"S_Total\":8,\"U_Days\":14,\"M_Days\":29,\"LunarMonth\":6,\"LunarSeason\":2,\"LunarYear\":2560,\"HasAdhikavara\":false,\"Source\":\"\",\"Comments\":\"\"}]},",
  "{\"Date\":\"2017-04-26T12:18:11Z\",\"AstroMoon\":[{\"Phase\":\"new\",\"Date\":\"2017-04-26T12:18:11Z\"}]},",
  "{\"Date\":\"2017-05-03T00:00:00Z\",\"HalfMoon\":[{\"Date\":\"2017-05-03T00:00:00Z\",\"Phase\":\"waxing\"}]},",
  "{\"Date\":\"2017-05-10T00:00:00Z\",\"UposathaMoon\":[{\"Date\":\"2017-05-10T00:00:00Z\",\"Calendar\":0,\"Status\":2,\"Phase\":\"full\",\"Event\":\"vesakha\",\"S_Number\":4,\"S_Total\":8,\"U_Days\":15,\"M_Days\":29,\"LunarMonth\":6,\"LunarSeason\":2,\"LunarYear\":2560,\"HasAdhikavara\":false,\"Source\":\"\",\"Comments\":\"\"}],\"AstroMoon\":[{\"Phase\":\"full\",\"Date\":\"2017-05-10T21:43:56Z\"}],\"MajorEvents\":[{\"Date\":\"2017-05-10T00:00:00Z\",\"Calendar\":0,\"Summary\":\"Vesākha Pūjā\",\"Description\":\"Vesākha Pūjā\"}]},",
  "{\"Date\":\"2017-05-18T00:00:00Z\",\"HalfMoon\":[{\"Date\":\"2017-05-18T00:00:00Z\",\"Phase\":\"waning\"}]},",
  "{\"Date\":\"2017-05-25T00:00:00Z\",\"UposathaMoon\":[{\"Date\":\"2017-05-25T00:00:00Z\",\"Calendar\":0,\"Status\":2,\"Phase\":\"new\",\"Event\":\"\",\"S_Number\":5,\"S_Total\":8,\"U_Days\":15,\"M_Days\":30,\"LunarMonth\":7,\"LunarSeason\":2,\"LunarYear\":2560,\"HasAdhikavara\":false,\"Source\":\"\",\"Comments\":\"\"}],\"AstroMoon\":[{\"Phase\":\"new\",\"Date\":\"2017-05-25T19:46:22Z\"}]},",
  "{\"Date\":\"2017-06-02T00:00:00Z\",\"HalfMoon\":[{\"Date\":\"2017-06-02T00:00:00Z\",\"Phase\":\"waxing\"}]},",
  "{\"Date\":\"2017-06-09T00:00:00Z\",\"UposathaMoon\":[{\"Date\":\"2017-06-09T00:00:00Z\",\"Calendar\":0,\"Status\":2,\"Phase\":\"full\",\"Event\":\"\",\"S_Number\":6,\"S_Total\":8,\"U_Days\":15,\"M_Days\":30,\"LunarMonth\":7,\"LunarSeason\":2,\"LunarYear\":2560,\"HasAdhikavara\":false,\"Source\":\"\",\"Comments\":\"\"}],\"AstroMoon\":[{\"Phase\":\"full\",\"Date\":\"2017-06-09T13:11:15Z\"}]},",
  "{\"Date\":\"2017-06-17T00:00:00Z\",\"HalfMoon\":[{\"Date\":\"2017-06-17T00:00:00Z\",\"Phase\":\"waning\"}]},",
  "{\"Date\":\"2017-06-23T00:00:00Z\",\"UposathaMoon\":[{\"Date\":\"2017-06-23T00:00:00Z\",\"Calendar\":0,\"Status\":2,\"Phase\":\"new\",\"Event\":\"\",\"S_Number\":7,\"S_Total\":8,\"U_Days\":14,\"M_Days\":29,\"LunarMonth\":8,\"LunarSeason\":2,\"LunarYear\":2560,\"HasAdhikavara\":false,\"Source\":\"\",\"Comments\":\"\"}]},",
  "{\"Date\":\"2017-06-24T02:32:43Z\",\"AstroMoon\":[{\"Phase\":\"new\",\"Date\":\"2017-06-24T02:32:43Z\"}]},",
  "{\"Date\":\"2017-07-01T00:00:00Z\",\"HalfMoon\":[{\"Date\":\"2017-07-01T00:00:00Z\",\"Phase\":\"waxing\"}]},",
  "{\"Date\":\"2017-07-08T00:00:00Z\",\"UposathaMoon\":[{\"Date\":\"2017-07-08T00:00:00Z\",\"Calendar\":0,\"Status\":2,\"Phase\":\"full\",\"Event\":\"asalha\",\"S_Number\":8,\"S_Total\":8,\"U_Days\":15,\"M_Days\":29,\"LunarMonth\":8,\"LunarSeason\":2,\"LunarYear\":2560,\"HasAdhikavara\":false,\"Source\":\"\",\"Comments\":\"\"}],\"MajorEvents\":[{\"Date\":\"2017-07-08T00:00:00Z\",\"Calendar\":0,\"Summary\":\"Āsāḷha Pūjā\",\"Description\":\"Āsāḷha Pūjā\"}]},",
  "{\"Date\":\"2017-07-09T00:00:00Z\",\"AstroMoon\":[{\"Phase\":\"full\",\"Date\":\"2017-07-09T04:08:31Z\"}],\"MajorEvents\":[{\"Date\":\"2017-07-09T00:00:00Z\",\"Calendar\":0,\"Summary\":\"First day of Vassa\",\"Description\":\"First day of Vassa\"}]},",
  "{\"Date\":\"2017-07-16T00:00:00Z\",\"HalfMoon\":[{\"Date\":\"2017-07-16T00:00:00Z\",\"Phase\":\"waning\"}]},",
  "{\"Date\":\"2017-07-23T00:00:00Z\",\"UposathaMoon\":[{\"Date\":\"2017-07-23T00:00:00Z\",\"Calendar\":0,\"Status\":2,\"Phase\":\"new\",\"Event\":\"\",\"S_Number\":1,\"S_Total\":8,\"U_Days\":15,\"M_Days\":30,\"LunarMonth\":9,\"LunarSeason\":3,\"LunarYear\":2560,\"HasAdhikavara\":false,\"Source\":\"\",\"Comments\":\"\"}],\"AstroMoon\":[{\"Phase\":\"new\",\"Date\":\"2017-07-23T09:47:26Z\"}]},",
  "{\"Date\":\"2017-07-31T00:00:00Z\",\"HalfMoon\":[{\"Date\":\"2017-07-31T00:00:00Z\",\"Phase\":\"waxing\"}]},",
  "{\"Date\":\"2017-08-07T00:00:00Z\",\"UposathaMoon\":[{\"Date\":\"2017-08-07T00:00:00Z\",\"Calendar\":0,\"Status\":2,\"Phase\":\"full\",\"Event\":\"\",\"S_Number\":2,\"S_Total\":8,\"U_Days\":15,\"M_Days\":30,\"LunarMonth\":9,\"LunarSeason\":3,\"LunarYear\":2560,\"HasAdhikavara\":false,\"Source\":\"\",\"Comments\":\"\"}],\"AstroMoon\":[{\"Phase\":\"full\",\"Date\":\"2017-08-07T18:12:47Z\"}]},",
  "{\"Date\":\"2017-08-15T00:00:00Z\",\"HalfMoon\":[{\"Date\":\"2017-08-15T00:00:00Z\",\"Phase\":\"waning\"}]},",
  "{\"Date\":\"2017-08-21T00:00:00Z\",\"UposathaMoon\":[{\"Date\":\"2017-08-21T00:00:00Z\",\"Calendar\":0,\"Status\":2,\"Phase\":\"new\",\"Event\":\"\",\"S_Number\":3,\"S_Total\":8,\"U_Days\":14,\"M_Days\":29,\"LunarMonth\":10,\"LunarSeason\":3,\"LunarYear\":2560,\"HasAdhikavara\":false,\"Source\":\"\",\"Comments\":\"\"}],\"AstroMoon\":[{\"Phase\":\"new\",\"Date\":\"2017-08-21T18:31:34Z\"}]},",
  "{\"Date\":\"2017-08-29T00:00:00Z\",\"HalfMoon\":[{\"Date\":\"2017-08-29T00:00:00Z\",\"Phase\":\"waxing\"}]},",
  "{\"Date\":\"2017-09-05T00:00:00Z\",\"UposathaMoon\":[{\"Date\":\"2017-09-05T00:00:00Z\",\"Calendar\":0,\"Status\":2,\"Phase\":\"full\",\"Event\":\"\",\"S_Number\":4,\"S_Total\":8,\"U_Days\":15,\"M_Days\":29,\"LunarMonth\":10,\"LunarSeason\":3,\"LunarYear\":2560,\"HasAdhikavara\":false,\"Source\":\"\",\"Comments\":\"\"}]},",
  "{\"Date\":\"2017-09-06T07:04:55Z\",\"AstroMoon\":[{\"Phase\":\"full\",\"Date\":\"2017-09-06T07:04:55Z\"}]},",
  "{\"Date\":\"2017-09-13T00:00:00Z\",\"HalfMoon\":[{\"Date\":\"2017-09-13T00:00:00Z\",\"Phase\":\"waning\"}]},",
  "{\"Date\":\"2017-09-20T00:00:00Z\",\"UposathaMoon\":[{\"Date\":\"2017-09-20T00:00:00Z\",\"Calendar\":0,\"Status\":2,\"Phase\":\"new\",\"Event\":\"\",\"S_Number\":5,\"S_Total\":8,\"U_Days\":15,\"M_Days\":30,\"LunarMonth\":11,\"LunarSeason\":3,\"LunarYear\":2560,\"HasAdhikavara\":false,\"Source\":\"\",\"Comments\":\"\"}],\"AstroMoon\":[{\"Phase\":\"new\",\"Date\":\"2017-09-20T05:30:46Z\"}]},",
  "{\"Date\":\"2017-09-28T00:00:00Z\",\"HalfMoon\":[{\"Date\":\"2017-09-28T00:00:00Z\",\"Phase\":\"waxing\"}]},",
  "{\"Date\":\"2017-10-05T00:00:00Z\",\"UposathaMoon\":[{\"Date\":\"2017-10-05T00:00:00Z\",\"Calendar\":0,\"Status\":2,\"Phase\":\"full\",\"Event\":\"pavarana\",\"S_Number\":6,\"S_Total\":8,\"U_Days\":15,\"M_Days\":30,\"LunarMonth\":11,\"LunarSeason\":3,\"LunarYear\":2560,\"HasAdhikavara\":false,\"Source\":\"\",\"Comments\":\"\"}],\"AstroMoon\":[{\"Phase\":\"full\",\"Date\":\"2017-10-05T18:41:56Z\"}],\"MajorEvents\":[{\"Date\":\"2017-10-05T00:00:00Z\",\"Calendar\":0,\"Summary\":\"Pavāraṇā Day\",\"Description\":\"Pavāraṇā Day\"},",
  "{\"Date\":\"2017-10-05T00:00:00Z\",\"Calendar\":0,\"Summary\":\"Last day of Vassa\",\"Description\":\"Last day of Vassa\"}]},",
  "{\"Date\":\"2017-10-13T00:00:00Z\",\"HalfMoon\":[{\"Date\":\"2017-10-13T00:00:00Z\",\"Phase\":\"waning\"}]},",
  "{\"Date\":\"2017-10-19T00:00:00Z\",\"UposathaMoon\":[{\"Date\":\"2017-10-19T00:00:00Z\",\"Calendar\":0,\"Status\":2,\"Phase\":\"new\",\"Event\":\"\",\"S_Number\":7,\"S_Total\":8,\"U_Days\":14,\"M_Days\":29,\"LunarMonth\":12,\"LunarSeason\":3,\"LunarYear\":2560,\"HasAdhikavara\":false,\"Source\":\"\",\"Comments\":\"\"}],\"AstroMoon\":[{\"Phase\":\"new\",\"Date\":\"2017-10-19T19:12:38Z\"}]},",
  "{\"Date\":\"2017-10-27T00:00:00Z\",\"HalfMoon\":[{\"Date\":\"2017-10-27T00:00:00Z\",\"Phase\":\"waxing\"}]},",
  "{\"Date\":\"2017-11-03T00:00:00Z\",\"UposathaMoon\":[{\"Date\":\"2017-11-03T00:00:00Z\",\"Calendar\":0,\"Status\":2,\"Phase\":\"full\",\"Event\":\"\",\"S_Number\":8,\"S_Total\":8,\"U_Days\":15,\"M_Days\":29,\"LunarMonth\":12,\"LunarSeason\":3,\"LunarYear\":2560,\"HasAdhikavara\":false,\"Source\":\"\",\"Comments\":\"\"}]},",
  "{\"Date\":\"2017-11-04T05:24:29Z\",\"AstroMoon\":[{\"Phase\":\"full\",\"Date\":\"2017-11-04T05:24:29Z\"}]},",
  "{\"Date\":\"2017-11-11T00:00:00Z\",\"HalfMoon\":[{\"Date\":\"2017-11-11T00:00:00Z\",\"Phase\":\"waning\"}]},",
  "{\"Date\":\"2017-11-18T00:00:00Z\",\"UposathaMoon\":[{\"Date\":\"2017-11-18T00:00:00Z\",\"Calendar\":0,\"Status\":2,\"Phase\":\"new\",\"Event\":\"\",\"S_Number\":1,\"S_Total\":8,\"U_Days\":15,\"M_Days\":30,\"LunarMonth\":1,\"LunarSeason\":1,\"LunarYear\":2561,\"HasAdhikavara\":false,\"Source\":\"\",\"Comments\":\"\"}],\"AstroMoon\":[{\"Phase\":\"new\",\"Date\":\"2017-11-18T11:42:52Z\"}]},",
  "{\"Date\":\"2017-11-26T00:00:00Z\",\"HalfMoon\":[{\"Date\":\"2017-11-26T00:00:00Z\",\"Phase\":\"waxing\"}]},",
  "{\"Date\":\"2017-12-03T00:00:00Z\",\"UposathaMoon\":[{\"Date\":\"2017-12-03T00:00:00Z\",\"Calendar\":0,\"Status\":2,\"Phase\":\"full\",\"Event\":\"\",\"S_Number\":2,\"S_Total\":8,\"U_Days\":15,\"M_Days\":30,\"LunarMonth\":1,\"LunarSeason\":1,\"LunarYear\":2561,\"HasAdhikavara\":false,\"Source\":\"\",\"Comments\":\"\"}],\"AstroMoon\":[{\"Phase\":\"full\",\"Date\":\"2017-12-03T15:48:30Z\"}]},",
  "{\"Date\":\"2017-12-11T00:00:00Z\",\"HalfMoon\":[{\"Date\":\"2017-12-11T00:00:00Z\",\"Phase\":\"waning\"}]},",
  "{\"Date\":\"2017-12-17T00:00:00Z\",\"UposathaMoon\":[{\"Date\":\"2017-12-17T00:00:00Z\",\"Calendar\":0,\"Status\":2,\"Phase\":\"new\",\"Event\":\"\",\"S_Number\":3,\"S_Total\":8,\"U_Days\":14,\"M_Days\":29,\"LunarMonth\":2,\"LunarSeason\":1,\"LunarYear\":2561,\"HasAdhikavara\":false,\"Source\":\"\",\"Comments\":\"\"}]},",
  "{\"Date\":\"2017-12-18T06:31:29Z\",\"AstroMoon\":[{\"Phase\":\"new\",\"Date\":\"2017-12-18T06:31:29Z\"}]},",
  "{\"Date\":\"2017-12-25T00:00:00Z\",\"HalfMoon\":[{\"Date\":\"2017-12-25T00:00:00Z\",\"Phase\":\"waxing\"}]}]}"]

#guard (calDaysText Config.default files 2014 2014 "2014-01-01" "2017-12-31").map String.ofList = some (String.join expectedJson)

/-- The UIDs of suriya/testdata/mahanikaya-from-2013-01-01-to-2017-12-31.ical. -/
def uids : List String := [
  "6f484abd-b7ed-47f8-9206-5e01d1500cb7", "4e07916b-17b7-477d-a766-8ceb2eb2dfdd", "1e1b1ebf-ca06-4977-bf7b-4039149b7644",
  "1e42915f-0e76-4f27-8ed9-6bbb27a02b44", "057708cc-499d-4775-9782-d6abb7a3934f", "621064e3-f9cb-4397-b7c5-253ce6b37f8c",
  "e56c1a30-af64-4b8b-9720-f17747a8e9a0", "5d022761-3792-447d-911c-d5cc51c39c87", "312fdb96-4ccd-4ba1-9fd2-f732720aa439",
  "2976b9a6-44fe-4ad9-9f0d-1621155f3970", "291eb798-c593-4a1b-9cde-3103f5c16526", "1d07d5f9-8e3f-4554-9fef-500427afca8b",
  "f7d7487d-27d2-47f2-84d4-ae5c64abe328", "87c8552a-7ac7-4198-9e15-db37b16b3350", "1dc02496-e617-4250-871d-daed1e3521e7",
  "6ec1596e-96f4-442e-98f8-53fc87c18fb7", "5b8b0e28-24f8-4a3e-b0ff-8cf43c4fd29d", "95878594-5941-4145-8789-c9b1dd84c486",
  "3f66e8b1-371c-4c32-bc39-cfe3b5e7491f", "43885a57-7563-4480-bd74-449161daae79", "9110ac70-f5f0-40bd-a33e-74b2640bbf45",
  "cb1ae544-8c4d-4f88-b34f-b4d90c9089b1", "c6d3eaf1-92db-48fc-a6bc-4e80d15a30d2", "b29a3f0e-82b2-4f67-807d-4e47d64c1a79",
  "256635ed-180f-439e-8a99-5a470a4c72e6", "48a034f3-5ae8-40c8-abaa-6a4a5b9fa764", "de1c9223-34de-4c15-a467-07593b4d2073",
  "d3093b6b-d830-4208-be53-6a5d003f8b88", "03beb43f-e55c-4684-b3ee-2a78b54e63cd", "0ce7f226-3efa-45c8-8c04-065da1a4ff1f",
  "11ba69a7-0d25-491c-97c0-3b6371cd8dee", "05645a0e-f6a1-4b0e-a844-6055dd69fe27", "daabf62c-af43-4e2c-9bbc-999b01d0287c",
  "29470f21-9a75-4af9-89e8-834541bddcbd", "379df7c1-c684-48a2-af58-69343c85833c", "5236d23a-9581-45ec-8711-62226eca7c3d",
  "91c81043-08e2-4c26-a477-c797d4259f90", "77c93d80-7048-4fb9-a988-7f02ff00b355", "477bb6ef-e89b-4727-a15c-e2cda4a07efd",
  "0ac035ea-afae-4993-b091-1c4b0d4504f9", "9e08ada9-9f62-4623-be50-128f292709ed", "942f00ff-1e62-4672-8963-9c88ef567812",
  "4e2fd008-a0c6-4d70-9055-2ed8012beef5", "c0ed4fa5-39e8-401a-a1a7-2c97a813e988", "2624eef8-7497-4d00-9e8f-617d2445e13b",
  "f762f6ce-c2c8-457f-8039-d425a11e3604", "6bb68aa9-f524-4c58-915b-6659dd1a4cba", "99b7f9ff-ccaf-464c-8b8f-c33ca9f431b2",
  "232feff6-7626-4d53-8bcf-682ce585c987", "261f3462-30dc-4e54-a017-31b376e151c1", "7a7eb47e-ed2a-42dc-93d0-4c599c11dc0b",
  "ee3f8744-61a4-43a9-9bf3-c2386829f812", "664dea57-d02c-4545-b20c-0a6fc942c06c", "4b54219a-bb67-460f-96c8-9d3e8d10c6c1",
  "b0aaf61b-a475-49e4-b1d7-48a7749f07ce", "7ba3e8f0-6558-4fd8-880c-3a0dae6efba6", "cabf82ca-74e0-4913-b50b-f0f1ea585876",
  "854e12c3-1012-4310-a291-2bf692d48cc7", "3f1e458c-d8d2-462b-b65e-e323aa56cf1d", "5bb9ee80-f11b-49c9-b95b-145e9d7192d6",
  "7eb008b2-64e2-497b-8e7d-96e32fcca44b", "2e12600c-255d-41f4-99c2-e0513f03eba4", "ae1d24ee-ce5c-48d4-8ae1-2eff422106e5",
  "aceb5abd-95a6-4fa2-bc2d-978f40c6fc68", "82718c93-f38b-4846-a357-a40e1be1920c", "99946fc5-1798-4f6d-b281-32f1f83c892e",
  "af0f5856-a703-49c4-ae48-b1b6438faa4b", "b89a5ad4-a204-4767-8ab3-7aa8870b6eda", "2542ab2e-79eb-4076-b3f8-2b57c21bd7f4",
  "1f20170e-01b9-4a00-8cab-95f03ae70b36", "13181a13-3d78-4a60-8e7c-1020c1038d17", "8689c19c-8db5-453e-97da-47f32b90d2bb",
  "9ba4351a-69b6-40db-8a2e-3356d8cb017d", "b4866436-5921-4bf8-9241-c0447cfcd955", "4ff4c170-36b7-4dce-bc80-1bd13dafe57b",
  "38782eda-463d-455d-81fd-c08daf54bd66", "b7789ef1-0889-405d-b946-f3dffde009b0", "60cea60e-b2c2-4f77-a230-9c5f64bd3e7e",
  "de67dd4f-e84a-4412-aa48-5dcd1964d754", "866f71da-3270-425f-9954-bb9096bc9acd", "e340d7af-36ea-4620-aa92-4b0a94ba2479",
  "637fbb8f-63cb-4f77-8ee1-4661273d951a", "0a9a3c74-8c1a-4106-bdb5-4c786943d230", "19f3fb56-c32c-4786-9fe0-925fbce33911",
  "f1a02f9a-f713-47c5-b4c3-ff6924c365a1", "df01275b-bd10-44ae-a208-c97c39685255", "6c25e0f5-dda1-470a-a592-9350dd792049",
  "a90bf58f-ca9e-4264-9a7b-428702cc77e9", "f01dd466-c900-42c6-aa88-8aa9b6a987ca", "fab0fa5f-d725-48e9-87e7-78c7819a36a1",
  "ae1b9015-6260-4ec7-93d1-ea3de956d7d6", "94f5803c-94e9-414d-a05d-609ce7041ced", "6de32b06-e6b0-4ff1-b2cb-3288268ca67a",
  "c2ffc19d-b8a8-462a-b356-56322ce2377d", "7bf78379-3215-446e-91b7-28b3043ffba6", "20732cd8-7853-4c8a-aefc-ce6751ee4f4e",
  "c5f1bafa-36b6-4df2-be9b-43f69c3a6195", "d826803a-a522-4672-abdf-a9545bb95166", "621a816f-4fef-4379-af90-bc834d805021",
  "364efb3f-6887-4fb4-9c94-02d586d84ee3", "8a3f46f6-202e-4c8d-aed4-7d68621067c1", "90db4754-ead0-4ee6-9d71-14520b4f8ace",
  "c76512c1-d5f4-479c-a698-04393a62f0b7", "e5146ab5-32f1-46de-abc5-a0137005e44b", "890d2079-8720-4786-a028-66775eb961f5",
  "9f65aa63-5c93-49a5-a3a3-1573803d1a30", "eba3df32-238b-464f-a574-aff67a2ecce1", "673262ca-52ea-41ba-b5c8-43c0c80a4cb2",
  "824e1214-a2db-429b-b905-7f42de0ad7e2", "4a1fa66b-6a4b-4ea2-9f86-6a4a65bf9129", "64e298eb-d290-4830-a47a-f100719218b1",
  "d23dbb35-87d4-4308-be9a-368c6765e7af", "32dcca95-4525-4814-abad-0f68781157ca", "9b49b318-6d37-45d3-9baf-7d262d6c385b",
  "be1ccbb0-30f8-4a7d-954c-7524377b12ff", "8580cf27-8295-438d-83ff-8cd4b54575a8", "96187c41-5b14-4e76-9595-d8286abb13fc",
  "e8c3e723-5b12-4ab0-8912-4443111401c9", "d39efb37-40fc-4709-803d-11c7a8b371c4", "7f5506aa-bbfb-41ab-8f2d-33790f004ba8",
  "091be95d-61d4-4668-ade6-112ea3e27140", "93c7bcf0-9577-4bdf-a284-0a1a598d766d", "1013cea0-5e8c-4d4d-a199-61402e63d91b",
  "773dce89-22ca-4aff-894d-690622e260eb", "3af4bf84-50f1-457f-aeb4-73bef1809a78", "ae1dbc1f-c77a-4335-b9ac-ec730477544b",
  "18f1eb5f-5c13-4322-9a09-324bff0e986c", "e04d35eb-25c7-456d-afb6-e3fd009f9cd8", "a3a972ee-eb4d-48cb-a294-5dc63cb56f4d",
  "4c6313f1-35ce-4473-ba19-4e8028d5e1f4", "03db6176-6048-4d73-94d6-33599a5320f7", "a21166a3-f8f4-4767-92d9-d92206b92c7c",
  "70d40161-772a-4311-88dd-4913e31db397", "7c6c8107-11c1-4ce9-80fc-f2f4bd293555", "c11c50e4-01d2-48d6-b776-c7addea263a4",
  "7a8c2bf6-3e38-472b-9083-e3a099172b1b", "a12b4428-f82c-4ca0-ba76-e417637a998b", "a4fbf2e8-e250-4d0c-a9da-a3957c2ae105",
  "d8a62f97-3b6d-4606-a8c5-b2cdd8567996", "1ab60928-e930-4f1f-a2cc-7f409dbd1406", "b23379a8-5cd2-481e-a1ed-3d4d37d8c5b3",
  "e361d895-5687-4df4-bd60-6f26b230e0ea", "59231038-36f7-4c8f-b0f0-be8aed6ead07", "f043eb29-57ed-4afa-a8f3-a13fa04044ca",
  "2025ba90-0f97-41f4-86f9-4704d3ee5106", "b0fcb621-79a2-420a-bf4d-a255876063cb", "d9bf7c60-c1af-4918-a60c-9e88a9691ce7",
  "5485f0a3-7ba2-42cd-9a5a-36c4883facd5", "f593698c-2f67-4f54-97fa-128a7ca8e1ec", "0d58897f-34cf-4062-90a0-5c019450d826",
  "f2151f98-98a4-4d1b-b721-2bf470ee8d49", "2e951a0b-9cc7-4754-b13e-e0e8fb344919", "85e106d4-9ad8-46ab-b2f5-e5b84969ce45",
  "7a6f97b5-55ad-4079-8511-2cd7c349f6b6", "3985b09a-1150-4168-a9a7-2d5220ce5860", "c0037893-3ac4-4bd3-8a6d-d2e7552a6ef5",
  "64b0216d-5b9b-4a60-8d60-a9ccbf138ebb", "d2dfc457-9a6f-4f77-8652-ba264e299d98", "28dc3875-d901-43e3-a9fb-2f6654c04b5b",
  "19e1700a-4733-496d-853d-2d6f05bddc5f", "e62c86d0-3ad6-41aa-a32e-405f01eb537f", "5392b3f1-39be-494f-974d-7388c4eefd07",
  "6550ee7b-4a3f-41e7-9ba6-b222817b8241", "c1e210f1-147c-4086-8f13-ad1fb64753c5", "1265aec7-c680-4126-9259-dfa3a0371a94",
  "75636da7-2cc8-4635-985e-14b19216f286", "ced849fb-3c8d-4201-92c8-a41775dcc035", "953d9bb9-375d-47a1-81e7-1e5a33061437",
  "7a025b4d-515d-4748-a9b9-d055ebd6d0d4", "a61a2f66-cef9-4467-9833-25937267fdf2", "d708525c-0270-4126-a9d5-9f1c404371fe",
  "1ffca05e-7abf-4c01-bc53-66a019317c26", "2e0983e8-c74a-487b-812e-abc34e33312e", "03ecdd8e-8028-4e66-bfdf-c127d283e141",
  "b5330c21-84a6-4e0b-9326-ac3859eeed82", "4220f0cd-33c9-48a1-a7f8-a4e215a4b25f", "5e52b3f7-c13d-4673-800f-d8c599721c52",
  "2f90c376-4a0c-4ede-adbb-68ee456e5436", "b1db983f-81d9-4a29-b9b1-050f61823a88", "8362914e-c039-42d8-8e10-a725ed07bb40",
  "45a7f01f-b465-422b-9591-4eec9818416f", "e7a16a2c-3850-49a1-af1b-ca5898191753", "f303ca12-6bb0-4bd6-ad41-49ee47e90ffe",
  "739081bd-e988-489f-b321-68053b5f68c1", "9f9fdc08-1ef0-4391-8b0d-75401dc7ba77", "da060f70-74f8-4023-a83b-7f9d5f4f496c",
  "fe4effe8-a3ad-4efe-b5c3-b3da7562dc3e", "cfacbd06-1a4b-4c48-8fa5-d729bfb1c918", "4efade5c-82cf-4150-8906-d2de266cac61",
  "4bd1103e-9683-4c45-a09a-62e65772a5ff", "89db6787-ccc7-4046-97d4-455cc0f62cd1", "1cfb7b5c-99a5-48ac-acf1-55dce0a21162",
  "e69ab4b3-93ff-426d-80f9-ba5e5fc38d8f", "45cf608a-0ed9-45ad-921b-288897407be9", "284de297-91fc-4470-9aea-8ce2c7ac5d48",
  "5f8b85bc-f171-4f2c-b74e-4e95319caf01", "a5b8c072-9ccb-4945-9182-46c54ddc112d", "73a5a23b-3389-48c6-a10a-f57871bb8439",
  "02d4718d-a7b2-4228-880c-2d51d2be3fbe", "58c848d3-f985-4071-af5b-6c36398fbe92", "3e3bc847-7f17-41ef-b41c-b6432b7aa935",
  "36bce1cf-80a3-4a73-8da2-7e4d41284509", "9fa00ce9-fb42-45aa-882a-4f561af4fe58", "f5e9fc12-b525-4e85-84f9-053e8906882c",
  "c1c7faf1-1f2f-4856-a364-5964f64b6c53", "919a7bd4-d5dd-4a66-85f5-13cb9ec803c4", "6f9e85ba-e915-4989-98d7-5a674fea044a",
  "ddc4779e-0f9d-4690-b971-e967f308618a", "e501ec09-820c-434c-a506-03f87411b0d5", "e81bfe08-306c-4c97-b679-9e86cd440c78",
  "962446c7-f6a0-4e29-9c91-c273c77b387e", "b95afe63-96cc-4fd6-93fc-3e692d7586bc", "377cea9b-0523-42b1-8602-3cb576102a6d",
  "e54cf513-34c7-47b7-81bc-b43dbfdecd70", "d9ce538c-a67f-45cc-ba51-407d2a1f1b03", "81b5eb3a-e865-421c-8653-4d6997c2ecf7",
  "6f85e9bd-b747-41db-a682-6441632b16d3", "e62eb46c-f4c7-4c5e-a273-78cae6bc4539", "e89ee293-1cbf-43ba-9db9-14088f988c71",
  "c30bb7fc-1fd6-4c05-982b-3f9adf766105", "035d1822-b894-4562-883e-27bc70f08b40", "451899f0-a047-4990-a207-55f8835e49dd",
  "3e5d399e-4ddd-4370-96d9-33b75c5ef199", "74678a1b-5c3f-413e-9eaf-e69438756a71", "6caecdfd-2444-4260-8dd6-31c27e2d8c9d",
  "821216a1-0f8c-48b2-b0fd-f353374fdec0", "ec906b39-e37d-48f2-87f5-fd36792117ed", "3e3652af-6ce8-452f-bf14-398f033c243a",
  "58ac4399-e2d2-410b-8f49-c733da3b0f05", "7ad0a82d-a7fa-498a-b4e3-efb7854a4c4d", "712bf485-f7d1-46fe-bac1-60da3c35d41d",
  "1f7fc34b-1835-4881-9b8c-ebda43576658", "73e3ec06-b8f7-47d4-a237-ddf16444b426", "d1ad7f53-28e0-4c46-86d0-ebe15c259475",
  "c3367a8f-e0cf-4308-96ce-0443f1da70d4", "7887afbd-f234-4fda-b9b3-3298016fa423", "319acf85-e868-4c4b-811a-f46a1cd0ba61",
  "ec979f9e-eadc-47da-b2cb-f47119435b1e", "d1dfc5e9-910e-4c6a-852d-5fb9cb0ed7c1", "c8a6e3c7-b0fb-4d06-a241-6f05250926fd",
  "8d0f2a9c-5dc7-4413-8c60-da9bed1422f0", "9362b12b-2b83-457f-b502-f64357c73c16", "50fec642-65fa-429f-a2f3-4bd6eb085056",
  "54b45ace-cc82-4920-83a9-752663afd0b0", "1df0e52e-397f-4d31-bc95-782b1b8cee1a", "88fe02a3-5e08-471c-bb39-c24037578953",
  "01a5a180-5a7c-4475-a33b-357e6f6874bd", "91963dd1-5f44-4bb8-b6fe-5cf649d29750", "4fa609df-f72b-4ffe-9f70-1e6a14031381",
  "1836d55c-0179-42fc-b52b-0a3a4e2992d1", "71f99cf2-5c77-4bd8-b90c-1e81cbc6c322", "a67c2cd0-d4ad-4d65-98dc-1538b2ab37b7",
  "8fa0c23e-2a7a-4c8b-acdd-6c4820bccf43", "38f77b1f-15f5-434b-8f5e-7d9067cdae5f", "4047d2f1-ec6b-439a-94f5-dbd4e949c322",
  "7967207b-c0ba-463b-b36e-c8505e2ecd32", "bb861fc7-dbc4-4204-bae1-50908a406071", "bd2178fc-cd84-42c6-b12e-54a17af44c81",
  "2a7d97da-332e-4701-8056-c5bf94ed1dc0", "da646f32-1c84-4a3b-b214-262900725b6b", "0d993612-08c5-424c-bc30-baca51caa2b3",
  "1af5a1b2-9a04-44d3-8c2a-20749933bcef", "8b5e31bb-c94b-4fd0-a00c-99cb8309fc0f", "1d043798-c6ce-43e8-8cd3-438815888a0c",
  "c7bfa5a8-0131-44d3-b40f-a1aa7697f480", "a81d5d13-08bc-4fca-aaa5-6dc6a4bc9d3d", "8280677f-d007-4d32-bd18-3542d6bb273b",
  "bdac1713-bbaa-428c-895e-9a35ba8ccb1b", "7a35f3e9-e370-4ecb-837c-ca0b7a43ff50", "3e3bcf09-640b-48c3-83fd-6e0e09b6f4b5",
  "8114ec1c-d5ca-4e72-ab7e-cdc4dbd63ba9", "f86e827c-e9cc-4244-afb2-29d5a5f8af02", "d2a6afa6-0e6a-4900-af6e-79a046ebd7f6",
  "fb6f1dd9-c258-4ab6-8825-f50b9b631a87", "ca16dd5a-49fd-4262-81af-848b5e89a6e4", "63dee20a-e8f5-436d-b9df-f231935e2f7f",
  "36b97621-9e62-4d27-abec-08f11bcdbe89"]

def stamps (i : Nat) : Stamp := ⟨uids.getD i "", date 2016 5 16 (56369 * nsPerSec) 0⟩

/-- The lines of that file except those with UIDs and time stamps, each ended by CR LF in the file; the older spelling
"Visākha" is replaced by the current one. Blocks of an event are on one line here. -/
def expectedIcal : List String := [
  "BEGIN:VCALENDAR", "VERSION:2.0", "PRODID:Uposatha Moondays Mahānikāya EN", "URL:http://splendidmoons.github.io/ical/mahanikaya.ical", "NAME:Uposatha Moondays (Mahānikāya)", "X-WR-CALNAME:Uposatha Moondays (Mahānikāya)", "DESCRIPTION:Uposatha Moondays (Mahānikāya)", "X-WR-CALDESC:Uposatha Moondays (Mahānikāya)", "REFRESH-INTERVAL;VALUE=DURATION:PT12H", "X-PUBLISHED-TTL:PT12H", "COLOR:244:196:48", "CALSCALE:GREGORIAN", "METHOD:PUBLISH",
  "BEGIN:VEVENT", "SUMMARY:Waning Moon", "DTSTART;VALUE=DATE:20130105", "DTEND;VALUE=DATE:20130106", "END:VEVENT",
  "BEGIN:VEVENT", "SUMMARY:New Moon - 14 day Hemanta 3/8", "DTSTART;VALUE=DATE:20130111", "DTEND;VALUE=DATE:20130112", "END:VEVENT",
  "BEGIN:VEVENT", "SUMMARY:Waxing Moon", "DTSTART;VALUE=DATE:20130119", "DTEND;VALUE=DATE:20130120", "END:VEVENT",
  "BEGIN:VEVENT", "SUMMARY:Full Moon - 15 day Hemanta 4/8", "DTSTART;VALUE=DATE:20130126", "DTEND;VALUE=DATE:20130127", "END:VEVENT",
  "BEGIN:VEVENT", "SUMMARY:Waning Moon", "DTSTART;VALUE=DATE:20130203", "DTEND;VALUE=DATE:20130204", "END:VEVENT",
  "BEGIN:VEVENT", "SUMMARY:New Moon - 15 day Hemanta 5/8", "DTSTART;VALUE=DATE:20130210", "DTEND;VALUE=DATE:20130211", "END:VEVENT",
  "BEGIN:VEVENT", "SUMMARY:Waxing Moon", "DTSTART;VALUE=DATE:20130218", "DTEND;VALUE=DATE:20130219", "END:VEVENT",
  "BEGIN:VEVENT", "SUMMARY:Full Moon - 15 day Hemanta 6/8", "DTSTART;VALUE=DATE:20130225", "DTEND;VALUE=DATE:20130226", "END:VEVENT",
  "BEGIN:VEVENT", "SUMMARY:Māgha Pūjā", "DTSTART;VALUE=DATE:20130225", "DTEND;VALUE=DATE:20130226", "END:VEVENT",
  "BEGIN:VEVENT", "SUMMARY:Waning Moon", "DTSTART;VALUE=DATE:20130305", "DTEND;VALUE=DATE:20130306", "END:VEVENT",
  "BEGIN:VEVENT", "SUMMARY:New Moon - 14 day Hemanta 7/8", "DTSTART;VALUE=DATE:20130311", "DTEND;VALUE=DATE:20130312", "END:VEVENT",
  "BEGIN:VEVENT", "SUMMARY:Waxing Moon", "DTSTART;VALUE=DATE:20130319", "DTEND;VALUE=DATE:20130320", "END:VEVENT",
  "BEGIN:VEVENT", "SUMMARY:Full Moon - 15 day Hemanta 8/8", "DTSTART;VALUE=DATE:20130326", "DTEND;VALUE=DATE:20130327", "END:VEVENT",
  "BEGIN:VEVENT", "SUMMARY:Waning Moon", "DTSTART;VALUE=DATE:20130403", "DTEND;VALUE=DATE:20130404", "END:VEVENT",
  "BEGIN:VEVENT", "SUMMARY:New Moon - 15 day Gimha 1/8", "DTSTART;VALUE=DATE:20130410", "DTEND;VALUE=DATE:20130411", "END:VEVENT",
  "BEGIN:VEVENT", "SUMMARY:Waxing Moon", "DTSTART;VALUE=DATE:20130418", "DTEND;VALUE=DATE:20130419", "END:VEVENT",
  "BEGIN:VEVENT", "SUMMARY:Full Moon - 15 day Gimha 2/8", "DTSTART;VALUE=DATE:20130425", "DTEND;VALUE=DATE:20130426", "END:VEVENT",
  "BEGIN:VEVENT", "SUMMARY:Waning Moon", "DTSTART;VALUE=DATE:20130503", "DTEND;VALUE=DATE:20130504", "END:VEVENT",
  "BEGIN:VEVENT", "SUMMARY:New Moon - 14 day Gimha 3/8", "DTSTART;VALUE=DATE:20130509", "DTEND;VALUE=DATE:20130510", "END:VEVENT",
  "BEGIN:VEVENT", "SUMMARY:Waxing Moon", "DTSTART;VALUE=DATE:20130517", "DTEND;VALUE=DATE:20130518", "END:VEVENT",
  "BEGIN:VEVENT", "SUMMARY:Full Moon - 15 day Gimha 4/8", "DTSTART;VALUE=DATE:20130524", "DTEND;VALUE=DATE:20130525", "END:VEVENT",
  "BEGIN:VEVENT", "SUMMARY:Vesākha Pūjā", "DTSTART;VALUE=DATE:20130524", "DTEND;VALUE=DATE:20130525", "END:VEVENT",
  "BEGIN:VEVENT", "SUMMARY:Waning Moon", "DTSTART;VALUE=DATE:20130601", "DTEND;VALUE=DATE:20130602", "END:VEVENT",
  "BEGIN:VEVENT", "SUMMARY:New Moon - 15 day Gimha 5/8", "DTSTART;VALUE=DATE:20130608", "DTEND;VALUE=DATE:20130609", "END:VEVENT",
  "BEGIN:VEVENT", "SUMMARY:Waxing Moon", "DTSTART;VALUE=DATE:20130616", "DTEND;VALUE=DATE:20130617", "END:VEVENT",
  "BEGIN:VEVENT", "SUMMARY:Full Moon - 15 day Gimha 6/8", "DTSTART;VALUE=DATE:20130623", "DTEND;VALUE=DATE:20130624", "END:VEVENT",
  "BEGIN:VEVENT", "SUMMARY:Waning Moon", "DTSTART;VALUE=DATE:20130701", "DTEND;VALUE=DATE:20130702", "END:VEVENT",
  "BEGIN:VEVENT", "SUMMARY:New Moon - 14 day Gimha 7/8", "DTSTART;VALUE=DATE:20130707", "DTEND;VALUE=DATE:20130708", "END:VEVENT",
  "BEGIN:VEVENT", "SUMMARY:Waxing Moon", "DTSTART;VALUE=DATE:20130715", "DTEND;VALUE=DATE:20130716", "END:VEVENT",
  "BEGIN:VEVENT", "SUMMARY:Full Moon - 15 day Gimha 8/8", "DTSTART;VALUE=DATE:20130722", "DTEND;VALUE=DATE:20130723", "END:VEVENT",
  "BEGIN:VEVENT", "SUMMARY:Āsāḷha Pūjā", "DTSTART;VALUE=DATE:20130722", "DTEND;VALUE=DATE:20130723", "END:VEVENT",
  "BEGIN:VEVENT", "SUMMARY:First day of Vassa", "DTSTART;VALUE=DATE:20130723", "DTEND;VALUE=DATE:20130724", "END:VEVENT",
  "BEGIN:VEVENT", "SUMMARY:Waning Moon", "DTSTART;VALUE=DATE:20130730", "DTEND;VALUE=DATE:20130731", "END:VEVENT",
  "BEGIN:VEVENT", "SUMMARY:New Moon - 15 day Vassāna 1/8", "DTSTART;VALUE=DATE:20130806", "DTEND;VALUE=DATE:20130807", "END:VEVENT",
  "BEGIN:VEVENT", "SUMMARY:Waxing Moon", "DTSTART;VALUE=DATE:20130814", "DTEND;VALUE=DATE:20130815", "END:VEVENT",
  "BEGIN:VEVENT", "SUMMARY:Full Moon - 15 day Vassāna 2/8", "DTSTART;VALUE=DATE:20130821", "DTEND;VALUE=DATE:20130822", "END:VEVENT",
  "BEGIN:VEVENT", "SUMMARY:Waning Moon", "DTSTART;VALUE=DATE:20130829", "DTEND;VALUE=DATE:20130830", "END:VEVENT",
  "BEGIN:VEVENT", "SUMMARY:New Moon - 14 day Vassāna 3/8", "DTSTART;VALUE=DATE:20130904", "DTEND;VALUE=DATE:20130905", "END:VEVENT",
  "BEGIN:VEVENT", "SUMMARY:Waxing Moon", "DTSTART;VALUE=DATE:20130912", "DTEND;VALUE=DATE:20130913", "END:VEVENT",
  "BEGIN:VEVENT", "SUMMARY:Full Moon - 15 day Vassāna 4/8", "DTSTART;VALUE=DATE:20130919", "DTEND;VALUE=DATE:20130920", "END:VEVENT",
  "BEGIN:VEVENT", "SUMMARY:Waning Moon", "DTSTART;VALUE=DATE:20130927", "DTEND;VALUE=DATE:20130928", "END:VEVENT",
  "BEGIN:VEVENT", "SUMMARY:New Moon - 15 day Vassāna 5/8", "DTSTART;VALUE=DATE:20131004", "DTEND;VALUE=DATE:20131005", "END:VEVENT",
  "BEGIN:VEVENT", "SUMMARY:Waxing Moon", "DTSTART;VALUE=DATE:20131012", "DTEND;VALUE=DATE:20131013", "END:VEVENT",
  "BEGIN:VEVENT", "SUMMARY:Full Moon - 15 day Vassāna 6/8", "DTSTART;VALUE=DATE:20131019", "DTEND;VALUE=DATE:20131020", "END:VEVENT",
  "BEGIN:VEVENT", "SUMMARY:Pavāraṇā Day", "DTSTART;VALUE=DATE:20131019", "DTEND;VALUE=DATE:20131020", "END:VEVENT",
  "BEGIN:VEVENT", "SUMMARY:Last day of Vassa", "DTSTART;VALUE=DATE:20131019", "DTEND;VALUE=DATE:20131020", "END:VEVENT",
  "BEGIN:VEVENT", "SUMMARY:Waning Moon", "DTSTART;VALUE=DATE:20131027", "DTEND;VALUE=DATE:20131028", "END:VEVENT",
  "BEGIN:VEVENT", "SUMMARY:New Moon - 14 day Vassāna 7/8", "DTSTART;VALUE=DATE:20131102", "DTEND;VALUE=DATE:20131103", "END:VEVENT",
  "BEGIN:VEVENT", "SUMMARY:Waxing Moon", "DTSTART;VALUE=DATE:20131110", "DTEND;VALUE=DATE:20131111", "END:VEVENT",
  "BEGIN:VEVENT", "SUMMARY:Full Moon - 15 day Vassāna 8/8", "DTSTART;VALUE=DATE:20131117", "DTEND;VALUE=DATE:20131118", "END:VEVENT",
  "BEGIN:VEVENT", "SUMMARY:Waning Moon", "DTSTART;VALUE=DATE:20131125", "DTEND;VALUE=DATE:20131126", "END:VEVENT",
  "BEGIN:VEVENT", "SUMMARY:New Moon - 15 day Hemanta 1/8", "DTSTART;VALUE=DATE:20131202", "DTEND;VALUE=DATE:20131203", "END:VEVENT",
  "BEGIN:VEVENT", "SUMMARY:Waxing Moon", "DTSTART;VALUE=DATE:20131210", "DTEND;VALUE=DATE:20131211", "END:VEVENT",
  "BEGIN:VEVENT", "SUMMARY:Full Moon - 15 day Hemanta 2/8", "DTSTART;VALUE=DATE:20131217", "DTEND;VALUE=DATE:20131218", "END:VEVENT",
  "BEGIN:VEVENT", "SUMMARY:Waning Moon", "DTSTART;VALUE=DATE:20131225", "DTEND;VALUE=DATE:20131226", "END:VEVENT",
  "BEGIN:VEVENT", "SUMMARY:New Moon - 14 day Hemanta 3/8", "DTSTART;VALUE=DATE:20131231", "DTEND;VALUE=DATE:20140101", "END:VEVENT",
  "BEGIN:VEVENT", "SUMMARY:Waxing Moon", "DTSTART;VALUE=DATE:20140108", "DTEND;VALUE=DATE:20140109", "END:VEVENT",
  "BEGIN:VEVENT", "SUMMARY:Full Moon - 15 day Hemanta 4/8", "DTSTART;VALUE=DATE:20140115", "DTEND;VALUE=DATE:20140116", "END:VEVENT",
  "BEGIN:VEVENT", "SUMMARY:Waning Moon", "DTSTART;VALUE=DATE:20140123", "DTEND;VALUE=DATE:20140124", "END:VEVENT",
  "BEGIN:VEVENT", "SUMMARY:New Moon - 15 day Hemanta 5/8", "DTSTART;VALUE=DATE:20140130", "DTEND;VALUE=DATE:20140131", "END:VEVENT",
  "BEGIN:VEVENT", "SUMMARY:Waxing Moon", "DTSTART;VALUE=DATE:20140207", "DTEND;VALUE=DATE:20140208", "END:VEVENT",
  "BEGIN:VEVENT", "SUMMARY:Full Moon - 15 day Hemanta 6/8", "DTSTART;VALUE=DATE:20140214", "DTEND;VALUE=DATE:20140215", "END:VEVENT",
  "BEGIN:VEVENT", "SUMMARY:Māgha Pūjā", "DTSTART;VALUE=DATE:20140214", "DTEND;VALUE=DATE:20140215", "END:VEVENT",
  "BEGIN:VEVENT", "SUMMARY:Waning Moon", "DTSTART;VALUE=DATE:20140222", "DTEND;VALUE=DATE:20140223", "END:VEVENT",
  "BEGIN:VEVENT", "SUMMARY:New Moon - 14 day Hemanta 7/8", "DTSTART;VALUE=DATE:20140228", "DTEND;VALUE=DATE:20140301", "END:VEVENT",
  "BEGIN:VEVENT", "SUMMARY:Waxing Moon", "DTSTART;VALUE=DATE:20140308", "DTEND;VALUE=DATE:20140309", "END:VEVENT",
  "BEGIN:VEVENT", "SUMMARY:Full Moon - 15 day Hemanta 8/8", "DTSTART;VALUE=DATE:20140315", "DTEND;VALUE=DATE:20140316", "END:VEVENT",
  "BEGIN:VEVENT", "SUMMARY:Waning Moon", "DTSTART;VALUE=DATE:20140323", "DTEND;VALUE=DATE:20140324", "END:VEVENT",
  "BEGIN:VEVENT", "SUMMARY:New Moon - 15 day Gimha 1/8", "DTSTART;VALUE=DATE:20140330", "DTEND;VALUE=DATE:20140331", "END:VEVENT",
  "BEGIN:VEVENT", "SUMMARY:Waxing Moon", "DTSTART;VALUE=DATE:20140407", "DTEND;VALUE=DATE:20140408", "END:VEVENT",
  "BEGIN:VEVENT", "SUMMARY:Full Moon - 15 day Gimha 2/8", "DTSTART;VALUE=DATE:20140414", "DTEND;VALUE=DATE:20140415", "END:VEVENT",
  "BEGIN:VEVENT", "SUMMARY:Waning Moon", "DTSTART;VALUE=DATE:20140422", "DTEND;VALUE=DATE:20140423", "END:VEVENT",
  "BEGIN:VEVENT", "SUMMARY:New Moon - 14 day Gimha 3/8", "DTSTART;VALUE=DATE:20140428", "DTEND;VALUE=DATE:20140429", "END:VEVENT",
  "BEGIN:VEVENT", "SUMMARY:Waxing Moon", "DTSTART;VALUE=DATE:20140506", "DTEND;VALUE=DATE:20140507", "END:VEVENT",
  "BEGIN:VEVENT", "SUMMARY:Full Moon - 15 day Gimha 4/8", "DTSTART;VALUE=DATE:20140513", "DTEND;VALUE=DATE:20140514", "END:VEVENT",
  "BEGIN:VEVENT", "SUMMARY:Vesākha Pūjā", "DTSTART;VALUE=DATE:20140513", "DTEND;VALUE=DATE:20140514", "END:VEVENT",
  "BEGIN:VEVENT", "SUMMARY:Waning Moon", "DTSTART;VALUE=DATE:20140521", "DTEND;VALUE=DATE:20140522", "END:VEVENT",
  "BEGIN:VEVENT", "SUMMARY:New Moon - 15 day Gimha 5/8", "DTSTART;VALUE=DATE:20140528", "DTEND;VALUE=DATE:20140529", "END:VEVENT",
  "BEGIN:VEVENT", "SUMMARY:Waxing Moon", "DTSTART;VALUE=DATE:20140605", "DTEND;VALUE=DATE:20140606", "END:VEVENT",
  "BEGIN:VEVENT", "SUMMARY:Full Moon - 15 day Gimha 6/8", "DTSTART;VALUE=DATE:20140612", "DTEND;VALUE=DATE:20140613", "END:VEVENT",
  "BEGIN:VEVENT", "SUMMARY:Waning Moon", "DTSTART;VALUE=DATE:20140620", "DTEND;VALUE=DATE:20140621", "END:VEVENT",
  "BEGIN:VEVENT", "SUMMARY:New Moon - 14 day Gimha 7/8", "DTSTART;VALUE=DATE:20140626", "DTEND;VALUE=DATE:20140627", "END:VEVENT",
  "BEGIN:VEVENT", "SUMMARY:Waxing Moon", "DTSTART;VALUE=DATE:20140704", "DTEND;VALUE=DATE:20140705", "END:VEVENT",
  "BEGIN:VEVENT", "SUMMARY:Full Moon - 15 day Gimha 8/8", "DTSTART;VALUE=DATE:20140711", "DTEND;VALUE=DATE:20140712", "END:VEVENT",
  "BEGIN:VEVENT", "SUMMARY:Āsāḷha Pūjā", "DTSTART;VALUE=DATE:20140711", "DTEND;VALUE=DATE:20140712", "END:VEVENT",
  "BEGIN:VEVENT", "SUMMARY:First day of Vassa", "DTSTART;VALUE=DATE:20140712", "DTEND;VALUE=DATE:20140713", "END:VEVENT",
  "BEGIN:VEVENT", "SUMMARY:Waning Moon", "DTSTART;VALUE=DATE:20140719", "DTEND;VALUE=DATE:20140720", "END:VEVENT",
  "BEGIN:VEVENT", "SUMMARY:New Moon - 15 day Vassāna 1/8", "DTSTART;VALUE=DATE:20140726", "DTEND;VALUE=DATE:20140727", "END:VEVENT",
  "BEGIN:VEVENT", "SUMMARY:Waxing Moon", "DTSTART;VALUE=DATE:20140803", "DTEND;VALUE=DATE:20140804", "END:VEVENT",
  "BEGIN:VEVENT", "SUMMARY:Full Moon - 15 day Vassāna 2/8", "DTSTART;VALUE=DATE:20140810", "DTEND;VALUE=DATE:20140811", "END:VEVENT",
  "BEGIN:VEVENT", "SUMMARY:Waning Moon", "DTSTART;VALUE=DATE:20140818", "DTEND;VALUE=DATE:20140819", "END:VEVENT",
  "BEGIN:VEVENT", "SUMMARY:New Moon - 14 day Vassāna 3/8", "DTSTART;VALUE=DATE:20140824", "DTEND;VALUE=DATE:20140825", "END:VEVENT",
  "BEGIN:VEVENT", "SUMMARY:Waxing Moon", "DTSTART;VALUE=DATE:20140901", "DTEND;VALUE=DATE:20140902", "END:VEVENT",
  "BEGIN:VEVENT", "SUMMARY:Full Moon - 15 day Vassāna 4/8", "DTSTART;VALUE=DATE:20140908", "DTEND;VALUE=DATE:20140909", "END:VEVENT",
  "BEGIN:VEVENT", "SUMMARY:Waning Moon", "DTSTART;VALUE=DATE:20140916", "DTEND;VALUE=DATE:20140917", "END:VEVENT",
  "BEGIN:VEVENT", "SUMMARY:New Moon - 15 day Vassāna 5/8", "DTSTART;VALUE=DATE:20140923", "DTEND;VALUE=DATE:20140924", "END:VEVENT",
  "BEGIN:VEVENT", "SUMMARY:Waxing Moon", "DTSTART;VALUE=DATE:20141001", "DTEND;VALUE=DATE:20141002", "END:VEVENT",
  "BEGIN:VEVENT", "SUMMARY:Full Moon - 15 day Vassāna 6/8", "DTSTART;VALUE=DATE:20141008", "DTEND;VALUE=DATE:20141009", "END:VEVENT",
  "BEGIN:VEVENT", "SUMMARY:Pavāraṇā Day", "DTSTART;VALUE=DATE:20141008", "DTEND;VALUE=DATE:20141009", "END:VEVENT",
  "BEGIN:VEVENT", "SUMMARY:Last day of Vassa", "DTSTART;VALUE=DATE:20141008", "DTEND;VALUE=DATE:20141009", "END:VEVENT",
  "BEGIN:VEVENT", "SUMMARY:Waning Moon", "DTSTART;VALUE=DATE:20141016", "DTEND;VALUE=DATE:20141017", "END:VEVENT",
  "BEGIN:VEVENT", "SUMMARY:New Moon - 14 day Vassāna 7/8", "DTSTART;VALUE=DATE:20141022", "DTEND;VALUE=DATE:20141023", "END:VEVENT",
  "BEGIN:VEVENT", "SUMMARY:Waxing Moon", "DTSTART;VALUE=DATE:20141030", "DTEND;VALUE=DATE:20141031", "END:VEVENT",
  "BEGIN:VEVENT", "SUMMARY:Full Moon - 15 day Vassāna 8/8", "DTSTART;VALUE=DATE:20141106", "DTEND;VALUE=DATE:20141107", "END:VEVENT",
  "BEGIN:VEVENT", "SUMMARY:Waning Moon", "DTSTART;VALUE=DATE:20141114", "DTEND;VALUE=DATE:20141115", "END:VEVENT",
  "BEGIN:VEVENT", "SUMMARY:New Moon - 15 day Hemanta 1/8", "DTSTART;VALUE=DATE:20141121", "DTEND;VALUE=DATE:20141122", "END:VEVENT",
  "BEGIN:VEVENT", "SUMMARY:Waxing Moon", "DTSTART;VALUE=DATE:20141129", "DTEND;VALUE=DATE:20141130", "END:VEVENT",
  "BEGIN:VEVENT", "SUMMARY:Full Moon - 15 day Hemanta 2/8", "DTSTART;VALUE=DATE:20141206", "DTEND;VALUE=DATE:20141207", "END:VEVENT",
  "BEGIN:VEVENT", "SUMMARY:Waning Moon", "DTSTART;VALUE=DATE:20141214", "DTEND;VALUE=DATE:20141215", "END:VEVENT",
  "BEGIN:VEVENT", "SUMMARY:New Moon - 14 day Hemanta 3/8", "DTSTART;VALUE=DATE:20141220", "DTEND;VALUE=DATE:20141221", "END:VEVENT",
  "BEGIN:VEVENT", "SUMMARY:Waxing Moon", "DTSTART;VALUE=DATE:20141228", "DTEND;VALUE=DATE:20141229", "END:VEVENT",
  "BEGIN:VEVENT", "SUMMARY:Full Moon - 15 day Hemanta 4/8", "DTSTART;VALUE=DATE:20150104", "DTEND;VALUE=DATE:20150105", "END:VEVENT",
  "BEGIN:VEVENT", "SUMMARY:Waning Moon", "DTSTART;VALUE=DATE:20150112", "DTEND;VALUE=DATE:20150113", "END:VEVENT",
  "BEGIN:VEVENT", "SUMMARY:New Moon - 15 day Hemanta 5/8", "DTSTART;VALUE=DATE:20150119", "DTEND;VALUE=DATE:20150120", "END:VEVENT",
  "BEGIN:VEVENT", "SUMMARY:Waxing Moon", "DTSTART;VALUE=DATE:20150127", "DTEND;VALUE=DATE:20150128", "END:VEVENT",
  "BEGIN:VEVENT", "SUMMARY:Full Moon - 15 day Hemanta 6/8", "DTSTART;VALUE=DATE:20150203", "DTEND;VALUE=DATE:20150204", "END:VEVENT",
  "BEGIN:VEVENT", "SUMMARY:Waning Moon", "DTSTART;VALUE=DATE:20150211", "DTEND;VALUE=DATE:20150212", "END:VEVENT",
  "BEGIN:VEVENT", "SUMMARY:New Moon - 14 day Hemanta 7/8", "DTSTART;VALUE=DATE:20150217", "DTEND;VALUE=DATE:20150218", "END:VEVENT",
  "BEGIN:VEVENT", "SUMMARY:Waxing Moon", "DTSTART;VALUE=DATE:20150225", "DTEND;VALUE=DATE:20150226", "END:VEVENT",
  "BEGIN:VEVENT", "SUMMARY:Full Moon - 15 day Hemanta 8/8", "DTSTART;VALUE=DATE:20150304", "DTEND;VALUE=DATE:20150305", "END:VEVENT",
  "BEGIN:VEVENT", "SUMMARY:Māgha Pūjā", "DTSTART;VALUE=DATE:20150304", "DTEND;VALUE=DATE:20150305", "END:VEVENT",
  "BEGIN:VEVENT", "SUMMARY:Waning Moon", "DTSTART;VALUE=DATE:20150312", "DTEND;VALUE=DATE:20150313", "END:VEVENT",
  "BEGIN:VEVENT", "SUMMARY:New Moon - 15 day Gimha 1/10", "DTSTART;VALUE=DATE:20150319", "DTEND;VALUE=DATE:20150320", "END:VEVENT",
  "BEGIN:VEVENT", "SUMMARY:Waxing Moon", "DTSTART;VALUE=DATE:20150327", "DTEND;VALUE=DATE:20150328", "END:VEVENT",
  "BEGIN:VEVENT", "SUMMARY:Full Moon - 15 day Gimha 2/10", "DTSTART;VALUE=DATE:20150403", "DTEND;VALUE=DATE:20150404", "END:VEVENT",
  "BEGIN:VEVENT", "SUMMARY:Waning Moon", "DTSTART;VALUE=DATE:20150411", "DTEND;VALUE=DATE:20150412", "END:VEVENT",
  "BEGIN:VEVENT", "SUMMARY:New Moon - 14 day Gimha 3/10", "DTSTART;VALUE=DATE:20150417", "DTEND;VALUE=DATE:20150418", "END:VEVENT",
  "BEGIN:VEVENT", "SUMMARY:Waxing Moon", "DTSTART;VALUE=DATE:20150425", "DTEND;VALUE=DATE:20150426", "END:VEVENT",
  "BEGIN:VEVENT", "SUMMARY:Full Moon - 15 day Gimha 4/10", "DTSTART;VALUE=DATE:20150502", "DTEND;VALUE=DATE:20150503", "END:VEVENT",
  "BEGIN:VEVENT", "SUMMARY:Waning Moon", "DTSTART;VALUE=DATE:20150510", "DTEND;VALUE=DATE:20150511", "END:VEVENT",
  "BEGIN:VEVENT", "SUMMARY:New Moon - 15 day Gimha 5/10", "DTSTART;VALUE=DATE:20150517", "DTEND;VALUE=DATE:20150518", "END:VEVENT",
  "BEGIN:VEVENT", "SUMMARY:Waxing Moon", "DTSTART;VALUE=DATE:20150525", "DTEND;VALUE=DATE:20150526", "END:VEVENT",
  "BEGIN:VEVENT", "SUMMARY:Full Moon - 15 day Gimha 6/10", "DTSTART;VALUE=DATE:20150601", "DTEND;VALUE=DATE:20150602", "END:VEVENT",
  "BEGIN:VEVENT", "SUMMARY:Vesākha Pūjā", "DTSTART;VALUE=DATE:20150601", "DTEND;VALUE=DATE:20150602", "END:VEVENT",
  "BEGIN:VEVENT", "SUMMARY:Waning Moon", "DTSTART;VALUE=DATE:20150609", "DTEND;VALUE=DATE:20150610", "END:VEVENT",
  "BEGIN:VEVENT", "SUMMARY:New Moon - 14 day Gimha 7/10", "DTSTART;VALUE=DATE:20150615", "DTEND;VALUE=DATE:20150616", "END:VEVENT",
  "BEGIN:VEVENT", "SUMMARY:Waxing Moon", "DTSTART;VALUE=DATE:20150623", "DTEND;VALUE=DATE:20150624", "END:VEVENT",
  "BEGIN:VEVENT", "SUMMARY:Full Moon - 15 day Gimha 8/10", "DTSTART;VALUE=DATE:20150630", "DTEND;VALUE=DATE:20150701", "END:VEVENT",
  "BEGIN:VEVENT", "SUMMARY:Waning Moon", "DTSTART;VALUE=DATE:20150708", "DTEND;VALUE=DATE:20150709", "END:VEVENT",
  "BEGIN:VEVENT", "SUMMARY:New Moon - 15 day Gimha 9/10", "DTSTART;VALUE=DATE:20150715", "DTEND;VALUE=DATE:20150716", "END:VEVENT",
  "BEGIN:VEVENT", "SUMMARY:Waxing Moon", "DTSTART;VALUE=DATE:20150723", "DTEND;VALUE=DATE:20150724", "END:VEVENT",
  "BEGIN:VEVENT", "SUMMARY:Full Moon - 15 day Gimha 10/10", "DTSTART;VALUE=DATE:20150730", "DTEND;VALUE=DATE:20150731", "END:VEVENT",
  "BEGIN:VEVENT", "SUMMARY:Āsāḷha Pūjā", "DTSTART;VALUE=DATE:20150730", "DTEND;VALUE=DATE:20150731", "END:VEVENT",
  "BEGIN:VEVENT", "SUMMARY:First day of Vassa", "DTSTART;VALUE=DATE:20150731", "DTEND;VALUE=DATE:20150801", "END:VEVENT",
  "BEGIN:VEVENT", "SUMMARY:Waning Moon", "DTSTART;VALUE=DATE:20150807", "DTEND;VALUE=DATE:20150808", "END:VEVENT",
  "BEGIN:VEVENT", "SUMMARY:New Moon - 15 day Vassāna 1/8", "DTSTART;VALUE=DATE:20150814", "DTEND;VALUE=DATE:20150815", "END:VEVENT",
  "BEGIN:VEVENT", "SUMMARY:Waxing Moon", "DTSTART;VALUE=DATE:20150822", "DTEND;VALUE=DATE:20150823", "END:VEVENT",
  "BEGIN:VEVENT", "SUMMARY:Full Moon - 15 day Vassāna 2/8", "DTSTART;VALUE=DATE:20150829", "DTEND;VALUE=DATE:20150830", "END:VEVENT",
  "BEGIN:VEVENT", "SUMMARY:Waning Moon", "DTSTART;VALUE=DATE:20150906", "DTEND;VALUE=DATE:20150907", "END:VEVENT",
  "BEGIN:VEVENT", "SUMMARY:New Moon - 14 day Vassāna 3/8", "DTSTART;VALUE=DATE:20150912", "DTEND;VALUE=DATE:20150913", "END:VEVENT",
  "BEGIN:VEVENT", "SUMMARY:Waxing Moon", "DTSTART;VALUE=DATE:20150920", "DTEND;VALUE=DATE:20150921", "END:VEVENT",
  "BEGIN:VEVENT", "SUMMARY:Full Moon - 15 day Vassāna 4/8", "DTSTART;VALUE=DATE:20150927", "DTEND;VALUE=DATE:20150928", "END:VEVENT",
  "BEGIN:VEVENT", "SUMMARY:Waning Moon", "DTSTART;VALUE=DATE:20151005", "DTEND;VALUE=DATE:20151006", "END:VEVENT",
  "BEGIN:VEVENT", "SUMMARY:New Moon - 15 day Vassāna 5/8", "DTSTART;VALUE=DATE:20151012", "DTEND;VALUE=DATE:20151013", "END:VEVENT",
  "BEGIN:VEVENT", "SUMMARY:Waxing Moon", "DTSTART;VALUE=DATE:20151020", "DTEND;VALUE=DATE:20151021", "END:VEVENT",
  "BEGIN:VEVENT", "SUMMARY:Full Moon - 15 day Vassāna 6/8", "DTSTART;VALUE=DATE:20151027", "DTEND;VALUE=DATE:20151028", "END:VEVENT",
  "BEGIN:VEVENT", "SUMMARY:Pavāraṇā Day", "DTSTART;VALUE=DATE:20151027", "DTEND;VALUE=DATE:20151028", "END:VEVENT",
  "BEGIN:VEVENT", "SUMMARY:Last day of Vassa", "DTSTART;VALUE=DATE:20151027", "DTEND;VALUE=DATE:20151028", "END:VEVENT",
  "BEGIN:VEVENT", "SUMMARY:Waning Moon", "DTSTART;VALUE=DATE:20151104", "DTEND;VALUE=DATE:20151105", "END:VEVENT",
  "BEGIN:VEVENT", "SUMMARY:New Moon - 14 day Vassāna 7/8", "DTSTART;VALUE=DATE:20151110", "DTEND;VALUE=DATE:20151111", "END:VEVENT",
  "BEGIN:VEVENT", "SUMMARY:Waxing Moon", "DTSTART;VALUE=DATE:20151118", "DTEND;VALUE=DATE:20151119", "END:VEVENT",
  "BEGIN:VEVENT", "SUMMARY:Full Moon - 15 day Vassāna 8/8", "DTSTART;VALUE=DATE:20151125", "DTEND;VALUE=DATE:20151126", "END:VEVENT",
  "BEGIN:VEVENT", "SUMMARY:Waning Moon", "DTSTART;VALUE=DATE:20151203", "DTEND;VALUE=DATE:20151204", "END:VEVENT",
  "BEGIN:VEVENT", "SUMMARY:New Moon - 15 day Hemanta 1/8", "DTSTART;VALUE=DATE:20151210", "DTEND;VALUE=DATE:20151211", "END:VEVENT",
  "BEGIN:VEVENT", "SUMMARY:Waxing Moon", "DTSTART;VALUE=DATE:20151218", "DTEND;VALUE=DATE:20151219", "END:VEVENT",
  "BEGIN:VEVENT", "SUMMARY:Full Moon - 15 day Hemanta 2/8", "DTSTART;VALUE=DATE:20151225", "DTEND;VALUE=DATE:20151226", "END:VEVENT",
  "BEGIN:VEVENT", "SUMMARY:Waning Moon", "DTSTART;VALUE=DATE:20160102", "DTEND;VALUE=DATE:20160103", "END:VEVENT",
  "BEGIN:VEVENT", "SUMMARY:New Moon - 14 day Hemanta 3/8", "DTSTART;VALUE=DATE:20160108", "DTEND;VALUE=DATE:20160109", "END:VEVENT",
  "BEGIN:VEVENT", "SUMMARY:Waxing Moon", "DTSTART;VALUE=DATE:20160116", "DTEND;VALUE=DATE:20160117", "END:VEVENT",
  "BEGIN:VEVENT", "SUMMARY:Full Moon - 15 day Hemanta 4/8", "DTSTART;VALUE=DATE:20160123", "DTEND;VALUE=DATE:20160124", "END:VEVENT",
  "BEGIN:VEVENT", "SUMMARY:Waning Moon", "DTSTART;VALUE=DATE:20160131", "DTEND;VALUE=DATE:20160201", "END:VEVENT",
  "BEGIN:VEVENT", "SUMMARY:New Moon - 15 day Hemanta 5/8", "DTSTART;VALUE=DATE:20160207", "DTEND;VALUE=DATE:20160208", "END:VEVENT",
  "BEGIN:VEVENT", "SUMMARY:Waxing Moon", "DTSTART;VALUE=DATE:20160215", "DTEND;VALUE=DATE:20160216", "END:VEVENT",
  "BEGIN:VEVENT", "SUMMARY:Full Moon - 15 day Hemanta 6/8", "DTSTART;VALUE=DATE:20160222", "DTEND;VALUE=DATE:20160223", "END:VEVENT",
  "BEGIN:VEVENT", "SUMMARY:Māgha Pūjā", "DTSTART;VALUE=DATE:20160222", "DTEND;VALUE=DATE:20160223", "END:VEVENT",
  "BEGIN:VEVENT", "SUMMARY:Waning Moon", "DTSTART;VALUE=DATE:20160301", "DTEND;VALUE=DATE:20160302", "END:VEVENT",
  "BEGIN:VEVENT", "SUMMARY:New Moon - 14 day Hemanta 7/8", "DTSTART;VALUE=DATE:20160307", "DTEND;VALUE=DATE:20160308", "END:VEVENT",
  "BEGIN:VEVENT", "SUMMARY:Waxing Moon", "DTSTART;VALUE=DATE:20160315", "DTEND;VALUE=DATE:20160316", "END:VEVENT",
  "BEGIN:VEVENT", "SUMMARY:Full Moon - 15 day Hemanta 8/8", "DTSTART;VALUE=DATE:20160322", "DTEND;VALUE=DATE:20160323", "END:VEVENT",
  "BEGIN:VEVENT", "SUMMARY:Waning Moon", "DTSTART;VALUE=DATE:20160330", "DTEND;VALUE=DATE:20160331", "END:VEVENT",
  "BEGIN:VEVENT", "SUMMARY:New Moon - 15 day Gimha 1/8", "DTSTART;VALUE=DATE:20160406", "DTEND;VALUE=DATE:20160407", "END:VEVENT",
  "BEGIN:VEVENT", "SUMMARY:Waxing Moon", "DTSTART;VALUE=DATE:20160414", "DTEND;VALUE=DATE:20160415", "END:VEVENT",
  "BEGIN:VEVENT", "SUMMARY:Full Moon - 15 day Gimha 2/8", "DTSTART;VALUE=DATE:20160421", "DTEND;VALUE=DATE:20160422", "END:VEVENT",
  "BEGIN:VEVENT", "SUMMARY:Waning Moon", "DTSTART;VALUE=DATE:20160429", "DTEND;VALUE=DATE:20160430", "END:VEVENT",
  "BEGIN:VEVENT", "SUMMARY:New Moon - 14 day Gimha 3/8", "DTSTART;VALUE=DATE:20160505", "DTEND;VALUE=DATE:20160506", "END:VEVENT",
  "BEGIN:VEVENT", "SUMMARY:Waxing Moon", "DTSTART;VALUE=DATE:20160513", "DTEND;VALUE=DATE:20160514", "END:VEVENT",
  "BEGIN:VEVENT", "SUMMARY:Full Moon - 15 day Gimha 4/8", "DTSTART;VALUE=DATE:20160520", "DTEND;VALUE=DATE:20160521", "END:VEVENT",
  "BEGIN:VEVENT", "SUMMARY:Vesākha Pūjā", "DTSTART;VALUE=DATE:20160520", "DTEND;VALUE=DATE:20160521", "END:VEVENT",
  "BEGIN:VEVENT", "SUMMARY:Waning Moon", "DTSTART;VALUE=DATE:20160528", "DTEND;VALUE=DATE:20160529", "END:VEVENT",
  "BEGIN:VEVENT", "SUMMARY:New Moon - 15 day Gimha 5/8", "DTSTART;VALUE=DATE:20160604", "DTEND;VALUE=DATE:20160605", "END:VEVENT",
  "BEGIN:VEVENT", "SUMMARY:Waxing Moon", "DTSTART;VALUE=DATE:20160612", "DTEND;VALUE=DATE:20160613", "END:VEVENT",
  "BEGIN:VEVENT", "SUMMARY:Full Moon - 15 day Gimha 6/8", "DTSTART;VALUE=DATE:20160619", "DTEND;VALUE=DATE:20160620", "END:VEVENT",
  "BEGIN:VEVENT", "SUMMARY:Waning Moon", "DTSTART;VALUE=DATE:20160627", "DTEND;VALUE=DATE:20160628", "END:VEVENT",
  "BEGIN:VEVENT", "SUMMARY:New Moon - 15 day Gimha 7/8", "DTSTART;VALUE=DATE:20160704", "DTEND;VALUE=DATE:20160705", "END:VEVENT",
  "BEGIN:VEVENT", "SUMMARY:Waxing Moon", "DTSTART;VALUE=DATE:20160712", "DTEND;VALUE=DATE:20160713", "END:VEVENT",
  "BEGIN:VEVENT", "SUMMARY:Full Moon - 15 day Gimha 8/8", "DTSTART;VALUE=DATE:20160719", "DTEND;VALUE=DATE:20160720", "END:VEVENT",
  "BEGIN:VEVENT", "SUMMARY:Āsāḷha Pūjā", "DTSTART;VALUE=DATE:20160719", "DTEND;VALUE=DATE:20160720", "END:VEVENT",
  "BEGIN:VEVENT", "SUMMARY:First day of Vassa", "DTSTART;VALUE=DATE:20160720", "DTEND;VALUE=DATE:20160721", "END:VEVENT",
  "BEGIN:VEVENT", "SUMMARY:Waning Moon", "DTSTART;VALUE=DATE:20160727", "DTEND;VALUE=DATE:20160728", "END:VEVENT",
  "BEGIN:VEVENT", "SUMMARY:New Moon - 15 day Vassāna 1/8", "DTSTART;VALUE=DATE:20160803", "DTEND;VALUE=DATE:20160804", "END:VEVENT",
  "BEGIN:VEVENT", "SUMMARY:Waxing Moon", "DTSTART;VALUE=DATE:20160811", "DTEND;VALUE=DATE:20160812", "END:VEVENT",
  "BEGIN:VEVENT", "SUMMARY:Full Moon - 15 day Vassāna 2/8", "DTSTART;VALUE=DATE:20160818", "DTEND;VALUE=DATE:20160819", "END:VEVENT",
  "BEGIN:VEVENT", "SUMMARY:Waning Moon", "DTSTART;VALUE=DATE:20160826", "DTEND;VALUE=DATE:20160827", "END:VEVENT",
  "BEGIN:VEVENT", "SUMMARY:New Moon - 14 day Vassāna 3/8", "DTSTART;VALUE=DATE:20160901", "DTEND;VALUE=DATE:20160902", "END:VEVENT",
  "BEGIN:VEVENT", "SUMMARY:Waxing Moon", "DTSTART;VALUE=DATE:20160909", "DTEND;VALUE=DATE:20160910", "END:VEVENT",
  "BEGIN:VEVENT", "SUMMARY:Full Moon - 15 day Vassāna 4/8", "DTSTART;VALUE=DATE:20160916", "DTEND;VALUE=DATE:20160917", "END:VEVENT",
  "BEGIN:VEVENT", "SUMMARY:Waning Moon", "DTSTART;VALUE=DATE:20160924", "DTEND;VALUE=DATE:20160925", "END:VEVENT",
  "BEGIN:VEVENT", "SUMMARY:New Moon - 15 day Vassāna 5/8", "DTSTART;VALUE=DATE:20161001", "DTEND;VALUE=DATE:20161002", "END:VEVENT",
  "BEGIN:VEVENT", "SUMMARY:Waxing Moon", "DTSTART;VALUE=DATE:20161009", "DTEND;VALUE=DATE:20161010", "END:VEVENT",
  "BEGIN:VEVENT", "SUMMARY:Full Moon - 15 day Vassāna 6/8", "DTSTART;VALUE=DATE:20161016", "DTEND;VALUE=DATE:20161017", "END:VEVENT",
  "BEGIN:VEVENT", "SUMMARY:Pavāraṇā Day", "DTSTART;VALUE=DATE:20161016", "DTEND;VALUE=DATE:20161017", "END:VEVENT",
  "BEGIN:VEVENT", "SUMMARY:Last day of Vassa", "DTSTART;VALUE=DATE:20161016", "DTEND;VALUE=DATE:20161017", "END:VEVENT",
  "BEGIN:VEVENT", "SUMMARY:Waning Moon", "DTSTART;VALUE=DATE:20161024", "DTEND;VALUE=DATE:20161025", "END:VEVENT",
  "BEGIN:VEVENT", "SUMMARY:New Moon - 14 day Vassāna 7/8", "DTSTART;VALUE=DATE:20161030", "DTEND;VALUE=DATE:20161031", "END:VEVENT",
  "BEGIN:VEVENT", "SUMMARY:Waxing Moon", "DTSTART;VALUE=DATE:20161107", "DTEND;VALUE=DATE:20161108", "END:VEVENT",
  "BEGIN:VEVENT", "SUMMARY:Full Moon - 15 day Vassāna 8/8", "DTSTART;VALUE=DATE:20161114", "DTEND;VALUE=DATE:20161115", "END:VEVENT",
  "BEGIN:VEVENT", "SUMMARY:Waning Moon", "DTSTART;VALUE=DATE:20161122", "DTEND;VALUE=DATE:20161123", "END:VEVENT",
  "BEGIN:VEVENT", "SUMMARY:New Moon - 15 day Hemanta 1/8", "DTSTART;VALUE=DATE:20161129", "DTEND;VALUE=DATE:20161130", "END:VEVENT",
  "BEGIN:VEVENT", "SUMMARY:Waxing Moon", "DTSTART;VALUE=DATE:20161207", "DTEND;VALUE=DATE:20161208", "END:VEVENT",
  "BEGIN:VEVENT", "SUMMARY:Full Moon - 15 day Hemanta 2/8", "DTSTART;VALUE=DATE:20161214", "DTEND;VALUE=DATE:20161215", "END:VEVENT",
  "BEGIN:VEVENT", "SUMMARY:Waning Moon", "DTSTART;VALUE=DATE:20161222", "DTEND;VALUE=DATE:20161223", "END:VEVENT",
  "BEGIN:VEVENT", "SUMMARY:New Moon - 14 day Hemanta 3/8", "DTSTART;VALUE=DATE:20161228", "DTEND;VALUE=DATE:20161229", "END:VEVENT",
  "BEGIN:VEVENT", "SUMMARY:Waxing Moon", "DTSTART;VALUE=DATE:20170105", "DTEND;VALUE=DATE:20170106", "END:VEVENT",
  "BEGIN:VEVENT", "SUMMARY:Full Moon - 15 day Hemanta 4/8", "DTSTART;VALUE=DATE:20170112", "DTEND;VALUE=DATE:20170113", "END:VEVENT",
  "BEGIN:VEVENT", "SUMMARY:Waning Moon", "DTSTART;VALUE=DATE:20170120", "DTEND;VALUE=DATE:20170121", "END:VEVENT",
  "BEGIN:VEVENT", "SUMMARY:New Moon - 15 day Hemanta 5/8", "DTSTART;VALUE=DATE:20170127", "DTEND;VALUE=DATE:20170128", "END:VEVENT",
  "BEGIN:VEVENT", "SUMMARY:Waxing Moon", "DTSTART;VALUE=DATE:20170204", "DTEND;VALUE=DATE:20170205", "END:VEVENT",
  "BEGIN:VEVENT", "SUMMARY:Full Moon - 15 day Hemanta 6/8", "DTSTART;VALUE=DATE:20170211", "DTEND;VALUE=DATE:20170212", "END:VEVENT",
  "BEGIN:VEVENT", "SUMMARY:Māgha Pūjā", "DTSTART;VALUE=DATE:20170211", "DTEND;VALUE=DATE:20170212", "END:VEVENT",
  "BEGIN:VEVENT", "SUMMARY:Waning Moon", "DTSTART;VALUE=DATE:20170219", "DTEND;VALUE=DATE:20170220", "END:VEVENT",
  "BEGIN:VEVENT", "SUMMARY:New Moon - 14 day Hemanta 7/8", "DTSTART;VALUE=DATE:20170225", "DTEND;VALUE=DATE:20170226", "END:VEVENT",
  "BEGIN:VEVENT", "SUMMARY:Waxing Moon", "DTSTART;VALUE=DATE:20170305", "DTEND;VALUE=DATE:20170306", "END:VEVENT",
  "BEGIN:VEVENT", "SUMMARY:Full Moon - 15 day Hemanta 8/8", "DTSTART;VALUE=DATE:20170312", "DTEND;VALUE=DATE:20170313", "END:VEVENT",
  "BEGIN:VEVENT", "SUMMARY:Waning Moon", "DTSTART;VALUE=DATE:20170320", "DTEND;VALUE=DATE:20170321", "END:VEVENT",
  "BEGIN:VEVENT", "SUMMARY:New Moon - 15 day Gimha 1/8", "DTSTART;VALUE=DATE:20170327", "DTEND;VALUE=DATE:20170328", "END:VEVENT",
  "BEGIN:VEVENT", "SUMMARY:Waxing Moon", "DTSTART;VALUE=DATE:20170404", "DTEND;VALUE=DATE:20170405", "END:VEVENT",
  "BEGIN:VEVENT", "SUMMARY:Full Moon - 15 day Gimha 2/8", "DTSTART;VALUE=DATE:20170411", "DTEND;VALUE=DATE:20170412", "END:VEVENT",
  "BEGIN:VEVENT", "SUMMARY:Waning Moon", "DTSTART;VALUE=DATE:20170419", "DTEND;VALUE=DATE:20170420", "END:VEVENT",
  "BEGIN:VEVENT", "SUMMARY:New Moon - 14 day Gimha 3/8", "DTSTART;VALUE=DATE:20170425", "DTEND;VALUE=DATE:20170426", "END:VEVENT",
  "BEGIN:VEVENT", "SUMMARY:Waxing Moon", "DTSTART;VALUE=DATE:20170503", "DTEND;VALUE=DATE:20170504", "END:VEVENT",
  "BEGIN:VEVENT", "SUMMARY:Full Moon - 15 day Gimha 4/8", "DTSTART;VALUE=DATE:20170510", "DTEND;VALUE=DATE:20170511", "END:VEVENT",
  "BEGIN:VEVENT", "SUMMARY:Vesākha Pūjā", "DTSTART;VALUE=DATE:20170510", "DTEND;VALUE=DATE:20170511", "END:VEVENT",
  "BEGIN:VEVENT", "SUMMARY:Waning Moon", "DTSTART;VALUE=DATE:20170518", "DTEND;VALUE=DATE:20170519", "END:VEVENT",
  "BEGIN:VEVENT", "SUMMARY:New Moon - 15 day Gimha 5/8", "DTSTART;VALUE=DATE:20170525", "DTEND;VALUE=DATE:20170526", "END:VEVENT",
  "BEGIN:VEVENT", "SUMMARY:Waxing Moon", "DTSTART;VALUE=DATE:20170602", "DTEND;VALUE=DATE:20170603", "END:VEVENT",
  "BEGIN:VEVENT", "SUMMARY:Full Moon - 15 day Gimha 6/8", "DTSTART;VALUE=DATE:20170609", "DTEND;VALUE=DATE:20170610", "END:VEVENT",
  "BEGIN:VEVENT", "SUMMARY:Waning Moon", "DTSTART;VALUE=DATE:20170617", "DTEND;VALUE=DATE:20170618", "END:VEVENT",
  "BEGIN:VEVENT", "SUMMARY:New Moon - 14 day Gimha 7/8", "DTSTART;VALUE=DATE:20170623", "DTEND;VALUE=DATE:20170624", "END:VEVENT",
  "BEGIN:VEVENT", "SUMMARY:Waxing Moon", "DTSTART;VALUE=DATE:20170701", "DTEND;VALUE=DATE:20170702", "END:VEVENT",
  "BEGIN:VEVENT", "SUMMARY:Full Moon - 15 day Gimha 8/8", "DTSTART;VALUE=DATE:20170708", "DTEND;VALUE=DATE:20170709", "END:VEVENT",
  "BEGIN:VEVENT", "SUMMARY:Āsāḷha Pūjā", "DTSTART;VALUE=DATE:20170708", "DTEND;VALUE=DATE:20170709", "END:VEVENT",
  "BEGIN:VEVENT", "SUMMARY:First day of Vassa", "DTSTART;VALUE=DATE:20170709", "DTEND;VALUE=DATE:20170710", "END:VEVENT",
  "BEGIN:VEVENT", "SUMMARY:Waning Moon", "DTSTART;VALUE=DATE:20170716", "DTEND;VALUE=DATE:20170717", "END:VEVENT",
  "BEGIN:VEVENT", "SUMMARY:New Moon - 15 day Vassāna 1/8", "DTSTART;VALUE=DATE:20170723", "DTEND;VALUE=DATE:20170724", "END:VEVENT",
  "BEGIN:VEVENT", "SUMMARY:Waxing Moon", "DTSTART;VALUE=DATE:20170731", "DTEND;VALUE=DATE:20170801", "END:VEVENT",
  "BEGIN:VEVENT", "SUMMARY:Full Moon - 15 day Vassāna 2/8", "DTSTART;VALUE=DATE:20170807", "DTEND;VALUE=DATE:20170808", "END:VEVENT",
  "BEGIN:VEVENT", "SUMMARY:Waning Moon", "DTSTART;VALUE=DATE:20170815", "DTEND;VALUE=DATE:20170816", "END:VEVENT",
  "BEGIN:VEVENT", "SUMMARY:New Moon - 14 day Vassāna 3/8", "DTSTART;VALUE=DATE:20170821", "DTEND;VALUE=DATE:20170822", "END:VEVENT",
  "BEGIN:VEVENT", "SUMMARY:Waxing Moon", "DTSTART;VALUE=DATE:20170829", "DTEND;VALUE=DATE:20170830", "END:VEVENT",
  "BEGIN:VEVENT", "SUMMARY:Full Moon - 15 day Vassāna 4/8", "DTSTART;VALUE=DATE:20170905", "DTEND;VALUE=DATE:20170906", "END:VEVENT",
  "BEGIN:VEVENT", "SUMMARY:Waning Moon", "DTSTART;VALUE=DATE:20170913", "DTEND;VALUE=DATE:20170914", "END:VEVENT",
  "BEGIN:VEVENT", "SUMMARY:New Moon - 15 day Vassāna 5/8", "DTSTART;VALUE=DATE:20170920", "DTEND;VALUE=DATE:20170921", "END:VEVENT",
  "BEGIN:VEVENT", "SUMMARY:Waxing Moon", "DTSTART;VALUE=DATE:20170928", "DTEND;VALUE=DATE:20170929", "END:VEVENT",
  "BEGIN:VEVENT", "SUMMARY:Full Moon - 15 day Vassāna 6/8", "DTSTART;VALUE=DATE:20171005", "DTEND;VALUE=DATE:20171006", "END:VEVENT",
  "BEGIN:VEVENT", "SUMMARY:Pavāraṇā Day", "DTSTART;VALUE=DATE:20171005", "DTEND;VALUE=DATE:20171006", "END:VEVENT",
  "BEGIN:VEVENT", "SUMMARY:Last day of Vassa", "DTSTART;VALUE=DATE:20171005", "DTEND;VALUE=DATE:20171006", "END:VEVENT",
  "BEGIN:VEVENT", "SUMMARY:Waning Moon", "DTSTART;VALUE=DATE:20171013", "DTEND;VALUE=DATE:20171014", "END:VEVENT",
  "BEGIN:VEVENT", "SUMMARY:New Moon - 14 day Vassāna 7/8", "DTSTART;VALUE=DATE:20171019", "DTEND;VALUE=DATE:20171020", "END:VEVENT",
  "BEGIN:VEVENT", "SUMMARY:Waxing Moon", "DTSTART;VALUE=DATE:20171027", "DTEND;VALUE=DATE:20171028", "END:VEVENT",
  "BEGIN:VEVENT", "SUMMARY:Full Moon - 15 day Vassāna 8/8", "DTSTART;VALUE=DATE:20171103", "DTEND;VALUE=DATE:20171104", "END:VEVENT",
  "BEGIN:VEVENT", "SUMMARY:Waning Moon", "DTSTART;VALUE=DATE:20171111", "DTEND;VALUE=DATE:20171112", "END:VEVENT",
  "BEGIN:VEVENT", "SUMMARY:New Moon - 15 day Hemanta 1/8", "DTSTART;VALUE=DATE:20171118", "DTEND;VALUE=DATE:20171119", "END:VEVENT",
  "BEGIN:VEVENT", "SUMMARY:Waxing Moon", "DTSTART;VALUE=DATE:20171126", "DTEND;VALUE=DATE:20171127", "END:VEVENT",
  "BEGIN:VEVENT", "SUMMARY:Full Moon - 15 day Hemanta 2/8", "DTSTART;VALUE=DATE:20171203", "DTEND;VALUE=DATE:20171204", "END:VEVENT",
  "BEGIN:VEVENT", "SUMMARY:Waning Moon", "DTSTART;VALUE=DATE:20171211", "DTEND;VALUE=DATE:20171212", "END:VEVENT",
  "BEGIN:VEVENT", "SUMMARY:New Moon - 14 day Hemanta 3/8", "DTSTART;VALUE=DATE:20171217", "DTEND;VALUE=DATE:20171218", "END:VEVENT",
  "BEGIN:VEVENT", "SUMMARY:Waxing Moon", "DTSTART;VALUE=DATE:20171225", "DTEND;VALUE=DATE:20171226", "END:VEVENT", "END:VCALENDAR"]

/-- The file put together again. -/
def icalFile : String :=
  let rec go : Nat → List String → List String
    | _, [] => []
    | i, l :: ls =>
      if l = "BEGIN:VEVENT" then l :: "DTSTAMP:20160516T153929Z" :: ("UID:" ++ uids.getD i "") :: go (i + 1) ls
      else l :: go i ls
  String.join ((go 0 expectedIcal).map (· ++ "\r\n"))

#guard (icalText Config.default (fun _ => .missing) stamps 2013 2013 "2013-01-01" "2017-12-31").map String.ofList = some icalFile

end Verif.Tests
