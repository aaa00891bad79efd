import Verif.Model.Year
import Verif.Model.Kattika
import Verif.Model.Json
/-
Model of `yearsCsv` of utils/years-csv.go. The program does not compile: it uses a field `BE_year` of SuriyaYear, and there is only
`BE_Year`. The model takes `BE_Year` for it. `yearsCsvSimple` and `main` are in
Model/YearsMain.
-/
set_option autoImplicit false

namespace Verif.Model
open Verif.Go

/-- utils/years-csv.go:12-16. -/
structure TestYear where
  Asalha : String
  Source : String
  Comments : String
deriving DecidableEq

/-- utils/years-csv.go:63-111 `testYears`, copied by a script. -/
def testYears : List (Int × TestYear) :=
  [(1970, ⟨"1970-07-18", "myhora.com", ""⟩),
   (1971, ⟨"1971-07-07", "myhora.com", ""⟩),
   (1972, ⟨"1972-07-25", "myhora.com", ""⟩),
   (1973, ⟨"1973-07-15", "myhora.com", ""⟩),
   (1974, ⟨"1974-07-04", "myhora.com", ""⟩),
   (1975, ⟨"1975-07-23", "myhora.com", ""⟩),
   (1976, ⟨"1976-07-11", "myhora.com", ""⟩),
   (1977, ⟨"1977-07-30", "myhora.com", ""⟩),
   (1978, ⟨"1978-07-19", "myhora.com", "adhikavāra is missing from the calendar"⟩),
   (1979, ⟨"1979-07-09", "myhora.com", ""⟩),
   (1980, ⟨"1980-07-27", "myhora.com", ""⟩),
   (1981, ⟨"1981-07-16", "myhora.com", ""⟩),
   (1982, ⟨"1982-07-05", "myhora.com", ""⟩),
   (1983, ⟨"1983-07-24", "myhora.com", ""⟩),
   (1984, ⟨"1984-07-12", "myhora.com", "adhikavāra is missing from the calendar"⟩),
   (1985, ⟨"1985-07-31", "myhora.com", ""⟩),
   (1986, ⟨"1986-07-20", "myhora.com", ""⟩),
   (1987, ⟨"1987-07-10", "thaiorc.com", ""⟩),
   (1988, ⟨"1988-07-28", "thaiorc.com", ""⟩),
   (1989, ⟨"1989-07-17", "thaiorc.com", ""⟩),
   (1990, ⟨"1990-07-07", "thaiorc.com", ""⟩),
   (1991, ⟨"1991-07-26", "thaiorc.com", ""⟩),
   (1992, ⟨"1992-07-14", "thaiorc.com", ""⟩),
   (1993, ⟨"1993-08-02", "thaiorc.com", ""⟩),
   (1994, ⟨"1994-07-22", "thaiorc.com, myhora.com", "calendar is missing adhikavāra, passing with exception"⟩),
   (1995, ⟨"1995-07-11", "thaiorc.com, myhora.com", ""⟩),
   (1996, ⟨"1996-07-29", "thaiorc.com, myhora.com", ""⟩),
   (1997, ⟨"1997-07-19", "thaiorc.com, myhora.com", "missing adhikavāra was added back here, passing with exception"⟩),
   (1998, ⟨"1998-07-08", "thaiorc.com", ""⟩),
   (1999, ⟨"1999-07-27", "thaiorc.com", ""⟩),
   (2000, ⟨"2000-07-16", "thaiorc.com", ""⟩),
   (2001, ⟨"2001-07-05", "fs-cal, thaiorc.com", ""⟩),
   (2002, ⟨"2002-07-24", "thaiorc.com", ""⟩),
   (2003, ⟨"2003-07-13", "thaiorc.com", ""⟩),
   (2004, ⟨"2004-07-31", "fs-cal", ""⟩),
   (2005, ⟨"2005-07-21", "fs-cal", ""⟩),
   (2006, ⟨"2006-07-10", "fs-cal", ""⟩),
   (2007, ⟨"2007-07-29", "fs-cal", ""⟩),
   (2008, ⟨"2008-07-17", "fs-cal, bot.or.th", ""⟩),
   (2009, ⟨"2009-07-07", "fs-cal, bot.or.th", ""⟩),
   (2010, ⟨"2010-07-26", "fs-cal, bot.or.th", ""⟩),
   (2011, ⟨"2011-07-15", "fs-cal, bot.or.th", ""⟩),
   (2012, ⟨"2012-08-02", "fs-cal, bot.or.th", ""⟩),
   (2013, ⟨"2013-07-22", "fs-cal, bot.or.th", ""⟩),
   (2014, ⟨"2014-07-11", "fs-cal, bot.or.th", ""⟩),
   (2015, ⟨"2015-07-30", "fs-cal, bot.or.th", ""⟩),
   (2016, ⟨"2016-07-19", "fs-cal, bot.or.th, myhora.com", ""⟩)]

/-- `Format("2006-01-02")`. -/
def formatDate (t : Time) : List Char :=
  appendInt t.year 4 ++ '-' :: appendInt t.month 2 ++ '-' :: appendInt t.dayOfMonth 2

/-- utils/years-csv.go:119-122: the column `dM`. -/
def csvDM (su : SuriyaYear) : Option String := if su.isAdhikamasa then su.deltaAdhikamasa.map toString else some ""

/-- utils/years-csv.go:123-128: the column `dV`. -/
def csvDV (cfg : Config) (su : SuriyaYear) : Option String :=
  if su.isAdhikavara cfg then (su.deltaAdhikavara cfg).map toString
  else some (if su.wouldBeAdhikavara then "x" else "")

/-- utils/years-csv.go:115-176: the values of one line, in the order of the columns. `none`: a loop of a Delta function does not end. -/
def csvFields (cfg : Config) (year : Int) : Option (List String) := do
  let su := SuriyaYear.init year
  let dM ← csvDM su
  let dV ← csvDV cfg su
  let asalhaStr := String.ofList (formatDate (su.asalhaPuja cfg))
  let tYear := (testYears.lookup year).getD ⟨"", "", ""⟩
  let testRes := if (testYears.lookup year).isSome then (if asalhaStr = tYear.Asalha then "OK" else "FAIL") else ""
  some [toString su.Year, toString su.BE_Year, toString su.Kammacubala, toString su.Avoman, toString su.Tithi,
    toString su.adhikamasaCyclePos, dM, toString su.adhikavaraCyclePos, dV, asalhaStr, tYear.Asalha, testRes,
    tYear.Source, tYear.Comments]

/-- utils/years-csv.go:130-145, 160: the format "%v;…;%v\n". -/
def csvLine (fields : List String) : List Char := [';'].intercalate (fields.map String.toList) ++ ['\n']

/-- utils/years-csv.go:113. -/
def csvHeader : String := "CE year;BE year;K;A;T;nM;dM;nV;dV;Asalha by Calc.;Asalha in Calendar;test;source;comments\n"

/-- utils/years-csv.go:56-179 `yearsCsv`. -/
def yearsCsv (cfg : Config) (firstYear lastYear : Int) : Option (List Char) :=
  (((List.range (lastYear - firstYear + 1).toNat).map fun (i : Nat) => firstYear + (i : Int)).mapM (csvFields cfg)).map fun rows =>
    csvHeader.toList ++ rows.flatMap csvLine

end Verif.Model
