import Verif.Model.Kattika
/-
Model of uposatha_moon.go:10-163 (type UposathaMoon and NextUposatha).
-/
set_option autoImplicit false

namespace Verif.Model
open Verif.Go

/-- uposatha_moon.go:10-26. -/
structure UposathaMoon where
  Date : Time := ⟨0, 0⟩
  Calendar : Int := 0
  Status : Int := 0
  Phase : String := ""
  Event : String := ""
  S_Number : Int := 0
  S_Total : Int := 0
  U_Days : Int := 0
  M_Days : Int := 0
  LunarMonth : Int := 0
  LunarSeason : Int := 0
  LunarYear : Int := 0
  HasAdhikavara : Bool := false
  Source : String := ""
  Comments : String := ""
deriving DecidableEq, Repr

/-- uposatha_moon.go:66-93: the event of a full moon. -/
def majorEventName (is_adhikamasa_year : Bool) (month : Int) : String :=
  if is_adhikamasa_year then
    if month = 4 then "magha" else if month = 7 then "vesakha"
    else if month = 13 then "asalha" else if month = 11 then "pavarana" else ""
  else
    if month = 3 then "magha" else if month = 6 then "vesakha"
    else if month = 8 then "asalha" else if month = 11 then "pavarana" else ""

/-- uposatha_moon.go:99-107: the month begun by a new moon. -/
def nextMonth (is_adhikamasa_year : Bool) (month : Int) : Int :=
  if month = 13 then 9
  else if month = 8 ∧ is_adhikamasa_year = true then 13
  else if month = 12 then 1
  else month + 1

/-- uposatha_moon.go:50-93, the branch `nu.Phase == "full"`, without `nu.Date`. -/
def nextFull (lu : UposathaMoon) (is_adhikamasa_year : Bool) : UposathaMoon :=
  { Phase := "full"
    S_Number := lu.S_Number + 1
    S_Total := lu.S_Total
    U_Days := 15
    M_Days := lu.M_Days
    LunarMonth := lu.LunarMonth
    LunarSeason := lu.LunarSeason
    LunarYear := lu.LunarYear
    HasAdhikavara := false
    Event := majorEventName is_adhikamasa_year lu.LunarMonth }

/-- uposatha_moon.go:95-158, the branch of a new moon, without `nu.Date`. -/
def nextNew (lu : UposathaMoon) (is_adhikamasa_year is_adhikavara_year : Bool) : UposathaMoon :=
  let lunarMonth := nextMonth is_adhikamasa_year lu.LunarMonth
  let hasAdhikavara := is_adhikavara_year && decide (lunarMonth = 8)
  let mDays : Int := if hasAdhikavara then 30 else if lunarMonth.tmod 2 = 1 then 30 else 29
  let uDays : Int := if mDays = 29 then 14 else 15
  let sTotal : Int :=
    if is_adhikamasa_year = true ∧ ((lunarMonth ≥ 5 ∧ lunarMonth ≤ 8) ∨ lunarMonth = 13) then 10 else 8
  let last := decide (lu.S_Number < lu.S_Total)
  { Phase := "new"
    LunarMonth := lunarMonth
    HasAdhikavara := hasAdhikavara
    M_Days := mDays
    U_Days := uDays
    S_Total := sTotal
    S_Number := if last then lu.S_Number + 1 else 1
    LunarSeason := if last then lu.LunarSeason
                   else if lu.LunarMonth = 12 then 1 else lu.LunarSeason + 1
    LunarYear := if last then lu.LunarYear
                 else if lu.LunarMonth = 12 then lu.LunarYear + 1 else lu.LunarYear }

/-- uposatha_moon.go:28-163 `NextUposatha`. -/
def UposathaMoon.nextUposatha (cfg : Config) (lu : UposathaMoon) : UposathaMoon :=
  let su_year := SuriyaYear.init lu.Date.year
  let is_adhikamasa_year := su_year.isAdhikamasa
  let is_adhikavara_year := su_year.isAdhikavara cfg
  let nu := if lu.Phase = "new" then nextFull lu is_adhikamasa_year
            else nextNew lu is_adhikamasa_year is_adhikavara_year
  { nu with Date := lu.Date.add (nu.U_Days * nsPerDay) }

end Verif.Model
