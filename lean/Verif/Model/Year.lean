import Verif.Go.Time
/-
Model of suriya.go and suriya_year.go.
Go `int` is modelled by unbounded `Int`; `/` and `%` on ints are truncated (`Int.tdiv`, `Int.tmod`).
The machine version of `Init` (64-bit wrap-around, float64 rounding) is in Model/YearMachine.lean
and is proved equal to this one for |year| ≤ 10^9 (C02).
-/
set_option autoImplicit false

namespace Verif.Model

/-! suriya.go:5-25, the constants -/
abbrev EraDays : Int := 292207
abbrev EraYears : Int := 800
abbrev EraHorakhun : Int := 373
abbrev EraUccabala : Int := 2611
abbrev EraAvoman : Int := 650
abbrev EraMasaken : Int := 0
abbrev MonthLength : Int := 30
abbrev CycleSolar : Int := 692
abbrev CycleDaily : Int := 11
abbrev KammacubalaDaily : Int := 800
abbrev CSdiff : Int := 638
abbrev BEdiff : Int := 543

/-- suriya.go:31-36, the package variables `UseExceptions` and `AdhikavaraExceptions`
(both exported, so a caller can set them to anything). -/
structure Config where
  useExceptions : Bool
  exceptions : Int → Option Bool

/-- suriya.go:33-36, the shipped exception table. -/
def shippedExceptions (y : Int) : Option Bool :=
  if y = 1994 then some false else if y = 1997 then some true else none

/-- suriya.go:31-36, the initial values of the package variables. -/
def Config.default : Config := { useExceptions := false, exceptions := shippedExceptions }
/-- The documented alternative: `UseExceptions = true` with the shipped table. -/
def Config.official : Config := { useExceptions := true, exceptions := shippedExceptions }

/-- suriya_year.go:10-21. The field `FirstDay` is never written or read by any code and is left out. -/
structure SuriyaYear where
  Year : Int
  BE_Year : Int
  CS_Year : Int
  Horakhun : Int
  Kammacubala : Int
  Uccabala : Int
  Avoman : Int
  Masaken : Int
  Tithi : Int
deriving DecidableEq, Repr

namespace SuriyaYear

/-- suriya_year.go:58-90 `(*SuriyaYear).Init`. `math.Floor(float64(e))` of an integer quotient is the
identity and `math.Floor(float64(a) / CycleSolar)` (line 84) is floor division; see C02 for the
justification with float64 rounding. -/
def init (ce_year : Int) : SuriyaYear :=
  let year := ce_year
  let be := year + BEdiff
  let cs := year - CSdiff
  let a := cs * EraDays + EraHorakhun
  let horakhun := a.tdiv KammacubalaDaily + 1
  let kammacubala := KammacubalaDaily - a.tmod KammacubalaDaily
  let uccabala := (horakhun + EraUccabala).tmod 3232
  let a := horakhun * CycleDaily + EraAvoman
  let avoman := a.tmod CycleSolar
  let b := a.fdiv CycleSolar
  let masaken := (b + EraMasaken + horakhun).tdiv MonthLength
  let tithi := (b + horakhun).tmod MonthLength
  { Year := year, BE_Year := be, CS_Year := cs, Horakhun := horakhun, Kammacubala := kammacubala,
    Uccabala := uccabala, Avoman := avoman, Masaken := masaken, Tithi := tithi }

/-- suriya_year.go:30-34 `Would_Be_Adhikamasa`. -/
def wouldBeAdhikamasa (su : SuriyaYear) : Bool :=
  let t := su.Tithi
  (decide (t ≥ 24) && decide (t ≤ 29)) || (decide (t ≥ 0) && decide (t ≤ 5))

/-- suriya_year.go:23-28 `Is_Adhikamasa`. -/
def isAdhikamasa (su : SuriyaYear) : Bool :=
  let su_next := init (su.Year + 1)
  !su_next.wouldBeAdhikamasa && su.wouldBeAdhikamasa

/-- suriya_year.go:107-109 `Is_Suriya_Leap`. -/
def isSuriyaLeap (su : SuriyaYear) : Bool := decide (su.Kammacubala ≤ 207)

/-- suriya_year.go:119-127 `Would_Be_Adhikavara`. -/
def wouldBeAdhikavara (su : SuriyaYear) : Bool :=
  if su.isSuriyaLeap then decide (su.Avoman ≤ 126) else decide (su.Avoman < 137)

/-- suriya_year.go:129-133 `Has_Carried_Adhikavara`. -/
def hasCarriedAdhikavara (su : SuriyaYear) : Bool :=
  let last_year := init (su.Year - 1)
  last_year.isAdhikamasa && last_year.wouldBeAdhikavara

/-- suriya_year.go:43-50: the rule part of `Is_Adhikavara`, after the exception lookup. -/
def isAdhikavaraRule (su : SuriyaYear) : Bool :=
  if su.isAdhikamasa then false
  else if su.hasCarriedAdhikavara then true
  else su.wouldBeAdhikavara

/-- suriya_year.go:36-51 `Is_Adhikavara`. -/
def isAdhikavara (cfg : Config) (su : SuriyaYear) : Bool :=
  if cfg.useExceptions then
    match cfg.exceptions su.Year with
    | some b => b
    | none => su.isAdhikavaraRule
  else su.isAdhikavaraRule

/-- suriya_year.go:136-138 `AdhikavaraCyclePos`. `int(math.Abs(float64(n)))` is `|n|`
(exact below 2^53). -/
def adhikavaraCyclePos (su : SuriyaYear) : Int :=
  ((1984 - 57 * 10 - su.Year).natAbs : Int).tmod 57 + 1

/-- suriya_year.go:141-143 `AdhikamasaCyclePos`. -/
def adhikamasaCyclePos (su : SuriyaYear) : Int :=
  ((1984 - 19 * 10 - su.Year).natAbs : Int).tmod 19 + 1

/-- suriya_year.go:147-158 / 163-174, the loop of the Delta functions: `year` is the loop variable,
`test` the predicate, `limit` the give-up distance. The fuel is an artefact of the model. -/
def deltaLoop (test : SuriyaYear → Bool) (limit suYear : Int) : (fuel : Nat) → (year : Int) → Option Int
  | 0, _ => none
  | fuel + 1, year =>
    let check := init year
    if test check then some (suYear - check.Year)
    else if suYear - check.Year > limit then some (-1)
    else deltaLoop test limit suYear fuel (year - 1)

/-- suriya_year.go:146-159 `DeltaAdhikamasa`; `none` would mean the loop did not stop within 100
iterations (proved impossible). -/
def deltaAdhikamasa (su : SuriyaYear) : Option Int :=
  deltaLoop isAdhikamasa 6 su.Year 100 (su.Year - 1)

/-- suriya_year.go:162-175 `DeltaAdhikavara`. -/
def deltaAdhikavara (cfg : Config) (su : SuriyaYear) : Option Int :=
  deltaLoop (isAdhikavara cfg) 12 su.Year 100 (su.Year - 1)

/-- suriya_year.go:178-189 `YearLength`. -/
def yearLength (cfg : Config) (su : SuriyaYear) : Int :=
  let days : Int := 6 * (30 + 29)
  if su.isAdhikamasa then days + 30
  else if su.isAdhikavara cfg then days + 1
  else days

end SuriyaYear
end Verif.Model
