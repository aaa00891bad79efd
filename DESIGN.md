# Formal model of splendidmoons/suriya-go

suriya-go calculates the Thai lunar calendar (Suriyayatra): lunar years with their extra months (adhikamasa) and
extra days (adhikavara), the uposathas (new and full moon observance days), half moons and the great festivals, and merges
them with embedded astronomical moon data into calendar days, which a command line program writes as JSON or ical.

This directory holds a Lean 4 model of that code, the properties claimed of it, and machine-checked proofs. The code is
never run here: the tie between model and code is reading. Every model definition cites the lines it was read from.

## Layout

* `lean/Verif/Go/` – the fragment of Go and its standard library the code uses: 32- and 64-bit wrap, float64 rounding,
  `time.Time`.
* `lean/Verif/Model/` – the code, function by function, with file and line citations and the simplifications made.
  `Model/AstroData.lean` is the embedded data, transcribed by a script.
* `lean/Verif/Spec/` – the vocabulary of the property statements (Gregorian calendar, Suriyayatra quantities, ordered
  days, event text, …). Nothing in it models code.
* `lean/Verif/Lemmas/` – helper lemmas.
* `lean/Verif/Props/` – the property theorems `cNN_…` with concrete examples beside them.
* `lean/Verif/Tests/Conformance.lean` – the model evaluated against the repository's own expectations. Tests, not
  theorems.
* `properties.jsonl` – the properties in English; `MANIFEST.json` – which theorems prove which property.
* `seeded/LOG.jsonl` – wrong programs tried against the theorems.

## Trusted base

**The prover.** The Lean 4.33.0 kernel, and its big-number arithmetic for `decide +kernel`. No own axioms, no `sorry`, no
`native_decide`, no `bv_decide`. The theorems depend on at most Lean's three standard axioms. Of the 451
theorems in the manifest 386 use `propext`, `Classical.choice` and `Quot.sound`; 51 use only `propext` and `Quot.sound`; nine
(among them `c06_never_consecutive`, `c08_exclusive_iff`, `c09_year_length`, `c17_full_moon` and `c28_get_set`) use only
`propext`; five (`c35_day_only`, `c63_unsound`, `c71_mixed`, `c71_torn`, `c79_limit`) use none. `Classical.choice`
enters through Mathlib's rationals and through `omega`, never through the model.

**The reading of the code.** That each model definition says what the cited lines say. Evidence: the conformance tests
evaluate the model on all expectations of `suriya_test.go`, on `utils/years.csv` and on the data in `suriya/testdata`;
mutation of the model breaks theorems (`seeded/LOG.jsonl`).

**The reading of Go and its library.** What the model assumes about things that are not code of the repository:

| thing | model | what is left out |
|---|---|---|
| `int`, `int64` | `Int` with truncating `/` and `%` (`tdiv`, `tmod`). `YearMachine` repeats `Init` with a wrap at every operation; C02 proves both equal for years up to ±10¹² and shows an overflow beyond. `HorakhunToDate` always wraps its `Duration`s. `Model/Machine` repeats the other functions of the calendar with a wrap at every operation; C65 proves them equal in wide ranges. Both take the size of an `int` as an argument; C73 is about 32 bits. | |
| `float64` | `fl`: round to nearest even with 53 bits, over ℚ, after every operation. Go may fuse a product with the addition or subtraction after it (arm64, ppc64le, riscv64, amd64 with `GOAMD64=v3`): `Fusing` lists the places and every theorem on positions holds for any choice; C74 compares the choices | exponent range (no overflow, subnormal, NaN or infinity) |
| `math.Sin` | C47–C51: a parameter `sin : ℚ → ℚ` of the argument in degrees, only `|sin| ≤ 1` or signs assumed. C62: `goSin`, Go's algorithm after Cephes (math/sin.go) with its literals, every operation rounded | that the library is the one transcribed in `Model/Sin` (the source is not in the sandbox; its values agree with the expected positions of suriya_test.go:189-257); arguments from 2^29 on; s390x, where `math.Sin` is another program |
| `math.Floor`, `math.Abs`, `math.Mod` on integers | exact | |
| `time.Time` | nanoseconds since 0001-01-01Z, unbounded, and a fixed UTC offset | daylight saving rules and names of locations; monotonic clock; the wrap of the 64-bit seconds (292·10⁹ years) is in `Model/Machine` only |
| `time.Time.Date`, `AddDate`, `Year` … | Go's own algorithms by divisions of 400, 100, 4, 1 years; proved to be the proleptic Gregorian calendar of `Spec/Gregorian` | |
| `time.Parse("2006-01-02", s)` | transcribed for this one layout; day 0 is rejected, as by Go since 1.2x (older versions accept it) | error text |
| `sort.Sort` | stable merge sort; `c26_any_sort` shows any correct sort gives the same result, since no two days are equal | |
| maps | association lists; results do not depend on order (C37 is stated per key) | Go's random iteration order, used only where the keys are sorted or written separately |
| `strings.Title` | ASCII letters; the names used have no other initial letters | |
| slices | lists; the code's aliasing (`*CalDay` into a slice in `findCalDay`) is an index into the list | |
| JSON decoding | `AstroFile`: missing, undecodable, or the decoded response, as a parameter. `Model/Unmarshal`: scanner with its nesting limit, decoder and `time.Time.UnmarshalJSON` for the types of aeris_moon.go, with characters read from bytes by `Model/Utf8`; C61 proves that the embedded strings, decompressed and decoded, give the parameter `embeddedFiles` of C53–C56 | versions of Go before 1.20, which accepted some more times, and any that would clear the elements of a list behind its end before reusing them |
| JSON encoding | `Model/Json`: tree and text with Go's escapes; times with up to nine decimals; the year limit of `time.Time.MarshalJSON` | invalid UTF-8 in strings (replaced by Go) |
| panics | `none` | log output |
| loops | recursion on fuel; for every loop a theorem shows the fuel suffices (C12, C16, C22, C34) | |
| `sync.Once` | its implementation: fast-path load, mutex, recheck, body, store, unlock, as separate steps | memory models weaker than sequential consistency; `sync.Once` itself excludes races (`c38_no_race`) |
| base64, gzip, deflate | `Model/Gzip` after RFC 4648, 1952 and 1951, with checksum and length; the outcome of decoding is a parameter in C38 and calculated in C60; C69 proves the decoder equal to a statement of the RFCs | data returned together with a decoding error; Go's buffering |
| embedded data | `Model/EscData.lean`: the compressed strings copied by a script from `data.go`. `Model/AstroData.lean`: the moons, made by a script from `data/astro/*.json`. C60 proves that the former decode to the latter. | that the copied strings are those of `data.go` |
| ical | the components and the text; `UID` (random) and `DTSTAMP` (clock) are inputs. The encoder github.com/soh335/ical is not in the repository: modelled from its sample output, which the model reproduces | encoder branches for events not all-day or not in UTC, which do not occur (C36) |
| CLI | the two actions as functions of the flags and the clock's year; `Model/CliRun`: effects on files and standard output in order, exit codes, with the behaviour of the operating system as input; `Model/Main`: from the words of the command line to the actions, with package `flag`, the dump without a command, and what differs between versions of codegangsta/cli (not in the repository) as a parameter | the texts of the help (any text); links and other writers of the output file; standard error |
| bash, `curl`, `date` (C79) | `Model/GetAstro`: `[ -le ]` reads decimal numbers, `((…))` octal ones after a leading 0; every reading of the clock and the time of every step is a parameter | numbers from 2⁶³ on; words with blanks or characters that the shell expands; what `curl` does with the address |

**Global settings.** `UseExceptions` and `AdhikavaraExceptions` are variables of the package; they are an argument `cfg`
of the model. `Config.default` and `Config.official` are the two values reachable from the command line, together
`Shipped`. `Model/Switching` repeats the functions that read them with a sequence of settings, one for each read (C71);
changes inside the table by another goroutine, which the Go runtime may stop with a fatal error, are left out.

## Functions of the repository and their models

| code | model |
|---|---|
| suriya_year.go `Init` | `SuriyaYear.init`, `SuriyaYear.initMachine` |
| `Is_Adhikamasa`, `Would_Be_Adhikamasa`, `Is_Adhikavara`, `Is_Suriya_Leap`, `Would_Be_Adhikavara`, `Has_Carried_Adhikavara` | same names in `Model/Year` |
| `AdhikavaraCyclePos`, `AdhikamasaCyclePos` | `Model/Year`, `cyclePosMachine` |
| `DeltaAdhikamasa`, `DeltaAdhikavara`, `YearLength` | `Model/Year` |
| `AsalhaPuja` | `Model/Kattika` |
| `SuriyaYear.String`, `SuriyaValuesString` | `Model/YearText` |
| helpers.go `DegreeToRal`, `DegreeToRalString`, `RalToDegree`, `NormalizeDegree` | `Model/Ral` |
| `HorakhunToDate` | `Model/Horakhun` |
| `CalculatePreviousKattika` | `Model/Kattika` |
| `MonthToInt`, `SeasonToInt`, `SeasonName`, `CalendarToInt`, `StatusToInt` | `Model/Names` |
| suriya_day.go `Init` | `Model/SuriyaDay` (integers), `Model/SuriyaDayFloat` (positions) |
| uposatha_moon.go `NextUposatha` | `Model/Uposatha` |
| `AddToDay`, `GetDate`, `String`, `IcalEvent` of the five event types | `Model/CalDay`, `Model/Names`, `Model/Cli` |
| cal_day.go all functions | `Model/CalDay`, `CalDay.string` in `Model/Names` |
| astro_moon.go `GetAstroMoons` | `Model/CalDay` |
| astro_moon.go:64-68 `json.Unmarshal`, aeris_moon.go types | `Model/Unmarshal` |
| data.go `prepare`, `FSByte` | `Model/Esc` |
| data.go embedded strings | `Model/EscData`, decoded by `Model/Gzip`; the moons in `Model/AstroData`; the whole environment in `Model/EscFS` |
| data.go `_escData` keys, lookup, `Dir(false, …)` | `Model/Path` |
| data.go `File`, `Open`, `Stat` and the other methods of `_escFile`, `Readdir`, `Close`, `FS`, `Dir`, `FSByte`, `FSString`, `FSMust…` | `Model/EscOpen` as operations on a shared state, with `Read` and `Seek` of `bytes.Reader`; the real table in `Model/EscOpenFS` |
| data.go `useLocal = true` | `Model/EscLocal`; the machine's files and the bound on open files are inputs, and nothing else changes them |
| suriya/suriya.go `cliInit`, `actionCalDays`, `actionIcal` | `Model/Cli`, `Model/Json`, `Model/Ical`, `Model/CliRun` |
| suriya/suriya.go `main` | `Model/Main`; the library codegangsta/cli after its version 1 |
| utils/years-csv.go `yearsCsv` | `Model/YearsCsv`, with `BE_Year` for the field `BE_year`, which does not exist (the program does not compile) |
| utils/years-csv.go `yearsCsvSimple`, `main` | `Model/YearsMain`; what package fmt writes for a wrong verb and for values left over is written out |
| utils/get-astromoons.sh | `GetAstro.run` |
| utils/years.csv, utils/years-1970-2041.xlsx | no programs; copied by a script into `Spec/YearsFile`, `Spec/YearsSheet` to be compared |

## Plan per property

| id | modelled | proof |
|----|----------|-------|
| C01 | `SuriyaYear.Init` over `Int` with Go `/`, `%` | unique-integers characterisation, division algorithm |
| C02 | `Init` with `wrapInt` at every int op and `fl` (binary64 nearest-even over ℚ) at every float op | rounding lemma: floor of rounded quotient = floor of quotient below 2^53 |
| C03 | same as C01, years < 638 | truncated-division sign lemmas |
| C04 C05 | year arithmetic | linear arithmetic on the C01 identities; leap count by telescoping |
| C06 C07 | `Is_Adhikamasa` | closed form: months up to y = floor((rawTithi-6)/30)+const |
| C08 C09 | `Is_Adhikavara`, `YearLength` with the exception table as a parameter | case analysis |
| C10 | avoman rule | wraps counting, finite check of 638..4097 for the absence of ties; official exceptions: by C32 and the years about 1994 |
| C11 C12 C13 | `CalculatePreviousKattika` as a fuelled loop, termination proved | induction on year in both directions, closed form |
| C14 C15 | `AsalhaPuja`, `SuriyaDay` ints | from C11/C12 |
| C16 | `HorakhunToDate` with 64-bit `Duration` | loop invariant |
| C17 C18 | `NextUposatha` on arbitrary states | case analysis, induction on steps |
| C19 C20 C21 C23 C24 C43 | chain from the Kattika seed | symbolic execution of one lunar year under a window hypothesis on the Kattika date, window from C11/C13; up to 28 days into the year for the festivals (C21), the gaps (C20) and the totals (C24), which telescope over the years |
| C22 C25 | `GenerateSolarYear` loop with fuel; fuel never exhausted | each step adds 14 or 15 days; for the empty years the closed form of the Kattika day, with the boundary years scanned up to 27000 |
| C26-C29 | `GetCalDays`, `mergeIntoCalDays`, `findCalDay` | list invariants by induction over merged events |
| C30 C31 C46 | `AddHalfMoonDays`, `GetAstroMoons` | list induction |
| C32 | exception table | comparison of two steppings |
| C33 C34 | cycle positions, delta loops | arithmetic, loop induction |
| C35 | `SuriyaDay.Init` | arithmetic |
| C36 C37 | CLI actions as pure functions of GetCalDays' result | list lemmas |
| C38 | `prepare`/`sync.Once` as a transition system over any number of threads | inductive invariant over all interleavings |
| C39 C40 | float helpers over rounded rationals | rounding lemmas |
| C41 | lookup tables | case analysis |
| C42 | `time.Parse("2006-01-02")` on strings | parser/printer round trip |
| C44 C49 | text of events and days | text over the finite tables of the chain; string lemmas |
| C47 C48 C50 C51 | positions of sun and moon with the sine as a parameter | rounding error bounds |
| C52 | when `GetCalDays` panics | induction over years and moons |
| C53 | the embedded data | kernel check file by file, lifted to lists; order by chains |
| C54 | embedded moons against the calculated chain | kernel scan of 131 years on natural numbers, lifted by the closed form of the chain |
| C55 | GetCalDays over ranges | every event lies in its own year; entries determined by the events of the day; sorted lists with the same members are equal |
| C56 | last day of the command line range | kernel scan: no embedded moon at midnight; bounds are at midnight |
| C57 | JSON text of caldays, with a reader of RFC 8259 in `Spec/Json` | induction over the tree; times and integers printed and read digit by digit |
| C58 | ical text, with a reader of RFC 5545 in `Spec/Ical` | lines and components by induction; texts are built from characters that need no escapes |
| C59 | names of the embedded files: `path.Clean` is resolving `.` and `..` | invariant between buffer and walked segments; lookup by injectivity of decimal text |
| C60 | base64, gzip and deflate of the embedded files | the decoder over lists is shown equal to one over numbers that the kernel evaluates fast (output as one number, checksum by table); the kernel then decodes every file |
| C61 | JSON decoding of the responses, with the grammar of RFC 8259 and the times of RFC 3339 as relations in `Spec` | scanner sound by induction on fuel and complete by mutual induction on the derivation; fields independent of each other and of order by folds; files by a derivation of their text |
| C62 | `math.Sin` operation by operation, against the real sine of Mathlib | Taylor remainder from the complex exponential; error of each rounded Horner step; argument reduction against decimals of π; bounds by monotony of rounding |
| C63 | exception tables set by the caller; C19–C21, C24, C43, C44, C49, C55, C58 for all settings with the Kattika in a window (`Steady`) | each entry moves a year length by at most one day, so the Kattika by at most one day per entry; slack of the window by a kernel scan; the theorems of the listed properties generalised from the two shipped settings to `Steady` ones |
| C64 | opened files: `FS`, `Dir`, `Open`, `Read`, `Seek`, `Stat`, `FSByte`, `FSString`, `FSMust…` | operations on a shared state; invariants by induction on the sequence of operations, private positions by comparison of two runs; contents from C60 |
| C65 | the calendar on 64-bit machine numbers | each function unfolded beside its unbounded one; every wrapped value bounded by `omega`; loops by induction on fuel |
| C66 | runs of the commands with crash points | the effects of a run as a list, every prefix of it a crash point; JSON objects and calendars cannot be continued, by induction on the readers; UTF-8 as a prefix code from Lean's library |
| C67 | texts of a year | a reader of labelled numbers, decimal round trip |
| C68 | table of years | splitting inverts joining; columns from C33, C34; the recorded years by the kernel |
| C69 | decoding of embedded strings against the RFCs | relations on lists of bits (`Spec/Deflate`, `Spec/Base64`); the tree built from left to right gives the canonical codes because the space of the codes before a symbol is its code; both directions by induction on fuel and on derivations; checksum by linearity |
| C70 | embedded files with `useLocal = true` | cases of the table for the paths; induction on the calls for the paths tried and for the numbers of files left open and held by callers; a scan of the years for bare names in their directory; equality with the embedded bytes through C64 |
| C71 | settings that change between the reads of a calculation | each year is asked about once in the Kattika loop, so the answers form a table; in the loop of a year the answer matters only at the new moon of the 8th month, which occurs once |
| C72 | the whole run of caldays and ical against an almanac in `Spec/Almanac`, which does not refer to the model; how texts show it in `Spec/AlmanacText` and `Spec/AlmanacIcs` | the table of a lunar year in the lemmas equals the list made from the months (kernel); Kattika by the length of the years; then C27, C36, C57, C58, C61 and C66 from events to files; for 639..5834 the loop of C24 with the same table; from 5835 on Kattika comes so late that all moons of the civil year are of one lunar year |
| C73 | 32-bit platforms: C02, C16, C61 and C65 with an `int` of 32 bits | the lemmas of C02 and C65 have the size as a parameter, with one condition: the product in `Init` fits; the decoder's result on 32 bits is its result on 64 bits, by induction on the value |
| C74 | fused multiply-add: C39, C40, C47, C48, C50, C51 and C62 for any choice of fused operations; which positions can differ between platforms | 134 times the real sine of an angle with four decimals is not near a whole number, by monotony and a table of 134 steps checked with exact polynomials; multiples of 30 degrees by evaluation; a sum rounded once or twice reaches a whole number in the same cases, by comparing units in the last place |
| C75 | `main` of utils/years-csv.go, the unused `yearsCsvSimple`, the two committed tables | the lines of the committed tables by the kernel; the settings behind a table by reading it back (C68); effects and crash points as for C66; columns by counting commas |
| C76 | the long period of the year values, the number of years of each kind | linear arithmetic for the shifts; counting by the one-to-one map to the combinations of values; day total from the closed form of Kattika (C11) |
| C77 | exception tables against the recorded dates of Asalha | Asalha is 118 days before the next Kattika, so dates determine year lengths and these the answers; the repaired table by the kernel, then C63 and C71 |
| C78 | from the words of the command line to the output | induction on the words for package `flag`; then C66, C72 and C80 |
| C79 | the script utils/get-astromoons.sh: questions, end, rate | a state machine with the clock as a parameter; invariant on the counter; between two questions of different batches there are two clock readings 61 seconds apart |
| C80 | the files for all years from 640 to the last ones that can be written; which entries of the almanac they have in `Spec/AlmanacShown` | as C72 with the loop of every year from 639 on, and which year the test for Māgha Pūjā looks at; a puja name fixes its distance from the full moon, so no event is found twice |
| C81 | where in the Gregorian year Asalha Puja falls: a band of 32 days that moves 13 days in 800 years, and its dates until 4097 | closed form of C11; the solar part has period 800 and is checked for all 800 places; the ends by C76; dates by computation over the closed form |
| C82 | the date of Asalha Puja after nineteen years | closed form of C11 at both ends; the count of months from the age of the moon; boundary years are at least nineteen years apart |

## Findings about the code

None of these is repaired in the model; each is a theorem.

* `CalculatePreviousKattika` is off for far years: the lunar calendar drifts from the solar one, so that from 4117 an
  uposatha is lost (`c19_fails_4116`, `c20_lost_4117`) and the turn of the year leaves gaps of 30 and 44 days (`c20_gap`), and
  for far years `GenerateSolarYear` silently returns nothing: 25330 is the first such year, and from 26993 on it is every year (`c25_iff`, `c25_years`, `c25_empty`),
  as it is up to 593 (`c25_early`).
* `NextUposatha` looks the adhikamasa rule up by solar year, so that every adhikamasa year from 631 on whose Kattika is more
  than 74 days before it has two Magha Pujas; 1289 is the last (`c21_majors`, `c21_two_maghas_1289`).
* In 5835 Pavarana Day falls on 1 January 5836 and is in no year's list, because 5836 begins with the Kattika after it
  (`c21_lost_5835`).
* The adhikavara rule leaves the tithi count first in 4099 (`c15_drift_4099`), after the first two consecutive
  adhikavara years, 4098 and 4099 (`c10_first_consecutive`).
* From 3572 on the half moon after Kattika can be lost at the turn of the year (C43).
* `Init` gives values out of range for years before 638 (C03) and overflows for very large years
  (`c02_overflow_witness`).
* `DegreeToRal` can give one arc minute too many below 8° (`c39_inexact_035`, `c39_inexact_4`), and
  `TrueMoon` is not reduced to 0..360 (`c62_not_reduced`).
* `MeanSun` jumps by 30° at the New Year (C47), and the correction of the sun has the same sign on both sides of its
  apsis (C51).
* An unknown phase code in a data file makes `GetCalDays` panic only in some ranges (C52: index out of range).
* Ranges starting before 1900 get no astronomical moons at all, even for their later years (C46).
* The embedded files of 1900, 1901, 1970 and 2034–2040 hold only an error, 2033 ends in May, and 18 files lack the moon
  of 31 December (C53); eleven uposathas therefore have no astronomical moon (C54).
* A broken embedded file gives its error only to the first caller; later callers get empty contents and no error (C38).
* The rule that `GetCalDays` takes events by solar year loses events of ranges whose ends are not in UTC
  (`c55_not_utc`).
* The command line range ends at midnight at the start of its last day, so the astronomical moon of the last day is never
  printed (`c56_last_day`).
* caldays sorts the years of its JSON object as texts, so that 1000 comes before 999 (`c57_order_999`).
* `Dir(prefix)` puts prefix and name together without a slash check, so `..` leaves the directory (`c59_dir`), and a file first
  opened as `name/.` is called `.` for all later callers (`c59_name`).
* A record of a data file without `dateTimeISO` is no error: it gets year 1 and disappears; one without `code` counts as a new moon
  (`c61_no_moment`, `c61_no_code`).
* caldays and ical overwrite their output file in place: killed in between, the old file is lost; and they end with exit code 0 even if
  nothing could be printed (`c66_limits`).
* Settings changed by another goroutine during a calculation can give a Kattika full moon that neither setting gives (`c71_mixed`), a
  table replaced between the two lookups of `Is_Adhikavara` an answer that neither table gives (`c71_torn`), and a switch set between two
  years of one range moons 13 days apart (`c71_gap`).
* On the days of a lunar year before the New Year the true sun and moon depend on the platform: on lunar day 1 of 1985 amd64 and arm64
  differ in the fourth decimal (`c74_differs`). From the New Year on the sun and the mean moon do not (`c74_sun_and_moon`).
* On 32-bit platforms `Init` overflows in 7988 (`c73_init_sharp`), and a data file with a moon after 2038-01-19 03:14:07 or before
  1901-12-13 makes `GetAstroMoons` panic, because of a field that is never used (`c73_2038`). No embedded file has such a moon, but the
  empty files of 1900, 1901 and 2038 to 2040 could not be filled.
* utils/years-csv.go does not compile. Its `main` ends with exit code 0 when the table could not be written (`c75_full_disk`), and
  `yearsCsvSimple` gives lines of seven and eight columns under a header of nine (`c75_simple`). The two committed tables differ in
  1994 to 1997 and 2000: years.csv was made without exceptions, the spreadsheet with them (`c75_text`, `c75_sheet`).
* The calendar repeats after 16608000 years, but with 3726 days too many (`c76_slip`): the full moons of the calendar drift through the
  whole month. Nineteen years do not always have seven adhikamasa years, but six, seven or eight (`c76_nineteen`).
* Six entries are missing in the shipped table of exceptions: with them all recorded dates of Asalha come out (`c77_repaired`), and no
  table does it with fewer (`c77_needed`).
* `main` ignores the error of `app.Run`: an unknown option, an option before the command or without a value ends with exit code 0
  (`c78_before`, `c78_unknown_option`), and a misspelt command prints the dates of this year instead (`c78_no_command`). A stray word
  silently disables all options after it (`c78_stray`), so that `--from 2016-07-01 2016-07-31 --output f` prints instead of writing f.
* utils/get-astromoons.sh tests its counter with `-gt 10`: 11 requests come in one go (`c79_eleven`) and 22 within half a second if
  the first batch is slow (`c79_burst`), against the ten a minute of its comment. A first year such as 0900 makes it loop for ever
  (`c79_leading_zero`). It prints OK whatever `curl` did, and has then already emptied the old file.
