import Verif.Model.Year
import Verif.Model.YearMachine
import Verif.Model.Horakhun
import Verif.Model.SuriyaDay
import Verif.Model.Kattika
import Verif.Model.Uposatha
import Verif.Model.CalDay
import Verif.Lemmas.Year
import Verif.Lemmas.Kattika
import Verif.Props.Year
import Verif.Props.Machine
import Verif.Props.Kattika
import Verif.Props.Asalha
import Verif.Props.Cycles
import Verif.Lemmas.YearList
import Verif.Props.Uposatha
import Verif.Props.Generate
import Verif.Props.Festivals
import Verif.Props.Gaps
import Verif.Props.Totals
import Verif.Props.Empty
import Verif.Props.EmptyCount
import Verif.Props.Drift
import Verif.Props.Return
import Verif.Props.Seasons
import Verif.Props.CalDays
import Verif.Model.Names
import Verif.Model.Cli
import Verif.Props.Cli
import Verif.Props.Ical
import Verif.Model.Esc
import Verif.Props.Esc
import Verif.Model.Ral
import Verif.Model.SuriyaDayFloat
import Verif.Props.Ral
import Verif.Props.SuriyaDay
import Verif.Props.Positions
import Verif.Props.Panic
import Verif.Props.Text
import Verif.Props.AstroData
import Verif.Props.AstroCompare
import Verif.Props.Range
import Verif.Props.LastDay
import Verif.Props.Json
import Verif.Props.IcalText
import Verif.Props.Path
import Verif.Model.Gzip
import Verif.Model.EscFS
import Verif.Props.EscData
import Verif.Model.Unmarshal
import Verif.Props.Unmarshal
import Verif.Props.UnmarshalData
import Verif.Props.Sin
import Verif.Props.Fused
import Verif.Props.Table
import Verif.Model.EscOpenFS
import Verif.Props.EscOpen
import Verif.Props.EscOpenFS
import Verif.Model.Machine
import Verif.Props.MachineAll
import Verif.Props.Platform
import Verif.Model.CliRun
import Verif.Lemmas.Truncated
import Verif.Props.CliRun
import Verif.Model.YearText
import Verif.Spec.YearText
import Verif.Props.YearText
import Verif.Model.YearsCsv
import Verif.Spec.YearsCsv
import Verif.Props.YearsCsv
import Verif.Spec.Deflate
import Verif.Spec.Base64
import Verif.Spec.Switching
import Verif.Lemmas.Huffman
import Verif.Lemmas.Inflate
import Verif.Lemmas.Base64
import Verif.Lemmas.Switching
import Verif.Props.Gzip
import Verif.Model.EscLocal
import Verif.Model.Switching
import Verif.Props.EscLocal
import Verif.Props.Switching
import Verif.Tests.Conformance
import Verif.Spec.Almanac
import Verif.Spec.AlmanacText
import Verif.Spec.AlmanacIcs
import Verif.Props.Almanac
import Verif.Props.AlmanacText
import Verif.Props.AlmanacRun
import Verif.Props.AlmanacIcs
import Verif.Props.AlmanacWide
import Verif.Props.AlmanacFar
import Verif.Spec.Feast
import Verif.Spec.AlmanacShown
import Verif.Props.AlmanacEarly
import Verif.Props.AlmanacShown
import Verif.Props.ExitCode
import Verif.Props.CommandShown
import Verif.Props.Official
import Verif.Model.YearsMain
import Verif.Spec.YearsFile
import Verif.Props.YearsMain
import Verif.Props.Period
import Verif.Props.Published
import Verif.Model.Main
import Verif.Spec.CommandLine
import Verif.Spec.ExitCode
import Verif.Props.CommandLine
import Verif.Props.CommandHelp
import Verif.Model.GetAstro
import Verif.Spec.Fetching
import Verif.Props.GetAstro
import Verif.Spec.YearsSheet
import Verif.Props.YearsSheet
import Verif.Spec.Utf8
import Verif.Model.Utf8
import Verif.Lemmas.Utf8
import Verif.Props.Early
import Verif.Props.TextAll
import Verif.Props.RangeWide
