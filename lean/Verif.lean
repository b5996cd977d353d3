import Verif.Lemmas.Alike
import Verif.Lemmas.ArgsLine
import Verif.Lemmas.ArgsLoop
import Verif.Lemmas.ArgsOpt
import Verif.Lemmas.ArgsWords
import Verif.Lemmas.Bare
import Verif.Lemmas.Basic
import Verif.Lemmas.Bounded
import Verif.Lemmas.Brief
import Verif.Lemmas.Bytes
import Verif.Lemmas.Calendar
import Verif.Lemmas.CmdLine
import Verif.Lemmas.CodePage
import Verif.Lemmas.Dated
import Verif.Lemmas.Dict
import Verif.Lemmas.Double
import Verif.Lemmas.Extra
import Verif.Lemmas.ExtraData
import Verif.Lemmas.ExtraReport
import Verif.Lemmas.Fault
import Verif.Lemmas.FaultExtra
import Verif.Lemmas.FaultInfo
import Verif.Lemmas.File
import Verif.Lemmas.FileOutcome
import Verif.Lemmas.FileTime
import Verif.Lemmas.Footprint
import Verif.Lemmas.Gaps
import Verif.Lemmas.Guid
import Verif.Lemmas.Header
import Verif.Lemmas.Hex
import Verif.Lemmas.Hidden
import Verif.Lemmas.HowMany
import Verif.Lemmas.Info
import Verif.Lemmas.ItemGaps
import Verif.Lemmas.Json
import Verif.Lemmas.JsonVisible
import Verif.Lemmas.Layout
import Verif.Lemmas.Log
import Verif.Lemmas.LogExtra
import Verif.Lemmas.LogFile
import Verif.Lemmas.LogHeader
import Verif.Lemmas.LogInfo
import Verif.Lemmas.LogItems
import Verif.Lemmas.LogList
import Verif.Lemmas.LogSole
import Verif.Lemmas.LogText
import Verif.Lemmas.Messages
import Verif.Lemmas.Metadata
import Verif.Lemmas.Notices
import Verif.Lemmas.OpenEnd
import Verif.Lemmas.Order
import Verif.Lemmas.Outcome
import Verif.Lemmas.Plain
import Verif.Lemmas.Printed
import Verif.Lemmas.PrintedLength
import Verif.Lemmas.PrintedValues
import Verif.Lemmas.Process
import Verif.Lemmas.Readable
import Verif.Lemmas.Reduced
import Verif.Lemmas.Repeated
import Verif.Lemmas.Reported
import Verif.Lemmas.ReportedExtra
import Verif.Lemmas.Rounding
import Verif.Lemmas.Said
import Verif.Lemmas.Sections
import Verif.Lemmas.Shape
import Verif.Lemmas.Stderr
import Verif.Lemmas.StoreGaps
import Verif.Lemmas.StringData
import Verif.Lemmas.Targets
import Verif.Lemmas.TargetsOutcome
import Verif.Lemmas.Text
import Verif.Lemmas.TextGaps
import Verif.Lemmas.TextWrap
import Verif.Lemmas.Told
import Verif.Lemmas.Trailer
import Verif.Lemmas.Utf8
import Verif.Lemmas.Values
import Verif.Lemmas.ValuesExtra
import Verif.Lemmas.ValuesInfo
import Verif.Lemmas.ValuesItems
import Verif.Lemmas.ValuesStrings
import Verif.Lemmas.ValuesUnique
import Verif.Lemmas.Visible
import Verif.Lemmas.VisibleInfo
import Verif.Lemmas.Warned
import Verif.Lemmas.WarnedFile
import Verif.Lemmas.WarnedInit
import Verif.Lemmas.Weight
import Verif.Model.Accessors
import Verif.Model.Args
import Verif.Model.Extra
import Verif.Model.File
import Verif.Model.Header
import Verif.Model.Info
import Verif.Model.Main
import Verif.Model.Messages
import Verif.Model.Metadata
import Verif.Model.Stderr
import Verif.Model.Strict
import Verif.Model.StringData
import Verif.Model.Targets
import Verif.Model.Text
import Verif.Model.Utils
import Verif.Props.Accessors
import Verif.Props.Args
import Verif.Props.BlockTold
import Verif.Props.Blocks
import Verif.Props.Brief
import Verif.Props.CodePage
import Verif.Props.Command
import Verif.Props.CutLink
import Verif.Props.Damaged
import Verif.Props.Depth
import Verif.Props.Determined
import Verif.Props.Deviations
import Verif.Props.Extra
import Verif.Props.File
import Verif.Props.Final
import Verif.Props.FinalAll
import Verif.Props.Footprint
import Verif.Props.Growth
import Verif.Props.Guid
import Verif.Props.Header
import Verif.Props.HeaderSeen
import Verif.Props.HeaderTold
import Verif.Props.Hidden
import Verif.Props.HowMany
import Verif.Props.Info
import Verif.Props.InfoTold
import Verif.Props.Instant
import Verif.Props.ItemGaps
import Verif.Props.ItemsTold
import Verif.Props.Json
import Verif.Props.Link
import Verif.Props.Log
import Verif.Props.Main
import Verif.Props.Messages
import Verif.Props.Notices
import Verif.Props.OpenEnd
import Verif.Props.Order
import Verif.Props.OtherCodePage
import Verif.Props.Outcome
import Verif.Props.Overlap
import Verif.Props.Printed
import Verif.Props.PrintedLength
import Verif.Props.Quiet
import Verif.Props.Readable
import Verif.Props.Repeated
import Verif.Props.ReportTold
import Verif.Props.Said
import Verif.Props.Schema
import Verif.Props.Sections
import Verif.Props.SizeTells
import Verif.Props.Stderr
import Verif.Props.StoreGaps
import Verif.Props.StoreTold
import Verif.Props.Strict
import Verif.Props.StringData
import Verif.Props.Targets
import Verif.Props.Terminal
import Verif.Props.TerminalOption
import Verif.Props.Text
import Verif.Props.TextGaps
import Verif.Props.Time
import Verif.Props.Told
import Verif.Props.Trailer
import Verif.Props.TrailerLink
import Verif.Props.Unique
import Verif.Props.Values
import Verif.Props.Warnings
import Verif.Py.Basic
import Verif.Py.CmdLine
import Verif.Py.Codec
import Verif.Py.DateTime
import Verif.Py.Dict
import Verif.Py.Fmt
import Verif.Py.Json
import Verif.Py.TextWrap
import Verif.Spec.Alike
import Verif.Spec.Appended
import Verif.Spec.Args
import Verif.Spec.BlockTold
import Verif.Spec.Brief
import Verif.Spec.Bytes
import Verif.Spec.Calendar
import Verif.Spec.CodePage
import Verif.Spec.Command
import Verif.Spec.Complete
import Verif.Spec.Depth
import Verif.Spec.Discerning
import Verif.Spec.Double
import Verif.Spec.Extra
import Verif.Spec.File
import Verif.Spec.Footprint
import Verif.Spec.Gaps
import Verif.Spec.Header
import Verif.Spec.HeaderSeen
import Verif.Spec.HeaderTold
import Verif.Spec.Hidden
import Verif.Spec.Info
import Verif.Spec.InfoTold
import Verif.Spec.ItemGaps
import Verif.Spec.ItemsTold
import Verif.Spec.Json
import Verif.Spec.Layout
import Verif.Spec.Lines
import Verif.Spec.Log
import Verif.Spec.Messages
import Verif.Spec.Notices
import Verif.Spec.OpenEnd
import Verif.Spec.Order
import Verif.Spec.Outcome
import Verif.Spec.Printed
import Verif.Spec.Readable
import Verif.Spec.Repeated
import Verif.Spec.ReportTold
import Verif.Spec.Reported
import Verif.Spec.Schema
import Verif.Spec.Shape
import Verif.Spec.Shown
import Verif.Spec.Stderr
import Verif.Spec.StoreGaps
import Verif.Spec.StoreTold
import Verif.Spec.StringData
import Verif.Spec.Targets
import Verif.Spec.Text
import Verif.Spec.TextGaps
import Verif.Spec.Told
import Verif.Spec.Values
import Verif.Spec.Visible
import Verif.Spec.Warnings
import Verif.Spec.Weight
