import Verif.Model.Parser
import Verif.Model.Prim
import Verif.Model.F64
import Verif.Model.Codec
import Verif.Model.Schema
import Verif.Model.DataMap
import Verif.Model.Header
import Verif.Model.File
import Verif.Spec.Guid
import Verif.Spec.Gap
import Verif.Proofs.Parser
import Verif.Proofs.Guid
import Verif.Proofs.Str
import Verif.Proofs.Prim
import Verif.Proofs.DataMap
import Verif.Spec.Layout
import Verif.Proofs.Real
import Verif.Proofs.Layout
import Verif.Spec.Real
import Verif.Proofs.F64
import Verif.Proofs.F64Text
import Verif.Proofs.F64Idem
import Verif.Props.Guid
import Verif.Props.Str
import Verif.Props.Prim
import Verif.Props.DataMap
import Verif.Props.Verify
import Verif.Props.Real
import Verif.Spec.Written
import Verif.Proofs.Written
import Verif.Spec.Names
import Verif.Proofs.Entity
import Verif.Props.Entity
import Verif.Spec.Unknown
import Verif.Proofs.Unknown
import Verif.Props.Unknown
import Verif.Spec.BadReal
import Verif.Proofs.BadReal
import Verif.Proofs.Suffix
import Verif.Props.BadReal
import Verif.Proofs.Calm
import Verif.Props.Panic
import Verif.Spec.Header
import Verif.Spec.Time
import Verif.Proofs.Header
import Verif.Proofs.Calendar
import Verif.Props.Header
import Verif.Props.Time
import Verif.Spec.Step
import Verif.Spec.Standard
import Verif.Proofs.Standard
import Verif.Props.Standard
import Verif.Proofs.F64Short
import Verif.Props.RealForm
import Verif.Props.Shortest
import Verif.Spec.File
import Verif.Proofs.File
import Verif.Proofs.Loaded
import Verif.Props.File
import Verif.Model.Mapping
import Verif.Model.F64Ops
import Verif.Model.Builder
import Verif.Model.Script
import Verif.Spec.Builder
import Verif.Proofs.BuilderBase
import Verif.Proofs.BuilderMoves
import Verif.Proofs.BuilderLists
import Verif.Proofs.BuilderAccounts
import Verif.Proofs.BuilderBalance
import Verif.Proofs.BuilderLevels
import Verif.Proofs.BuilderRun
import Verif.Spec.Trace
import Verif.Proofs.BuilderTrace
import Verif.Proofs.BuilderSections
import Verif.Proofs.BuilderTypes
import Verif.Proofs.BuilderSame
import Verif.Props.Builder
import Verif.Model.Extractor
import Verif.Spec.Extractor
import Verif.Proofs.Extractor
import Verif.Props.Extractor
import Verif.Model.Persons
import Verif.Model.Actors
import Verif.Props.Persons
import Verif.Spec.Geometry
import Verif.Spec.Transform
import Verif.Proofs.Geometry
import Verif.Proofs.Transform
import Verif.Proofs.Time
import Verif.Props.Geometry
import Verif.Proofs.Additive
import Verif.Spec.Tidy
import Verif.Proofs.Sound
import Verif.Proofs.SoundRun
import Verif.Proofs.SoundFile
import Verif.Props.Accepted
import Verif.Spec.Arith
import Verif.Props.Arith
import Verif.Spec.HeaderText
import Verif.Proofs.HeaderText
import Verif.Props.HeaderText
import Verif.Spec.Plan
import Verif.Proofs.Live
import Verif.Proofs.LiveElements
import Verif.Proofs.LiveTransform
import Verif.Spec.Told
import Verif.Proofs.Told
import Verif.Proofs.ToldTurn
import Verif.Proofs.ToldKeep
import Verif.Proofs.LiveCalls
import Verif.Proofs.LiveCmds
import Verif.Proofs.LiveHosts
import Verif.Proofs.LiveStorey
import Verif.Proofs.LiveRun
import Verif.Props.Plan
import Verif.Props.SameCalls
import Verif.Props.Told
import Verif.Spec.GlobalId
import Verif.Proofs.GlobalId
import Verif.Props.GlobalId
import Verif.Model.Setters
import Verif.Spec.Setters
import Verif.Proofs.Setters
import Verif.Props.Setters
import Verif.Model.Ctors
import Verif.Spec.Ctors
import Verif.Proofs.Ctors
import Verif.Props.Ctors
import Verif.Spec.Typed
import Verif.Proofs.Typed
import Verif.Proofs.TypedCtors
import Verif.Proofs.Actors
import Verif.Props.Typed
import Verif.Spec.Saved
import Verif.Proofs.Saved
import Verif.Proofs.SavedCtors
import Verif.Props.Saved
import Verif.Model.Report
import Verif.Spec.Report
import Verif.Proofs.Report
import Verif.Proofs.Hush
import Verif.Proofs.ReportRun
import Verif.Proofs.ReportWhole
import Verif.Spec.ReportLoad
import Verif.Proofs.ReportLoad
import Verif.Proofs.ReportLast
import Verif.Props.Report
import Verif.Spec.Follow
import Verif.Proofs.Follow
import Verif.Proofs.FollowReport
import Verif.Props.Follow
import Verif.Model.Normal
import Verif.Model.Turn
import Verif.Spec.Normal
import Verif.Spec.Turn
import Verif.Proofs.Normal
import Verif.Proofs.NormalErr
import Verif.Proofs.NormalVec
import Verif.Props.Normal
import Verif.Model.Examples
import Verif.Model.ExampleApi
import Verif.Spec.BuildingExample
import Verif.Proofs.PlainPlan
import Verif.Props.Examples
import Verif.Props.BuildingExample
import Verif.Spec.Says
import Verif.Proofs.Says
import Verif.Props.Says
import Verif.Spec.Exchange
import Verif.Proofs.Exchange
import Verif.Proofs.ExchangeParam
import Verif.Proofs.ExchangeFld
import Verif.Proofs.ExchangeFile
import Verif.Props.Exchange
import Verif.Spec.Conform
import Verif.Proofs.Conform
import Verif.Props.Conform
import Verif.Spec.Legible
import Verif.Proofs.Legible
import Verif.Proofs.LegibleKinds
import Verif.Proofs.LegibleRun
import Verif.Props.Legible
import Verif.Props.Outcome
import Verif.Model.Derive
import Verif.Model.Declarations
import Verif.Spec.Derive
import Verif.Proofs.Derive
import Verif.Proofs.DeriveFields
import Verif.Props.Derive
import Verif.Spec.RecordRead
import Verif.Proofs.Depth
import Verif.Proofs.Cut
import Verif.Proofs.RecordRead
import Verif.Proofs.RecordRows
import Verif.Props.RecordRead
import Verif.Spec.Resave
import Verif.Proofs.ResaveClean
import Verif.Proofs.ResaveFld
import Verif.Props.Resave
import Verif.Props.Overflow
import Verif.Model.Spin
import Verif.Spec.Spin
import Verif.Proofs.Spin
import Verif.Proofs.SpinTurn
import Verif.Props.Spin
import Verif.Spec.Motion
import Verif.Props.Motion
import Verif.Spec.Signed
import Verif.Proofs.Signed
import Verif.Props.Signed
import Verif.Spec.Through
import Verif.Proofs.Through
import Verif.Props.Through
import Verif.Spec.Edits
import Verif.Proofs.Edits
import Verif.Props.Edits
import Verif.Model.Output
import Verif.Spec.Output
import Verif.Proofs.Output
import Verif.Props.Output
import Verif.Spec.CutOff
import Verif.Proofs.CutOff
import Verif.Proofs.CutTexts
import Verif.Props.CutOff
import Verif.Spec.Renumber
import Verif.Spec.Beside
import Verif.Proofs.Renumber
import Verif.Proofs.Beside
import Verif.Props.Renumber
import Verif.Props.Beside
import Verif.Spec.SameFile
import Verif.Proofs.SameFile
import Verif.Props.SameFile
import Verif.Spec.LineEnds
import Verif.Proofs.LineEnds
import Verif.Props.LineEnds
import Verif.Spec.HandEdit
import Verif.Proofs.HandEdit
import Verif.Props.HandEdit
import Verif.Spec.Rewrite
import Verif.Proofs.Rewrite
import Verif.Props.Rewrite
import Verif.Spec.Apart
import Verif.Props.Apart
import Verif.Model.FromFile
import Verif.Spec.Utf8
import Verif.Proofs.Utf8
import Verif.Props.FromFile
import Verif.Model.CheckError
import Verif.Spec.CheckError
import Verif.Proofs.CheckError
import Verif.Props.CheckError
import Verif.Model.CheckMessage
import Verif.Spec.CheckMessage
import Verif.Proofs.CheckMessage
import Verif.Props.CheckMessage
