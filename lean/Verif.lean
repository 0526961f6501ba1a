import Verif.Conform.Checks
import Verif.Conform.Examples
import Verif.Conform.Properties
import Verif.Conform.Regexes
import Verif.Conform.Statements
import Verif.Conform.Storage
import Verif.Model.Answers
import Verif.Model.Checks
import Verif.Model.Database
import Verif.Model.Export
import Verif.Model.Find
import Verif.Model.Fixtures
import Verif.Model.Gdbms
import Verif.Model.Indexes
import Verif.Model.Log
import Verif.Model.Make
import Verif.Model.MakePre
import Verif.Model.Messages
import Verif.Model.Names
import Verif.Model.Parse
import Verif.Model.Parsed
import Verif.Model.PatternTexts
import Verif.Model.Props
import Verif.Model.Query
import Verif.Model.Regexes
import Verif.Model.Screen
import Verif.Model.Shell
import Verif.Model.Terminal
import Verif.Model.WiggleNumber
import Verif.Proofs.Accept
import Verif.Proofs.AcceptQuery
import Verif.Proofs.AcceptStmt
import Verif.Proofs.Answers
import Verif.Proofs.Backtrack
import Verif.Proofs.BacktrackLow
import Verif.Proofs.Batch
import Verif.Proofs.Blamed
import Verif.Proofs.Chain
import Verif.Proofs.Checks
import Verif.Proofs.Concurrent
import Verif.Proofs.Consistent
import Verif.Proofs.Copied
import Verif.Proofs.Crash
import Verif.Proofs.Criteria
import Verif.Proofs.Damage
import Verif.Proofs.Dict
import Verif.Proofs.Disk
import Verif.Proofs.Dropped
import Verif.Proofs.Durable
import Verif.Proofs.EndToEnd
import Verif.Proofs.Explained
import Verif.Proofs.Export
import Verif.Proofs.Extract
import Verif.Proofs.Faults
import Verif.Proofs.Files
import Verif.Proofs.Fixtures
import Verif.Proofs.Gdbms
import Verif.Proofs.History
import Verif.Proofs.Isolation
import Verif.Proofs.Json
import Verif.Proofs.JsonExt
import Verif.Proofs.JsonSer
import Verif.Proofs.JsonStr
import Verif.Proofs.JsonText
import Verif.Proofs.Keywords
import Verif.Proofs.Layout
import Verif.Proofs.Legal
import Verif.Proofs.ListText
import Verif.Proofs.Literal
import Verif.Proofs.LiteralInv
import Verif.Proofs.Log
import Verif.Proofs.LogSeen
import Verif.Proofs.Make
import Verif.Proofs.MakeBatch
import Verif.Proofs.MakeNodes
import Verif.Proofs.MakePre
import Verif.Proofs.MakeStored
import Verif.Proofs.Messages
import Verif.Proofs.Names
import Verif.Proofs.NamesFlat
import Verif.Proofs.Order
import Verif.Proofs.Page
import Verif.Proofs.Parse
import Verif.Proofs.Paths
import Verif.Proofs.Pattern
import Verif.Proofs.PatternTexts
import Verif.Proofs.Pause
import Verif.Proofs.PyText
import Verif.Proofs.Query
import Verif.Proofs.Race
import Verif.Proofs.ReText
import Verif.Proofs.ReadOff
import Verif.Proofs.Reader
import Verif.Proofs.ReaderQuery
import Verif.Proofs.Regex
import Verif.Proofs.Rel
import Verif.Proofs.Report
import Verif.Proofs.Row
import Verif.Proofs.Screen
import Verif.Proofs.Separators
import Verif.Proofs.Slots
import Verif.Proofs.Spelling
import Verif.Proofs.Storage
import Verif.Proofs.Terminal
import Verif.Proofs.Typed
import Verif.Proofs.Unseen
import Verif.Proofs.Usable
import Verif.Proofs.Values
import Verif.Proofs.Wild
import Verif.Proofs.World
import Verif.Props.Actual
import Verif.Props.Answers
import Verif.Props.Backtrack
import Verif.Props.Batch
import Verif.Props.Clock
import Verif.Props.Concurrent
import Verif.Props.Copied
import Verif.Props.Criteria
import Verif.Props.Damage
import Verif.Props.Disk
import Verif.Props.Dropped
import Verif.Props.DroppedOnly
import Verif.Props.Durable
import Verif.Props.EndToEnd
import Verif.Props.Exact
import Verif.Props.ExactLiteral
import Verif.Props.Export
import Verif.Props.Faults
import Verif.Props.Fixtures
import Verif.Props.Gdbms
import Verif.Props.History
import Verif.Props.Index
import Verif.Props.JsonText
import Verif.Props.Keywords
import Verif.Props.Layout
import Verif.Props.Legal
import Verif.Props.ListText
import Verif.Props.Literal
import Verif.Props.Log
import Verif.Props.LogLevels
import Verif.Props.Loose
import Verif.Props.Make
import Verif.Props.Messages
import Verif.Props.Names
import Verif.Props.Order
import Verif.Props.Page
import Verif.Props.Parse
import Verif.Props.Paths
import Verif.Props.Pattern
import Verif.Props.PatternTexts
import Verif.Props.Pause
import Verif.Props.Phantom
import Verif.Props.PyText
import Verif.Props.Query
import Verif.Props.Quoted
import Verif.Props.ReText
import Verif.Props.ReadOff
import Verif.Props.Reader
import Verif.Props.Refused
import Verif.Props.Report
import Verif.Props.Reword
import Verif.Props.Row
import Verif.Props.Ruined
import Verif.Props.Screen
import Verif.Props.Separators
import Verif.Props.Spelled
import Verif.Props.Storage
import Verif.Props.Terminal
import Verif.Props.Torn
import Verif.Props.Total
import Verif.Props.Typed
import Verif.Props.Usable
import Verif.Props.Values
import Verif.Props.Wild
import Verif.Props.World
import Verif.Py.Basic
import Verif.Py.Files
import Verif.Py.Glob
import Verif.Py.Json
import Verif.Py.Literal
import Verif.Py.Num
import Verif.Py.ReSyntax
import Verif.Py.Regex
import Verif.Py.Tree
import Verif.Py.Value
import Verif.Spec.Actual
import Verif.Spec.Answers
import Verif.Spec.Backtrack
import Verif.Spec.Batch
import Verif.Spec.Concurrent
import Verif.Spec.Copied
import Verif.Spec.Criteria
import Verif.Spec.Damage
import Verif.Spec.Demo
import Verif.Spec.DemoFS
import Verif.Spec.DemoMake
import Verif.Spec.Disk
import Verif.Spec.Durable
import Verif.Spec.EndToEnd
import Verif.Spec.Export
import Verif.Spec.Faults
import Verif.Spec.Fixtures
import Verif.Spec.Gdbms
import Verif.Spec.History
import Verif.Spec.JsonText
import Verif.Spec.Keywords
import Verif.Spec.Layout
import Verif.Spec.ListText
import Verif.Spec.Literal
import Verif.Spec.Log
import Verif.Spec.Make
import Verif.Spec.Messages
import Verif.Spec.Names
import Verif.Spec.Order
import Verif.Spec.Page
import Verif.Spec.Parse
import Verif.Spec.Paths
import Verif.Spec.Pattern
import Verif.Spec.PatternTexts
import Verif.Spec.PyText
import Verif.Spec.Query
import Verif.Spec.Quoted
import Verif.Spec.ReText
import Verif.Spec.ReadOff
import Verif.Spec.Reader
import Verif.Spec.Report
import Verif.Spec.Reword
import Verif.Spec.Row
import Verif.Spec.Screen
import Verif.Spec.Separators
import Verif.Spec.Slots
import Verif.Spec.Storage
import Verif.Spec.Terminal
import Verif.Spec.Total
import Verif.Spec.Typed
import Verif.Spec.Unread
import Verif.Spec.Usable
import Verif.Spec.Values
import Verif.Spec.Wild
import Verif.Spec.World
