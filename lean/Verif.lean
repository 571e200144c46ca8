import Verif.Py
import Verif.Model.Board
import Verif.Model.Editor
import Verif.Lemmas.Rows
import Verif.Spec.Rules
import Verif.Spec.BoardView
import Verif.Lemmas.Moves
import Verif.Props.Moves
import Verif.Model.Heap
import Verif.Props.Board
import Verif.Props.Score
import Verif.Props.Values
import Verif.Model.Text
import Verif.Lemmas.Text
import Verif.Model.Util
import Verif.Props.Util
import Verif.Model.Base64
import Verif.Model.GnubgId
import Verif.Lemmas.Base64
import Verif.Lemmas.GnubgId
import Verif.Spec.GnubgId
import Verif.Props.GnubgId
import Verif.Model.Xgid
import Verif.Model.DbByte
import Verif.Model.Fibs
import Verif.Spec.Encodings
import Verif.Lemmas.Split
import Verif.Props.Xgid
import Verif.Props.DbByte
import Verif.Props.Fibs
import Verif.Model.MoveFactory
import Verif.Spec.Dice
import Verif.Spec.Turn
import Verif.Lemmas.MoveFactory
import Verif.Lemmas.MultiMove
import Verif.Lemmas.Append
import Verif.Lemmas.Pickup
import Verif.Lemmas.Exchange
import Verif.Lemmas.Turn
import Verif.Lemmas.PickupCases
import Verif.Lemmas.MultiComplete
import Verif.Props.MoveFactory
import Verif.Props.Pickup
import Verif.Props.Combined
import Verif.Spec.Actions
import Verif.Props.Actions
import Verif.Model.Bearoff
import Verif.Spec.Bearoff
import Verif.Spec.Count
import Verif.Lemmas.Bearoff
import Verif.Lemmas.Nori
import Verif.Lemmas.Count
import Verif.Props.Bearoff
import Verif.Props.Count
import Verif.Model.Stat
import Verif.Spec.Stat
import Verif.Lemmas.Stat
import Verif.Props.Stat
import Verif.Model.Regex
import Verif.Model.CookieTable
import Verif.Model.Cookie
import Verif.Spec.Cookie
import Verif.Lemmas.Cookie
import Verif.Lemmas.Monster
import Verif.Props.Cookie
import Verif.Model.Session
import Verif.Spec.Session
import Verif.Props.Session
import Verif.Model.Threads
import Verif.Spec.Threads
import Verif.Lemmas.Threads
import Verif.Props.Threads
import Verif.Model.Snowie
import Verif.Spec.Snowie
import Verif.Props.Snowie
import Verif.Model.SnowieLine
import Verif.Spec.SnowieLine
import Verif.Lemmas.Names
import Verif.Lemmas.SnowieLine
import Verif.Props.SnowieLine
import Verif.Props.Doctree
import Verif.Model.Image
import Verif.Spec.Style
import Verif.Props.Style
import Verif.Spec.Picture
import Verif.Lemmas.Picture
import Verif.Props.Picture
import Verif.Model.Pattern
import Verif.Model.Wiki
import Verif.Spec.Wiki
import Verif.Lemmas.Pattern
import Verif.Lemmas.Wiki
import Verif.Lemmas.WikiLine
import Verif.Lemmas.WikiText
import Verif.Lemmas.WikiParse
import Verif.Lemmas.WikiHtml
import Verif.Props.Wiki
import Verif.Lemmas.WikiLinks
import Verif.Props.WikiLinks
import Verif.Model.WikiFormatter
import Verif.Lemmas.WikiFormatter
import Verif.Props.WikiFormatter
import Verif.Model.Css
import Verif.Spec.Css
import Verif.Lemmas.Heads
import Verif.Lemmas.Css
import Verif.Props.Css
import Verif.Model.FibsText
import Verif.Spec.FibsText
import Verif.Lemmas.FibsText
import Verif.Props.FibsText
import Verif.Model.Draw
import Verif.Spec.Draw
import Verif.Lemmas.Draw
import Verif.Props.Draw
import Verif.Model.Theme.Deutsche
import Verif.Model.Theme.Flower
import Verif.Model.Theme.Kotobuki
import Verif.Model.Theme.Matrix
import Verif.Model.Theme.Minimal
import Verif.Model.Theme.Nature
import Verif.Model.Theme.Neon
import Verif.Model.Theme.Safari
import Verif.Lemmas.Theme
import Verif.Lemmas.Fits
import Verif.Lemmas.Theme.Deutsche
import Verif.Lemmas.Theme.Flower
import Verif.Lemmas.Theme.Kotobuki
import Verif.Lemmas.Theme.Matrix
import Verif.Lemmas.Theme.Minimal
import Verif.Lemmas.Theme.Nature
import Verif.Lemmas.Theme.Neon
import Verif.Lemmas.Theme.Safari
import Verif.Spec.Theme
import Verif.Props.Theme
import Verif.Spec.Layout
import Verif.Spec.Palette
import Verif.Lemmas.Layout
import Verif.Lemmas.LayoutTree
import Verif.Lemmas.Plain
import Verif.Lemmas.Legible
import Verif.Props.Layout
import Verif.Model.Mag
import Verif.Spec.Mag
import Verif.Lemmas.Mag
import Verif.Lemmas.MagSize
import Verif.Props.Mag
import Verif.Model.Tracer
import Verif.Spec.Tracer
import Verif.Lemmas.Tracer
import Verif.Props.Tracer
import Verif.Model.Address
import Verif.Spec.Address
import Verif.Lemmas.Address
import Verif.Props.Address
import Verif.Model.HtmlCompare
import Verif.Spec.HtmlCompare
import Verif.Lemmas.HtmlCompare
import Verif.Props.HtmlCompare
import Verif.Model.Device
import Verif.Spec.Device
import Verif.Lemmas.Device
import Verif.Props.Device
import Verif.Props.Painted
import Verif.Model.References
import Verif.Props.References
import Verif.Check.Trees
import Verif.Check.Trees.Deutsche
import Verif.Check.Trees.Flower
import Verif.Check.Trees.Kotobuki
import Verif.Check.Trees.Minimal
import Verif.Check.Trees.Nature
import Verif.Check.Trees.Neon
import Verif.Check.Doc
import Verif.Check.Encoding
import Verif.Check.Results
import Verif.Model.Xml
import Verif.Spec.Xml
import Verif.Lemmas.XmlTree
import Verif.Lemmas.XmlRead
import Verif.Lemmas.XmlPlain
import Verif.Props.Xml
import Verif.Check.Dtd
import Verif.Props.Convert
import Verif.Model.MoveText
import Verif.Spec.MoveText
import Verif.Props.MoveText
import Verif.Model.BearoffDb
import Verif.Spec.BearoffDb
import Verif.Props.BearoffDb
import Verif.Model.AnalysisTable
import Verif.Spec.AnalysisTable
import Verif.Props.AnalysisTable
import Verif.Check.AnalysisTable
import Verif.Check.Regression
import Verif.Model.Fuzzing
import Verif.Spec.Fuzzing
import Verif.Props.Fuzzing
import Verif.Model.Replay
import Verif.Props.Replay
import Verif.Model.WxDevice
import Verif.Props.WxDevice
import Verif.Check.Records
import Verif.Check.Fibs
import Verif.Check.Image
import Verif.Spec.Cards
import Verif.Lemmas.Cards
import Verif.Lemmas.Safari
import Verif.Lemmas.SafariTree
import Verif.Lemmas.SafariLegible
import Verif.Lemmas.Matrix
import Verif.Lemmas.MatrixTree
import Verif.Lemmas.MatrixLegible
import Verif.Model.Knockout
import Verif.Spec.Knockout
import Verif.Lemmas.Knockout
import Verif.Props.Knockout
import Verif.Model.TestWriter
import Verif.Spec.TestWriter
import Verif.Lemmas.TestWriter
import Verif.Props.TestWriter
import Verif.Spec.Course
import Verif.Lemmas.Course
import Verif.Props.Course
import Verif.Model.FibsShort
import Verif.Spec.FibsBoard
import Verif.Lemmas.FibsBoard
import Verif.Props.FibsBoard
import Verif.Spec.Suggested
import Verif.Lemmas.Suggested
import Verif.Props.Suggested
import Verif.Props.CourseMore
import Verif.Props.Always
import Verif.Spec.Document
import Verif.Lemmas.DocTokens
import Verif.Lemmas.DocMarks
import Verif.Lemmas.DocTree
import Verif.Lemmas.DocEdit
import Verif.Lemmas.DocLines
import Verif.Lemmas.DocBlocks
import Verif.Lemmas.DocQuotes
import Verif.Lemmas.DocTables
import Verif.Lemmas.DocItems
import Verif.Lemmas.DocCode
import Verif.Spec.Reading
import Verif.Lemmas.Reading
import Verif.Props.Document
import Verif.Props.Questions
import Verif.Spec.Silence
import Verif.Lemmas.Silence
import Verif.Lemmas.Delivery
import Verif.Props.Silence
import Verif.Props.Delivery
import Verif.Spec.Alone
import Verif.Lemmas.Alone
import Verif.Props.Alone
import Verif.Model.Contents
import Verif.Spec.Contents
import Verif.Lemmas.Contents
import Verif.Lemmas.WikiKept
import Verif.Lemmas.ContentsPage
import Verif.Lemmas.ContentsLinks
import Verif.Props.Contents
import Verif.Spec.Ladders
import Verif.Lemmas.Ladders
import Verif.Lemmas.LadderSteps
import Verif.Model.BearoffTests
import Verif.Spec.BearoffTests
import Verif.Lemmas.BearoffTests
import Verif.Props.BearoffTests
import Verif.Spec.Mirror
import Verif.Lemmas.Mirror
import Verif.Props.Mirror
import Verif.Props.Fair
import Verif.Spec.Fair
import Verif.Lemmas.Fair
import Verif.Model.Setup
import Verif.Spec.Setup
import Verif.Lemmas.Setup
import Verif.Props.Setup
import Verif.Spec.Files
import Verif.Lemmas.Files
import Verif.Props.Files
import Verif.Spec.Race
import Verif.Lemmas.Race
import Verif.Props.Race
import Verif.Model.SnowieDigest
import Verif.Spec.SnowieOrder
import Verif.Lemmas.SnowieOrder
import Verif.Props.SnowieOrder
import Verif.Spec.Nesting
import Verif.Lemmas.Nesting
import Verif.Lemmas.NestingEdit
import Verif.Lemmas.NestingLine
import Verif.Lemmas.NestingParse
import Verif.Lemmas.NestingHtml
import Verif.Props.Nesting
import Verif.Spec.Ambiguous
import Verif.Spec.Message
import Verif.Lemmas.Overlap
import Verif.Lemmas.Ambiguous
import Verif.Lemmas.Message
import Verif.Props.Ambiguous
import Verif.Props.Message
import Verif.Lemmas.PickupRewound
import Verif.Props.PickupRules
import Verif.Check.GnubgGame
import Verif.Model.Import
import Verif.Model.ImportTable
import Verif.Spec.Import
import Verif.Lemmas.ImportRegion
import Verif.Lemmas.Import
import Verif.Lemmas.ImportChecks.Base
import Verif.Lemmas.ImportChecks.Styles1
import Verif.Lemmas.ImportChecks.Styles2
import Verif.Lemmas.ImportChecks.Image
import Verif.Lemmas.ImportChecks.Doc
import Verif.Lemmas.ImportChecks.Other
import Verif.Lemmas.ImportChecks.All
import Verif.Props.Imports
import Verif.Spec.SessionChanges
import Verif.Props.SessionChanges
import Verif.Model.RatingFloat
import Verif.Spec.RatingFloat
import Verif.Lemmas.RatingFloat
import Verif.Props.RatingFloat
import Verif.Spec.CombinedOff
import Verif.Lemmas.MultiOff
import Verif.Props.CombinedOff
import Verif.Model.Telnet
import Verif.Spec.Telnet
import Verif.Lemmas.Telnet
import Verif.Props.Telnet
import Verif.Spec.Mixed
import Verif.Lemmas.MixedPatterns
import Verif.Lemmas.MixedLinks
import Verif.Lemmas.MixedTokens
import Verif.Lemmas.MixedLines
import Verif.Lemmas.MixedDocs
import Verif.Props.Mixed
import Verif.Model.Contest
import Verif.Spec.Contest
import Verif.Lemmas.Contest
import Verif.Props.Contest
import Verif.Spec.Wire
import Verif.Lemmas.Wire
import Verif.Props.Wire
import Verif.Model.HandicapFloat
import Verif.Spec.HandicapFloat
import Verif.Lemmas.HandicapFloat
import Verif.Props.HandicapFloat
import Verif.Spec.EndToEnd
import Verif.Lemmas.Deliver
import Verif.Lemmas.EndToEnd
import Verif.Props.EndToEnd
import Verif.Spec.Replayed
import Verif.Props.Replayed
import Verif.Model.Markup
import Verif.Spec.Markup
import Verif.Props.Markup
import Verif.Model.Sessions
import Verif.Spec.Sessions
import Verif.Lemmas.Sessions
import Verif.Props.Sessions
import Verif.Model.FormatScript
import Verif.Spec.FormatScript
import Verif.Props.FormatScript
import Verif.Model.Locks
import Verif.Spec.Locks
import Verif.Lemmas.Locks
import Verif.Props.Locks
import Verif.Spec.Installed
import Verif.Lemmas.Installed
import Verif.Props.Installed
import Verif.Spec.Requirements
import Verif.Lemmas.Requirements
import Verif.Props.Requirements
import Verif.Model.Make
import Verif.Spec.Make
import Verif.Props.Make
import Verif.Model.Shrink
import Verif.Spec.Shrink
import Verif.Lemmas.Shrink
import Verif.Props.Shrink
import Verif.Spec.Nearest
import Verif.Props.Nearest
import Verif.Props.Limits
import Verif.Props.CookieNames
