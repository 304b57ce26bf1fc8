import Verif.Norm
import Verif.NormTheory
import Verif.StreamSafe
import Verif.Tables.Repo
import Verif.Tables.Unicode
import Verif.Tables.Gcb
import Verif.Tables.Trees
import Verif.Ucd15
import Verif.Internals
import Verif.TextLaws
import Verif.CharData
import Verif.CharChecks
import Verif.Ucd15Text
import Verif.Splitting
import Verif.ChainTheory
import Verif.Utf8
import Verif.Reader
import Verif.ReaderTheory
import Verif.CtlTheory
import Verif.ReaderRuns
import Verif.ReaderOutput
import Verif.Spec
import Verif.SpecRefine
import Verif.ReaderSpec
import Verif.TokenTheory
import Verif.ReaderLive
import Verif.ReaderExact
import Verif.ReaderFacts
import Verif.SpecLaws
import Verif.ReadStd
import Verif.Props.ReadExact
import Verif.Props.Reader
import Verif.Writer
import Verif.WriterTheory
import Verif.WriterRuns
import Verif.WriterPlain
import Verif.Ucd15Start
import Verif.HeadTheory
import Verif.WriterFacts
import Verif.WriterModes
import Verif.WriterReader
import Verif.Props.Writer
import Verif.Strings
import Verif.SliceTheory
import Verif.LossyTheory
import Verif.LossyWhole
import Verif.StringTheory
import Verif.SpecString
import Verif.Order
import Verif.Props.Strings
import Verif.Tables.Doc
import Verif.IsolationTheory
import Verif.TableTheory
import Verif.Props.Tables
import Verif.Lines
import Verif.Props.Lines
import Verif.Props.LastLine
import Verif.Copy
import Verif.Props.Copy
import Verif.Props.CopyStatus
import Verif.Props.Precise
import Verif.Duplexer
import Verif.Props.Duplexer
import Verif.Tables.Compat
import Verif.StreamForm
import Verif.NfcSpec
import Verif.Props.Unicode
import Verif.DocSpec
import Verif.Props.Doc
import Verif.Utf8Lossy
import Verif.JoinTheory
import Verif.Props.Join
import Verif.BytesIO
import Verif.Props.Bytes
import Verif.CountTheory
import Verif.Props.Lossless
import Verif.RepoTests.Runs
import Verif.RepoTests.Lossy
import Verif.RepoTests.Samples
import Verif.Utf8Stream
import Verif.WriteMany
import Verif.Props.Pieces
import Verif.Tables.Cluster
import Verif.ClusterSpec
import Verif.Props.Clusters
import Verif.LengthTheory
import Verif.HoldTheory
import Verif.Search
import Verif.Props.Everyday
import Verif.ExactCut
import Verif.ExactWhole
import Verif.Props.Exact
import Verif.Props.Errors
import Verif.IoCopy
import Verif.Props.Cat
import Verif.Pull
import Verif.PullTheory
import Verif.PullReader
import Verif.PullWriter
import Verif.Props.Pull
import Verif.Props.Sharp
import Verif.ExactDefault
import Verif.Props.Fill
import Verif.Cats
import Verif.Props.Cats
import Verif.Fuzz
import Verif.Props.Fuzz
import Verif.CallErrors
import Verif.Props.CallErrors
import Verif.Props.Conserve
import Verif.Stability
import Verif.NewerData
import Verif.Props.Stability
import Verif.Tables.CjkInverse
import Verif.Cjk
import Verif.KeptTheory
import Verif.Props.Cjk
import Verif.IntoInner
import Verif.Props.IntoInner
import Verif.DocEscape
import Verif.DocModes
import Verif.Props.Escapes
import Verif.Props.PrivateUse
import Verif.StrictStream
import Verif.Props.StrictStream
import Verif.Equivalence
import Verif.Props.Equivalence
import Verif.CutPlaces
import Verif.Props.CutPlaces
import Verif.Literals
import Verif.Props.Literals
import Verif.DocExample
import Verif.Props.DocExample
import Verif.CutAdds
import Verif.Props.CutAdds
import Verif.DocScalars
import Verif.Props.DocScalars
import Verif.Escape
import Verif.Props.Escaping
import Verif.Props.Image
import Verif.Layered
import Verif.Props.Layered
import Verif.LayeredReader
import Verif.Props.LayeredReader
import Verif.Props.Sharper
import Verif.Tables.Eq
import Verif.Equal
import Verif.Props.Equal
import Verif.RepeatTheory
import Verif.Color
import Verif.Props.Color
import Verif.Props.Prompt
import Verif.Props.Abandon
import Verif.Props.PiecesExact
import Verif.Utf16
import Verif.Props.Utf16
import Verif.Pad
import Verif.Props.Pad
import Verif.Props.Generate
import Verif.Props.DuplexColor
import Verif.Variants
import Verif.Props.Variants
import Verif.Props.Position
import Verif.Props.Push
import Verif.HandOver
import Verif.Props.HandOver
import Verif.CutIsolated
import Verif.Props.CutIsolated
import Verif.Props.Mark
import Verif.Props.StartColor
import Verif.CutExact
import Verif.Props.CutExact
import Verif.Props.DocExact
import Verif.Props.Settled
import Verif.Lockstep
import Verif.LockstepForms
import Verif.LockstepPlaces
import Verif.Props.Lockstep
import Verif.Stretches
import Verif.LineCut
import Verif.Props.Escaped
import Verif.Props.LineCut
import Verif.TextFile
import Verif.Props.TextFile
import Verif.LockstepMap
import Verif.Props.Prepared
import Verif.Props.Background
import Verif.Tables.Terminal
import Verif.Props.Transcript
import Verif.WriterCrlf
import Verif.Props.Crlf
import Verif.ReaderCount
import Verif.Props.Calls
import Verif.Props.OneWrite
import Verif.Props.LineTools
import Verif.SearchMore
import Verif.Props.SearchMore
import Verif.LayeredColor
import Verif.Props.LayeredColor
import Verif.Sizes
import Verif.Props.Sizes
import Verif.Interrupted
import Verif.Props.Interrupted
import Verif.Fate
import Verif.Props.Fate
import Verif.Kinds
import Verif.Talk
import Verif.Props.Talk
import Verif.LineState
import Verif.Props.DuplexExact
import Verif.TalkPieces
import Verif.Message
import Verif.Props.Messages
import Verif.Again
import Verif.Props.Again
import Verif.Keys
import Verif.Props.Keys
import Verif.Early
import Verif.Props.Early
import Verif.Ways
import Verif.Props.Ways
import Verif.CutShort
import Verif.Props.CutShort
import Verif.Window
import Verif.Props.Window
import Verif.Fields
import Verif.Delims
import Verif.Props.Fields
import Verif.Props.Template
import Verif.Props.Pipes
import Verif.Disk
import Verif.Props.Disk
import Verif.Crash
import Verif.Props.Crash
import Verif.Damage
import Verif.Props.Damage
import Verif.Props.Reports
import Verif.Log
import Verif.Props.Log
import Verif.Buffered
import Verif.Props.Buffered
import Verif.BufferedReader
import Verif.Props.BufferedReader
import Verif.BufferedLines
import Verif.Props.BufferedLines
import Verif.LineBuffered
import Verif.Props.LineBuffered
import Verif.Props.Pipe
import Verif.Take
import Verif.Props.Take
import Verif.Chain
import Verif.Props.Chain
