import Verif.Model.Base
import Verif.Model.Debug
import Verif.Model.DebugPretty
import Verif.Model.Fmt
import Verif.Model.Lib
import Verif.Model.Release
import Verif.Model.Topic
import Verif.Model.Trace
import Verif.Model.Usize
import Verif.Model.UsizeFrame
import Verif.Model.UsizeWrite
import Verif.Model.V4
import Verif.Model.V5Base
import Verif.Model.V5Connect
import Verif.Model.V5Packets
import Verif.Model.V5Shared
import Verif.Spec.Agree
import Verif.Spec.Answer
import Verif.Spec.Chain
import Verif.Spec.Client
import Verif.Spec.Codes
import Verif.Spec.Cross
import Verif.Spec.Demand
import Verif.Spec.Direct
import Verif.Spec.DirectLength
import Verif.Spec.Dual
import Verif.Spec.Errors
import Verif.Spec.ErrorsV5
import Verif.Spec.Essence
import Verif.Spec.Flags
import Verif.Spec.Gateway
import Verif.Spec.Len
import Verif.Spec.Mount
import Verif.Spec.Output
import Verif.Spec.Overlap
import Verif.Spec.Patch
import Verif.Spec.Pieces
import Verif.Spec.Queue
import Verif.Spec.Received
import Verif.Spec.Relay
import Verif.Spec.Repeat
import Verif.Spec.Route
import Verif.Spec.Schedule
import Verif.Spec.Size
import Verif.Spec.Skim
import Verif.Spec.Split
import Verif.Spec.Std
import Verif.Spec.Steps
import Verif.Spec.Strict
import Verif.Spec.Strict5
import Verif.Spec.Tag
import Verif.Spec.Terms
import Verif.Spec.Topic
import Verif.Spec.Torn
import Verif.Spec.Unicode
import Verif.Spec.V4
import Verif.Spec.V5
import Verif.Spec.Vocabulary
import Verif.Spec.WillPublish
import Verif.Spec.Wire
import Verif.Spec.Written
import Verif.Proof.Cross
import Verif.Proof.Debug
import Verif.Proof.DebugPretty
import Verif.Proof.Demand
import Verif.Proof.Direct
import Verif.Proof.Dispatch
import Verif.Proof.Errors
import Verif.Proof.Essence
import Verif.Proof.Essence5
import Verif.Proof.Frame
import Verif.Proof.Good
import Verif.Proof.Grow
import Verif.Proof.Monad
import Verif.Proof.Prefix
import Verif.Proof.Prim
import Verif.Proof.Relay
import Verif.Proof.Release
import Verif.Proof.Stream
import Verif.Proof.Strict5
import Verif.Proof.Topic
import Verif.Proof.TopicCover
import Verif.Proof.Unicode
import Verif.Proof.Uniform
import Verif.Proof.Usize
import Verif.Proof.UsizeWrite
import Verif.Proof.V4Errors
import Verif.Proof.V4Read
import Verif.Proof.V4Spec
import Verif.Proof.V4Total
import Verif.Proof.V4Wr
import Verif.Proof.V4Write
import Verif.Proof.V5Chunk
import Verif.Proof.V5Connect4
import Verif.Proof.V5Errors
import Verif.Proof.V5Exact
import Verif.Proof.V5Prop
import Verif.Proof.V5Reach
import Verif.Proof.V5Read
import Verif.Proof.V5Readable
import Verif.Proof.V5Section
import Verif.Proof.V5Sets
import Verif.Proof.V5SetsSub
import Verif.Proof.V5Shared
import Verif.Proof.V5Spec
import Verif.Proof.V5Stream
import Verif.Proof.V5Total
import Verif.Proof.V5Wr
import Verif.Proof.V5Write
import Verif.Proof.Vbi
import Verif.Proof.Vocabulary
import Verif.Proof.Wr
import Verif.Proof.WriteAll
import Verif.Props.Agree
import Verif.Props.Answer
import Verif.Props.Buffer
import Verif.Props.Build
import Verif.Props.Build2
import Verif.Props.Candidates
import Verif.Props.Chain
import Verif.Props.Client
import Verif.Props.Cross
import Verif.Props.Cross2
import Verif.Props.Debug
import Verif.Props.DebugPretty
import Verif.Props.Direct
import Verif.Props.DirectExact
import Verif.Props.DirectLength
import Verif.Props.Dual
import Verif.Props.EndToEnd
import Verif.Props.Errors
import Verif.Props.Flags
import Verif.Props.Fmt
import Verif.Props.Framing
import Verif.Props.Gateway
import Verif.Props.Grow
import Verif.Props.HeaderOrder
import Verif.Props.InStep
import Verif.Props.Len
import Verif.Props.Look
import Verif.Props.Misc
import Verif.Props.Mount
import Verif.Props.NoCodes
import Verif.Props.Opaque
import Verif.Props.Output
import Verif.Props.Overlap
import Verif.Props.Patch
import Verif.Props.PatchProps
import Verif.Props.Pieces
import Verif.Props.Queue
import Verif.Props.Received
import Verif.Props.Relay
import Verif.Props.Release
import Verif.Props.Route
import Verif.Props.SameBytes
import Verif.Props.Schedule
import Verif.Props.Size
import Verif.Props.SizeLimit
import Verif.Props.Skim
import Verif.Props.Split
import Verif.Props.Std
import Verif.Props.StdSend
import Verif.Props.Steps
import Verif.Props.Strict
import Verif.Props.Strict5
import Verif.Props.StrictSent
import Verif.Props.Stripped
import Verif.Props.Tag
import Verif.Props.Topic
import Verif.Props.TopicAny
import Verif.Props.TopicCanon
import Verif.Props.TopicCover
import Verif.Props.TopicParts
import Verif.Props.TopicSelect
import Verif.Props.TopicUnion
import Verif.Props.Torn
import Verif.Props.Truncate
import Verif.Props.Unicode
import Verif.Props.Usize
import Verif.Props.UsizeFrame
import Verif.Props.V4Read
import Verif.Props.V4RoundTrip
import Verif.Props.V4Write
import Verif.Props.V5Read
import Verif.Props.V5RoundTrip
import Verif.Props.V5Sections
import Verif.Props.V5Will
import Verif.Props.V5Write
import Verif.Props.Vocabulary
import Verif.Props.WillPublish
import Verif.Props.WriteExact
import Verif.Tests.RepoTests
import Verif.Tests.Witness
