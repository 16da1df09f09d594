import Verif.Model.Serializer
import Verif.Model.Util
import Verif.Spec.Wire
import Verif.Spec.Args
import Verif.Proof.Put
import Verif.Proof.VarInt
import Verif.Proof.Publish
import Verif.Proof.Connect
import Verif.Proof.Subscribe
import Verif.Props.Header
import Verif.Props.Publish
import Verif.Props.Connect
import Verif.Props.Subscribe
import Verif.Props.Buffers
import Verif.Props.Acks
import Verif.Model.State
import Verif.Model.StateRun
import Verif.Spec.InFlight
import Verif.Spec.History
import Verif.Spec.Edges
import Verif.Proof.Records
import Verif.Proof.InFlight
import Verif.Proof.Resend
import Verif.Proof.Edges
import Verif.Props.State
import Verif.Model.Topic
import Verif.Spec.Topic
import Verif.Proof.Topic
import Verif.Proof.TopicLevels
import Verif.Props.Topic
import Verif.Model.World
import Verif.Model.Send
import Verif.Model.Receive
import Verif.Model.Api
import Verif.Spec.Trace
import Verif.Proof.Wp
import Verif.Proof.SendLoop
import Verif.Proof.SendCount
import Verif.Proof.Vectors
import Verif.Proof.Senders
import Verif.Spec.Incoming
import Verif.Spec.Stream
import Verif.Proof.Effects
import Verif.Proof.EffectsRecv
import Verif.Proof.EffectsSend
import Verif.Proof.Incoming
import Verif.Proof.EffectsHandle
import Verif.Proof.Stream
import Verif.Proof.EffectsLoop
import Verif.Proof.EffectsApi
import Verif.Proof.EffectsConnect
import Verif.Proof.EffectsResume
import Verif.Proof.EffectsSession
import Verif.Spec.Calls
import Verif.Proof.Calls
import Verif.Proof.CallFacts
import Verif.Proof.CallWire
import Verif.Props.Example
import Verif.Proof.CallVec
import Verif.Props.Send
import Verif.Spec.Accept
import Verif.Proof.CallStatus
import Verif.Proof.CallConnect
import Verif.Props.Status
import Verif.Props.Init
import Verif.Proof.CallSession
import Verif.Proof.CallConnack
import Verif.Props.Session
import Verif.Spec.KeepAlive
import Verif.Proof.CallKeep
import Verif.Proof.LastTx
import Verif.Props.KeepAlive
import Verif.Spec.Receiving
import Verif.Proof.CallRecv
import Verif.Proof.CallAck
import Verif.Props.Receive
import Verif.Proof.CallMon
import Verif.Props.Delivery
import Verif.Model.Threads
import Verif.Spec.Threads
import Verif.Proof.Threads
import Verif.Proof.ThreadRules
import Verif.Proof.ThreadRecv
import Verif.Proof.ThreadSession
import Verif.Proof.ThreadShared
import Verif.Proof.ThreadPool
import Verif.Props.Threads
import Verif.Spec.Life
import Verif.Proof.CallLife
import Verif.Proof.CallStage
import Verif.Props.Life
import Verif.Spec.Progress
import Verif.Proof.Fast
import Verif.Proof.FastRecv
import Verif.Proof.FastApi
import Verif.Props.Progress
import Verif.Props.Outcomes
import Verif.Spec.Silence
import Verif.Props.Silence
import Verif.Spec.Broker
import Verif.Proof.BrokerNet
import Verif.Proof.BrokerTie
import Verif.Proof.BrokerLink
import Verif.Proof.BrokerCall
import Verif.Proof.BrokerLoop
import Verif.Proof.BrokerConnect
import Verif.Proof.BrokerSession
import Verif.Proof.BrokerRun
import Verif.Props.Broker
import Verif.Proof.InboundTie
import Verif.Proof.InboundLink
import Verif.Proof.InboundTake
import Verif.Proof.InboundCall
import Verif.Proof.InboundConnect
import Verif.Props.Inbound
import Verif.Spec.Packets
import Verif.Proof.PacketsLink
import Verif.Proof.PacketsCall
import Verif.Proof.PacketsLoop
import Verif.Proof.PacketsConnect
import Verif.Proof.PacketsRun
import Verif.Props.Packets
import Verif.Proof.PacketsSound
import Verif.Proof.PacketsOrder
import Verif.Props.Order
import Verif.Proof.PacketsLive
import Verif.Props.Settled
import Verif.Spec.Rounds
import Verif.Proof.RoundsCall
import Verif.Proof.RoundsNotes
import Verif.Proof.RoundsRun
import Verif.Proof.RoundsRead
import Verif.Props.Rounds
import Verif.Proof.ThreadMild
import Verif.Proof.ThreadQos
import Verif.Proof.ThreadOnce
import Verif.Props.ThreadQos
import Verif.Spec.Nested
import Verif.Proof.Nested
import Verif.Props.Nested
import Verif.Spec.Causes
import Verif.Proof.Causes
import Verif.Proof.CausesApi
import Verif.Props.Causes
import Verif.Spec.Codes
import Verif.Proof.Codes
import Verif.Props.Codes
import Verif.Model.Names
import Verif.Spec.Names
import Verif.Props.Names
import Verif.Spec.Ids
import Verif.Proof.Ids
import Verif.Proof.IdRuns
import Verif.Props.Ids
import Verif.Props.Carried
import Verif.Spec.Checks
import Verif.Props.Checks
import Verif.Props.Alive
import Verif.Proof.Every
import Verif.Props.Transport
import Verif.Props.OnePacket
import Verif.Spec.Clock
import Verif.Proof.Clock
import Verif.Props.Clock
import Verif.Model.Entry
import Verif.Spec.Entry
import Verif.Props.Entry
import Verif.Spec.Stale
import Verif.Proof.Stale
import Verif.Props.Stale
import Verif.Spec.Fresh
import Verif.Proof.Counter
import Verif.Proof.Anew
import Verif.Props.Fresh
import Verif.Spec.Storage
import Verif.Proof.Storage
import Verif.Props.Storage
import Verif.Spec.Place
import Verif.Proof.Place
import Verif.Props.Place
import Verif.Spec.Duration
import Verif.Proof.Duration
import Verif.Proof.DurationApi
import Verif.Props.Duration
import Verif.Props.Findings
import Verif.Spec.Polling
import Verif.Props.Polling
import Verif.Spec.Loops
import Verif.Props.Loops
import Verif.Spec.Splits
import Verif.Proof.Splits
import Verif.Props.Splits
import Verif.Spec.Parts
import Verif.Proof.Parts
import Verif.Props.Parts
import Verif.Props.BufferSize
import Verif.Spec.Connecting
import Verif.Props.Connecting
import Verif.Spec.Releases
import Verif.Proof.Releases
import Verif.Props.Releases
import Verif.Spec.Arrivals
import Verif.Props.Arrivals
import Verif.Props.Malformed
import Verif.Spec.Concern
import Verif.Props.Concern
import Verif.Props.Recovery
import Verif.Props.Contents
import Verif.Spec.Room
import Verif.Props.Room
import Verif.Spec.Rename
import Verif.Props.Rename
import Verif.Spec.Conversation
import Verif.Props.Conversation
import Verif.Spec.Hidden
import Verif.Props.Hidden
