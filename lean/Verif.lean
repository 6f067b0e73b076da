import Verif.Model.Access
import Verif.Model.Atomic
import Verif.Model.Basic
import Verif.Model.Buf
import Verif.Model.BufList
import Verif.Model.Capacity
import Verif.Model.Chunks
import Verif.Model.Codec
import Verif.Model.Counter
import Verif.Model.Debug
import Verif.Model.Duration
import Verif.Model.Encode
import Verif.Model.Error
import Verif.Model.F32
import Verif.Model.FlagOps
import Verif.Model.Flags
import Verif.Model.Frame
import Verif.Model.Halting
import Verif.Model.Handler
import Verif.Model.Hosted
import Verif.Model.Mime
import Verif.Model.Noisy
import Verif.Model.Pretty
import Verif.Model.Socket
import Verif.Model.Sockets
import Verif.Model.Storm
import Verif.Model.Storms
import Verif.Model.StreamId
import Verif.Model.System
import Verif.Model.Tended
import Verif.Model.Types
import Verif.Model.Unwind
import Verif.Model.Usize
import Verif.Model.Utf8
import Verif.Model.Visit
import Verif.Model.WildHandler
import Verif.Model.WildSystem
import Verif.Model.Workers
import Verif.Model.World
import Verif.Spec.Access
import Verif.Spec.Apart
import Verif.Spec.Api
import Verif.Spec.Ascending
import Verif.Spec.Atomic
import Verif.Spec.Buf
import Verif.Spec.Builder
import Verif.Spec.Canonical
import Verif.Spec.Capacity
import Verif.Spec.ChunkCount
import Verif.Spec.Chunks
import Verif.Spec.Closing
import Verif.Spec.Counter
import Verif.Spec.Ctor
import Verif.Spec.Debug
import Verif.Spec.Direct
import Verif.Spec.Display
import Verif.Spec.Encode
import Verif.Spec.Extend
import Verif.Spec.Fair
import Verif.Spec.FlagSet
import Verif.Spec.Float
import Verif.Spec.Halting
import Verif.Spec.Handler
import Verif.Spec.HandlerLive
import Verif.Spec.Hosted
import Verif.Spec.Interop
import Verif.Spec.Live
import Verif.Spec.Long
import Verif.Spec.Lost
import Verif.Spec.Need
import Verif.Spec.Noisy
import Verif.Spec.Order
import Verif.Spec.Owner
import Verif.Spec.Panics
import Verif.Spec.Peer
import Verif.Spec.Pretty
import Verif.Spec.Progress
import Verif.Spec.Protocol
import Verif.Spec.Reserved
import Verif.Spec.Rsocket
import Verif.Spec.Serial
import Verif.Spec.Session
import Verif.Spec.Sizes
import Verif.Spec.Small
import Verif.Spec.Socket
import Verif.Spec.Sockets
import Verif.Spec.SocketsLive
import Verif.Spec.Storm
import Verif.Spec.StormLive
import Verif.Spec.Storms
import Verif.Spec.StormsLive
import Verif.Spec.StreamId
import Verif.Spec.System
import Verif.Spec.Tended
import Verif.Spec.Text
import Verif.Spec.Truncate
import Verif.Spec.Unwind
import Verif.Spec.Usize
import Verif.Spec.View
import Verif.Spec.Wait
import Verif.Spec.WellFormed
import Verif.Spec.Whim
import Verif.Spec.WildHandler
import Verif.Spec.WildSystem
import Verif.Spec.Wire
import Verif.Spec.Work
import Verif.Spec.Workers
import Verif.Spec.World
import Verif.Lemmas.Access
import Verif.Lemmas.Apart
import Verif.Lemmas.Ascending
import Verif.Lemmas.Atomic
import Verif.Lemmas.BufList
import Verif.Lemmas.Builder
import Verif.Lemmas.Canonical
import Verif.Lemmas.Capacity
import Verif.Lemmas.ChunkCount
import Verif.Lemmas.Chunks
import Verif.Lemmas.Closing
import Verif.Lemmas.Conc
import Verif.Lemmas.Constructors
import Verif.Lemmas.Consume
import Verif.Lemmas.Counter
import Verif.Lemmas.Ctor
import Verif.Lemmas.Debug
import Verif.Lemmas.Decode
import Verif.Lemmas.Direct
import Verif.Lemmas.Display
import Verif.Lemmas.Encode
import Verif.Lemmas.F32
import Verif.Lemmas.FlagSet
import Verif.Lemmas.Flat
import Verif.Lemmas.Grammar
import Verif.Lemmas.Halting
import Verif.Lemmas.Handler
import Verif.Lemmas.HandlerLive
import Verif.Lemmas.Hosted
import Verif.Lemmas.Implementors
import Verif.Lemmas.Interop
import Verif.Lemmas.Layout
import Verif.Lemmas.Live
import Verif.Lemmas.Long
import Verif.Lemmas.Lost
import Verif.Lemmas.Monad
import Verif.Lemmas.Nearest
import Verif.Lemmas.Need
import Verif.Lemmas.Noisy
import Verif.Lemmas.Order
import Verif.Lemmas.Outcomes
import Verif.Lemmas.Owner
import Verif.Lemmas.Panics
import Verif.Lemmas.Peer
import Verif.Lemmas.Pieces
import Verif.Lemmas.Pretty
import Verif.Lemmas.Progress
import Verif.Lemmas.Provided
import Verif.Lemmas.Reassemble
import Verif.Lemmas.Reserved
import Verif.Lemmas.RoundTrip
import Verif.Lemmas.Rsocket
import Verif.Lemmas.RsocketPush
import Verif.Lemmas.RsocketSockets
import Verif.Lemmas.Segments
import Verif.Lemmas.Serial
import Verif.Lemmas.Session
import Verif.Lemmas.Shown
import Verif.Lemmas.Sizes
import Verif.Lemmas.Small
import Verif.Lemmas.Socket
import Verif.Lemmas.Sockets
import Verif.Lemmas.SocketsLive
import Verif.Lemmas.Starving
import Verif.Lemmas.Storm
import Verif.Lemmas.StormLive
import Verif.Lemmas.Storms
import Verif.Lemmas.StormsLive
import Verif.Lemmas.StreamId
import Verif.Lemmas.System
import Verif.Lemmas.Tended
import Verif.Lemmas.Text
import Verif.Lemmas.Truncate
import Verif.Lemmas.Unwind
import Verif.Lemmas.Usize
import Verif.Lemmas.View
import Verif.Lemmas.Wait
import Verif.Lemmas.Whim
import Verif.Lemmas.WildConc
import Verif.Lemmas.WildHandler
import Verif.Lemmas.WildPeer
import Verif.Lemmas.WildSystem
import Verif.Lemmas.Wire
import Verif.Lemmas.Work
import Verif.Lemmas.Workers
import Verif.Lemmas.World
import Verif.Props.Accepts
import Verif.Props.Access
import Verif.Props.Apart
import Verif.Props.Ascending
import Verif.Props.Atomic
import Verif.Props.BufList
import Verif.Props.Canonical
import Verif.Props.Capacity
import Verif.Props.ChunkCount
import Verif.Props.Chunks
import Verif.Props.Closing
import Verif.Props.Codec
import Verif.Props.Codes
import Verif.Props.Conc
import Verif.Props.Constructors
import Verif.Props.Counter
import Verif.Props.Debug
import Verif.Props.Direct
import Verif.Props.Display
import Verif.Props.Encode
import Verif.Props.Error
import Verif.Props.FlagSet
import Verif.Props.Float
import Verif.Props.Halting
import Verif.Props.Handler
import Verif.Props.HandlerLive
import Verif.Props.Hosted
import Verif.Props.Interop
import Verif.Props.Live
import Verif.Props.Long
import Verif.Props.Lost
import Verif.Props.Machine
import Verif.Props.Mime
import Verif.Props.Noisy
import Verif.Props.Order
import Verif.Props.Panics
import Verif.Props.Peer
import Verif.Props.Pretty
import Verif.Props.Progress
import Verif.Props.Provided
import Verif.Props.Rsocket
import Verif.Props.RsocketFnf
import Verif.Props.RsocketPush
import Verif.Props.RsocketSockets
import Verif.Props.Serial
import Verif.Props.Session
import Verif.Props.Sizes
import Verif.Props.Small
import Verif.Props.Socket
import Verif.Props.Sockets
import Verif.Props.SocketsLive
import Verif.Props.Storm
import Verif.Props.StormLive
import Verif.Props.Storms
import Verif.Props.StormsLive
import Verif.Props.StreamId
import Verif.Props.System
import Verif.Props.Tended
import Verif.Props.Text
import Verif.Props.Truncate
import Verif.Props.Unwind
import Verif.Props.Usize
import Verif.Props.View
import Verif.Props.Wait
import Verif.Props.Whim
import Verif.Props.WildConc
import Verif.Props.WildHandler
import Verif.Props.WildPeer
import Verif.Props.WildSystem
import Verif.Props.Work
import Verif.Props.Workers
import Verif.Props.World
import Verif.Tests.Frames
import Verif.Tests.Rest
