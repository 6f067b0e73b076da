import Verif.Model.Frame
import Verif.Model.Chunks
import Verif.Model.StreamId
import Verif.Model.Counter
import Verif.Model.Error

/-! # `RSocketMachine` (binate/src/connection/socket.rs) -/

namespace Binate

/-- socket.rs:22-25 `Role`. -/
inductive Role where
  | client
  | server
deriving DecidableEq, Repr

/-- socket.rs:31-42 `RSocketMachine`. `receivers` is represented by its key set. Not modelled:
`request_handler` and `subscriptions`, which no code reads, and the trait object `connection`,
which appears as a parameter of the functions that use it. -/
structure RSocketMachine where
  role : Role
  streamId : StreamIdProvider
  receivers : Store
  requestN : RequestCounter
  chunkPayload : Option Nat
  keepaliveTimeout : Nat
  keepaliveLastReceived : Nat

namespace RSocketMachine

/-- socket.rs:45-68 `new`: the initial state; `now` is `Instant::now()` on line 67. The two
spawned tasks are modelled by `listener` and `watchdog` below. -/
def new (role : Role) (keepaliveTimeout now : Nat) : RSocketMachine :=
  { role := role
    streamId := match role with
      | .server => StreamIdProvider.newForServer
      | .client => StreamIdProvider.newForClient
    receivers := fun _ => false
    requestN := RequestCounter.new 0#32
    chunkPayload := none
    keepaliveTimeout := keepaliveTimeout
    keepaliveLastReceived := now }

/-! ## Sending -/

/-- The transport as seen by `send_and_forget` (conn.rs:16): its answer may depend on everything
it was handed before. Theorems quantify over all such functions. -/
abbrev Transport := List Frame → Frame → Except Error Unit

/-- socket.rs:154-160: the `for` loop over the chunks. `sent` are the frames handed to the
transport so far, `idx` the `enumerate` counter; `?` leaves at the first error. `fuel` bounds the
rounds (see `PayloadChunks.fuel`). -/
def fnfLoop (dbg : Bool) (tr : Transport) (sid : U32) (chunksLen : Nat) :
    Nat → Nat → PayloadChunks → List Frame → Outcome (Except Error Unit × List Frame)
  | fuel, idx, chunks, sent =>
    match chunks.next with
    | (none, _) => .ok (.ok (), sent)
    | (some chunked, chunks') =>
      match fuel with
      | 0 => .diverge
      | fuel + 1 => do
        let follows := idx + 1 != chunksLen
        let frame := Frame.requestFnf (← RequestFnfFrame.new dbg sid follows chunked)
        match tr sent frame with
        | .error e => .ok (.error e, sent ++ [frame])
        | .ok () => fnfLoop dbg tr sid chunksLen fuel (idx + 1) chunks' (sent ++ [frame])

/-- socket.rs:151-168: `fire_and_forget` after the stream id is allocated. Returns the result and
all frames handed to the transport, starting with those in `sent`. -/
def fnfSend (dbg : Bool) (tr : Transport) (chunkPayload : Option Nat) (sid : U32)
    (payload : Payload) (sent : List Frame) : Outcome (Except Error Unit × List Frame) :=
  match chunkPayload with
  | some chunkSize => do
    let chunks ← payload.chunks chunkSize
    let chunksLen := chunks.len
    fnfLoop dbg tr sid chunksLen chunks.fuel 0 chunks sent
  | none => do
    let frame := Frame.requestFnf (← RequestFnfFrame.new dbg sid false payload)
    .ok (tr sent frame, sent ++ [frame])

/-- socket.rs:148-169 `fire_and_forget` run alone: `fuel` bounds the probes of `next_stream_id`
(see `StreamIdProvider.nextStreamId`). -/
def fireAndForget (dbg : Bool) (fuel : Nat) (tr : Transport) (m : RSocketMachine)
    (payload : Payload) (sent : List Frame) :
    Outcome (Except Error Unit × List Frame × RSocketMachine) := do
  let (sid, provider) ← m.streamId.nextStreamId m.receivers fuel
  let (r, sent') ← fnfSend dbg tr m.chunkPayload sid payload sent
  .ok (r, sent', { m with streamId := provider })

/-- socket.rs:171-174 `metadata_push`: one `send`; the returned future is the transport's. -/
def metadataPush (tr : Transport) (m : RSocketMachine) (metadata : Bytes) (sent : List Frame) :
    Except Error Unit × List Frame × RSocketMachine :=
  let frame := Frame.metadataPush (MetadataPushFrame.new metadata)
  (tr sent frame, sent ++ [frame], m)

/-- socket.rs:133-135 `request_response`. -/
def requestResponse {α : Type} (_ : RSocketMachine) (_ : Payload) : Outcome α :=
  .panic "not implemented"

/-- socket.rs:137-139 `request_stream`. -/
def requestStream {α : Type} (_ : RSocketMachine) (_ : Payload) : Outcome α :=
  .panic "not implemented"

/-- socket.rs:141-146 `request_channel`. -/
def requestChannel {α β : Type} (_ : RSocketMachine) (_ : β) : Outcome α :=
  .panic "not implemented"

/-- rsocket.rs:37 `DummyRSocket`, the handler a new machine has (socket.rs:59-61). -/
inductive DummyRSocket where
  | mk

/-- rsocket.rs:41-43 -/
def DummyRSocket.requestResponse {α : Type} (_ : DummyRSocket) (_ : Payload) : Outcome α :=
  .panic "not implemented: dummy rsocket"

/-- rsocket.rs:46-48 -/
def DummyRSocket.requestStream {α : Type} (_ : DummyRSocket) (_ : Payload) : Outcome α :=
  .panic "not implemented: dummy rsocket"

/-- rsocket.rs:51-56 -/
def DummyRSocket.requestChannel {α β : Type} (_ : DummyRSocket) (_ : β) : Outcome α :=
  .panic "not implemented: dummy rsocket"

/-- rsocket.rs:59-61 -/
def DummyRSocket.fireAndForget (_ : DummyRSocket) (_ : Payload) : Outcome (Except Error Unit) :=
  .panic "not implemented: dummy rsocket"

/-- rsocket.rs:64-66 -/
def DummyRSocket.metadataPush (_ : DummyRSocket) (_ : Bytes) : Outcome (Except Error Unit) :=
  .panic "not implemented: dummy rsocket"

/-! ## Background tasks -/

/-- Effects of the background tasks: a line in the log, or `connection.close()`. As in
socket.rs:111-123. -/
inductive Act where
  | logError (msg : String)
  | close
deriving DecidableEq, Repr

/-- socket.rs:116-118 `handle_error`. -/
def handleError (error : String) : List Act := [.logError error]

/-- socket.rs:111-114 `handle_connection_error`. -/
def handleConnectionError (error : String) : List Act := handleError error ++ [.close]

/-- socket.rs:120-122 `handle_transport_close`. -/
def handleTransportClose : List Act := handleError "connection was closed"

/-- error.rs:50-54 `Display for Timeout`. -/
def timeoutDisplay : String := "connection keepalive timed out"

/-- socket.rs:90-99: the watchdog loop. Its input is the sequence of instants `now` (line 92)
read after each `sleep`; the result is what it did and whether it has left the loop. Time is in
arbitrary units; `now - last` does not underflow because `now` is later than `last`. -/
def watchdog (m : RSocketMachine) : List Nat → List Act × Bool
  | [] => ([], false)
  | now :: rest =>
    if now - m.keepaliveLastReceived > m.keepaliveTimeout then
      (handleConnectionError timeoutDisplay, true)
    else watchdog m rest

/-- conn.rs:39-50 `ConnectionStatus`. -/
inductive ConnectionStatus where
  | unconnected
  | connecting
  | connected
  | closed
  | error (msg : String)
deriving DecidableEq, Repr

/-- socket.rs:76-84: the body of the status listener. -/
def onStatus : ConnectionStatus → List Act
  | .closed => handleTransportClose
  | .error err => handleError err
  | _ => []

/-- socket.rs:72-86: the status listener. Every round calls `connection_status()` anew and takes
the first item of that new stream; the input is the sequence of these items. The result is what
it did and whether it has stopped. -/
def listener : List (Option ConnectionStatus) → List Act × Bool
  | [] => ([], false)
  | none :: _ => ([], true)
  | some status :: rest =>
    let (acts, stopped) := listener rest
    (onStatus status ++ acts, stopped)

/-! ## Concurrent `fire_and_forget` calls

`&self` methods may run on any number of threads (the machine is cloned and shared). The steps
of one call: allocate an id (as in `StreamIdProvider.Step`), then one `send_and_forget` per
round of the loop. Sends by different threads may interleave. -/

/-- Where a call is. The call is socket.rs:148-169. -/
inductive Call where
  /-- line 149, inside `next_stream_id` before a `fetch_add` -/
  | probing (payload : Payload)
  /-- line 149, before `contains_key` -/
  | checking (payload : Payload) (sid : U32)
  /-- lines 154-160, `idx` rounds done -/
  | sending (payload : Payload) (sid : U32) (idx : Nat) (chunksLen : Nat) (chunks : PayloadChunks)
  /-- line 162, about to send the only frame -/
  | sendingOne (payload : Payload) (sid : U32)
  /-- returned -/
  | done (payload : Payload) (sid : U32) (result : Except Error Unit)
  /-- panicked -/
  | panicked (payload : Payload)

/-- A call that the user has made, and for `metadata_push` what it returned (its future is the
transport's; see `metadataPush`). The calls are socket.rs:148 and 171. -/
inductive Asked where
  | fireAndForget (payload : Payload)
  | metadataPush (metadata : Bytes) (answer : Except Error Unit)

/-- The shared machine, all calls made so far (by index) and everything handed to the
transport, in order. The machine is socket.rs:31-42. -/
structure Conc where
  machine : RSocketMachine
  calls : List Call
  /-- number of ids drawn so far (ghost) -/
  draws : Nat
  wire : List Frame
  /-- the calls that the user has made, in order (ghost) -/
  asked : List Asked

/-- Call number `i` becomes `c`. The call is socket.rs:148-169. -/
def Conc.set (s : Conc) (i : Nat) (c : Call) : Conc := { s with calls := s.calls.set i c }

/-- Lines 151-153 and 162, executed once the id is known. That is socket.rs:151-153 and 162. -/
def afterId (m : RSocketMachine) (payload : Payload) (sid : U32) : Call :=
  match m.chunkPayload with
  | some chunkSize =>
    match payload.chunks chunkSize with
    | .ok chunks => .sending payload sid 0 chunks.len chunks
    | _ => .panicked payload
  | none => .sendingOne payload sid

/-- One step of the concurrent system; `dbg` is the build profile, `tr` the transport. Handing a
frame to the transport and getting its answer is one step. The code is socket.rs:148-174 and
stream_id.rs:29-40. -/
inductive ConcStep (dbg : Bool) (tr : Transport) : Conc → Conc → Prop where
  /-- a new call starts -/
  | call (s : Conc) (payload : Payload) :
      ConcStep dbg tr s { s with
        calls := s.calls ++ [.probing payload]
        asked := s.asked ++ [.fireAndForget payload] }
  /-- stream_id.rs:32-33 -/
  | fetch (s : Conc) (i : Nat) (payload : Payload) : s.calls[i]? = some (.probing payload) →
      ConcStep dbg tr s { (s.set i (.checking payload s.machine.streamId.draw.1)) with
        machine := { s.machine with streamId := s.machine.streamId.draw.2 }
        draws := s.draws + 1 }
  /-- stream_id.rs:35, key present -/
  | checkUsed (s : Conc) (i : Nat) (payload : Payload) (sid : U32) :
      s.calls[i]? = some (.checking payload sid) → s.machine.receivers sid = true →
      ConcStep dbg tr s (s.set i (.probing payload))
  /-- stream_id.rs:35-39, key absent: the id is allocated -/
  | checkFree (s : Conc) (i : Nat) (payload : Payload) (sid : U32) :
      s.calls[i]? = some (.checking payload sid) → s.machine.receivers sid = false →
      ConcStep dbg tr s (s.set i (afterId s.machine payload sid))
  /-- socket.rs:162-165 -/
  | sendOne (s : Conc) (i : Nat) (payload : Payload) (sid : U32) (f : RequestFnfFrame) :
      s.calls[i]? = some (.sendingOne payload sid) →
      RequestFnfFrame.new dbg sid false payload = .ok f →
      ConcStep dbg tr s { (s.set i (.done payload sid (tr s.wire (Frame.requestFnf f)))) with
        wire := s.wire ++ [Frame.requestFnf f] }
  /-- socket.rs:154-159: one more chunk, the send succeeds -/
  | sendChunk (s : Conc) (i : Nat) (payload : Payload) (sid : U32) (idx n : Nat)
      (chunks chunks' : PayloadChunks) (chunked : Payload) (f : RequestFnfFrame) :
      s.calls[i]? = some (.sending payload sid idx n chunks) →
      chunks.next = (some chunked, chunks') →
      RequestFnfFrame.new dbg sid (idx + 1 != n) chunked = .ok f →
      tr s.wire (Frame.requestFnf f) = .ok () →
      ConcStep dbg tr s { (s.set i (.sending payload sid (idx + 1) n chunks')) with
        wire := s.wire ++ [Frame.requestFnf f] }
  /-- socket.rs:154-159: one more chunk, the send fails -/
  | sendChunkErr (s : Conc) (i : Nat) (payload : Payload) (sid : U32) (idx n : Nat)
      (chunks chunks' : PayloadChunks) (chunked : Payload) (f : RequestFnfFrame) (e : Error) :
      s.calls[i]? = some (.sending payload sid idx n chunks) →
      chunks.next = (some chunked, chunks') →
      RequestFnfFrame.new dbg sid (idx + 1 != n) chunked = .ok f →
      tr s.wire (Frame.requestFnf f) = .error e →
      ConcStep dbg tr s { (s.set i (.done payload sid (.error e))) with
        wire := s.wire ++ [Frame.requestFnf f] }
  /-- socket.rs:154, 168: the iterator is exhausted -/
  | finish (s : Conc) (i : Nat) (payload : Payload) (sid : U32) (idx n : Nat)
      (chunks chunks' : PayloadChunks) :
      s.calls[i]? = some (.sending payload sid idx n chunks) →
      chunks.next = (none, chunks') →
      ConcStep dbg tr s (s.set i (.done payload sid (.ok ())))
  /-- socket.rs:171-174: a concurrent `metadata_push` -/
  | push (s : Conc) (metadata : Bytes) :
      ConcStep dbg tr s { s with
        wire := s.wire ++ [Frame.metadataPush (MetadataPushFrame.new metadata)]
        asked := s.asked ++ [.metadataPush metadata
          (tr s.wire (Frame.metadataPush (MetadataPushFrame.new metadata)))] }
  /-- the environment changes the receivers map -/
  | env (s : Conc) (receivers : Store) :
      ConcStep dbg tr s { s with machine := { s.machine with receivers := receivers } }

/-- No calls yet. The machine is that of socket.rs:55-68. -/
def Conc.init (m : RSocketMachine) : Conc :=
  { machine := m, calls := [], draws := 0, wire := [], asked := [] }

/-- States reachable from a machine on which nothing was called yet. The machine is that of
socket.rs:55-68. -/
inductive ConcReachable (dbg : Bool) (tr : Transport) (m : RSocketMachine) : Conc → Prop where
  | init : ConcReachable dbg tr m (Conc.init m)
  | step {s s' : Conc} : ConcReachable dbg tr m s → ConcStep dbg tr s s' → ConcReachable dbg tr m s'

end RSocketMachine

end Binate
