import Verif.Model.Socket

/-! # Any number of sockets and clones of them

`RSocketMachine` is cloned by `#[derive(Clone)]` (socket.rs:30): the fields behind an `Arc` are shared
between the clones, the others are copied. Here a machine is a *handle* whose shared fields are addresses
of a memory, so that what clones share and what different sockets do not share is a matter of addresses.
Calls are made through handles; their steps are those of `ConcStep`, each reading and writing the memory
at the addresses of its handle.

Simplifications. `request_handler` and `subscriptions` are left out; no code reads them, and setting a
handler is the subject of `Model/Handler`. The clones that the two background tasks take (socket.rs:71, 88)
are handles like others; what the tasks do is the subject of `Model/System`. A handle is not freed before
its calls have returned, which Rust guarantees; here nothing depends on it. `new` leaves the fragment size
open (socket.rs:65 sets `None`), as in the theorems on machines that send in parts. -/

namespace Binate

namespace RSocketMachine

/-- A machine as a value: addresses for what is behind an `Arc`, and the fields that each clone has for
itself (socket.rs:31-42). -/
structure Handle where
  role : Role
  streamId : Nat
  connection : Nat
  receivers : Nat
  requestN : Nat
  chunkPayload : Option Nat
  keepaliveTimeout : Nat
  keepaliveLastReceived : Nat
deriving DecidableEq, Repr

/-- What is behind the `Arc`s of socket.rs:33-38; of a connection what it was handed. -/
structure Memory where
  /-- the addresses from here on are unused -/
  next : Nat
  provider : Nat → StreamIdProvider
  store : Nat → Store
  counter : Nat → RequestCounter
  wire : Nat → List Frame
  /-- number of ids drawn so far (ghost) -/
  draws : Nat → Nat

/-- Writing at an address. The writes are those of socket.rs:49-66 and stream_id.rs:33. -/
def put {α : Type} (f : Nat → α) (a : Nat) (x : α) : Nat → α := fun b => if b = a then x else f b

/-- The machine that is seen through a handle (socket.rs:31-42). -/
def Memory.read (mem : Memory) (h : Handle) : RSocketMachine :=
  { role := h.role
    streamId := mem.provider h.streamId
    receivers := mem.store h.receivers
    requestN := mem.counter h.requestN
    chunkPayload := h.chunkPayload
    keepaliveTimeout := h.keepaliveTimeout
    keepaliveLastReceived := h.keepaliveLastReceived }

/-- Everything: the memory, the handles (`none` once dropped), the calls of `fire_and_forget` with the
handles they are made through, the calls made in order, and the handles that `new` has returned (ghost).
The machine is socket.rs:31-42. -/
structure World where
  memory : Memory
  handles : List (Option Handle)
  calls : List (Handle × Call)
  asked : List (Handle × Asked)
  made : List Handle

/-- Nothing yet. The machine is that of socket.rs:31-42. -/
def World.init : World :=
  { memory := ⟨0, fun _ => ⟨0#32⟩, fun _ _ => false, fun _ => ⟨0#32⟩, fun _ => [], fun _ => 0⟩
    handles := []
    calls := []
    asked := []
    made := [] }

/-- The memory after socket.rs:50-68, where the four addresses are new. -/
def Memory.alloc (mem : Memory) (role : Role) : Memory :=
  { next := mem.next + 4
    provider := put mem.provider mem.next (match role with
      | .server => StreamIdProvider.newForServer
      | .client => StreamIdProvider.newForClient)
    wire := put mem.wire (mem.next + 1) []
    store := put mem.store (mem.next + 2) (fun _ => false)
    counter := put mem.counter (mem.next + 3) (RequestCounter.new 0#32)
    draws := put mem.draws mem.next 0 }

/-- The handle that socket.rs:55-68 makes; `now` is `Instant::now()`. -/
def Memory.handle (mem : Memory) (role : Role) (chunk : Option Nat) (timeout now : Nat) : Handle :=
  { role := role
    streamId := mem.next
    connection := mem.next + 1
    receivers := mem.next + 2
    requestN := mem.next + 3
    chunkPayload := chunk
    keepaliveTimeout := timeout
    keepaliveLastReceived := now }

/-- One step; `trs` are the transports behind the connections. The code is socket.rs:30-68, 148-174 and
stream_id.rs:29-40. -/
inductive WorldStep (dbg : Bool) (trs : Nat → Transport) : World → World → Prop where
  /-- socket.rs:45-103 -/
  | new (w : World) (role : Role) (chunk : Option Nat) (timeout now : Nat) :
      WorldStep dbg trs w { w with
        memory := w.memory.alloc role
        handles := w.handles ++ [some (w.memory.handle role chunk timeout now)]
        made := w.made ++ [w.memory.handle role chunk timeout now] }
  /-- socket.rs:30 `Clone`: addresses and values are copied -/
  | clone (w : World) (i : Nat) (h : Handle) : w.handles[i]? = some (some h) →
      WorldStep dbg trs w { w with handles := w.handles ++ [some h] }
  /-- a handle is dropped -/
  | drop (w : World) (i : Nat) (h : Handle) : w.handles[i]? = some (some h) →
      WorldStep dbg trs w { w with handles := w.handles.set i none }
  /-- socket.rs:148 -/
  | call (w : World) (i : Nat) (h : Handle) (payload : Payload) : w.handles[i]? = some (some h) →
      WorldStep dbg trs w { w with
        calls := w.calls ++ [(h, .probing payload)]
        asked := w.asked ++ [(h, .fireAndForget payload)] }
  /-- stream_id.rs:32-33 -/
  | fetch (w : World) (j : Nat) (h : Handle) (payload : Payload) :
      w.calls[j]? = some (h, .probing payload) →
      WorldStep dbg trs w { w with
        calls := w.calls.set j (h, .checking payload (w.memory.provider h.streamId).draw.1)
        memory := { w.memory with
          provider := put w.memory.provider h.streamId (w.memory.provider h.streamId).draw.2
          draws := put w.memory.draws h.streamId (w.memory.draws h.streamId + 1) } }
  /-- stream_id.rs:35, key present -/
  | checkUsed (w : World) (j : Nat) (h : Handle) (payload : Payload) (sid : U32) :
      w.calls[j]? = some (h, .checking payload sid) → w.memory.store h.receivers sid = true →
      WorldStep dbg trs w { w with calls := w.calls.set j (h, .probing payload) }
  /-- stream_id.rs:35-39, key absent -/
  | checkFree (w : World) (j : Nat) (h : Handle) (payload : Payload) (sid : U32) :
      w.calls[j]? = some (h, .checking payload sid) → w.memory.store h.receivers sid = false →
      WorldStep dbg trs w { w with
        calls := w.calls.set j (h, afterId (w.memory.read h) payload sid) }
  /-- socket.rs:162-165 -/
  | sendOne (w : World) (j : Nat) (h : Handle) (payload : Payload) (sid : U32) (f : RequestFnfFrame) :
      w.calls[j]? = some (h, .sendingOne payload sid) →
      RequestFnfFrame.new dbg sid false payload = .ok f →
      WorldStep dbg trs w { w with
        calls := w.calls.set j (h, .done payload sid
          (trs h.connection (w.memory.wire h.connection) (Frame.requestFnf f)))
        memory := { w.memory with
          wire := put w.memory.wire h.connection
            (w.memory.wire h.connection ++ [Frame.requestFnf f]) } }
  /-- socket.rs:154-159: one more chunk, the send succeeds -/
  | sendChunk (w : World) (j : Nat) (h : Handle) (payload : Payload) (sid : U32) (idx n : Nat)
      (chunks chunks' : PayloadChunks) (chunked : Payload) (f : RequestFnfFrame) :
      w.calls[j]? = some (h, .sending payload sid idx n chunks) →
      chunks.next = (some chunked, chunks') →
      RequestFnfFrame.new dbg sid (idx + 1 != n) chunked = .ok f →
      trs h.connection (w.memory.wire h.connection) (Frame.requestFnf f) = .ok () →
      WorldStep dbg trs w { w with
        calls := w.calls.set j (h, .sending payload sid (idx + 1) n chunks')
        memory := { w.memory with
          wire := put w.memory.wire h.connection
            (w.memory.wire h.connection ++ [Frame.requestFnf f]) } }
  /-- socket.rs:154-159: one more chunk, the send fails -/
  | sendChunkErr (w : World) (j : Nat) (h : Handle) (payload : Payload) (sid : U32) (idx n : Nat)
      (chunks chunks' : PayloadChunks) (chunked : Payload) (f : RequestFnfFrame) (e : Error) :
      w.calls[j]? = some (h, .sending payload sid idx n chunks) →
      chunks.next = (some chunked, chunks') →
      RequestFnfFrame.new dbg sid (idx + 1 != n) chunked = .ok f →
      trs h.connection (w.memory.wire h.connection) (Frame.requestFnf f) = .error e →
      WorldStep dbg trs w { w with
        calls := w.calls.set j (h, .done payload sid (.error e))
        memory := { w.memory with
          wire := put w.memory.wire h.connection
            (w.memory.wire h.connection ++ [Frame.requestFnf f]) } }
  /-- socket.rs:154, 168: the iterator is exhausted -/
  | finish (w : World) (j : Nat) (h : Handle) (payload : Payload) (sid : U32) (idx n : Nat)
      (chunks chunks' : PayloadChunks) :
      w.calls[j]? = some (h, .sending payload sid idx n chunks) →
      chunks.next = (none, chunks') →
      WorldStep dbg trs w { w with calls := w.calls.set j (h, .done payload sid (.ok ())) }
  /-- socket.rs:171-174 -/
  | push (w : World) (i : Nat) (h : Handle) (metadata : Bytes) : w.handles[i]? = some (some h) →
      WorldStep dbg trs w { w with
        asked := w.asked ++ [(h, .metadataPush metadata (trs h.connection (w.memory.wire h.connection)
          (Frame.metadataPush (MetadataPushFrame.new metadata))))]
        memory := { w.memory with
          wire := put w.memory.wire h.connection
            (w.memory.wire h.connection ++ [Frame.metadataPush (MetadataPushFrame.new metadata)]) } }
  /-- the ids in use in some map of receivers change (no code in the crate does this) -/
  | env (w : World) (a : Nat) (receivers : Store) :
      WorldStep dbg trs w { w with memory := { w.memory with
        store := put w.memory.store a receivers } }

/-- What can be reached. The code is socket.rs:30-68, 148-174 and stream_id.rs:29-40. -/
inductive WorldReachable (dbg : Bool) (trs : Nat → Transport) : World → Prop where
  | init : WorldReachable dbg trs World.init
  | step {w w' : World} : WorldReachable dbg trs w → WorldStep dbg trs w w' → WorldReachable dbg trs w'

end RSocketMachine

end Binate
