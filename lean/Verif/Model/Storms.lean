import Verif.Model.Sockets
import Verif.Model.Storm

/-! # Any number of sockets, whatever goes wrong

`Sockets` once more, where each connection may panic in any call, log lines may panic and runtimes may be shut
down, as in `Storm` for one machine. What is shared between sockets is what `RSocketMachine::new` does not
allocate anew: the clock, and the runtime if they were made on the same one. Calls are made through handles
and read and write the memory at the addresses of their handles, as in `World`; a panic ends the call or the
task that it happens in, and what it leaves behind is what was written before.

Simplifications as in `Sockets` and `Storm`. -/

namespace Binate

namespace RSocketMachine

/-- As `World`, where a `metadata_push` may have panicked. The machine is socket.rs:31-42. -/
structure WildWorld where
  memory : Memory
  /-- the handles of the user, `none` once dropped -/
  handles : List (Option Handle)
  calls : List (Handle × Call)
  /-- the calls made, in order (ghost) -/
  asked : List (Handle × WildAsked)
  /-- what `new` has returned (ghost) -/
  made : List Handle

/-- Call number `j` is that of handle `h` and becomes `c`. The call is socket.rs:148-169. -/
def WildWorld.set (w : WildWorld) (j : Nat) (h : Handle) (c : Call) : WildWorld :=
  { w with calls := w.calls.set j (h, c) }

/-- The connection of `h` is handed a frame. The places are socket.rs:159, 165 and 173. -/
def WildWorld.hand (w : WildWorld) (h : Handle) (f : Frame) : WildWorld :=
  { w with memory := { w.memory with
    wire := put w.memory.wire h.connection (w.memory.wire h.connection ++ [f]) } }

/-- A step of a request. The code is socket.rs:148-174 and stream_id.rs:29-40. -/
inductive WildWorldStep (dbg : Bool) (trs : Nat → WildTransport) : WildWorld → WildWorld → Prop where
  /-- socket.rs:148 -/
  | call (w : WildWorld) (i : Nat) (h : Handle) (payload : Payload) : w.handles[i]? = some (some h) →
      WildWorldStep dbg trs w { w with
        calls := w.calls ++ [(h, .probing payload)]
        asked := w.asked ++ [(h, .fireAndForget payload)] }
  /-- stream_id.rs:32-33 -/
  | fetch (w : WildWorld) (j : Nat) (h : Handle) (payload : Payload) :
      w.calls[j]? = some (h, .probing payload) →
      WildWorldStep dbg trs w { w.set j h (.checking payload (w.memory.provider h.streamId).draw.1) with
        memory := { w.memory with
          provider := put w.memory.provider h.streamId (w.memory.provider h.streamId).draw.2
          draws := put w.memory.draws h.streamId (w.memory.draws h.streamId + 1) } }
  /-- stream_id.rs:35, key present -/
  | checkUsed (w : WildWorld) (j : Nat) (h : Handle) (payload : Payload) (sid : U32) :
      w.calls[j]? = some (h, .checking payload sid) → w.memory.store h.receivers sid = true →
      WildWorldStep dbg trs w (w.set j h (.probing payload))
  /-- stream_id.rs:35-39, key absent -/
  | checkFree (w : WildWorld) (j : Nat) (h : Handle) (payload : Payload) (sid : U32) :
      w.calls[j]? = some (h, .checking payload sid) → w.memory.store h.receivers sid = false →
      WildWorldStep dbg trs w (w.set j h (afterId (w.memory.read h) payload sid))
  /-- socket.rs:162-165 -/
  | sendOne (w : WildWorld) (j : Nat) (h : Handle) (payload : Payload) (sid : U32) (f : RequestFnfFrame)
      (r : Except Error Unit) :
      w.calls[j]? = some (h, .sendingOne payload sid) →
      RequestFnfFrame.new dbg sid false payload = .ok f →
      trs h.connection (w.memory.wire h.connection) (Frame.requestFnf f) = .ok r →
      WildWorldStep dbg trs w ((w.set j h (.done payload sid r)).hand h (Frame.requestFnf f))
  /-- socket.rs:165: the connection panics -/
  | sendOnePanic (w : WildWorld) (j : Nat) (h : Handle) (payload : Payload) (sid : U32)
      (f : RequestFnfFrame) (msg : String) :
      w.calls[j]? = some (h, .sendingOne payload sid) →
      RequestFnfFrame.new dbg sid false payload = .ok f →
      trs h.connection (w.memory.wire h.connection) (Frame.requestFnf f) = .panic msg →
      WildWorldStep dbg trs w ((w.set j h (.panicked payload)).hand h (Frame.requestFnf f))
  /-- socket.rs:154-159: one more chunk, the send succeeds -/
  | sendChunk (w : WildWorld) (j : Nat) (h : Handle) (payload : Payload) (sid : U32) (idx n : Nat)
      (chunks chunks' : PayloadChunks) (chunked : Payload) (f : RequestFnfFrame) :
      w.calls[j]? = some (h, .sending payload sid idx n chunks) →
      chunks.next = (some chunked, chunks') →
      RequestFnfFrame.new dbg sid (idx + 1 != n) chunked = .ok f →
      trs h.connection (w.memory.wire h.connection) (Frame.requestFnf f) = .ok (.ok ()) →
      WildWorldStep dbg trs w
        ((w.set j h (.sending payload sid (idx + 1) n chunks')).hand h (Frame.requestFnf f))
  /-- socket.rs:154-159: one more chunk, the send fails -/
  | sendChunkErr (w : WildWorld) (j : Nat) (h : Handle) (payload : Payload) (sid : U32) (idx n : Nat)
      (chunks chunks' : PayloadChunks) (chunked : Payload) (f : RequestFnfFrame) (e : Error) :
      w.calls[j]? = some (h, .sending payload sid idx n chunks) →
      chunks.next = (some chunked, chunks') →
      RequestFnfFrame.new dbg sid (idx + 1 != n) chunked = .ok f →
      trs h.connection (w.memory.wire h.connection) (Frame.requestFnf f) = .ok (.error e) →
      WildWorldStep dbg trs w ((w.set j h (.done payload sid (.error e))).hand h (Frame.requestFnf f))
  /-- socket.rs:159: one more chunk, the connection panics -/
  | sendChunkPanic (w : WildWorld) (j : Nat) (h : Handle) (payload : Payload) (sid : U32) (idx n : Nat)
      (chunks chunks' : PayloadChunks) (chunked : Payload) (f : RequestFnfFrame) (msg : String) :
      w.calls[j]? = some (h, .sending payload sid idx n chunks) →
      chunks.next = (some chunked, chunks') →
      RequestFnfFrame.new dbg sid (idx + 1 != n) chunked = .ok f →
      trs h.connection (w.memory.wire h.connection) (Frame.requestFnf f) = .panic msg →
      WildWorldStep dbg trs w ((w.set j h (.panicked payload)).hand h (Frame.requestFnf f))
  /-- socket.rs:154, 168: the iterator is exhausted -/
  | finish (w : WildWorld) (j : Nat) (h : Handle) (payload : Payload) (sid : U32) (idx n : Nat)
      (chunks chunks' : PayloadChunks) :
      w.calls[j]? = some (h, .sending payload sid idx n chunks) →
      chunks.next = (none, chunks') →
      WildWorldStep dbg trs w (w.set j h (.done payload sid (.ok ())))
  /-- socket.rs:171-174 -/
  | push (w : WildWorld) (i : Nat) (h : Handle) (metadata : Bytes) (r : Except Error Unit) :
      w.handles[i]? = some (some h) →
      trs h.connection (w.memory.wire h.connection)
        (Frame.metadataPush (MetadataPushFrame.new metadata)) = .ok r →
      WildWorldStep dbg trs w
        { w.hand h (Frame.metadataPush (MetadataPushFrame.new metadata)) with
          asked := w.asked ++ [(h, .metadataPush metadata (some r))] }
  /-- socket.rs:173: the connection panics -/
  | pushPanic (w : WildWorld) (i : Nat) (h : Handle) (metadata : Bytes) (msg : String) :
      w.handles[i]? = some (some h) →
      trs h.connection (w.memory.wire h.connection)
        (Frame.metadataPush (MetadataPushFrame.new metadata)) = .panic msg →
      WildWorldStep dbg trs w
        { w.hand h (Frame.metadataPush (MetadataPushFrame.new metadata)) with
          asked := w.asked ++ [(h, .metadataPush metadata none)] }
  /-- the ids in use of a socket change while the user holds a handle of it (no code in the crate does
  this) -/
  | env (w : WildWorld) (i : Nat) (h : Handle) (receivers : Store) : w.handles[i]? = some (some h) →
      WildWorldStep dbg trs w { w with memory := { w.memory with
        store := put w.memory.store h.receivers receivers } }

/-- As `Keeper`: what belongs to one connection besides its frames. The tasks are those of
socket.rs:73-101. -/
structure WildKeeper where
  /-- when the watchdog began its first sleep (ghost) -/
  spawned : Nat
  /-- the runtime on which the tasks were started (socket.rs:72, 89) -/
  runtime : Nat
  dog : Dog
  /-- the watchdog was dropped with the runtime, or panicked at its log line; `dog` stays `sleeping` -/
  dogGone : Bool
  /-- when the watchdog's current sleep began -/
  slept : Nat
  /-- the status listener is in its loop -/
  listening : Bool
  /-- strong count of `connection` -/
  strong : Nat
  /-- the connection was dropped -/
  released : Bool
  happened : List Happening
  /-- number of `close()` calls by the user (ghost) -/
  userCloses : Nat
  /-- how often `close` and `connection_status` have panicked (ghost) -/
  panics : Nat
  /-- statuses that the listener has seen (ghost) -/
  seen : List ConnectionStatus

namespace WildKeeper

/-- socket.rs:70-101, at time `now` on runtime `runtime`. -/
def new (now runtime : Nat) : WildKeeper :=
  { spawned := now
    runtime := runtime
    dog := .sleeping
    dogGone := false
    slept := now
    listening := true
    strong := 3
    released := false
    happened := []
    userCloses := 0
    panics := 0
    seen := [] }

/-- Dropping one `Arc` of the connection. The `Arc` is at socket.rs:34. -/
def release (k : WildKeeper) : WildKeeper :=
  { k with strong := k.strong - 1, released := k.released || k.strong == 1 }

/-- Something happens. As in socket.rs:106, 112-113, 117, 159, 165, 173. -/
def emit (k : WildKeeper) (hs : List Happening) : WildKeeper := { k with happened := k.happened ++ hs }

end WildKeeper

/-- All sockets with their tasks; the keeper of a connection is found by its address. What any number of
calls of socket.rs:45-103 make. -/
structure Storms where
  world : WildWorld
  keeper : Nat → WildKeeper
  /-- the runtimes that are being shut down -/
  down : Nat → Bool
  /-- current time -/
  clock : Nat

namespace Storms

/-- Nothing yet, at time `now`. The machine is that of socket.rs:31-42. -/
def init (now : Nat) : Storms :=
  { world :=
      { memory := World.init.memory
        handles := []
        calls := []
        asked := []
        made := [] }
    keeper := fun _ => WildKeeper.new now 0
    down := fun _ => false
    clock := now }

/-- What belongs to connection `a` becomes `k`. As in socket.rs:70-107. -/
def keep (t : Storms) (a : Nat) (k : WildKeeper) : Storms := { t with keeper := put t.keeper a k }

/-- The number of handles with connection `a` that the user holds. The connection is that of
socket.rs:34. -/
def holders (t : Storms) (a : Nat) : Nat :=
  t.world.handles.countP fun o => o.any fun h => h.connection == a

/-- One step. The code is socket.rs:30-122 and 148-174. -/
inductive Step (dbg : Bool) (trs : Nat → WildTransport) : Storms → Storms → Prop where
  /-- time passes -/
  | time (t : Storms) (now : Nat) : t.clock ≤ now → Step dbg trs t { t with clock := now }
  /-- the shutdown of a runtime begins -/
  | shutdown (t : Storms) (r : Nat) : Step dbg trs t { t with down := put t.down r true }
  /-- socket.rs:45-103 on runtime `r`, where line 66 was executed at `created` -/
  | new (t : Storms) (role : Role) (timeout created r : Nat) : created ≤ t.clock →
      Step dbg trs t { t with
        world := { t.world with
          memory := t.world.memory.alloc role
          handles := t.world.handles ++ [some (t.world.memory.handle role none timeout created)]
          made := t.world.made ++ [t.world.memory.handle role none timeout created] }
        keeper := put t.keeper (t.world.memory.handle role none timeout created).connection
          (WildKeeper.new t.clock r) }
  /-- socket.rs:30 `Clone` -/
  | clone (t : Storms) (i : Nat) (h : Handle) : t.world.handles[i]? = some (some h) →
      Step dbg trs t { t with
        world := { t.world with handles := t.world.handles ++ [some h] }
        keeper := put t.keeper h.connection
          { t.keeper h.connection with strong := (t.keeper h.connection).strong + 1 } }
  /-- the user drops a handle; the last one of a connection cannot be dropped while a call borrows it -/
  | drop (t : Storms) (i : Nat) (h : Handle) : t.world.handles[i]? = some (some h) →
      (t.holders h.connection = 1 →
        ∀ c ∈ t.world.calls, c.1.connection = h.connection → System.busy c.2 = false) →
      Step dbg trs t { t with
        world := { t.world with handles := t.world.handles.set i none }
        keeper := put t.keeper h.connection (t.keeper h.connection).release }
  /-- socket.rs:148-174: a step of a request; what it hands to a connection happens to that connection -/
  | request (t : Storms) (w : WildWorld) : WildWorldStep dbg trs t.world w →
      Step dbg trs t { t with
        world := w
        keeper := fun a => (t.keeper a).emit
          (((w.memory.wire a).drop (t.world.memory.wire a).length).map .frame) }
  /-- socket.rs:105-107 `close` -/
  | close (t : Storms) (i : Nat) (h : Handle) : t.world.handles[i]? = some (some h) →
      Step dbg trs t (t.keep h.connection
        { (t.keeper h.connection).emit [.act .close] with
          userCloses := (t.keeper h.connection).userCloses + 1 })
  /-- socket.rs:106: the connection panics -/
  | closePanics (t : Storms) (i : Nat) (h : Handle) : t.world.handles[i]? = some (some h) →
      Step dbg trs t (t.keep h.connection
        { (t.keeper h.connection).emit [.act .close] with
          userCloses := (t.keeper h.connection).userCloses + 1
          panics := (t.keeper h.connection).panics + 1 })
  /-- socket.rs:91-95: a watchdog wakes and goes back to sleep; `g` is its clone of the machine made -/
  | wakeEarly (t : Storms) (g : Handle) : g ∈ t.world.made →
      (t.keeper g.connection).dogGone = false → (t.keeper g.connection).dog = .sleeping →
      (t.keeper g.connection).slept + g.keepaliveTimeout ≤ t.clock →
      ¬ (t.clock - g.keepaliveLastReceived > g.keepaliveTimeout) →
      Step dbg trs t (t.keep g.connection { t.keeper g.connection with slept := t.clock })
  /-- socket.rs:91-96, 112: a watchdog wakes and logs the timeout -/
  | wakeLate (t : Storms) (g : Handle) : g ∈ t.world.made →
      (t.keeper g.connection).dogGone = false → (t.keeper g.connection).dog = .sleeping →
      (t.keeper g.connection).slept + g.keepaliveTimeout ≤ t.clock →
      t.clock - g.keepaliveLastReceived > g.keepaliveTimeout →
      Step dbg trs t (t.keep g.connection
        { (t.keeper g.connection).emit ((handleError timeoutDisplay).map .act) with dog := .timedOut })
  /-- socket.rs:91-96, 112, 117: a watchdog finds the timeout and panics while it logs it -/
  | dogLogPanics (t : Storms) (g : Handle) : g ∈ t.world.made →
      (t.keeper g.connection).dogGone = false → (t.keeper g.connection).dog = .sleeping →
      (t.keeper g.connection).slept + g.keepaliveTimeout ≤ t.clock →
      t.clock - g.keepaliveLastReceived > g.keepaliveTimeout →
      Step dbg trs t (t.keep g.connection { (t.keeper g.connection).release with dogGone := true })
  /-- socket.rs:113, 97: a watchdog closes its connection and ends -/
  | dogCloses (t : Storms) (g : Handle) : g ∈ t.world.made →
      (t.keeper g.connection).dogGone = false → (t.keeper g.connection).dog = .timedOut →
      Step dbg trs t (t.keep g.connection
        { ((t.keeper g.connection).emit [.act .close]).release with dog := .stopped })
  /-- socket.rs:113: the connection panics in `close`; the panic ends the task -/
  | dogPanics (t : Storms) (g : Handle) : g ∈ t.world.made →
      (t.keeper g.connection).dogGone = false → (t.keeper g.connection).dog = .timedOut →
      Step dbg trs t (t.keep g.connection
        { ((t.keeper g.connection).emit [.act .close]).release with
          dog := .stopped, panics := (t.keeper g.connection).panics + 1 })
  /-- a runtime that is being shut down drops a watchdog (socket.rs:91) -/
  | dropDog (t : Storms) (g : Handle) : g ∈ t.world.made →
      t.down (t.keeper g.connection).runtime = true →
      (t.keeper g.connection).dogGone = false → (t.keeper g.connection).dog = .sleeping →
      Step dbg trs t (t.keep g.connection { (t.keeper g.connection).release with dogGone := true })
  /-- socket.rs:73-84: a listener sees a status of its connection -/
  | status (t : Storms) (g : Handle) (st : ConnectionStatus) : g ∈ t.world.made →
      (t.keeper g.connection).listening = true →
      Step dbg trs t (t.keep g.connection
        { (t.keeper g.connection).emit ((onStatus st).map .act) with
          seen := (t.keeper g.connection).seen ++ [st] })
  /-- socket.rs:73, 86: the stream has ended, and so does the listener -/
  | statusEnd (t : Storms) (g : Handle) : g ∈ t.world.made →
      (t.keeper g.connection).listening = true →
      Step dbg trs t (t.keep g.connection { (t.keeper g.connection).release with listening := false })
  /-- socket.rs:74: `connection_status` or the stream panics; the panic ends the task -/
  | statusPanics (t : Storms) (g : Handle) : g ∈ t.world.made →
      (t.keeper g.connection).listening = true →
      Step dbg trs t (t.keep g.connection
        { (t.keeper g.connection).release with
          listening := false, panics := (t.keeper g.connection).panics + 1 })
  /-- socket.rs:74-82, 117, 121: a listener sees a status that it reports and panics while it logs it -/
  | listenerLogPanics (t : Storms) (g : Handle) (st : ConnectionStatus) : g ∈ t.world.made →
      (t.keeper g.connection).listening = true → onStatus st ≠ [] →
      Step dbg trs t (t.keep g.connection { (t.keeper g.connection).release with listening := false })
  /-- a runtime that is being shut down drops a listener (socket.rs:74) -/
  | dropListener (t : Storms) (g : Handle) : g ∈ t.world.made →
      t.down (t.keeper g.connection).runtime = true → (t.keeper g.connection).listening = true →
      Step dbg trs t (t.keep g.connection { (t.keeper g.connection).release with listening := false })

/-- What can be reached from nothing. The code is socket.rs:30-122 and 148-174. -/
inductive Reachable (dbg : Bool) (trs : Nat → WildTransport) : Storms → Prop where
  | init (now : Nat) : Reachable dbg trs (Storms.init now)
  | step {t t' : Storms} : Reachable dbg trs t → Step dbg trs t t' → Reachable dbg trs t'

end Storms

end RSocketMachine

end Binate
