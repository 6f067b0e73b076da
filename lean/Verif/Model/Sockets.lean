import Verif.Model.World
import Verif.Model.System

/-! # Any number of sockets with their background tasks

`World` has any number of sockets and clones but no tasks, `System` has the two tasks of one socket. Here
every socket has its tasks, and everything interleaves: `RSocketMachine::new` may be called at any time
(socket.rs:45-103) and spawns a listener and a watchdog that each own a clone of the machine made
(socket.rs:71, 88). A clone is a copy of addresses and values, so a task reaches its connection, its timeout
and its `keepalive_last_received` through the handle that it was given.

Simplifications. The clones of the tasks are not in the list of handles; the strong count of the connection
counts them. `new` sets no fragment size (socket.rs:65). The clock is one for all. -/

namespace Binate

namespace RSocketMachine

/-- What belongs to one connection besides its frames: the tasks of socket.rs:73-101 that hold it, and the
strong count of the `Arc` of socket.rs:34. -/
structure Keeper where
  /-- when the watchdog began its first sleep (ghost) -/
  spawned : Nat
  dog : Dog
  /-- when the watchdog's current sleep began -/
  slept : Nat
  /-- the status listener is in its loop -/
  listening : Bool
  /-- strong count of `connection` -/
  strong : Nat
  /-- the connection was dropped -/
  released : Bool
  happened : List Happening
  /-- number of `close()` calls by the user (ghost) -/
  userCloses : Nat
  /-- statuses that the listener has seen (ghost) -/
  seen : List ConnectionStatus

namespace Keeper

/-- socket.rs:70-101, at time `now`: the machine that is returned and the clones of the two tasks
(lines 71, 88) share the connection. -/
def new (now : Nat) : Keeper :=
  { spawned := now
    dog := .sleeping
    slept := now
    listening := true
    strong := 3
    released := false
    happened := []
    userCloses := 0
    seen := [] }

/-- Dropping one `Arc` of the connection. The `Arc` is at socket.rs:34. -/
def release (k : Keeper) : Keeper :=
  { k with strong := k.strong - 1, released := k.released || k.strong == 1 }

/-- Something happens. As in socket.rs:106, 112-113, 117, 159, 165, 173. -/
def emit (k : Keeper) (hs : List Happening) : Keeper := { k with happened := k.happened ++ hs }

end Keeper

/-- All sockets with their tasks; the keeper of a connection is found by its address. What any number of
calls of socket.rs:45-103 make. -/
structure Sockets where
  world : World
  keeper : Nat → Keeper
  /-- current time -/
  clock : Nat

/-- Nothing yet, at time `now`. The machine is that of socket.rs:31-42. -/
def Sockets.init (now : Nat) : Sockets :=
  { world := World.init, keeper := fun _ => Keeper.new now, clock := now }

/-- The number of handles with connection `a` that the user holds. The connection is that of
socket.rs:34. -/
def World.holders (w : World) (a : Nat) : Nat :=
  w.handles.countP fun o => o.any fun h => h.connection == a

/-- One step. The code is socket.rs:30-107 and 148-174. -/
inductive SocketsStep (dbg : Bool) (trs : Nat → Transport) : Sockets → Sockets → Prop where
  /-- time passes -/
  | time (t : Sockets) (now : Nat) : t.clock ≤ now → SocketsStep dbg trs t { t with clock := now }
  /-- socket.rs:45-103, where line 66 was executed at `created` -/
  | new (t : Sockets) (role : Role) (timeout created : Nat) : created ≤ t.clock →
      SocketsStep dbg trs t { t with
        world := { t.world with
          memory := t.world.memory.alloc role
          handles := t.world.handles ++ [some (t.world.memory.handle role none timeout created)]
          made := t.world.made ++ [t.world.memory.handle role none timeout created] }
        keeper := put t.keeper (t.world.memory.handle role none timeout created).connection
          (Keeper.new t.clock) }
  /-- socket.rs:30 `Clone` -/
  | clone (t : Sockets) (i : Nat) (h : Handle) : t.world.handles[i]? = some (some h) →
      SocketsStep dbg trs t { t with
        world := { t.world with handles := t.world.handles ++ [some h] }
        keeper := put t.keeper h.connection
          { t.keeper h.connection with strong := (t.keeper h.connection).strong + 1 } }
  /-- the user drops a handle; the last one of a connection cannot be dropped while a call borrows it -/
  | drop (t : Sockets) (i : Nat) (h : Handle) : t.world.handles[i]? = some (some h) →
      (t.world.holders h.connection = 1 →
        ∀ c ∈ t.world.calls, c.1.connection = h.connection → System.busy c.2 = false) →
      SocketsStep dbg trs t { t with
        world := { t.world with handles := t.world.handles.set i none }
        keeper := put t.keeper h.connection (t.keeper h.connection).release }
  /-- socket.rs:148-174: a step of a request; what it hands to a connection happens to that connection.
  The ids in use of a socket do not change when the user holds no handle of it. -/
  | request (t : Sockets) (w : World) : WorldStep dbg trs t.world w → w.handles = t.world.handles →
      (∀ g ∈ t.world.made, t.world.holders g.connection = 0 →
        w.memory.store g.receivers = t.world.memory.store g.receivers) →
      SocketsStep dbg trs t { t with
        world := w
        keeper := fun a => (t.keeper a).emit
          (((w.memory.wire a).drop (t.world.memory.wire a).length).map .frame) }
  /-- socket.rs:105-107 `close` -/
  | close (t : Sockets) (i : Nat) (h : Handle) : t.world.handles[i]? = some (some h) →
      SocketsStep dbg trs t { t with
        keeper := put t.keeper h.connection
          { (t.keeper h.connection).emit [.act .close] with
            userCloses := (t.keeper h.connection).userCloses + 1 } }
  /-- socket.rs:91-95: a watchdog wakes and goes back to sleep; `g` is its clone of the machine made -/
  | wakeEarly (t : Sockets) (g : Handle) : g ∈ t.world.made →
      (t.keeper g.connection).dog = .sleeping →
      (t.keeper g.connection).slept + g.keepaliveTimeout ≤ t.clock →
      ¬ (t.clock - g.keepaliveLastReceived > g.keepaliveTimeout) →
      SocketsStep dbg trs t { t with
        keeper := put t.keeper g.connection { t.keeper g.connection with slept := t.clock } }
  /-- socket.rs:91-96, 112: a watchdog wakes and logs the timeout -/
  | wakeLate (t : Sockets) (g : Handle) : g ∈ t.world.made →
      (t.keeper g.connection).dog = .sleeping →
      (t.keeper g.connection).slept + g.keepaliveTimeout ≤ t.clock →
      t.clock - g.keepaliveLastReceived > g.keepaliveTimeout →
      SocketsStep dbg trs t { t with
        keeper := put t.keeper g.connection
          { (t.keeper g.connection).emit ((handleError timeoutDisplay).map .act) with
            dog := .timedOut } }
  /-- socket.rs:113, 97: a watchdog closes its connection and ends -/
  | dogCloses (t : Sockets) (g : Handle) : g ∈ t.world.made →
      (t.keeper g.connection).dog = .timedOut →
      SocketsStep dbg trs t { t with
        keeper := put t.keeper g.connection
          { ((t.keeper g.connection).emit [.act .close]).release with dog := .stopped } }
  /-- socket.rs:73-84: a listener sees a status of its connection -/
  | status (t : Sockets) (g : Handle) (st : ConnectionStatus) : g ∈ t.world.made →
      (t.keeper g.connection).listening = true →
      SocketsStep dbg trs t { t with
        keeper := put t.keeper g.connection
          { (t.keeper g.connection).emit ((onStatus st).map .act) with
            seen := (t.keeper g.connection).seen ++ [st] } }
  /-- socket.rs:73, 86: the stream has ended, and so does the listener -/
  | statusEnd (t : Sockets) (g : Handle) : g ∈ t.world.made →
      (t.keeper g.connection).listening = true →
      SocketsStep dbg trs t { t with
        keeper := put t.keeper g.connection
          { (t.keeper g.connection).release with listening := false } }

/-- What can be reached from nothing. The code is socket.rs:30-107 and 148-174. -/
inductive SocketsReachable (dbg : Bool) (trs : Nat → Transport) : Sockets → Prop where
  | init (now : Nat) : SocketsReachable dbg trs (Sockets.init now)
  | step {t t' : Sockets} : SocketsReachable dbg trs t → SocketsStep dbg trs t t' →
      SocketsReachable dbg trs t'

end RSocketMachine

end Binate
