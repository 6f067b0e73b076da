import Verif.Model.Socket
import Verif.Model.BufList
import Verif.Spec.Chunks
import Verif.Spec.WellFormed

/-! # What the sending side is supposed to do -/

namespace Binate.Spec

open RSocketMachine

/-- A REQUEST_FNF frame with this stream id, FOLLOWS bit and payload. Bit 6 of the flag word is
FOLLOWS, bit 7 METADATA. -/
def fnfFrame (sid : U32) (follows : Bool) (p : Payload) : Frame :=
  .requestFnf ⟨sid, ⟨BitVec.ofNat 16
    ((if follows then 2 ^ 6 else 0) + (if p.metadata.isSome then 2 ^ 7 else 0))⟩, p⟩

/-- The frames of one fire-and-forget request: one per chunk, FOLLOWS on all but the last. -/
def fnfFrames (sid : U32) (fragment : Option Nat) (p : Payload) : List Frame :=
  match fragment with
  | none => [fnfFrame sid false p]
  | some size => (List.range (chunkCount size p)).map fun i =>
      fnfFrame sid (decide (i + 1 < chunkCount size p)) (chunkAt size p i)

/-- `frames` are handed to the transport one after the other, after `sent`, until one is refused:
`sent'` is everything that was handed over, `r` the result. -/
def Delivered (tr : Transport) (sent frames : List Frame) (r : Except Error Unit)
    (sent' : List Frame) : Prop :=
  ∃ k, k ≤ frames.length ∧ sent' = sent ++ frames.take k ∧
    (∀ i f, i + 1 < k → frames[i]? = some f → tr (sent ++ frames.take i) f = .ok ()) ∧
    match r with
    | .ok () => k = frames.length ∧
        ∀ f, frames[k - 1]? = some f → tr (sent ++ frames.take (k - 1)) f = .ok ()
    | .error e => ∃ i f, k = i + 1 ∧ frames[i]? = some f ∧ tr (sent ++ frames.take i) f = .error e

/-- A part that chunking handles exactly: not present-but-empty, at most 2^24 bytes. -/
def PartOk (part : Option Bytes) : Prop := NotEmpty part ∧ (part.getD []).length ≤ 2 ^ 24

/-- The FOLLOWS bit of a REQUEST_FNF frame. -/
def followsOf : Frame → Option Bool
  | .requestFnf v => some (v.flags.bits.toNat.testBit 6)
  | _ => none

/-- The frame is a REQUEST_FNF on this stream. -/
def onStream (sid : U32) : Frame → Bool
  | .requestFnf v => v.streamId == sid
  | _ => false

/-- A transport that accepts everything. -/
def openTransport : Transport := fun _ _ => .ok ()

/-- Encoding every frame of a list. -/
def encodeAll : List Frame → Outcome (List Bytes)
  | [] => .ok []
  | f :: fs =>
    match f.toBytes, encodeAll fs with
    | .ok b, .ok bs => .ok (b :: bs)
    | .panic m, _ => .panic m
    | _, .panic m => .panic m
    | _, _ => .diverge

/-- Pushing buffers one after the other onto a list. -/
def pushAll (dbg : Bool) : List Bytes → BufList Bytes → Outcome (BufList Bytes)
  | [], l => .ok l
  | b :: bs, l =>
    match l.push dbg b with
    | .ok l' => pushAll dbg bs l'
    | .panic m => .panic m
    | .diverge => .diverge

/-! ## Keepalive -/

/-- The instants at which a task can wake that started at `t0` and always sleeps for `d`: a sleep
may last longer, never shorter. -/
def WakeUps (d : Nat) : Nat → List Nat → Prop
  | _, [] => True
  | t, w :: ws => t + d ≤ w ∧ WakeUps d w ws

/-- What happens to a connection, in order of time. -/
inductive Event where
  /-- the watchdog wakes up at this time -/
  | wake (t : Nat)
  /-- a frame arrives from the peer at this time -/
  | received (t : Nat)
deriving DecidableEq, Repr

/-- When it happens. -/
def Event.time : Event → Nat
  | .wake t => t
  | .received t => t

/-- The wake-ups among the events. -/
def wakes : List Event → List Nat
  | [] => []
  | .wake t :: es => t :: wakes es
  | .received _ :: es => wakes es

/-- The peer is alive: up to every wake-up, a frame arrived at most `d` ago (`last` is the time of
the latest frame so far). -/
def Alive (d : Nat) : Nat → List Event → Prop
  | _, [] => True
  | last, .wake t :: es => t ≤ last + d ∧ Alive d last es
  | _, .received t :: es => Alive d t es

/-- A machine with a fragment size. -/
def fragmenting (size : Nat) : RSocketMachine :=
  { RSocketMachine.new .client 60 0 with chunkPayload := some size }

/-- The log lines the listener owes for a status. -/
def statusReport : ConnectionStatus → List String
  | .closed => ["connection was closed"]
  | .error e => [e]
  | .unconnected => []
  | .connecting => []
  | .connected => []

/-! ## Requests of a new machine -/

/-- The remainder mod 2 of the ids this side may use: clients odd, servers even. -/
def sideParity : Role → Nat
  | .client => 1
  | .server => 0

/-- The first id this side uses. -/
def firstId : Role → Nat
  | .client => 1
  | .server => 2

/-- One `fire_and_forget` after the other, whatever their results. -/
def fireAll (dbg : Bool) (tr : Transport) : RSocketMachine → List Payload → List Frame →
    Outcome (List (Except Error Unit) × List Frame × RSocketMachine)
  | m, [], sent => .ok ([], sent, m)
  | m, p :: ps, sent =>
    match m.fireAndForget dbg 1 tr p sent with
    | .ok (r, sent', m') =>
      match fireAll dbg tr m' ps sent' with
      | .ok (rs, sent'', m'') => .ok (r :: rs, sent'', m'')
      | .panic msg => .panic msg
      | .diverge => .diverge
    | .panic msg => .panic msg
    | .diverge => .diverge

/-- What the listener observes when it asks at the given times and the connection publishes its
current status to every new subscriber (conn.rs:32-33). -/
def observe (status : Nat → ConnectionStatus) (times : List Nat) : List (Option ConnectionStatus) :=
  times.map fun t => some (status t)

/-- A connection that is open until `T` and closed from then on. -/
def closesAt (T : Nat) : Nat → ConnectionStatus := fun t => if t < T then .connected else .closed

/-! ## Concurrent calls -/

/-- The id a call has drawn and not given back. -/
def callId : Call → Option U32
  | .probing _ => none
  | .checking _ sid => some sid
  | .sending _ sid _ _ _ => some sid
  | .sendingOne _ sid => some sid
  | .done _ sid _ => some sid
  | .panicked _ => none

/-- The payload the call was made with. -/
def callPayload : Call → Payload
  | .probing p => p
  | .checking p _ => p
  | .sending p _ _ _ _ => p
  | .sendingOne p _ => p
  | .done p _ _ => p
  | .panicked p => p

/-- The call's result, once it has returned. -/
def callResult : Call → Option (Except Error Unit)
  | .done _ _ r => some r
  | _ => none

/-- The transport's answers to the frames of one stream, in order, when `wire` was handed to it
after `past`. -/
def answersFrom (tr : Transport) (sid : U32) (past : List Frame) : List Frame →
    List (Except Error Unit)
  | [] => []
  | f :: rest =>
    if onStream sid f then tr past f :: answersFrom tr sid (past ++ [f]) rest
    else answersFrom tr sid (past ++ [f]) rest

/-- The transport's answers to the frames of one stream. -/
def answers (tr : Transport) (sid : U32) (wire : List Frame) : List (Except Error Unit) :=
  answersFrom tr sid [] wire

/-- The call has neither returned nor panicked. -/
def running : Call → Bool
  | .done _ _ _ => false
  | .panicked _ => false
  | _ => true

end Binate.Spec
