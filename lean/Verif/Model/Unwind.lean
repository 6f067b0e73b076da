import Verif.Model.BufList
import Verif.Model.Socket

/-! # What a panic leaves behind

A panic in Rust unwinds the stack; it can be caught (`std::panic::catch_unwind`, or the runtime's join
handle of a task), and what was reached through `&mut` or an `Arc` is then as far changed as the call had
come. `Outcome.panic` forgets that. Here are the functions of the crate that can panic and write to
something that outlives them, once more, with what they have written so far.

Functions that panic and get all their arguments by value leave nothing behind: constructors,
`SetupFrameBuilder` (setup.rs:251-372), `Payload::chunks` (payload.rs:113-117), `U24::from_usize`
(u24.rs:36-39), `BufList::try_into` (buf.rs:36-61). So do the `unimplemented!()` requests
(socket.rs:132-147), which panic at once. -/

namespace Binate

/-- How a call ends that works on a state which outlives it: it returns, or unwinds with the state as it
is at that moment, or runs for ever. For example frame/encode.rs:6 with the buffer as state. -/
inductive Ended (σ α : Type) where
  | returned (a : α) (s : σ)
  | unwound (msg : String) (s : σ)
  | endless
deriving DecidableEq, Repr

/-- A call that works on a state of type `σ`. For example frame/encode.rs:6. -/
def Mut (σ α : Type) : Type := σ → Ended σ α

namespace Mut

variable {σ α β : Type}

/-- Statements in order, as in request_fnf.rs:75-84. -/
protected def bind (x : Mut σ α) (f : α → Mut σ β) : Mut σ β := fun s =>
  match x s with
  | .returned a s' => f a s'
  | .unwound m s' => .unwound m s'
  | .endless => .endless

/-- Statements in order, as in request_fnf.rs:75-84. -/
instance : Monad (Mut σ) where
  pure a := fun s => .returned a s
  bind := Mut.bind

/-- A write that cannot panic, as in request_fnf.rs:76. -/
def write (f : σ → σ) : Mut σ Unit := fun s => .returned () (f s)

/-- A call that does not touch the state, as in request_fnf.rs:78. -/
def lift (o : Outcome α) : Mut σ α := fun s =>
  match o with
  | .ok a => .returned a s
  | .panic m => .unwound m s
  | .diverge => .endless

end Mut

/-! ## Encoding -/

/-- The five lines shared by all codecs with a payload, for example request_fnf.rs:78-83. -/
def encodePayloadWithLenMut (p : Payload) : Mut Bytes Unit := do
  let u24 ← Mut.lift (U24.fromUsize p.metadataLen)
  Mut.write (putU8 · u24.hi)
  Mut.write (putU16 · u24.lo)
  Mut.write p.encode

/-- setup.rs:142-162 `encode`. -/
def SetupFrame.encodeMut (f : SetupFrame) : Mut Bytes Unit := do
  Mut.write (putU32 · 0#32)
  Mut.write (putU16 · (FrameType.SETUP.bits ||| f.flags.bits))
  Mut.write f.version.encode
  Mut.write (putU32 · f.keepaliveInterval)
  Mut.write (putU32 · f.keepaliveTimeout)
  Mut.write fun buf => match f.resumeToken with
    | some token => putSlice (putU16 buf (BitVec.ofNat 16 token.length)) token
    | none => buf
  Mut.write (putU8 · (BitVec.ofNat 8 f.metadataMimetype.length))
  Mut.write (putSlice · f.metadataMimetype)
  Mut.write (putU8 · (BitVec.ofNat 8 f.dataMimetype.length))
  Mut.write (putSlice · f.dataMimetype)
  encodePayloadWithLenMut f.payload

/-- request_response.rs:75-84 `encode`. -/
def RequestResponseFrame.encodeMut (f : RequestResponseFrame) : Mut Bytes Unit := do
  Mut.write (putU32 · f.streamId)
  Mut.write (putU16 · (FrameType.REQUEST_RESPONSE.bits ||| f.flags.bits))
  encodePayloadWithLenMut f.payload

/-- request_fnf.rs:75-84 `encode`. -/
def RequestFnfFrame.encodeMut (f : RequestFnfFrame) : Mut Bytes Unit := do
  Mut.write (putU32 · f.streamId)
  Mut.write (putU16 · (FrameType.REQUEST_FNF.bits ||| f.flags.bits))
  encodePayloadWithLenMut f.payload

/-- request_stream.rs:91-101 `encode`. -/
def RequestStreamFrame.encodeMut (f : RequestStreamFrame) : Mut Bytes Unit := do
  Mut.write (putU32 · f.streamId)
  Mut.write (putU16 · (FrameType.REQUEST_STREAM.bits ||| f.flags.bits))
  Mut.write (putU32 · f.initialRequestN)
  encodePayloadWithLenMut f.payload

/-- request_channel.rs:102-112 `encode`. -/
def RequestChannelFrame.encodeMut (f : RequestChannelFrame) : Mut Bytes Unit := do
  Mut.write (putU32 · f.streamId)
  Mut.write (putU16 · (FrameType.REQUEST_CHANNEL.bits ||| f.flags.bits))
  Mut.write (putU32 · f.initialRequestN)
  encodePayloadWithLenMut f.payload

/-- codec/payload.rs:91-100 `encode`. -/
def PayloadFrame.encodeMut (f : PayloadFrame) : Mut Bytes Unit := do
  Mut.write (putU32 · f.streamId)
  Mut.write (putU16 · (FrameType.PAYLOAD.bits ||| f.flags.bits))
  encodePayloadWithLenMut f.payload

/-- An `encode` in which nothing can panic, for example cancel.rs:44-47. -/
def encodeWhole (enc : Bytes → Outcome Bytes) : Mut Bytes Unit := fun buf =>
  match enc buf with
  | .ok buf' => .returned () buf'
  | .panic m => .unwound m buf
  | .diverge => .endless

/-- frame/mod.rs:66-83 `Encode::encode`. -/
def Frame.encodeMut : Frame → Mut Bytes Unit
  | .setup v => v.encodeMut
  | .error v => encodeWhole v.encode
  | .lease v => encodeWhole v.encode
  | .keepalive v => encodeWhole v.encode
  | .requestResponse v => v.encodeMut
  | .requestFnf v => v.encodeMut
  | .requestStream v => v.encodeMut
  | .requestChannel v => v.encodeMut
  | .requestN v => encodeWhole v.encode
  | .cancel v => encodeWhole v.encode
  | .payload v => v.encodeMut
  | .metadataPush v => encodeWhole v.encode
  | .resume v => encodeWhole v.encode
  | .resumeOk v => encodeWhole v.encode

/-! ## Decoding -/

/-- frame/mod.rs:107-177 `Frame::decode` on a buffer of bytes. The only panic is that of line 174; by then
lines 111 and 112 have taken the header. -/
def Frame.decodeMut : Mut Bytes (Except DecodeError Frame) := fun b =>
  match (Frame.decode : Dec Bytes Frame) b with
  | .ok f rest => .returned (.ok f) rest
  | .err e rest => .returned (.error e) rest
  | .diverge => .endless
  | .panic m =>
    match (do let _ ← eatStreamId; eatFlags : Dec Bytes (FrameType × Flags)) b with
    | .ok _ rest => .unwound m rest
    | .err _ rest => .unwound m rest
    | _ => .unwound m b

/-! ## `BufList` of byte buffers -/

namespace BufList

/-- buf.rs:22-25 `push`. -/
def pushMut (dbg : Bool) (buf : Bytes) : Mut (BufList Bytes) Unit := do
  Mut.lift (Outcome.debugAssert dbg (0 < BufCore.remaining buf) "assertion failed: buf.has_remaining()")
  Mut.write fun l => ⟨l.bufs ++ [buf]⟩

/-- buf.rs:76-89: the loop of `advance`; the buffers that are used up are gone when `self.bufs[0]`
panics. -/
def advanceLoopMut : List Bytes → Nat → Ended (List Bytes) Unit
  | bufs, 0 => .returned () bufs
  | [], _ + 1 => .unwound "Out of bounds access" []
  | front :: rest, cnt + 1 =>
    let rem := BufCore.remaining front
    if rem > cnt + 1 then
      match BufCore.advance front (cnt + 1) with
      | .ok front' => .returned () (front' :: rest)
      | .panic m => .unwound m (front :: rest)
      | .diverge => .endless
    else
      match BufCore.advance front rem with
      | .ok _ => advanceLoopMut rest (cnt + 1 - rem)
      | .panic m => .unwound m (front :: rest)
      | .diverge => .endless

/-- buf.rs:76 `advance`. -/
def advanceMut (cnt : Nat) : Mut (BufList Bytes) Unit := fun l =>
  match advanceLoopMut l.bufs cnt with
  | .returned a bufs => .returned a ⟨bufs⟩
  | .unwound m bufs => .unwound m ⟨bufs⟩
  | .endless => .endless

/-- buf.rs:108-128 `copy_to_bytes`. The arms of lines 112-117 do not panic on buffers of bytes, and
neither does `put` on line 124 once the assertion holds (C36). -/
def copyToBytesMut (len : Nat) : Mut (BufList Bytes) Bytes := fun l =>
  match l.copyToBytes len with
  | .ok (bytes, l') => .returned bytes l'
  | .panic m => .unwound m l
  | .diverge => .endless

end BufList

/-! ## `fire_and_forget` -/

namespace RSocketMachine

/-- A transport as in `Transport` that may also panic in `send_and_forget` (conn.rs:16). -/
abbrev WildTransport := List Frame → Frame → Outcome (Except Error Unit)

/-- socket.rs:154-160, the loop; the state are the frames handed to the transport. -/
def fnfLoopMut (dbg : Bool) (tr : WildTransport) (sid : U32) (chunksLen : Nat) :
    Nat → Nat → PayloadChunks → List Frame → Ended (List Frame) (Except Error Unit)
  | fuel, idx, chunks, sent =>
    match chunks.next with
    | (none, _) => .returned (.ok ()) sent
    | (some chunked, chunks') =>
      match fuel with
      | 0 => .endless
      | fuel + 1 =>
        match RequestFnfFrame.new dbg sid (idx + 1 != chunksLen) chunked with
        | .panic m => .unwound m sent
        | .diverge => .endless
        | .ok f =>
          match tr sent (Frame.requestFnf f) with
          | .panic m => .unwound m (sent ++ [Frame.requestFnf f])
          | .diverge => .endless
          | .ok (.error e) => .returned (.error e) (sent ++ [Frame.requestFnf f])
          | .ok (.ok ()) =>
            fnfLoopMut dbg tr sid chunksLen fuel (idx + 1) chunks' (sent ++ [Frame.requestFnf f])

/-- socket.rs:151-168 -/
def fnfSendMut (dbg : Bool) (tr : WildTransport) (chunkPayload : Option Nat) (sid : U32)
    (payload : Payload) : Mut (List Frame) (Except Error Unit) := fun sent =>
  match chunkPayload with
  | some chunkSize =>
    match payload.chunks chunkSize with
    | .panic m => .unwound m sent
    | .diverge => .endless
    | .ok chunks => fnfLoopMut dbg tr sid chunks.len chunks.fuel 0 chunks sent
  | none =>
    match RequestFnfFrame.new dbg sid false payload with
    | .panic m => .unwound m sent
    | .diverge => .endless
    | .ok f =>
      match tr sent (Frame.requestFnf f) with
      | .panic m => .unwound m (sent ++ [Frame.requestFnf f])
      | .diverge => .endless
      | .ok r => .returned r (sent ++ [Frame.requestFnf f])

/-- socket.rs:148-169 `fire_and_forget` run alone. The state are the machine and the frames handed to the
transport. -/
def fireAndForgetMut (dbg : Bool) (fuel : Nat) (tr : WildTransport) (payload : Payload) :
    Mut (RSocketMachine × List Frame) (Except Error Unit) := fun (m, sent) =>
  match m.streamId.nextStreamId m.receivers fuel with
  | .panic msg => .unwound msg (m, sent)
  | .diverge => .endless
  | .ok (sid, provider) =>
    let m' := { m with streamId := provider }
    match fnfSendMut dbg tr m.chunkPayload sid payload sent with
    | .returned r sent' => .returned r (m', sent')
    | .unwound msg sent' => .unwound msg (m', sent')
    | .endless => .endless

/-- socket.rs:171-174 `metadata_push`. -/
def metadataPushMut (tr : WildTransport) (metadata : Bytes) :
    Mut (RSocketMachine × List Frame) (Except Error Unit) := fun (m, sent) =>
  let frame := Frame.metadataPush (MetadataPushFrame.new metadata)
  match tr sent frame with
  | .panic msg => .unwound msg (m, sent ++ [frame])
  | .diverge => .endless
  | .ok r => .returned r (m, sent ++ [frame])

/-! ## Concurrent calls over a transport that may panic -/

/-- As `Asked`, where `metadata_push` may have panicked (`none`). The calls are socket.rs:148 and 171. -/
inductive WildAsked where
  | fireAndForget (payload : Payload)
  | metadataPush (metadata : Bytes) (answer : Option (Except Error Unit))

/-- As `Conc`. The machine is socket.rs:31-42. -/
structure WildConc where
  machine : RSocketMachine
  calls : List Call
  /-- number of ids drawn so far (ghost) -/
  draws : Nat
  wire : List Frame
  /-- the calls that the user has made, in order (ghost) -/
  asked : List WildAsked

/-- Call number `i` becomes `c`. The call is socket.rs:148-169. -/
def WildConc.set (s : WildConc) (i : Nat) (c : Call) : WildConc := { s with calls := s.calls.set i c }

/-- As `ConcStep`, step by step, where handing over a frame may end in a panic, which ends the call. (A
`send_and_forget` that never returns makes no step.) The code is socket.rs:148-174 and
stream_id.rs:29-40. -/
inductive WildStep (dbg : Bool) (tr : WildTransport) : WildConc → WildConc → Prop where
  /-- a new call starts -/
  | call (s : WildConc) (payload : Payload) :
      WildStep dbg tr s { s with
        calls := s.calls ++ [.probing payload]
        asked := s.asked ++ [.fireAndForget payload] }
  /-- stream_id.rs:32-33 -/
  | fetch (s : WildConc) (i : Nat) (payload : Payload) : s.calls[i]? = some (.probing payload) →
      WildStep dbg tr s { (s.set i (.checking payload s.machine.streamId.draw.1)) with
        machine := { s.machine with streamId := s.machine.streamId.draw.2 }
        draws := s.draws + 1 }
  /-- stream_id.rs:35, key present -/
  | checkUsed (s : WildConc) (i : Nat) (payload : Payload) (sid : U32) :
      s.calls[i]? = some (.checking payload sid) → s.machine.receivers sid = true →
      WildStep dbg tr s (s.set i (.probing payload))
  /-- stream_id.rs:35-39, key absent: the id is allocated -/
  | checkFree (s : WildConc) (i : Nat) (payload : Payload) (sid : U32) :
      s.calls[i]? = some (.checking payload sid) → s.machine.receivers sid = false →
      WildStep dbg tr s (s.set i (afterId s.machine payload sid))
  /-- socket.rs:162-165 -/
  | sendOne (s : WildConc) (i : Nat) (payload : Payload) (sid : U32) (f : RequestFnfFrame)
      (r : Except Error Unit) :
      s.calls[i]? = some (.sendingOne payload sid) →
      RequestFnfFrame.new dbg sid false payload = .ok f →
      tr s.wire (Frame.requestFnf f) = .ok r →
      WildStep dbg tr s { (s.set i (.done payload sid r)) with
        wire := s.wire ++ [Frame.requestFnf f] }
  /-- socket.rs:165: the transport panics -/
  | sendOnePanic (s : WildConc) (i : Nat) (payload : Payload) (sid : U32) (f : RequestFnfFrame)
      (msg : String) :
      s.calls[i]? = some (.sendingOne payload sid) →
      RequestFnfFrame.new dbg sid false payload = .ok f →
      tr s.wire (Frame.requestFnf f) = .panic msg →
      WildStep dbg tr s { (s.set i (.panicked payload)) with
        wire := s.wire ++ [Frame.requestFnf f] }
  /-- socket.rs:154-159: one more chunk, the send succeeds -/
  | sendChunk (s : WildConc) (i : Nat) (payload : Payload) (sid : U32) (idx n : Nat)
      (chunks chunks' : PayloadChunks) (chunked : Payload) (f : RequestFnfFrame) :
      s.calls[i]? = some (.sending payload sid idx n chunks) →
      chunks.next = (some chunked, chunks') →
      RequestFnfFrame.new dbg sid (idx + 1 != n) chunked = .ok f →
      tr s.wire (Frame.requestFnf f) = .ok (.ok ()) →
      WildStep dbg tr s { (s.set i (.sending payload sid (idx + 1) n chunks')) with
        wire := s.wire ++ [Frame.requestFnf f] }
  /-- socket.rs:154-159: one more chunk, the send fails -/
  | sendChunkErr (s : WildConc) (i : Nat) (payload : Payload) (sid : U32) (idx n : Nat)
      (chunks chunks' : PayloadChunks) (chunked : Payload) (f : RequestFnfFrame) (e : Error) :
      s.calls[i]? = some (.sending payload sid idx n chunks) →
      chunks.next = (some chunked, chunks') →
      RequestFnfFrame.new dbg sid (idx + 1 != n) chunked = .ok f →
      tr s.wire (Frame.requestFnf f) = .ok (.error e) →
      WildStep dbg tr s { (s.set i (.done payload sid (.error e))) with
        wire := s.wire ++ [Frame.requestFnf f] }
  /-- socket.rs:159: one more chunk, the transport panics -/
  | sendChunkPanic (s : WildConc) (i : Nat) (payload : Payload) (sid : U32) (idx n : Nat)
      (chunks chunks' : PayloadChunks) (chunked : Payload) (f : RequestFnfFrame) (msg : String) :
      s.calls[i]? = some (.sending payload sid idx n chunks) →
      chunks.next = (some chunked, chunks') →
      RequestFnfFrame.new dbg sid (idx + 1 != n) chunked = .ok f →
      tr s.wire (Frame.requestFnf f) = .panic msg →
      WildStep dbg tr s { (s.set i (.panicked payload)) with
        wire := s.wire ++ [Frame.requestFnf f] }
  /-- socket.rs:154, 168: the iterator is exhausted -/
  | finish (s : WildConc) (i : Nat) (payload : Payload) (sid : U32) (idx n : Nat)
      (chunks chunks' : PayloadChunks) :
      s.calls[i]? = some (.sending payload sid idx n chunks) →
      chunks.next = (none, chunks') →
      WildStep dbg tr s (s.set i (.done payload sid (.ok ())))
  /-- socket.rs:171-174: a concurrent `metadata_push` -/
  | push (s : WildConc) (metadata : Bytes) (r : Except Error Unit) :
      tr s.wire (Frame.metadataPush (MetadataPushFrame.new metadata)) = .ok r →
      WildStep dbg tr s { s with
        wire := s.wire ++ [Frame.metadataPush (MetadataPushFrame.new metadata)]
        asked := s.asked ++ [.metadataPush metadata (some r)] }
  /-- socket.rs:173: the transport panics -/
  | pushPanic (s : WildConc) (metadata : Bytes) (msg : String) :
      tr s.wire (Frame.metadataPush (MetadataPushFrame.new metadata)) = .panic msg →
      WildStep dbg tr s { s with
        wire := s.wire ++ [Frame.metadataPush (MetadataPushFrame.new metadata)]
        asked := s.asked ++ [.metadataPush metadata none] }
  /-- the environment changes the receivers map -/
  | env (s : WildConc) (receivers : Store) :
      WildStep dbg tr s { s with machine := { s.machine with receivers := receivers } }

/-- No calls yet. The machine is that of socket.rs:55-68. -/
def WildConc.init (m : RSocketMachine) : WildConc :=
  { machine := m, calls := [], draws := 0, wire := [], asked := [] }

/-- States reachable from a machine on which nothing was called yet. The machine is that of
socket.rs:55-68. -/
inductive WildReachable (dbg : Bool) (tr : WildTransport) (m : RSocketMachine) : WildConc → Prop where
  | init : WildReachable dbg tr m (WildConc.init m)
  | step {s s' : WildConc} :
      WildReachable dbg tr m s → WildStep dbg tr s s' → WildReachable dbg tr m s'

end RSocketMachine

end Binate
