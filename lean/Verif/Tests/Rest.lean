import Verif.Tests.Frames
import Verif.Model.BufList
import Verif.Model.Chunks
import Verif.Model.Counter
import Verif.Model.Error
import Verif.Model.Mime
import Verif.Model.StreamId

/-! # The crate's own unit tests, run on the model: the rest -/

namespace Binate.Tests

/-! ## payload.rs -/

/-- `Payload::builder().set_metadata("metadata").set_data("data payload").build()` -/
def chunked : Payload :=
  PayloadBuilder.build [.setMetadata (str "metadata"), .setData (str "data payload")]

/-- payload.rs:249-280 -/
example : ∃ it, chunked.chunks 4 = .ok it ∧
    it.next.1 = some ⟨some (str "meta"), some (str "data")⟩ ∧
    it.next.2.next.1 = some ⟨some (str "data"), some (str " pay")⟩ ∧
    it.next.2.next.2.next.1 = some ⟨none, some (str "load")⟩ ∧
    it.next.2.next.2.next.2.next.1 = none ∧
    it.next.2.next.2.next.2.next.2.next.1 = none :=
  ⟨_, rfl, by rfl, by rfl, by rfl, by rfl, by rfl⟩

/-- `payload.chunks(n).len()` -/
def chunksLen (p : Payload) (n : Nat) : Option Nat :=
  match p.chunks n with
  | .ok it => some it.len
  | _ => none

/-- payload.rs:283-304 -/
example : chunksLen (PayloadBuilder.build []) 1 = some 0 ∧
    chunksLen chunked 13 = some 1 ∧ chunksLen chunked 12 = some 1 ∧ chunksLen chunked 11 = some 2 ∧
    chunksLen chunked 10 = some 2 ∧ chunksLen chunked 9 = some 2 ∧ chunksLen chunked 8 = some 2 ∧
    chunksLen chunked 7 = some 2 ∧ chunksLen chunked 6 = some 2 ∧ chunksLen chunked 5 = some 3 ∧
    chunksLen chunked 4 = some 3 ∧ chunksLen chunked 3 = some 4 ∧ chunksLen chunked 2 = some 6 ∧
    chunksLen chunked 1 = some 12 := by
  decide +kernel

/-! ## mimetype.rs, error.rs -/

/-- mimetype.rs:135-140 -/
example : WellKnownMimeType.fromStr "unparsable" = .UNPARSEABLE ∧
    WellKnownMimeType.intoStr 1 (WellKnownMimeType.fromStr "unparsable") = .ok "" := by decide

/-- error.rs:281-289 -/
example : (Error.ofDecodeError .inComplete).kind = .decode .inComplete ∧
    (Error.ofDecodeError .inComplete).source.isSome = true := ⟨rfl, rfl⟩

/-! ## buf.rs (pointer comparisons are left out) -/

/-- buf.rs:138-147 -/
def helloWorld : BufList Bytes := ⟨[str "Hello", str " ", str "World"]⟩

/-- buf.rs:150-159 -/
example : ∃ l, helloWorld.copyToBytes 4 = .ok (str "Hell", l) ∧ l.chunk = str "o" ∧
    l.remaining = 7 := ⟨_, rfl, by rfl, by rfl⟩

/-- buf.rs:162-170 -/
example : ∃ l, helloWorld.copyToBytes 5 = .ok (str "Hello", l) ∧ l.chunk = str " " ∧
    l.remaining = 6 := ⟨_, rfl, by rfl, by rfl⟩

/-- buf.rs:173-178 -/
example : ∃ l, helloWorld.copyToBytes 7 = .ok (str "Hello W", l) ∧ l.remaining = 4 :=
  ⟨_, rfl, by rfl⟩

/-- buf.rs:181-186 -/
example : ∃ l l', BufList.new.push true (str "Hello World") = .ok l ∧
    l.copyToBytes 5 = .ok (str "Hello", l') ∧ l'.chunk = str " World" := ⟨_, _, rfl, rfl, by rfl⟩

/-- buf.rs:189-192, should_panic with this message -/
example : helloWorld.copyToBytes 42 = .panic "`len` greater than remaining" := by rfl

/-- `RequestFnfFrame::new(1, follows, payload).to_bytes()` -/
def fnfBytes (follows : Bool) (p : Payload) : Bytes :=
  match RequestFnfFrame.new true 1#32 follows p with
  | .ok f => match f.encode [] with
    | .ok b => b
    | _ => []
  | _ => []

/-- buf.rs:195-227 -/
example : ∃ l1 l2 l3, BufList.new.push true (fnfBytes true ⟨some (str "metadata 1 "), none⟩) = .ok l1 ∧
    l1.push true (fnfBytes true ⟨some (str "metadata 2 "), some (str "data 1 ")⟩) = .ok l2 ∧
    l2.push true (fnfBytes false ⟨none, some (str "data 2 ")⟩) = .ok l3 ∧
    l3.tryInto = .ok (.ok ⟨some (str "metadata 1 metadata 2 "), some (str "data 1 data 2 ")⟩) :=
  ⟨_, _, _, rfl, rfl, rfl, by rfl⟩

/-! ## counter.rs -/

/-- counter.rs:48-71 -/
example : (RequestCounter.new 42#32).load = 42 ∧
    (RequestCounter.new 42#32).dec.1 = 42 ∧ (RequestCounter.new 42#32).dec.2.load = 41 ∧
    ((RequestCounter.new 42#32).add 8#32).load = 50 ∧
    (RequestCounter.new 1#32).dec.2.isZero = true := by decide

/-! ## stream_id.rs (the loom test is in `Props/StreamId`, for all schedules) -/

/-- The first two ids. -/
def twoIds (store : Store) (p : StreamIdProvider) : Option (U32 × U32) :=
  match p.nextStreamId store 8 with
  | .ok (a, q) => match q.nextStreamId store 8 with
    | .ok (b, _) => some (a, b)
    | _ => none
  | _ => none

/-- stream_id.rs:61-83 -/
example : twoIds (fun _ => false) .newForClient = some (1#32, 3#32) ∧
    twoIds (fun _ => false) .newForServer = some (2#32, 4#32) ∧
    twoIds (fun x => x == 3#32) .newForClient = some (1#32, 5#32) := by decide

/-- stream_id.rs:86-97 -/
example : twoIds (fun _ => false) ⟨0x7FFFFFFF#32⟩ = some (StreamIdProvider.STREAM_ID_MASK, 1#32) ∧
    twoIds (fun _ => false) ⟨0xFFFFFFFF#32⟩ = some (StreamIdProvider.STREAM_ID_MASK, 1#32) := by
  decide

end Binate.Tests
