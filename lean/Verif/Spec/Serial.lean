import Verif.Spec.Ascending

/-! # Calls made one after the other -/

namespace Binate.Spec

open RSocketMachine

/-- The calls made one after the other on a machine and an unused connection, with what they return
and what the connection is handed. The answer that a `metadata_push` is noted with does not matter
here. -/
inductive Serial (dbg : Bool) (tr : Transport) (m : RSocketMachine) :
    List Asked → List (Except Error Unit) → List Frame → RSocketMachine → Prop where
  | nothing : Serial dbg tr m [] [] [] m
  | fireAndForget {ops rs sent m'} {p : Payload} {fuel r sent' m''} : Serial dbg tr m ops rs sent m' →
      m'.fireAndForget dbg fuel tr p sent = .ok (r, sent', m'') →
      Serial dbg tr m (ops ++ [.fireAndForget p]) (rs ++ [r]) sent' m''
  | metadataPush {ops rs sent m'} {md : Bytes} {a r sent' m''} : Serial dbg tr m ops rs sent m' →
      m'.metadataPush tr md sent = (r, sent', m'') →
      Serial dbg tr m (ops ++ [.metadataPush md a]) (rs ++ [r]) sent' m''

/-- What the calls have returned, in the order in which they were made, `none` for those that have
not; the second list is about the calls of `fire_and_forget` only. -/
def returnsOf : List Asked → List (Option (Except Error Unit)) → List (Option (Except Error Unit))
  | .fireAndForget _ :: asked, r :: rs => r :: returnsOf asked rs
  | .metadataPush _ a :: asked, rs => some a :: returnsOf asked rs
  | _, _ => []

/-- What the calls made so far have returned. -/
def returns (s : Conc) : List (Option (Except Error Unit)) :=
  returnsOf s.asked (s.calls.map callResult)

/-- The calls that have returned, in some order. When they are made in this order one after the other,
they return the same and the connection is handed these frames. -/
structure AsIfSerial (dbg : Bool) (tr : Transport) (m : RSocketMachine) (s : Conc) (order : List Nat)
    (frames : List Frame) : Prop where
  once : order.Nodup
  all : ∀ k, k ∈ order ↔ ∃ r, (returns s)[k]? = some (some r)
  same : ∃ ops rs m', order.map (s.asked[·]?) = ops.map some ∧
    order.map ((returns s)[·]?) = rs.map (fun r => some (some r)) ∧ Serial dbg tr m ops rs frames m'

/-- A frame without its stream number. -/
def unnumbered : Frame → Frame
  | .requestFnf v => .requestFnf { v with streamId := 0#32 }
  | f => f

/-- The same frames up to the numbers of streams. -/
def SameButNumbers (l l' : List Frame) : Prop := l.map unnumbered = l'.map unnumbered

/-- The connection does not look at the numbers of streams. -/
def IgnoresNumbers (tr : Transport) : Prop := ∀ l l' f f', SameButNumbers l l' →
  unnumbered f = unnumbered f' → tr l f = tr l' f'

/-- The streams have the numbers, in order, that `next_stream_id` gives when it is called one time
after the other. -/
def NumberedInOrder (m : RSocketMachine) (wire : List Frame) : Prop :=
  ∃ ids q, Alone m.receivers m.streamId ids q ∧ streamIds wire = (ids.map BitVec.toNat).reverse

/-- Some id of the machine's parity is free. -/
def SomeFree (m : RSocketMachine) : Prop :=
  ∃ x : U32, x.toNat < 2 ^ 31 ∧ x.toNat % 2 = m.streamId.word.toNat % 2 ∧ m.receivers x = false

end Binate.Spec
