import Verif.Model.Frame

/-! # Specification of the wire format

Written from the frame diagrams in the doc comments of binate/src/frame/codec/*.rs and the
RSocket protocol, in terms of natural numbers and lists of bytes. Only the *data types* of the
model are used (`Frame` and the frame structures), none of its functions.

One deliberate difference to the diagrams, shared by sender and receiver of this code: the flag
bits sit one position lower than drawn, `I M F C N` at bits 8..4 instead of 9..5 (see property
C08). The parameter `unit` of `flagsValue` is the weight of the lowest flag: 16 as implemented,
32 as documented. -/

namespace Binate.Spec

/-- Value of a byte string read as a big-endian number. -/
def beVal : Bytes → Nat
  | [] => 0
  | b :: bs => b.toNat * 256 ^ bs.length + beVal bs

/-- The `k` big-endian bytes of `v` (modulo `256 ^ k`). -/
def be : Nat → Nat → Bytes
  | 0, _ => []
  | k + 1, v => BitVec.ofNat 8 (v / 256 ^ k) :: be k v

/-- Frame type numbers of the RSocket protocol. -/
def typeNumber : Frame → Nat
  | .setup _ => 1
  | .lease _ => 2
  | .keepalive _ => 3
  | .requestResponse _ => 4
  | .requestFnf _ => 5
  | .requestStream _ => 6
  | .requestChannel _ => 7
  | .requestN _ => 8
  | .cancel _ => 9
  | .payload _ => 10
  | .error _ => 11
  | .metadataPush _ => 12
  | .resume _ => 13
  | .resumeOk _ => 14

/-! ## Grammar (what the receiver accepts) -/

/-- `h` is a six-byte header with stream id `sid`, type number `ty` and flag word `fl` (the five
flag bits in place, all reserved bits ignored). -/
def Header (h : Bytes) (sid ty fl : Nat) : Prop :=
  ∃ s w, h = s ++ w ∧ s.length = 4 ∧ w.length = 2 ∧
    sid = beVal s % 2 ^ 31 ∧ ty = beVal w / 1024 ∧ fl = beVal w / 16 % 32 * 16

/-- `b` is an unsigned field of `k` bytes of which the low `bits` bits count; its value is `v`. -/
def Num (k bits : Nat) (v : Nat) (b : Bytes) : Prop := b.length = k ∧ v = beVal b % 2 ^ bits

/-- `b` is a field of bytes without length prefix: absent when empty. -/
def Opt (o : Option Bytes) (b : Bytes) : Prop := (b = [] ∧ o = none) ∨ (b ≠ [] ∧ o = some b)

/-- `b` is `x` preceded by its length in `k` bytes. -/
def Prefixed (k : Nat) (x : Bytes) (b : Bytes) : Prop :=
  ∃ l, b = l ++ x ∧ l.length = k ∧ beVal l = x.length

/-- `b` is a payload: a 3-byte length, that many bytes of metadata, the rest is data. -/
def Pay (p : Payload) (b : Bytes) : Prop :=
  ∃ m d mb, b = mb ++ d ∧ Prefixed 3 m mb ∧ Opt p.metadata m ∧ Opt p.data d

/-- `b` is a protocol version. -/
def Ver (v : Version) (b : Bytes) : Prop :=
  ∃ x y, b = x ++ y ∧ Num 2 16 v.major.toNat x ∧ Num 2 16 v.minor.toNat y

/-- `b` is the optional resume token field of a SETUP frame with the given RESUME flag. -/
def Token (resume : Bool) (o : Option Bytes) (b : Bytes) : Prop :=
  if resume then ∃ t, o = some t ∧ Prefixed 2 t b else o = none ∧ b = []

/-- The error codes that are only allowed on stream 0. -/
def ConnectionCode (c : Nat) : Prop := (1 ≤ c ∧ c ≤ 4) ∨ c = 0x101 ∨ c = 0x102

/-- The predefined error codes that are only allowed on a stream. -/
def StreamCode (c : Nat) : Prop := 0x201 ≤ c ∧ c ≤ 0x204

/-- The bytes after the header parse as the fields of frame `f`, leaving `rest` unread. The
header fields `sid` and `fl` are given. -/
inductive Body : (sid fl : Nat) → Bytes → Frame → Bytes → Prop
  | setup {fl vb ib tb kb mb db pb : _} {f : SetupFrame} :
      f.flags.bits.toNat = fl →
      Ver f.version vb → Num 4 31 f.keepaliveInterval.toNat ib →
      Num 4 31 f.keepaliveTimeout.toNat tb →
      Token (fl.testBit 6) f.resumeToken kb →
      Prefixed 1 f.metadataMimetype mb → Prefixed 1 f.dataMimetype db → Pay f.payload pb →
      Body 0 fl (vb ++ ib ++ tb ++ kb ++ mb ++ db ++ pb) (.setup f) []
  | lease {fl tb nb mb : _} {f : LeaseFrame} :
      Num 4 31 f.ttl.toNat tb → Num 4 31 f.numberOfRequests.toNat nb → Opt f.metadata mb →
      Body 0 fl (tb ++ nb ++ mb) (.lease f) []
  | keepalive {fl pb db : _} {f : KeepaliveFrame} :
      f.respond = fl.testBit 6 → Num 8 63 f.lastReceivedPosition.toNat pb → Opt f.data db →
      Body 0 fl (pb ++ db) (.keepalive f) []
  | requestResponse {sid fl pb : _} {f : RequestResponseFrame} :
      f.streamId.toNat = sid → f.flags.bits.toNat = fl → Pay f.payload pb →
      Body sid fl pb (.requestResponse f) []
  | requestFnf {sid fl pb : _} {f : RequestFnfFrame} :
      f.streamId.toNat = sid → f.flags.bits.toNat = fl → Pay f.payload pb →
      Body sid fl pb (.requestFnf f) []
  | requestStream {sid fl nb pb : _} {f : RequestStreamFrame} :
      f.streamId.toNat = sid → f.flags.bits.toNat = fl →
      Num 4 31 f.initialRequestN.toNat nb → Pay f.payload pb →
      Body sid fl (nb ++ pb) (.requestStream f) []
  | requestChannel {sid fl nb pb : _} {f : RequestChannelFrame} :
      f.streamId.toNat = sid → f.flags.bits.toNat = fl →
      Num 4 31 f.initialRequestN.toNat nb → Pay f.payload pb →
      Body sid fl (nb ++ pb) (.requestChannel f) []
  | requestN {sid fl nb rest : _} {f : RequestNFrame} :
      f.streamId.toNat = sid → Num 4 31 f.requestN.toNat nb →
      Body sid fl (nb ++ rest) (.requestN f) rest
  | cancel {sid fl rest : _} {f : CancelFrame} :
      f.streamId.toNat = sid → Body sid fl rest (.cancel f) rest
  | payload {sid fl pb : _} {f : PayloadFrame} :
      f.streamId.toNat = sid → f.flags.bits.toNat = fl → Pay f.payload pb →
      Body sid fl pb (.payload f) []
  | error {sid fl cb db : _} {f : ErrorFrame} :
      f.streamId.toNat = sid → Num 4 32 f.code.toNat cb →
      (ConnectionCode f.code.toNat → sid = 0) → (StreamCode f.code.toNat → sid ≠ 0) →
      Opt f.data db →
      Body sid fl (cb ++ db) (.error f) []
  | metadataPush {fl mb : _} {f : MetadataPushFrame} :
      f.metadata = mb → Body 0 fl mb (.metadataPush f) []
  | resume {fl vb kb sb cb rest : _} {f : ResumeFrame} :
      Ver f.version vb → Prefixed 2 f.resumeToken kb →
      Num 8 63 f.lastReceivedServerPosition.toNat sb →
      Num 8 63 f.firstAvailableClientPosition.toNat cb →
      Body 0 fl (vb ++ kb ++ sb ++ cb ++ rest) (.resume f) rest
  | resumeOk {fl pb rest : _} {f : ResumeOkFrame} :
      Num 8 63 f.lastReceivedClientPosition.toNat pb →
      Body 0 fl (pb ++ rest) (.resumeOk f) rest

/-- The bytes `b` are the frame `f` followed by `rest`. -/
def Parses (b : Bytes) (f : Frame) (rest : Bytes) : Prop :=
  ∃ h body sid fl, b = h ++ body ∧ Header h sid (typeNumber f) fl ∧ Body sid fl body f rest

/-! ## Layout (what the sender writes) -/

/-- The flag word with `unit` the weight of the lowest flag (N). Arguments: ignore, metadata,
follows/resume/respond, complete/lease, next. -/
def flagsValue (unit : Nat) (i m f c n : Bool) : Nat :=
  unit * (16 * i.toNat + 8 * m.toNat + 4 * f.toNat + 2 * c.toNat + n.toNat)

/-- Six header bytes: reserved bit and stream id, type and flags. -/
def header (sid ty fl : Nat) : Bytes := be 4 sid ++ be 2 (ty * 1024 + fl)

/-- The bytes of an optional field. -/
def optBytes : Option Bytes → Bytes
  | some b => b
  | none => []

/-- A payload: 3-byte metadata length, metadata, data. -/
def payloadBytes (p : Payload) : Bytes :=
  be 3 (optBytes p.metadata).length ++ optBytes p.metadata ++ optBytes p.data

/-- The five flags stored in a flag word, as documented names. -/
def flagsOf (unit : Nat) (fl : Flags) : Nat :=
  flagsValue unit (fl.bits.getLsbD 8) (fl.bits.getLsbD 7) (fl.bits.getLsbD 6) (fl.bits.getLsbD 5)
    (fl.bits.getLsbD 4)

/-- The bytes of a frame. `unit` is the weight of the lowest flag bit. -/
def layout (unit : Nat) : Frame → Bytes
  | .setup f =>
    header 0 1 (flagsOf unit f.flags) ++ be 2 f.version.major.toNat ++ be 2 f.version.minor.toNat
      ++ be 4 f.keepaliveInterval.toNat ++ be 4 f.keepaliveTimeout.toNat
      ++ (match f.resumeToken with
          | some t => be 2 t.length ++ t
          | none => [])
      ++ be 1 f.metadataMimetype.length ++ f.metadataMimetype
      ++ be 1 f.dataMimetype.length ++ f.dataMimetype ++ payloadBytes f.payload
  | .lease f =>
    header 0 2 (flagsValue unit false f.metadata.isSome false false false)
      ++ be 4 f.ttl.toNat ++ be 4 f.numberOfRequests.toNat ++ optBytes f.metadata
  | .keepalive f =>
    header 0 3 (flagsValue unit false false f.respond false false)
      ++ be 8 f.lastReceivedPosition.toNat ++ optBytes f.data
  | .requestResponse f =>
    header f.streamId.toNat 4 (flagsOf unit f.flags) ++ payloadBytes f.payload
  | .requestFnf f =>
    header f.streamId.toNat 5 (flagsOf unit f.flags) ++ payloadBytes f.payload
  | .requestStream f =>
    header f.streamId.toNat 6 (flagsOf unit f.flags) ++ be 4 f.initialRequestN.toNat
      ++ payloadBytes f.payload
  | .requestChannel f =>
    header f.streamId.toNat 7 (flagsOf unit f.flags) ++ be 4 f.initialRequestN.toNat
      ++ payloadBytes f.payload
  | .requestN f => header f.streamId.toNat 8 0 ++ be 4 f.requestN.toNat
  | .cancel f => header f.streamId.toNat 9 0
  | .payload f =>
    header f.streamId.toNat 10 (flagsOf unit f.flags) ++ payloadBytes f.payload
  | .error f => header f.streamId.toNat 11 0 ++ be 4 f.code.toNat ++ optBytes f.data
  | .metadataPush f => header 0 12 (flagsValue unit false true false false false) ++ f.metadata
  | .resume f =>
    header 0 13 0 ++ be 2 f.version.major.toNat ++ be 2 f.version.minor.toNat
      ++ be 2 f.resumeToken.length ++ f.resumeToken
      ++ be 8 f.lastReceivedServerPosition.toNat ++ be 8 f.firstAvailableClientPosition.toNat
  | .resumeOk f => header 0 14 0 ++ be 8 f.lastReceivedClientPosition.toNat

end Binate.Spec
