import Verif.Lemmas.Builder
import Verif.Lemmas.Reserved
import Verif.Spec.Ctor

/-! # Helper lemmas on the public constructors -/

namespace Binate

open Spec

theorem wrap_eq_ok {α : Type} {k : α → Frame} {o : Outcome α} {f : Frame} :
    wrap k o = .ok f ↔ ∃ a, o = .ok a ∧ f = k a := by
  cases o with
  | ok a =>
    constructor
    · intro h; cases h; exact ⟨a, rfl, rfl⟩
    · rintro ⟨a, h, rfl⟩; cases h; rfl
  | panic m => exact ⟨fun h => (nomatch h), fun ⟨_, h, _⟩ => (nomatch h)⟩
  | diverge => exact ⟨fun h => (nomatch h), fun ⟨_, h, _⟩ => (nomatch h)⟩

theorem danz_iff {dbg : Bool} {nm : String} {x : U32} {u : Unit} :
    debugAssertNonZero dbg nm x = .ok u ↔ (dbg = true → 0 < x.toNat) := by
  cases dbg
  · exact ⟨fun _ h => (Bool.false_ne_true h).elim, fun _ => rfl⟩
  · constructor
    · intro h _
      apply Nat.pos_of_ne_zero
      intro hx
      have : x = 0#32 := BitVec.eq_of_toNat_eq (by rw [hx]; rfl)
      subst this; cases h
    · intro h
      refine danz_ok fun _ hx => ?_
      subst hx; exact absurd (h rfl) (by decide)

theorem dam63_iff {dbg : Bool} {nm : String} {x : U64} {u : Unit} :
    debugAssertMaxU63 dbg nm x = .ok u ↔ (dbg = true → x.toNat < 2 ^ 63) := by
  constructor
  · intro h hd
    subst hd
    apply Nat.not_le.1
    intro hx
    obtain ⟨m, hm⟩ := dam63_panic (nm := nm) hx
    rw [hm] at h; cases h
  · exact dam63_ok

/-- The range checks that a call makes in profile `dbg` succeed. -/
def Passes (dbg : Bool) (c : NewCall) : Prop := dbg = true → c.InRange

/-- The values that the frame of a call stores. -/
structure Stores (c : NewCall) (f : Frame) : Prop where
  type : Spec.typeNumber f = c.typeNumber
  v31 : values31 f = c.args31.map (fun a => if c.isLease then a else a % 2 ^ 31)
  v63 : values63 f = c.args63.map (· % 2 ^ 63)
  blobs : blobsOf f = c.blobs

theorem bind_unit {α : Type} {o : Outcome Unit} {k : Outcome α} {a : α} :
    (o.bind fun _ => k) = .ok a ↔ o = .ok () ∧ k = .ok a := by
  constructor
  · intro h
    obtain ⟨_, h1, h2⟩ := Outcome.bind_eq_ok.1 h
    exact ⟨h1, h2⟩
  · rintro ⟨h1, h2⟩
    exact Outcome.bind_eq_ok.2 ⟨(), h1, h2⟩

theorem run_ok_passes {dbg : Bool} {c : NewCall} :
    (∃ f, c.run dbg = .ok f) ↔ Passes dbg c := by
  cases c <;>
    simp only [NewCall.run, wrap_eq_ok, Passes, NewCall.InRange, NewCall.args31, NewCall.args63,
      NewCall.argsPos, List.mem_cons, List.not_mem_nil, or_false, forall_eq_or_imp, forall_eq,
      false_implies, implies_true, and_true, true_and]
  case metadataPush => exact ⟨fun _ => trivial, fun _ => ⟨_, rfl⟩⟩
  all_goals
    simp only [LeaseFrame.new, KeepaliveFrame.new, RequestResponseFrame.new, RequestFnfFrame.new,
      RequestStreamFrame.new, RequestChannelFrame.new, RequestNFrame.new, CancelFrame.new,
      PayloadFrame.new, ErrorFrame.new, ResumeFrame.new, ResumeOkFrame.new, bind, bind_unit,
      dam31_iff, dam63_iff, danz_iff, Outcome.ok.injEq]
    constructor
    · rintro ⟨f, a, h, -⟩ hd
      simp only [hd, forall_const] at h
      first
        | exact ⟨⟨h.1, h.2.1⟩, h.2.2.1⟩
        | exact ⟨h.1, h.2.1⟩
        | exact h.1
    · intro h
      first
        | exact ⟨_, _, ⟨fun hd => (h hd).1.1, fun hd => (h hd).1.2, fun hd => (h hd).2, rfl⟩, rfl⟩
        | exact ⟨_, _, ⟨fun hd => (h hd).1, fun hd => (h hd).2, rfl⟩, rfl⟩
        | exact ⟨_, _, ⟨fun hd => h hd, rfl⟩, rfl⟩

theorem run_stores {dbg : Bool} {c : NewCall} {f : Frame} (h : c.run dbg = .ok f) :
    Stores c f := by
  cases c <;> simp only [NewCall.run, wrap_eq_ok] at h
  case metadataPush => cases h; exact ⟨rfl, rfl, rfl, rfl⟩
  all_goals
    simp only [LeaseFrame.new, KeepaliveFrame.new, RequestResponseFrame.new, RequestFnfFrame.new,
      RequestStreamFrame.new, RequestChannelFrame.new, RequestNFrame.new, CancelFrame.new,
      PayloadFrame.new, ErrorFrame.new, ResumeFrame.new, ResumeOkFrame.new, bind, bind_unit,
      Outcome.ok.injEq] at h
    obtain ⟨a, h, rfl⟩ := h
    have e := h.2
    try replace e := e.2
    try replace e := e.2
    subst e
    constructor <;>
      simp only [Spec.typeNumber, NewCall.typeNumber, values31, values63, NewCall.args31,
        NewCall.args63, NewCall.isLease, List.map_cons, List.map_nil, blobsOf, NewCall.blobs,
        and_max31, and_max63, if_true, if_false, Bool.false_eq_true]

theorem run_no_diverge {dbg : Bool} {c : NewCall} (h : ¬ ∃ f, c.run dbg = .ok f) :
    ∃ m, c.run dbg = .panic m := by
  cases hr : c.run dbg with
  | ok f => exact absurd ⟨f, hr⟩ h
  | panic m => exact ⟨m, rfl⟩
  | diverge =>
    exfalso
    cases c <;> simp only [NewCall.run] at hr
    case metadataPush => cases hr
    all_goals
      simp only [LeaseFrame.new, KeepaliveFrame.new, RequestResponseFrame.new,
        RequestFnfFrame.new,
        RequestStreamFrame.new, RequestChannelFrame.new, RequestNFrame.new, CancelFrame.new,
        PayloadFrame.new, ErrorFrame.new, ResumeFrame.new, ResumeOkFrame.new, bind,
        debugAssertMaxU31, debugAssertMaxU63, debugAssertNonZero, Outcome.debugAssert] at hr
      repeat' (first
        | (split at hr; · cases hr)
        | cases hr
        | skip)
      done

/-- The frame of a successful call is `Built` (for PAYLOAD: with flags of the `Flags` type). -/
theorem run_built {dbg : Bool} {c : NewCall} {f : Frame} (h : c.run dbg = .ok f)
    (hf : ∀ s fl p, c = .payload s fl p → FlagsOk fl) : Built dbg f := by
  cases c <;> simp only [NewCall.run, wrap_eq_ok] at h
  case metadataPush => cases h; exact .metadataPush
  all_goals obtain ⟨a, h, rfl⟩ := h
  case lease => exact .lease h
  case keepalive => exact .keepalive h
  case requestResponse => exact .requestResponse h
  case requestFnf => exact .requestFnf h
  case requestStream => exact .requestStream h
  case requestChannel => exact .requestChannel h
  case requestN => exact .requestN h
  case cancel => exact .cancel h
  case payload => exact .payload (hf _ _ _ rfl) h
  case error => exact .error h
  case resume => exact .resume h
  case resumeOk => exact .resumeOk h

theorem contains_bit (fl g : Flags) (k : Nat) (hk : k < 16) (hg : g.bits = BitVec.twoPow 16 k) :
    fl.contains g = fl.bits.getLsbD k := by
  rw [Flags.contains, hg, BitVec.and_twoPow]
  cases fl.bits.getLsbD k with
  | true => simp
  | false =>
    rw [if_neg (by decide), beq_eq_false_iff_ne]
    intro h
    have : (0#16).getLsbD k = (BitVec.twoPow 16 k).getLsbD k := by rw [h]
    rw [BitVec.getLsbD_zero, BitVec.getLsbD_twoPow] at this
    simp [hk] at this

theorem contains_follows (fl : Flags) : fl.contains Flags.FOLLOWS = fl.bits.toNat.testBit 6 :=
  contains_bit fl _ 6 (by decide) rfl
theorem contains_complete (fl : Flags) : fl.contains Flags.COMPLETE = fl.bits.toNat.testBit 5 :=
  contains_bit fl _ 5 (by decide) rfl
theorem contains_next (fl : Flags) : fl.contains Flags.NEXT = fl.bits.toNat.testBit 4 :=
  contains_bit fl _ 4 (by decide) rfl
theorem contains_metadata (fl : Flags) : fl.contains Flags.METADATA = fl.bits.toNat.testBit 7 :=
  contains_bit fl _ 7 (by decide) rfl
theorem contains_ignore (fl : Flags) : fl.contains Flags.IGNORE = fl.bits.toNat.testBit 8 :=
  contains_bit fl _ 8 (by decide) rfl

/-- The flags of a request frame. -/
theorem requestFlags (follows hasMeta : Bool) :
    let fl := if hasMeta then
        (if follows then Flags.empty.union Flags.FOLLOWS else Flags.empty).union Flags.METADATA
      else if follows then Flags.empty.union Flags.FOLLOWS else Flags.empty
    flagsOf 16 fl = flagsValue 16 false hasMeta follows false false ∧
      fl.bits.toNat.testBit 6 = follows := by
  cases follows <;> cases hasMeta <;> decide

theorem channelFlags (follows complete hasMeta : Bool) :
    let fl := if follows then Flags.empty.union Flags.FOLLOWS else Flags.empty
    let fl := if complete then fl.union Flags.COMPLETE else fl
    let fl := if hasMeta then fl.union Flags.METADATA else fl
    flagsOf 16 fl = flagsValue 16 false hasMeta follows complete false ∧
      fl.bits.toNat.testBit 6 = follows ∧ fl.bits.toNat.testBit 5 = complete := by
  cases follows <;> cases complete <;> cases hasMeta <;> decide

theorem payloadFlags (g : Flags) (hasMeta : Bool) :
    let fl := g.inter ((Flags.FOLLOWS.union Flags.COMPLETE).union Flags.NEXT)
    let fl := if hasMeta then fl.union Flags.METADATA else fl
    flagsOf 16 fl = flagsValue 16 false hasMeta (g.bits.toNat.testBit 6) (g.bits.toNat.testBit 5)
        (g.bits.toNat.testBit 4) ∧
      fl.bits.toNat.testBit 6 = g.bits.toNat.testBit 6 ∧
      fl.bits.toNat.testBit 5 = g.bits.toNat.testBit 5 ∧
      fl.bits.toNat.testBit 4 = g.bits.toNat.testBit 4 := by
  intro fl0 fl
  have key : ∀ i, fl.bits.getLsbD i = ((g.bits.getLsbD i && (0x70#16).getLsbD i) ||
      (hasMeta && (0x80#16).getLsbD i)) := by
    intro i
    have h0 : fl0.bits = g.bits &&& 0x70#16 := rfl
    cases hasMeta
    · show fl0.bits.getLsbD i = _
      rw [h0, BitVec.getLsbD_and]; simp
    · show (fl0.bits ||| 0x80#16).getLsbD i = _
      rw [h0, BitVec.getLsbD_or, BitVec.getLsbD_and]; simp
  have k4 : fl.bits.getLsbD 4 = g.bits.getLsbD 4 := by rw [key]; simp
  have k5 : fl.bits.getLsbD 5 = g.bits.getLsbD 5 := by rw [key]; simp
  have k6 : fl.bits.getLsbD 6 = g.bits.getLsbD 6 := by rw [key]; simp
  have k7 : fl.bits.getLsbD 7 = hasMeta := by rw [key]; simp
  have k8 : fl.bits.getLsbD 8 = false := by rw [key]; simp
  refine ⟨?_, k6, k5, k4⟩
  rw [flagsOf, k4, k5, k6, k7, k8]; rfl

/-- The flag word that the frame of a call has on the wire. -/
def wireFlags (c : NewCall) : Nat :=
  flagsValue 16 false c.metadataGiven (c.followsArg.getD (c.respondArg.getD false))
    (c.completeArg.getD false) (c.nextArg.getD false)

/-- The flag word in the layout of a frame. -/
def layoutFlags : Frame → Nat
  | .setup f => flagsOf 16 f.flags
  | .lease f => flagsValue 16 false f.metadata.isSome false false false
  | .keepalive f => flagsValue 16 false false f.respond false false
  | .requestResponse f => flagsOf 16 f.flags
  | .requestFnf f => flagsOf 16 f.flags
  | .requestStream f => flagsOf 16 f.flags
  | .requestChannel f => flagsOf 16 f.flags
  | .payload f => flagsOf 16 f.flags
  | .metadataPush _ => flagsValue 16 false true false false false
  | _ => 0

theorem layout_header (f : Frame) :
    ∃ sid rest, layout 16 f = header sid (Spec.typeNumber f) (layoutFlags f) ++ rest := by
  cases f <;> simp only [layout, Spec.typeNumber, layoutFlags, List.append_assoc]
  case cancel f => exact ⟨_, [], (List.append_nil _).symm⟩
  all_goals exact ⟨_, _, rfl⟩

theorem flagsValue_lt (i m f c n : Bool) : flagsValue 16 i m f c n < 512 := by
  cases i <;> cases m <;> cases f <;> cases c <;> cases n <;> decide

theorem u16At_header {sid ty fl : Nat} (rest : Bytes) (h1 : ty < 64) (h2 : fl < 1024) :
    u16At (header sid ty fl ++ rest) 4 = ty * 1024 + fl := by
  have h0 : (be 4 sid).length = 4 := be_length _ _
  have h := byteAt_append_right (be 4 sid) (be 2 (ty * 1024 + fl) ++ rest) 0
  have h' := byteAt_append_right (be 4 sid) (be 2 (ty * 1024 + fl) ++ rest) 1
  rw [h0] at h h'
  rw [u16At, header, List.append_assoc, h, show 4 + 1 = 4 + 1 from rfl, h']
  simp only [be, List.cons_append, byteAt, List.getD_eq_getElem?_getD, List.getElem?_cons_zero,
    List.getElem?_cons_succ, Option.getD_some, BitVec.toNat_ofNat, Nat.pow_one, Nat.pow_zero,
    Nat.div_one]
  omega

theorem layoutFlags_lt (f : Frame) : layoutFlags f < 512 := by
  cases f <;> first
    | exact flagsValue_lt ..
    | exact Nat.two_pow_pos 9

theorem typeNumber_lt (f : Frame) : Spec.typeNumber f < 64 := by
  cases f <;> (simp only [Spec.typeNumber]; omega)

/-- The flags of the frame of a successful call. -/
theorem run_flags {dbg : Bool} {c : NewCall} {f : Frame} (h : c.run dbg = .ok f) :
    layoutFlags f = wireFlags c ∧ isFollows? f = c.followsArg ∧ isComplete? f = c.completeArg ∧
      isNext? f = c.nextArg ∧ isRespond? f = c.respondArg := by
  cases c <;> simp only [NewCall.run, wrap_eq_ok] at h
  case metadataPush => cases h; exact ⟨rfl, rfl, rfl, rfl, rfl⟩
  all_goals
    simp only [LeaseFrame.new, KeepaliveFrame.new, RequestResponseFrame.new, RequestFnfFrame.new,
      RequestStreamFrame.new, RequestChannelFrame.new, RequestNFrame.new, CancelFrame.new,
      PayloadFrame.new, ErrorFrame.new, ResumeFrame.new, ResumeOkFrame.new, bind, bind_unit,
      Outcome.ok.injEq] at h
    obtain ⟨a, h, rfl⟩ := h
    have e := h.2
    try replace e := e.2
    try replace e := e.2
    subst e
  case lease => exact ⟨rfl, rfl, rfl, rfl, rfl⟩
  case keepalive => exact ⟨rfl, rfl, rfl, rfl, rfl⟩
  case requestResponse s fo p =>
    have k := requestFlags fo p.hasMetadata
    exact ⟨k.1, congrArg some ((contains_follows _).trans k.2), rfl, rfl, rfl⟩
  case requestFnf s fo p =>
    have k := requestFlags fo p.hasMetadata
    exact ⟨k.1, congrArg some ((contains_follows _).trans k.2), rfl, rfl, rfl⟩
  case requestStream s fo n p =>
    have k := requestFlags fo p.hasMetadata
    exact ⟨k.1, congrArg some ((contains_follows _).trans k.2), rfl, rfl, rfl⟩
  case requestChannel s fo co n p =>
    have k := channelFlags fo co p.hasMetadata
    exact ⟨k.1, congrArg some ((contains_follows _).trans k.2.1),
      congrArg some ((contains_complete _).trans k.2.2), rfl, rfl⟩
  case requestN => exact ⟨rfl, rfl, rfl, rfl, rfl⟩
  case cancel => exact ⟨rfl, rfl, rfl, rfl, rfl⟩
  case payload s fl p =>
    have k := payloadFlags fl p.hasMetadata
    exact ⟨k.1, congrArg some ((contains_follows _).trans k.2.1),
      congrArg some ((contains_complete _).trans k.2.2.1),
      congrArg some ((contains_next _).trans k.2.2.2), rfl⟩
  case error => exact ⟨rfl, rfl, rfl, rfl, rfl⟩
  case resume => exact ⟨rfl, rfl, rfl, rfl, rfl⟩
  case resumeOk => exact ⟨rfl, rfl, rfl, rfl, rfl⟩

theorem normalize_flags (f : Frame) :
    isFollows? (normalize f) = isFollows? f ∧ isComplete? (normalize f) = isComplete? f ∧
      isNext? (normalize f) = isNext? f ∧ isRespond? (normalize f) = isRespond? f := by
  cases f <;> exact ⟨rfl, rfl, rfl, rfl⟩

theorem mime256_toBytes : (Frame.setup
    { SetupFrameBuilder.default with metadataMimetype := List.replicate 256 65#8 }).toBytes =
    .ok (layout 16 (.setup
      { SetupFrameBuilder.default with metadataMimetype := List.replicate 256 65#8 })) :=
  encode_layout (fun fl hfl => by cases hfl; decide) (by decide) []

theorem mime256_build : SetupFrameBuilder.build true
    [.setMetadataMimetype (List.replicate 256 65#8)] =
    .ok { SetupFrameBuilder.default with metadataMimetype := List.replicate 256 65#8 } := by
  have h : (List.replicate 256 65#8).length ≤ 256 := by rw [List.length_replicate]; omega
  rw [SetupFrameBuilder.build, SetupFrameBuilder.run, SetupFrameBuilder.apply,
    decide_eq_true h]
  rfl

end Binate
