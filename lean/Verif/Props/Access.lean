import Verif.Lemmas.Access
import Verif.Props.Text

/-! # Accessors

C71. -/

namespace Binate

open Spec

/-- C71: the peer that decodes a frame made with `new` reads the constructor's arguments back
through the accessors. Only a present-but-empty part shows as absent. -/
theorem C71_accessors {dbg : Bool} {c : NewCall} {f : Frame} (h : c.run dbg = .ok f)
    (h31 : ∀ a ∈ c.args31, a < 2 ^ 31) (h63 : ∀ a ∈ c.args63, a < 2 ^ 63)
    (hf : ∀ s fl p, c = .payload s fl p → FlagsOk fl) (hs : Sendable f) :
    ∃ b g, f.toBytes = .ok b ∧ decode b = .ok g [] ∧
      (∀ x, seen g x = (c.given x).map (received x c.isPush)) ∧
      isFollows? g = c.followsArg ∧ isComplete? g = c.completeArg ∧ isNext? g = c.nextArg ∧
      isRespond? g = c.respondArg := by
  have hw := built_wellFormed (run_built h hf) hs
  obtain ⟨-, k2, k3, k4, k5⟩ := run_flags h
  obtain ⟨n2, n3, n4, n5⟩ := normalize_flags f
  refine ⟨_, _, toBytes_wellFormed hw, decode_layout hw, fun x => ?_, n2.trans k2, n3.trans k3,
    n4.trans k4, n5.trans k5⟩
  have hp : isPushFrame f = c.isPush := by
    have ty := (run_stores h).type
    cases c <;> cases f <;> first | rfl | cases ty
  rw [seen_normalize, seen_new h h31 h63, hp]

/-- C71: the accessors of a frame made with `new` return the constructor's arguments, whether or not the
frame can be sent. -/
theorem C71_before_sending {dbg : Bool} {c : NewCall} {f : Frame} (h : c.run dbg = .ok f)
    (h31 : ∀ a ∈ c.args31, a < 2 ^ 31) (h63 : ∀ a ∈ c.args63, a < 2 ^ 63) :
    (∀ x, seen f x = c.given x) ∧ isFollows? f = c.followsArg ∧ isComplete? f = c.completeArg ∧
      isNext? f = c.nextArg ∧ isRespond? f = c.respondArg :=
  ⟨seen_new h h31 h63, (run_flags h).2⟩

/-- Non-vacuity: a REQUEST_STREAM frame with metadata and an empty data part. -/
example : ∃ f, (NewCall.requestStream 7#32 true 3#32 ⟨some [1#8, 2#8], some []⟩).run true = .ok f ∧
    Sendable f ∧ seen f .initialRequestN = some (.number 3) ∧
    seen f .payload = some (.both (some [1#8, 2#8]) (some [])) ∧
    ∃ b g, f.toBytes = .ok b ∧ decode b = .ok g [] ∧ seen g .streamId = some (.number 7) ∧
      seen g .payload = some (.both (some [1#8, 2#8]) none) := by
  refine ⟨_, rfl, ?_, rfl, rfl, ?_⟩
  · show 2 < 2 ^ 24
    omega
  · obtain ⟨b, g, h1, h2, h3, -⟩ :=
      C71_accessors (dbg := true)
        (c := .requestStream 7#32 true 3#32 ⟨some [1#8, 2#8], some []⟩) rfl
        (by decide) (by decide) nofun
        (by show 2 < 2 ^ 24; omega)
    exact ⟨b, g, h1, h2, h3 .streamId, h3 .payload⟩

/-- C71 for SETUP: the peer that decodes a built frame sees what the last call of each kind on the
builder gave, or the documented default. -/
theorem C71_setup {dbg : Bool} {calls : List SetupCall} {f : SetupFrame}
    (h : SetupFrameBuilder.build dbg calls = .ok f)
    (hr : calls.any setsResume = calls.any isTokenCall)
    (hm : (lastOr defaultMime metadataMimeArg calls).length ≤ 255)
    (hd : (lastOr defaultMime dataMimeArg calls).length ≤ 255)
    (hl : (optBytes (lastOr none metadataArg calls)).length < 2 ^ 24) :
    ∃ b g, (Frame.setup f).toBytes = .ok b ∧ decode b = .ok (.setup g) [] ∧
      SetupSeen normOpt calls g := by
  have d := build_describes h
  have hs : Sendable (.setup f) := by
    refine ⟨?_, by rw [d.metadataMime]; exact hm, by rw [d.dataMime]; exact hd, ?_⟩
    · rw [d.resume, d.token, hr]
      exact lastOr_token calls
    · rw [d.payload]
      exact hl
  have hw := built_wellFormed (.setup h) hs
  refine ⟨_, _, toBytes_wellFormed hw, decode_layout hw, ?_⟩
  exact {
    version := d.version
    interval := (millis_exact _).trans d.interval
    timeout := (millis_exact _).trans d.timeout
    token := d.token
    metadataMime := fun s => by
      rw [← d.metadataMime]
      exact C54_mime_str _ _
    dataMime := fun s => by
      rw [← d.dataMime]
      exact C54_mime_str _ _
    metadata := by
      show normOpt f.payload.metadata = _
      rw [d.payload]
    data := by
      show normOpt f.payload.data = _
      rw [d.payload]
    payload := rfl
    isResume := by
      rw [← d.resume]
      exact contains_follows _
    isLease := by
      rw [← d.lease]
      exact contains_complete _ }

/-- C71 for SETUP before sending: the accessors show what the last call of each kind gave, a part that is
present but empty as such. -/
theorem C71_setup_before_sending {dbg : Bool} {calls : List SetupCall} {f : SetupFrame}
    (h : SetupFrameBuilder.build dbg calls = .ok f) : SetupSeen id calls f := by
  have d := build_describes h
  exact {
    version := d.version
    interval := (millis_exact _).trans d.interval
    timeout := (millis_exact _).trans d.timeout
    token := d.token
    metadataMime := fun s => by
      rw [← d.metadataMime]
      exact C54_mime_str _ _
    dataMime := fun s => by
      rw [← d.dataMime]
      exact C54_mime_str _ _
    metadata := by
      show f.payload.metadata = _
      rw [d.payload]
      rfl
    data := by
      show f.payload.data = _
      rw [d.payload]
      rfl
    payload := rfl
    isResume := by
      rw [← d.resume]
      exact contains_follows _
    isLease := by
      rw [← d.lease]
      exact contains_complete _ }

/-- Non-vacuity: a builder with three calls. -/
example (dbg : Bool) : ∃ calls f g b, SetupFrameBuilder.build dbg calls = .ok f ∧
    (Frame.setup f).toBytes = .ok b ∧ decode b = .ok (.setup g) [] ∧
    g.getVersion = ⟨2, 5⟩ ∧ g.getKeepaliveInterval.asMillis = 1500 ∧
    g.getKeepaliveTimeout.asMillis = 60000 ∧ g.dataMimetypeStr = some "a/b" ∧
    g.metadataMimetypeStr = some "application/binary" := by
  obtain ⟨f, hf⟩ : ∃ f, SetupFrameBuilder.build dbg
      [.setVersion 2 5, .setKeepaliveInterval 1500#32, .setDataMimetype [0x61, 0x2F, 0x62]] =
      .ok f := by
    cases dbg <;> exact ⟨_, rfl⟩
  obtain ⟨b, g, h1, h2, h3⟩ := C71_setup hf (by decide) (by decide) (by decide) (by decide)
  exact ⟨_, f, g, b, hf, h1, h2, h3.version, h3.interval, h3.timeout,
    (h3.dataMime _).2 ⟨by decide, by decide⟩, (h3.metadataMime _).2 ⟨by decide, by decide⟩⟩

/-- C71: the constants `TYPE` and `STREAM_ID` and the accessor `stream_id()` agree with the header
on the wire. -/
theorem C71_constants {dbg : Bool} {f : Frame} (hb : Built dbg f) (hs : Sendable f) :
    ∃ b, f.toBytes = .ok b ∧ streamIdOf b = (idOf f).toNat ∧
      ∀ t, typeConst f = some t → typeOf b = t.value.toNat := by
  have hw := built_wellFormed hb hs
  refine ⟨_, toBytes_wellFormed hw, ?_, ?_⟩
  · cases f with
    | cancel f =>
      rw [show layout 16 (.cancel f) = header f.streamId.toNat 9 0 ++ [] from
        (List.append_nil _).symm]
      exact streamIdOf_header _ hw
    | _ =>
      simp only [layout, List.append_assoc]
      rw [streamIdOf_header]
      · rfl
      · first
        | decide
        | exact hw.1
  · intro t ht
    obtain ⟨sid, rest, hl⟩ := layout_header f
    rw [hl, typeOf_header rest (typeNumber_lt f) (Nat.lt_trans (layoutFlags_lt f) (by decide))]
    cases f <;> cases ht <;> rfl
/-- Non-vacuity: a CANCEL frame for stream 5. -/
example : ∃ f b, Built true f ∧ Sendable f ∧ typeConst f = some .CANCEL ∧ f.toBytes = .ok b ∧
    typeOf b = 9 ∧ streamIdOf b = 5 :=
  ⟨.cancel ⟨5#32⟩, _, .cancel (s := 5#32) rfl, (by show 0 < 2 ^ 24; decide), rfl, rfl, by decide, by decide⟩

end Binate
