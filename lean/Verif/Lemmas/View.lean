import Verif.Lemmas.Access
import Verif.Lemmas.Builder
import Verif.Lemmas.Ctor
import Verif.Props.Text
import Verif.Spec.View

/-! # Helper lemmas on what accessors show -/

namespace Binate

open Spec

theorem mimeStr_eq_iff (a b : Bytes) : SetupFrame.mimeStr a = SetupFrame.mimeStr b ↔ MimeAlike a b := by
  constructor
  · intro h
    by_cases ha : ∀ x ∈ a, x.toNat < 128
    · left
      cases hs : SetupFrame.mimeStr a with
      | none =>
        have := (C54_mime_str a (String.ofList (a.map fun x => Char.ofNat x.toNat))).2 ⟨ha, ?_⟩
        · rw [hs] at this; cases this
        · rw [String.toList_ofList, List.map_map]
          refine List.map_congr_left fun x hx => ?_
          have hv : x.toNat.isValidChar := .inl (by have := ha x hx; omega)
          show (Char.ofNat x.toNat).toNat = x.toNat
          unfold Char.ofNat
          rw [dif_pos hv]
          rfl
      | some s =>
        have h1 := (C54_mime_str a s).1 hs
        have h2 := (C54_mime_str b s).1 (h ▸ hs)
        have e := h1.2.symm.trans h2.2
        exact List.map_injective_iff.2 (fun x y h => BitVec.eq_of_toNat_eq h) e
    · right
      refine ⟨ha, fun hb => ?_⟩
      cases hs : SetupFrame.mimeStr b with
      | some s =>
        rw [hs] at h
        exact ha ((C54_mime_str a s).1 h).1
      | none =>
        have := (C54_mime_str b (String.ofList (b.map fun x => Char.ofNat x.toNat))).2 ⟨hb, ?_⟩
        · rw [hs] at this; cases this
        · rw [String.toList_ofList, List.map_map]
          refine List.map_congr_left fun x hx => ?_
          have hv : x.toNat.isValidChar := .inl (by have := hb x hx; omega)
          show (Char.ofNat x.toNat).toNat = x.toNat
          unfold Char.ofNat
          rw [dif_pos hv]
          rfl
  · rintro (rfl | ⟨ha, hb⟩)
    · rfl
    · have none_of : ∀ c : Bytes, (¬ ∀ x ∈ c, x.toNat < 128) → SetupFrame.mimeStr c = none := by
        intro c hc
        cases hs : SetupFrame.mimeStr c with
        | none => rfl
        | some s => exact absurd ((C54_mime_str c s).1 hs).1 hc
      rw [none_of a ha, none_of b hb]

theorem ofNat_inj {w : Nat} {x y : BitVec w} (h : Value.number x.toNat = Value.number y.toNat) :
    x = y := BitVec.eq_of_toNat_eq (Value.number.inj h)

theorem flags_ext {a b : Flags} (h : ∀ k, a.bits.toNat.testBit k = b.bits.toNat.testBit k) :
    a = b := by
  cases a; cases b
  congr 1
  exact BitVec.eq_of_toNat_eq (Nat.eq_of_testBit_eq h)

theorem millis_inj {x y : U32} (h : (Duration.fromMillis (x.setWidth 64)).asMillis =
    (Duration.fromMillis (y.setWidth 64)).asMillis) : x = y := by
  rw [millis_exact, millis_exact] at h
  exact BitVec.eq_of_toNat_eq h

theorem version_inj {v w : Version} (h : some (Value.version v.major.toNat v.minor.toNat) =
    some (Value.version w.major.toNat w.minor.toNat)) : v = w := by
  cases v; cases w
  have := Option.some.inj h
  simp only [Value.version.injEq] at this
  rw [BitVec.eq_of_toNat_eq this.1, BitVec.eq_of_toNat_eq this.2]

theorem num_inj {w : Nat} {x y : BitVec w} (h : some (Value.number x.toNat) = some (.number y.toNat)) :
    x = y := BitVec.eq_of_toNat_eq (Value.number.inj (Option.some.inj h))

theorem bytes_inj {x y : Option Bytes} (h : some (Value.bytes x) = some (.bytes y)) : x = y :=
  Value.bytes.inj (Option.some.inj h)

theorem both_inj {p q : Payload} (h : some (Value.both p.metadata p.data) =
    some (.both q.metadata q.data)) : p = q := by
  cases p; cases q
  have := Option.some.inj h
  simp only [Value.both.injEq] at this
  rw [this.1, this.2]

/-- The accessors show everything but flags and MIME types. -/
theorem bare_of_view {f g : Frame} (h : view f = view g) : bare f = bare g := by
  have ht : typeNumber f = typeNumber g := congrArg View.type h
  have hf : ∀ x, seen f x = seen g x := fun x => congrFun (congrArg View.fields h) x
  have hr : isRespond? f = isRespond? g := congrArg View.respond h
  have hs : setupView f = setupView g := congrArg View.setup h
  clear h
  cases f <;> cases g <;> first
    | (exfalso; revert ht; simp only [typeNumber]; omega)
    | skip
  case setup.setup f g =>
    have hs := Option.some.inj hs
    have e1 := version_inj (hf .version)
    have e2 := millis_inj (congrArg SetupView.interval hs)
    have e3 := millis_inj (congrArg SetupView.timeout hs)
    have e4 := bytes_inj (hf .resumeToken)
    have e5 := both_inj (hf .payload)
    cases f; cases g
    simp only [SetupFrame.getVersion, SetupFrame.getResumeToken, SetupFrame.getPayload] at e1 e2 e3 e4 e5
    subst e1 e2 e3 e4 e5
    rfl
  case lease.lease f g =>
    have e1 := millis_inj (Value.millis.inj (Option.some.inj (hf .ttl)))
    have e2 := num_inj (hf .numberOfRequests)
    have e3 := bytes_inj (hf .metadata)
    cases f; cases g
    simp only [LeaseFrame.getNumberOfRequests, LeaseFrame.getMetadata] at e1 e2 e3
    subst e1 e2 e3
    rfl
  case keepalive.keepalive f g =>
    have e1 := num_inj (hf .lastReceivedPosition)
    have e2 := bytes_inj (hf .data)
    have e3 := Option.some.inj hr
    cases f; cases g
    simp only [KeepaliveFrame.getLastReceivedPosition, KeepaliveFrame.getData,
      KeepaliveFrame.isRespond] at e1 e2 e3
    subst e1 e2 e3
    rfl
  case requestResponse.requestResponse f g =>
    have e1 := num_inj (hf .streamId)
    have e2 := both_inj (hf .payload)
    cases f; cases g
    simp only [RequestResponseFrame.getStreamId, RequestResponseFrame.getPayload] at e1 e2
    subst e1 e2
    rfl
  case requestFnf.requestFnf f g =>
    have e1 := num_inj (hf .streamId)
    have e2 := both_inj (hf .payload)
    cases f; cases g
    simp only [RequestFnfFrame.getStreamId, RequestFnfFrame.getPayload] at e1 e2
    subst e1 e2
    rfl
  case requestStream.requestStream f g =>
    have e1 := num_inj (hf .streamId)
    have e2 := both_inj (hf .payload)
    have e3 := num_inj (hf .initialRequestN)
    cases f; cases g
    simp only [RequestStreamFrame.getStreamId, RequestStreamFrame.getPayload,
      RequestStreamFrame.getInitialRequestN] at e1 e2 e3
    subst e1 e2 e3
    rfl
  case requestChannel.requestChannel f g =>
    have e1 := num_inj (hf .streamId)
    have e2 := both_inj (hf .payload)
    have e3 := num_inj (hf .initialRequestN)
    cases f; cases g
    simp only [RequestChannelFrame.getStreamId, RequestChannelFrame.getPayload,
      RequestChannelFrame.getInitialRequestN] at e1 e2 e3
    subst e1 e2 e3
    rfl
  case requestN.requestN f g =>
    have e1 := num_inj (hf .streamId)
    have e2 := num_inj (hf .requestN)
    cases f; cases g
    simp only [RequestNFrame.getStreamId, RequestNFrame.getRequestN] at e1 e2
    subst e1 e2
    rfl
  case cancel.cancel f g =>
    have e1 := num_inj (hf .streamId)
    cases f; cases g
    simp only [CancelFrame.getStreamId] at e1
    subst e1
    rfl
  case payload.payload f g =>
    have e1 := num_inj (hf .streamId)
    have e2 := both_inj (hf .payload)
    cases f; cases g
    simp only [PayloadFrame.getStreamId, PayloadFrame.getPayload] at e1 e2
    subst e1 e2
    rfl
  case error.error f g =>
    have e1 := num_inj (hf .streamId)
    have e2 := num_inj (hf .errorCode)
    have e3 := bytes_inj (hf .data)
    cases f; cases g
    simp only [ErrorFrame.getStreamId, ErrorFrame.getErrorCode, ErrorFrame.getData] at e1 e2 e3
    subst e1 e2 e3
    rfl
  case metadataPush.metadataPush f g =>
    have e1 := Option.some.inj (bytes_inj (hf .metadata))
    cases f; cases g
    simp only [MetadataPushFrame.getMetadata] at e1
    subst e1
    rfl
  case resume.resume f g =>
    have e1 := version_inj (hf .version)
    have e2 := Option.some.inj (bytes_inj (hf .resumeToken))
    have e3 := num_inj (hf .serverPosition)
    have e4 := num_inj (hf .clientPosition)
    cases f; cases g
    simp only [ResumeFrame.getVersion, ResumeFrame.getResumeToken,
      ResumeFrame.getLastReceivedServerPosition, ResumeFrame.getFirstAvailableClientPosition]
      at e1 e2 e3 e4
    subst e1 e2 e3 e4
    rfl
  case resumeOk.resumeOk f g =>
    have e1 := num_inj (hf .position)
    cases f; cases g
    simp only [ResumeOkFrame.getLastReceivedServerPosition] at e1
    subst e1
    rfl

theorem contains_lease (fl : Flags) : fl.contains Flags.LEASE = fl.bits.toNat.testBit 5 :=
  contains_complete fl

theorem contains_resume (fl : Flags) : fl.contains Flags.RESUME = fl.bits.toNat.testBit 6 :=
  contains_follows fl

/-- The accessors for flags show exactly `shownBits`. -/
theorem shown_iff {f g : Frame} (ht : typeNumber f = typeNumber g) :
    (isFollows? f = isFollows? g ∧ isComplete? f = isComplete? g ∧ isNext? f = isNext? g ∧
      (setupView f).map SetupView.lease = (setupView g).map SetupView.lease ∧
      (setupView f).map SetupView.resume = (setupView g).map SetupView.resume) ↔
    ∀ k ∈ shownBits f, flagBit f k = flagBit g k := by
  cases f <;> cases g <;> first
    | (exfalso; revert ht; simp only [typeNumber]; omega)
    | skip
  all_goals
    simp only [isFollows?, isComplete?, isNext?, setupView, shownBits, flagBit, flagsField,
      Option.map_some, Option.map_none, Option.some.injEq, true_and, and_true, List.mem_cons,
      List.not_mem_nil, or_false, forall_eq_or_imp, forall_eq, implies_true,
      SetupFrame.isLease, SetupFrame.isResume, RequestResponseFrame.isFollows,
      RequestFnfFrame.isFollows, RequestStreamFrame.isFollows, RequestChannelFrame.isFollows,
      RequestChannelFrame.isComplete, PayloadFrame.isFollows, PayloadFrame.isComplete,
      PayloadFrame.isNext, contains_lease, contains_resume, contains_follows, contains_complete,
      contains_next]
  all_goals (constructor <;> (intro h; simp only [h, and_self]))

theorem seen_bare {f g : Frame} (h : bare f = bare g) : seen f = seen g := by
  have e : ∀ f, seen (bare f) = seen f := by
    intro f
    funext x
    cases f <;> cases x <;> rfl
  rw [← e f, h, e g]

theorem type_bare {f g : Frame} (h : bare f = bare g) : typeNumber f = typeNumber g := by
  have e : ∀ f, typeNumber (bare f) = typeNumber f := by intro f; cases f <;> rfl
  rw [← e f, h, e g]

theorem respond_bare {f g : Frame} (h : bare f = bare g) : isRespond? f = isRespond? g := by
  have e : ∀ f, isRespond? (bare f) = isRespond? f := by intro f; cases f <;> rfl
  rw [← e f, h, e g]

theorem hasMetadata_bare {f g : Frame} (h : bare f = bare g) : hasMetadata f = hasMetadata g := by
  have e : ∀ f, hasMetadata (bare f) = hasMetadata f := by intro f; cases f <;> rfl
  rw [← e f, h, e g]

theorem flagsField_type {f g : Frame} (h : typeNumber f = typeNumber g) :
    (flagsField f).isSome = (flagsField g).isSome := by
  cases f <;> cases g <;> first | rfl | exact (nomatch h)

theorem shownBits_type {f g : Frame} (h : typeNumber f = typeNumber g) : shownBits f = shownBits g := by
  cases f <;> cases g <;> first
    | rfl
    | (exfalso; revert h; simp only [typeNumber]; omega)

/-- Equal up to flags and MIME types, equal flags, equal MIME types. -/
theorem eq_of_bare {f g : Frame} (h : bare f = bare g) (hfl : flagsField f = flagsField g)
    (hm : mimes f = mimes g) : f = g := by
  cases f <;> cases g <;> first
    | (cases h; done)
    | skip
  case setup.setup f g =>
    cases f; cases g
    simp only [bare, Frame.setup.injEq, SetupFrame.mk.injEq, flagsField, Option.some.injEq, mimes,
      List.cons.injEq, and_true] at h hfl hm
    obtain ⟨-, rfl, rfl, rfl, rfl, -, -, rfl⟩ := h
    obtain ⟨rfl, rfl⟩ := hm
    subst hfl
    rfl
  case requestResponse.requestResponse f g =>
    cases f; cases g
    simp only [bare, Frame.requestResponse.injEq, RequestResponseFrame.mk.injEq, flagsField,
      Option.some.injEq] at h hfl
    obtain ⟨rfl, -, rfl⟩ := h
    subst hfl
    rfl
  case requestFnf.requestFnf f g =>
    cases f; cases g
    simp only [bare, Frame.requestFnf.injEq, RequestFnfFrame.mk.injEq, flagsField,
      Option.some.injEq] at h hfl
    obtain ⟨rfl, -, rfl⟩ := h
    subst hfl
    rfl
  case requestStream.requestStream f g =>
    cases f; cases g
    simp only [bare, Frame.requestStream.injEq, RequestStreamFrame.mk.injEq, flagsField,
      Option.some.injEq] at h hfl
    obtain ⟨rfl, -, rfl, rfl⟩ := h
    subst hfl
    rfl
  case requestChannel.requestChannel f g =>
    cases f; cases g
    simp only [bare, Frame.requestChannel.injEq, RequestChannelFrame.mk.injEq, flagsField,
      Option.some.injEq] at h hfl
    obtain ⟨rfl, -, rfl, rfl⟩ := h
    subst hfl
    rfl
  case payload.payload f g =>
    cases f; cases g
    simp only [bare, Frame.payload.injEq, PayloadFrame.mk.injEq, flagsField,
      Option.some.injEq] at h hfl
    obtain ⟨rfl, -, rfl⟩ := h
    subst hfl
    rfl
  all_goals exact h

/-- The MIME types are those of equal SETUP views. -/
theorem mimes_of_view {f g : Frame} (ht : typeNumber f = typeNumber g) :
    ((setupView f).map SetupView.metadataMime = (setupView g).map SetupView.metadataMime ∧
      (setupView f).map SetupView.dataMime = (setupView g).map SetupView.dataMime) ↔
    ∀ (i : Nat) (a b : Bytes), (mimes f)[i]? = some a → (mimes g)[i]? = some b → MimeAlike a b := by
  cases f <;> cases g <;> first
    | (exfalso; revert ht; simp only [typeNumber]; omega)
    | skip
  case setup.setup f g =>
    simp only [setupView, Option.map_some, Option.some.injEq, SetupFrame.metadataMimetypeStr,
      SetupFrame.dataMimetypeStr, mimeStr_eq_iff, mimes]
    constructor
    · rintro ⟨h1, h2⟩ i a b ha hb
      rcases i with _ | _ | i
      · cases ha; cases hb; exact h1
      · cases ha; cases hb; exact h2
      · cases ha
    · intro h
      exact ⟨h 0 _ _ rfl rfl, h 1 _ _ rfl rfl⟩
  all_goals
    simp only [setupView, Option.map_none, mimes, List.getElem?_nil, true_iff, and_self]
    intro i a b ha
    cases ha

theorem interval_bare {f g : Frame} (h : bare f = bare g) :
    (setupView f).map SetupView.interval = (setupView g).map SetupView.interval ∧
      (setupView f).map SetupView.timeout = (setupView g).map SetupView.timeout := by
  have e : ∀ f, (setupView (bare f)).map SetupView.interval = (setupView f).map SetupView.interval := by
    intro f; cases f <;> rfl
  have e' : ∀ f, (setupView (bare f)).map SetupView.timeout = (setupView f).map SetupView.timeout := by
    intro f; cases f <;> rfl
  exact ⟨by rw [← e f, h, e g], by rw [← e' f, h, e' g]⟩

theorem setupView_ext {f g : Frame}
    (h1 : (setupView f).map SetupView.interval = (setupView g).map SetupView.interval)
    (h2 : (setupView f).map SetupView.timeout = (setupView g).map SetupView.timeout)
    (h3 : (setupView f).map SetupView.metadataMime = (setupView g).map SetupView.metadataMime)
    (h4 : (setupView f).map SetupView.dataMime = (setupView g).map SetupView.dataMime)
    (h5 : (setupView f).map SetupView.lease = (setupView g).map SetupView.lease)
    (h6 : (setupView f).map SetupView.resume = (setupView g).map SetupView.resume) :
    setupView f = setupView g := by
  cases hf : setupView f <;> cases hg : setupView g <;>
    simp only [hf, hg, Option.map_some, Option.map_none, Option.some.injEq, reduceCtorEq] at h1 h2 h3 h4 h5 h6 ⊢
  rename_i x y
  cases x; cases y
  simp_all

theorem view_ext {f g : Frame} (h : DifferHidden f g) : view f = view g := by
  have ht := type_bare h.bare
  obtain ⟨f1, f2, f3, f4, f5⟩ := (shown_iff ht).2 h.flags
  obtain ⟨m1, m2⟩ := (mimes_of_view ht).2 h.mimes
  obtain ⟨i1, i2⟩ := interval_bare h.bare
  rw [view, view, ht, seen_bare h.bare, f1, f2, f3, respond_bare h.bare,
    setupView_ext i1 i2 m1 m2 f4 f5]

theorem differHidden_of_view {f g : Frame} (h : view f = view g) : DifferHidden f g := by
  have hb := bare_of_view h
  have ht := type_bare hb
  have hs : setupView f = setupView g := congrArg View.setup h
  exact ⟨hb, (shown_iff ht).1 ⟨congrArg View.follows h, congrArg View.complete h,
    congrArg View.next h, by rw [hs], by rw [hs]⟩, (mimes_of_view ht).1 ⟨by rw [hs], by rw [hs]⟩⟩

theorem inter_testBit (a b : Flags) (i : Nat) :
    (a.inter b).bits.toNat.testBit i = (a.bits.toNat.testBit i && b.bits.toNat.testBit i) := by
  rw [Flags.inter, BitVec.toNat_and, Nat.testBit_and]

theorem bit_follows (i : Nat) : Flags.FOLLOWS.bits.toNat.testBit i = decide (i = 6) := bit_resume i
theorem bit_complete (i : Nat) : Flags.COMPLETE.bits.toNat.testBit i = decide (i = 5) := bit_lease i
theorem bit_next (i : Nat) : Flags.NEXT.bits.toNat.testBit i = decide (i = 4) := by
  rw [show Flags.NEXT.bits.toNat = 2 ^ 4 from rfl, Nat.testBit_two_pow]
  simp [eq_comm]
theorem bit_empty (i : Nat) : Flags.empty.bits.toNat.testBit i = false := Nat.zero_testBit i

theorem ite_testBit (c : Bool) (a b : Flags) (i : Nat) :
    (if c = true then a else b).bits.toNat.testBit i =
      if c = true then a.bits.toNat.testBit i else b.bits.toNat.testBit i := by
  cases c <;> rfl

theorem lastOr_metadata (calls : List SetupCall) :
    (lastOr none metadataArg calls).isSome = calls.any setsMetadata := by
  unfold lastOr
  have key : ∀ l : List SetupCall, ∀ x ∈ l.filterMap metadataArg, x.isSome = true := by
    intro l x hx
    obtain ⟨c, -, hc⟩ := List.mem_filterMap.1 hx
    cases c <;> simp [metadataArg] at hc
    rw [← hc]; rfl
  cases hl : (calls.filterMap metadataArg).getLast? with
  | none =>
    rw [List.getLast?_eq_none_iff] at hl
    rw [eq_comm, Option.getD_none, Option.isSome_none, List.any_eq_false]
    intro c hc
    have := List.filterMap_eq_nil_iff.1 hl c hc
    cases c <;> simp_all [metadataArg, setsMetadata]
  | some x =>
    have hx := List.mem_of_getLast? hl
    rw [Option.getD_some, key calls x hx, eq_comm, List.any_eq_true]
    obtain ⟨c, hc, hcx⟩ := List.mem_filterMap.1 hx
    refine ⟨c, hc, ?_⟩
    cases c <;> simp_all [metadataArg, setsMetadata]

theorem hasMetadata_eq (p : Payload) : p.hasMetadata = p.metadata.isSome := rfl

theorem built_plain {dbg : Bool} {f : Frame} (h : Built dbg f) : Plain f := by
  intro fl hfl k hk
  cases h with
  | setup h =>
    have d := build_describes h
    cases hfl
    simp only [shownBits, List.mem_cons, List.not_mem_nil, or_false, not_or] at hk
    by_cases e : k = 7
    · subst e
      rw [d.metadata, ← lastOr_metadata]
      simp only [decide_true, Bool.true_and, hasMetadata, payloadOf, Option.any_some, d.payload]
    · rw [d.noOther k hk.1 hk.2 e, decide_eq_false e, Bool.false_and]
  | requestResponse h =>
    simp only [RequestResponseFrame.new, bind, bind_unit, Outcome.ok.injEq] at h
    obtain ⟨-, rfl⟩ := h
    cases hfl
    simp only [shownBits, List.mem_cons, List.not_mem_nil, or_false] at hk
    simp only [hasMetadata, payloadOf, Option.any_some, ← hasMetadata_eq]
    repeat' split
    all_goals simp [union_testBit, bit_follows, bit_metadata, bit_empty, *]
  | requestFnf h =>
    simp only [RequestFnfFrame.new, bind, bind_unit, Outcome.ok.injEq] at h
    obtain ⟨-, rfl⟩ := h
    cases hfl
    simp only [shownBits, List.mem_cons, List.not_mem_nil, or_false] at hk
    simp only [hasMetadata, payloadOf, Option.any_some, ← hasMetadata_eq]
    repeat' split
    all_goals simp [union_testBit, bit_follows, bit_metadata, bit_empty, *]
  | requestStream h =>
    simp only [RequestStreamFrame.new, bind, bind_unit, Outcome.ok.injEq] at h
    obtain ⟨-, -, -, rfl⟩ := h
    cases hfl
    simp only [shownBits, List.mem_cons, List.not_mem_nil, or_false] at hk
    simp only [hasMetadata, payloadOf, Option.any_some, ← hasMetadata_eq]
    repeat' split
    all_goals simp [union_testBit, bit_follows, bit_metadata, bit_empty, *]
  | requestChannel h =>
    simp only [RequestChannelFrame.new, bind, bind_unit, Outcome.ok.injEq] at h
    obtain ⟨-, -, -, rfl⟩ := h
    cases hfl
    simp only [shownBits, List.mem_cons, List.not_mem_nil, or_false, not_or] at hk
    simp only [hasMetadata, payloadOf, Option.any_some, ← hasMetadata_eq]
    repeat' split
    all_goals simp [union_testBit, bit_follows, bit_complete, bit_metadata, bit_empty, *]
  | payload hok h =>
    simp only [PayloadFrame.new, bind, bind_unit, Outcome.ok.injEq] at h
    obtain ⟨-, rfl⟩ := h
    cases hfl
    simp only [shownBits, List.mem_cons, List.not_mem_nil, or_false, not_or] at hk
    simp only [hasMetadata, payloadOf, Option.any_some, ← hasMetadata_eq]
    repeat' split
    all_goals simp [union_testBit, inter_testBit, bit_follows, bit_complete, bit_next,
      bit_metadata, *]
  | _ => cases hfl

end Binate
