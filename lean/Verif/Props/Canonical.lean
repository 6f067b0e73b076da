import Verif.Props.Codec
import Verif.Lemmas.Canonical

/-! # Which bits count, and frames back to back

C77, C78. -/

namespace Binate

open Spec

/-! ## C78 -/

/-- **C78.** Changing ignored bits of an accepted input changes nothing. -/
theorem C78_ignored {b b' rest : Bytes} {f : Frame} (h : decode b = .ok f rest)
    (ha : AgreeExceptIgnored b b') : decode b' = .ok f rest :=
  decode_iff.2 (parses_ignored (decode_iff.1 h) ha)

/-- **C78.** Two accepted inputs are read as the same frame, with the same bytes left over, exactly
when they differ only in ignored bits: every other bit counts. -/
theorem C78_same_frame_iff {b b' rest rest' : Bytes} {f f' : Frame} (h : decode b = .ok f rest)
    (h' : decode b' = .ok f' rest') : (f = f' ∧ rest = rest') ↔ AgreeExceptIgnored b b' := by
  constructor
  · rintro ⟨rfl, rfl⟩
    exact parses_unique (decode_iff.1 h) (decode_iff.1 h')
  · intro ha
    have := (C78_ignored h ha).symm.trans h'
    cases this
    exact ⟨rfl, rfl⟩

/-- **C78.** Decoding and encoding again reproduces the bytes that were read, up to ignored bits. -/
theorem C78_reencode {b rest : Bytes} {f : Frame} (h : decode b = .ok f rest) :
    ∃ e, f.toBytes = .ok e ∧ AgreeExceptIgnored b (e ++ rest) := by
  obtain ⟨e, he, hd⟩ := C06_reencode h
  refine ⟨e, he, (C78_same_frame_iff h (f' := f) (rest' := rest) ?_).1 ⟨rfl, rfl⟩⟩
  have hx := C14_extension hd rest
  by_cases hf : FixedEnd f
  · have e1 : extend rest f = f := by cases f <;> first | rfl | cases hf
    have e2 : extendRest f [] rest = rest := by
      cases f <;> first | rfl | exact List.nil_append _ | cases hf
    rw [hx, e1, e2]
  · have := ((C15_consumes_front b).1 f rest h).2.2 hf
    subst this
    simpa using hd

/-- The LEASE header with the METADATA flag set and with it cleared: the receiver does not look. -/
example : decode [0, 0, 0, 0, 0x08, 0x80, 0, 0, 0, 1, 0, 0, 0, 2, 5] =
      .ok (.lease ⟨1#32, 2#32, some [5]⟩) [] ∧
    AgreeExceptIgnored [0, 0, 0, 0, 0x08, 0x80, 0, 0, 0, 1, 0, 0, 0, 2, 5]
      [0, 0, 0, 0, 0x08, 0x00, 0, 0, 0, 1, 0, 0, 0, 2, 5] := by
  refine ⟨by rfl, rfl, fun i => ?_⟩
  rcases i with _ | _ | _ | _ | _ | _ | i <;> rfl

/-- The RESPOND flag of KEEPALIVE does count. -/
example : ¬ AgreeExceptIgnored [0, 0, 0, 0, 0x0C, 0x40, 0, 0, 0, 0, 0, 0, 0, 1]
    [0, 0, 0, 0, 0x0C, 0x00, 0, 0, 0, 0, 0, 0, 0, 1] := by
  intro h
  have := h.2 5
  revert this
  decide

/-! ## C77 -/

/-- The claim: frames encoded back to back are read one by one. -/
def C77_statement : Prop :=
  ∀ (fs : List Frame) (bs : List Bytes), (∀ f ∈ fs, WellFormed f) →
    fs.map Frame.toBytes = bs.map Outcome.ok → ReadsAs bs.flatten (fs.map normalize)

/-- **C77**, exact. A sequence of well-formed frames encoded back to back is read as that
sequence exactly when all frames but the last are CANCEL, REQUEST_N, RESUME or RESUME_OK. -/
theorem C77_back_to_back_partial : ∀ (fs : List Frame) (bs : List Bytes),
    (∀ f ∈ fs, WellFormed f) → fs.map Frame.toBytes = bs.map Outcome.ok →
    (ReadsAs bs.flatten (fs.map normalize) ↔ FixedButLast fs)
  | [], [], _, _ => ⟨fun _ => trivial, fun _ => .nil⟩
  | [f], [b], hw, h => by
    refine ⟨fun _ => trivial, fun _ => ?_⟩
    obtain ⟨b', h1, h2⟩ := C02_empty_vs_absent (hw f (by simp))
    have : f.toBytes = .ok b := by simpa using h
    rw [this] at h1; cases h1
    simpa using ReadsAs.cons h2 .nil
  | f :: g :: fs, b :: c :: bs, hw, h => by
    have hb : f.toBytes = .ok b := by simpa using (List.cons.inj h).1
    have ht : (g :: fs).map Frame.toBytes = (c :: bs).map Outcome.ok := (List.cons.inj h).2
    have hc : g.toBytes = .ok c := (List.cons.inj ht).1
    obtain ⟨b', h1, h2⟩ := C02_empty_vs_absent (hw f (by simp))
    rw [hb] at h1; cases h1
    have ih := C77_back_to_back_partial (g :: fs) (c :: bs)
      (fun x hx => hw x (List.mem_cons_of_mem _ hx)) ht
    have hx := C14_extension h2 (c :: bs).flatten
    have hne := toBytes_ne_nil (hw g (by simp)) hc
    have hne' : (c :: bs).flatten ≠ [] := by simp [hne]
    rw [List.flatten_cons]
    by_cases hf : FixedEnd f
    · have e1 : extend (c :: bs).flatten (normalize f) = normalize f := by
        cases f <;> first | rfl | cases hf
      have e2 : extendRest (normalize f) [] (c :: bs).flatten = (c :: bs).flatten := by
        cases f <;> first | exact List.nil_append _ | cases hf
      rw [e1, e2] at hx
      constructor
      · intro hr
        refine ⟨hf, ih.1 ?_⟩
        rw [List.map_cons] at hr
        obtain ⟨rest, hd, hr⟩ := reads_cons hr
        cases hx.symm.trans hd
        exact hr
      · rintro ⟨-, hl⟩
        rw [List.map_cons]
        exact .cons hx (ih.2 hl)
    · constructor
      · intro hr
        rw [List.map_cons] at hr
        obtain ⟨rest, hd, hr⟩ := reads_cons hr
        have := ((C15_consumes_front _).1 _ _ hd).2.2 (mt fixedEnd_normalize.1 hf)
        subst this
        cases reads_nil hr
      · exact fun hl => absurd hl.1 hf
  | [], _ :: _, _, h => by cases h
  | _ :: _, [], _, h => by cases h
  | [_], _ :: _ :: _, _, h => by simp at h
  | _ :: _ :: _, [_], _, h => by simp at h

/-- **C77** is false: a fire-and-forget request followed by a CANCEL frame is read as one request
whose data ends with the bytes of the CANCEL frame. -/
theorem C77_back_to_back_false : ¬ C77_statement := by
  intro h
  have hw : ∀ f ∈ [Frame.requestFnf sampleFnf, .cancel ⟨5#32⟩], WellFormed f := by
    intro f hf
    rcases List.mem_cons.1 hf with rfl | hf
    · exact sampleFnf_wellFormed
    · rcases List.mem_cons.1 hf with rfl | hf
      · show (5 : Nat) < 2 ^ 31; decide
      · cases hf
  obtain ⟨b, hb⟩ : ∃ b, (Frame.requestFnf sampleFnf).toBytes = .ok b := ⟨_, rfl⟩
  obtain ⟨c, hc⟩ : ∃ c, (Frame.cancel ⟨5#32⟩).toBytes = .ok c := ⟨_, rfl⟩
  have e : [Frame.requestFnf sampleFnf, .cancel ⟨5#32⟩].map Frame.toBytes =
      [b, c].map Outcome.ok := by simp [hb, hc]
  exact ((C77_back_to_back_partial _ _ hw e).1 (h _ _ hw e)).1

/-- What is read instead, for every frame with a trailing byte field: one frame that has swallowed
everything after it. -/
theorem C77_swallowed {f : Frame} (hw : WellFormed f) (hf : ¬ FixedEnd f) (s : Bytes) :
    ∃ b, f.toBytes = .ok b ∧ decode (b ++ s) = .ok (extend s (normalize f)) [] := by
  obtain ⟨b, h1, h2⟩ := C02_empty_vs_absent hw
  refine ⟨b, h1, ?_⟩
  rw [C14_extension h2 s]
  cases f <;> first | rfl | exact absurd trivial hf

/-- Two fixed-end frames and a request. -/
example : ∃ bs : List Bytes,
    [Frame.cancel ⟨5#32⟩, .requestN ⟨5#32, 7#32⟩, .requestFnf sampleFnf].map Frame.toBytes =
      bs.map Outcome.ok ∧
    ReadsAs bs.flatten [.cancel ⟨5#32⟩, .requestN ⟨5#32, 7#32⟩, .requestFnf sampleFnf] := by
  refine ⟨[_, _, _], rfl, .cons (rest := ?_) ?_ (.cons (rest := ?_) ?_ (.cons (rest := []) ?_ .nil))⟩
  all_goals first | rfl | skip
  all_goals rfl

end Binate
