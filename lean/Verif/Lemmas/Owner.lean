import Verif.Spec.Owner
import Verif.Lemmas.Conc

/-! # Every frame on the wire has an owner, however old the connection is -/

namespace Binate

open Spec PayloadChunks RSocketMachine StreamIdProvider

/-- What one call has handed over so far. -/
def OwnOk (fragment : Option Nat) (own : List Sent) : Call → Prop
  | .probing _ => own = []
  | .panicked _ => fragment = some 0 ∧ own = []
  | .checking _ _ => own = []
  | .sendingOne _ _ => fragment = none ∧ own = []
  | .sending p sid idx n chunks => ∃ size, fragment = some size ∧ 0 < size ∧
      chunks = afterNext idx ⟨size, p.metadata, p.data⟩ ∧
      n = PayloadChunks.len ⟨size, p.metadata, p.data⟩ ∧ idx ≤ chunkCount size p ∧
      own.map Sent.frame = (callFrames sid fragment p).take idx ∧
      own.map Sent.answer = List.replicate idx (.ok ())
  | .done p sid (.ok _) => fragment ≠ some 0 ∧ own.map Sent.frame = callFrames sid fragment p ∧
      ∃ k, own.map Sent.answer = List.replicate k (.ok ())
  | .done p sid (.error e) => fragment ≠ some 0 ∧
      ∃ k, own.map Sent.frame = (callFrames sid fragment p).take (k + 1) ∧
        own.map Sent.answer = List.replicate k (.ok ()) ++ [.error e]

/-- Invariant of all reachable states. -/
structure OwnInv (tr : Transport) (m0 : RSocketMachine) (s : Conc) (log : List Sent) : Prop where
  acc : Accounts tr s.wire log
  lt : ∀ x ∈ log, ∀ i, x.owner = some i → i < s.calls.length
  chunk : s.machine.chunkPayload = m0.chunkPayload
  word : s.machine.streamId.word.toNat % 2 = m0.streamId.word.toNat % 2
  ids : ∀ (i : Nat) (c : Call) (sid : U32), s.calls[i]? = some c → callId c = some sid →
    sid.toNat < 2 ^ 31 ∧ sid.toNat % 2 = m0.streamId.word.toNat % 2
  call : ∀ (i : Nat) c, s.calls[i]? = some c → OwnOk m0.chunkPayload (sentBy i log) c
  payloads : s.calls.map callPayload = askedPayloads s.asked
  pushed : pushedBy log = (askedPushes s.asked).map fun p => (.metadataPush ⟨p.1⟩, p.2)

theorem map_set_same {s : Conc} {i : Nat} {c c' : Call} (hi : s.calls[i]? = some c)
    (h : callPayload c' = callPayload c) :
    (s.calls.set i c').map callPayload = s.calls.map callPayload := by
  rw [List.map_set, h]
  refine List.ext_getElem? fun j => ?_
  rw [List.getElem?_set]
  split
  · rename_i e
    subst e
    rw [List.length_map, List.getElem?_map, hi]
    split
    · rfl
    · rename_i hl
      rw [List.getElem?_eq_none (Nat.le_of_not_lt hl)] at hi
      cases hi
  · rfl

theorem draw_parity (p : StreamIdProvider) :
    p.draw.1.toNat < 2 ^ 31 ∧ p.draw.1.toNat % 2 = p.word.toNat % 2 ∧
      p.draw.2.word.toNat % 2 = p.word.toNat % 2 := by
  have h := draw_after p 0
  rw [after_zero] at h
  refine ⟨by rw [h.1]; exact idAt_lt _ _, by rw [h.1, idAt_parity], ?_⟩
  rw [h.2]
  show (BitVec.ofNat 32 (p.word.toNat + 2 * (0 + 1))).toNat % 2 = _
  rw [BitVec.toNat_ofNat]
  omega

theorem accounts_append {tr : Transport} {wire : List Frame} {log : List Sent}
    (h : Accounts tr wire log) (o : Option Nat) (f : Frame)
    (hp : o = none ↔ ∃ md, f = .metadataPush ⟨md⟩) :
    Accounts tr (wire ++ [f]) (log ++ [⟨o, f, tr wire f⟩]) := by
  refine ⟨by rw [List.map_append, h.frames]; rfl, ?_, ?_⟩
  · intro before x after e
    rcases List.eq_nil_or_concat after with rfl | ⟨init, y, rfl⟩
    · have e' := List.append_inj' e rfl
      obtain ⟨rfl, e2⟩ := e'
      cases e2
      rw [h.frames]
    · rw [List.concat_eq_append] at e
      rw [show before ++ x :: (init ++ [y]) = (before ++ x :: init) ++ [y] by simp] at e
      exact h.answers before x init (List.append_inj' e rfl).1
  · intro x hx
    rcases List.mem_append.1 hx with hx | hx
    · exact h.pushes x hx
    · cases List.mem_singleton.1 hx
      exact hp

theorem sentBy_append_same (i : Nat) (log : List Sent) (f : Frame) (a : Except Error Unit) :
    sentBy i (log ++ [⟨some i, f, a⟩]) = sentBy i log ++ [⟨some i, f, a⟩] := by
  simp [sentBy, List.filter_append]

theorem sentBy_append_other {i : Nat} {o : Option Nat} (h : o ≠ some i) (log : List Sent) (f : Frame)
    (a : Except Error Unit) : sentBy i (log ++ [⟨o, f, a⟩]) = sentBy i log := by
  simp [sentBy, List.filter_append, h]

theorem sentBy_one {i : Nat} {log : List Sent} {f : Frame} {a : Except Error Unit}
    (h1 : (sentBy i log).map Sent.frame = [f]) (h2 : (sentBy i log).map Sent.answer = [a]) :
    sentBy i log = [⟨some i, f, a⟩] := by
  have ho : ∀ x ∈ sentBy i log, x.owner = some i := fun x hx =>
    beq_iff_eq.1 (List.mem_filter.1 hx).2
  revert h1 h2 ho
  generalize sentBy i log = l
  intro h1 h2 ho
  cases l with
  | nil => cases h1
  | cons x l =>
    cases l with
    | cons y l => cases h1
    | nil =>
      have h3 := ho x List.mem_cons_self
      obtain ⟨o, g, b⟩ := x
      rw [List.map_singleton] at h1 h2
      have e1 : g = f := List.singleton_inj.1 h1
      have e2 : b = a := List.singleton_inj.1 h2
      have e3 : o = some i := h3
      rw [e1, e2, e3]

theorem afterId_payload (m : RSocketMachine) (p : Payload) (sid : U32) :
    callPayload (afterId m p sid) = p := by
  unfold afterId
  split
  · split <;> rfl
  · rfl

/-- A step of call `i` that sends nothing. -/
theorem ownInv_update {tr : Transport} {m0 : RSocketMachine} {s : Conc} {log : List Sent}
    (inv : OwnInv tr m0 s log) {i : Nat} {c c' : Call} (hi : s.calls[i]? = some c)
    (hsid : ∀ sid, callId c' = some sid → callId c = some sid)
    (hp : callPayload c' = callPayload c) (hc : OwnOk m0.chunkPayload (sentBy i log) c') :
    OwnInv tr m0 (s.set i c') log := by
  refine ⟨inv.acc, ?_, inv.chunk, inv.word, ?_, ?_, (map_set_same hi hp).trans inv.payloads,
    inv.pushed⟩
  · intro x hx j hj
    show j < (s.calls.set i c').length
    rw [List.length_set]
    exact inv.lt x hx j hj
  · intro j d sid hj hd
    rcases getElem?_set_cases hj with ⟨rfl, rfl⟩ | ⟨-, hj⟩
    · exact inv.ids j c sid hi (hsid sid hd)
    · exact inv.ids j d sid hj hd
  · intro j d hj
    rcases getElem?_set_cases hj with ⟨rfl, rfl⟩ | ⟨-, hj⟩
    · exact hc
    · exact inv.call j d hj

/-- A step of call `i` that sends a request frame. -/
theorem ownInv_send {tr : Transport} {m0 : RSocketMachine} {s : Conc} {log : List Sent}
    (inv : OwnInv tr m0 s log) {i : Nat} {c c' : Call} (hi : s.calls[i]? = some c)
    (hsid : ∀ sid, callId c' = some sid → callId c = some sid) (hp : callPayload c' = callPayload c)
    (v : RequestFnfFrame)
    (hc : OwnOk m0.chunkPayload
      (sentBy i log ++ [⟨some i, .requestFnf v, tr s.wire (.requestFnf v)⟩]) c') :
    OwnInv tr m0 { (s.set i c') with wire := s.wire ++ [.requestFnf v] }
      (log ++ [⟨some i, .requestFnf v, tr s.wire (.requestFnf v)⟩]) := by
  have hil : i < s.calls.length := by
    apply Nat.lt_of_not_le
    intro hle
    rw [List.getElem?_eq_none hle] at hi
    cases hi
  refine ⟨accounts_append inv.acc _ _ ⟨nofun, fun ⟨_, h⟩ => nomatch h⟩, ?_, inv.chunk, inv.word,
    ?_, ?_, (map_set_same hi hp).trans inv.payloads, ?_⟩
  · intro x hx j hj
    show j < (s.calls.set i c').length
    rw [List.length_set]
    rcases List.mem_append.1 hx with hx | hx
    · exact inv.lt x hx j hj
    · cases List.mem_singleton.1 hx
      cases hj
      exact hil
  · intro j d sid hj hd
    rcases getElem?_set_cases hj with ⟨rfl, rfl⟩ | ⟨-, hj⟩
    · exact inv.ids j c sid hi (hsid sid hd)
    · exact inv.ids j d sid hj hd
  · intro j d hj
    rcases getElem?_set_cases hj with ⟨rfl, rfl⟩ | ⟨hne, hj⟩
    · rw [sentBy_append_same]
      exact hc
    · rw [sentBy_append_other (fun h => hne (Option.some.inj h).symm)]
      exact inv.call j d hj
  · rw [pushedBy, List.filter_append, List.map_append]
    exact (List.append_nil _).trans inv.pushed

theorem sentBy_fresh {tr : Transport} {m0 : RSocketMachine} {s : Conc} {log : List Sent}
    (inv : OwnInv tr m0 s log) : sentBy s.calls.length log = [] := by
  refine List.filter_eq_nil_iff.2 fun x hx h => ?_
  have := inv.lt x hx _ (beq_iff_eq.1 h)
  omega

/-- A frame of a call that is under way. -/
theorem one_running {s : Conc} {i : Nat} {c : Call} (hi : s.calls[i]? = some c)
    (hr : running c = true) {x : Sent} (hx : x.owner = some i) :
    ∀ y ∈ [x], ∀ j, y.owner = some j → ∃ c, s.calls[j]? = some c ∧ running c = true := by
  intro y hy j hj
  cases List.mem_singleton.1 hy
  rw [hx] at hj
  cases hj
  exact ⟨c, hi, hr⟩

theorem quiet {s : Conc} {tr : Transport} {m0 : RSocketMachine} {s' : Conc} {log : List Sent}
    (h : OwnInv tr m0 s' log) : ∃ more, OwnInv tr m0 s' (log ++ more) ∧
      ∀ x ∈ more, ∀ i, x.owner = some i → ∃ c, s.calls[i]? = some c ∧ running c = true :=
  ⟨[], by rw [List.append_nil]; exact h, fun x hx => absurd hx List.not_mem_nil⟩

/-- A step adds to the log only frames of calls that are under way. -/
theorem ownInv_step {dbg : Bool} {tr : Transport} {m0 : RSocketMachine} {s s' : Conc}
    {log : List Sent} (inv : OwnInv tr m0 s log) (hs : ConcStep dbg tr s s') :
    ∃ more, OwnInv tr m0 s' (log ++ more) ∧
      ∀ x ∈ more, ∀ i, x.owner = some i → ∃ c, s.calls[i]? = some c ∧ running c = true := by
  cases hs with
  | call payload =>
    have key : ∀ {j : Nat} {d : Call}, (s.calls ++ [Call.probing payload])[j]? = some d →
        s.calls[j]? = some d ∨ (j = s.calls.length ∧ d = .probing payload) := by
      intro j d hj
      by_cases hl : j < s.calls.length
      · rw [List.getElem?_append_left hl] at hj
        exact .inl hj
      · rw [List.getElem?_append_right (by omega)] at hj
        cases hk : j - s.calls.length with
        | zero => rw [hk] at hj; cases hj; exact .inr ⟨by omega, rfl⟩
        | succ k => rw [hk] at hj; cases hj
    refine quiet ⟨inv.acc, ?_, inv.chunk, inv.word, ?_, ?_, ?_, ?_⟩
    · intro x hx j hj
      show j < (s.calls ++ [Call.probing payload]).length
      rw [List.length_append]
      exact Nat.lt_succ_of_lt (inv.lt x hx j hj)
    · intro j d sid hj hd
      rcases key hj with hj | ⟨-, rfl⟩
      · exact inv.ids j d sid hj hd
      · cases hd
    · intro j d hj
      rcases key hj with hj | ⟨rfl, rfl⟩
      · exact inv.call j d hj
      · exact sentBy_fresh inv
    · show (s.calls ++ [Call.probing payload]).map callPayload = askedPayloads (s.asked ++ _)
      rw [List.map_append, inv.payloads, askedPayloads, askedPayloads, List.filterMap_append]
      rfl
    · show pushedBy log = (askedPushes (s.asked ++ _)).map _
      rw [inv.pushed, askedPushes, askedPushes, List.filterMap_append, List.map_append]
      exact (List.append_nil _).symm
  | fetch i payload hi =>
    obtain ⟨d1, d2, d3⟩ := draw_parity s.machine.streamId
    have hc : sentBy i log = [] := inv.call i _ hi
    refine quiet ⟨inv.acc, ?_, inv.chunk, d3.trans inv.word, ?_, ?_,
      (map_set_same (c' := .checking payload s.machine.streamId.draw.1) hi rfl).trans inv.payloads,
      inv.pushed⟩
    · intro x hx j hj
      show j < (s.calls.set i _).length
      rw [List.length_set]
      exact inv.lt x hx j hj
    · intro j d sid hj hd
      rcases getElem?_set_cases hj with ⟨rfl, rfl⟩ | ⟨-, hj⟩
      · cases hd
        exact ⟨d1, d2.trans inv.word⟩
      · exact inv.ids j d sid hj hd
    · intro j d hj
      rcases getElem?_set_cases hj with ⟨rfl, rfl⟩ | ⟨-, hj⟩
      · exact hc
      · exact inv.call j d hj
  | checkUsed i payload sid hi hu =>
    refine quiet (ownInv_update inv hi (fun x h => by cases h) rfl ?_)
    have hc : sentBy i log = [] := inv.call i _ hi
    exact hc
  | checkFree i payload sid hi hu =>
    have hc : sentBy i log = [] := inv.call i _ hi
    refine quiet (ownInv_update inv hi ?_ (afterId_payload _ _ _) ?_)
    · intro x hx
      unfold afterId at hx
      cases hm : s.machine.chunkPayload with
      | none => rw [hm] at hx; exact hx
      | some size =>
        rw [hm] at hx
        rcases Nat.eq_zero_or_pos size with rfl | h0
        · simp only [chunks_zero] at hx
          cases hx
        · simp only [chunks_ok h0] at hx
          exact hx
    · unfold afterId
      rw [inv.chunk]
      cases hm : m0.chunkPayload with
      | none => exact ⟨rfl, hc⟩
      | some size =>
        rcases Nat.eq_zero_or_pos size with rfl | h0
        · simp only [chunks_zero]
          exact ⟨rfl, hc⟩
        · simp only [chunks_ok h0]
          exact ⟨size, rfl, h0, rfl, rfl, Nat.zero_le _, by rw [hc]; rfl, by rw [hc]; rfl⟩
  | sendOne i payload sid f hi hf =>
    obtain ⟨h1, h2⟩ := inv.call i _ hi
    have e := fnf_new_unique (inv.ids i _ sid hi rfl).1 hf
    refine ⟨_, ownInv_send inv hi (c' := .done payload sid (tr s.wire (.requestFnf f)))
      (fun x h => h) rfl f ?_, one_running hi rfl rfl⟩
    rw [h2, List.nil_append]
    cases hres : tr s.wire (Frame.requestFnf f) with
    | ok u =>
      refine ⟨(by rw [h1]; exact nofun), ?_, 1, rfl⟩
      rw [h1, e]
      rfl
    | error er =>
      refine ⟨(by rw [h1]; exact nofun), 0, ?_, rfl⟩
      rw [h1, e]
      rfl
  | sendChunk i payload sid idx n chunks chunks' chunked f hi hn hf ha =>
    obtain ⟨size, h1, h2, h3, h4, h5, h6, h7⟩ := inv.call i _ hi
    have e := fnf_new_unique (inv.ids i _ sid hi rfl).1 hf
    have nn : (afterNext idx ⟨size, payload.metadata, payload.data⟩).next.1 =
        if idx < chunkCount size payload then some (chunkAt size payload idx) else none :=
      nth_next (c := ⟨size, payload.metadata, payload.data⟩) h2 idx
    rw [← h3, hn] at nn
    have hlt2 : idx < chunkCount size payload := by
      apply Nat.lt_of_not_le
      intro hle
      rw [if_neg (Nat.not_lt.2 hle)] at nn
      cases nn
    rw [if_pos hlt2] at nn
    cases nn
    refine ⟨_, ownInv_send inv hi (c' := .sending payload sid (idx + 1) n chunks')
      (fun x h => h) rfl f ?_, one_running hi rfl rfl⟩
    refine ⟨size, h1, h2, ?_, h4, hlt2, ?_, ?_⟩
    · rw [afterNext_succ, ← h3, hn]
    · rw [List.map_append, h6, h1, take_callFrames hlt2, List.map_singleton, e, h4]
    · rw [List.map_append, h7, List.map_singleton, ha, List.replicate_succ']
  | sendChunkErr i payload sid idx n chunks chunks' chunked f er hi hn hf ha =>
    obtain ⟨size, h1, h2, h3, h4, h5, h6, h7⟩ := inv.call i _ hi
    have e := fnf_new_unique (inv.ids i _ sid hi rfl).1 hf
    have nn : (afterNext idx ⟨size, payload.metadata, payload.data⟩).next.1 =
        if idx < chunkCount size payload then some (chunkAt size payload idx) else none :=
      nth_next (c := ⟨size, payload.metadata, payload.data⟩) h2 idx
    rw [← h3, hn] at nn
    have hlt2 : idx < chunkCount size payload := by
      apply Nat.lt_of_not_le
      intro hle
      rw [if_neg (Nat.not_lt.2 hle)] at nn
      cases nn
    rw [if_pos hlt2] at nn
    cases nn
    refine ⟨_, ownInv_send inv hi (c' := .done payload sid (.error er)) (fun x h => h) rfl f ?_, one_running hi rfl rfl⟩
    refine ⟨by rw [h1]; intro h; cases h; exact Nat.lt_irrefl _ h2, idx, ?_, ?_⟩
    · rw [List.map_append, h6, h1, take_callFrames hlt2, List.map_singleton, e, h4]
    · rw [List.map_append, h7, List.map_singleton, ha]
  | finish i payload sid idx n chunks chunks' hi hn =>
    obtain ⟨size, h1, h2, h3, h4, h5, h6, h7⟩ := inv.call i _ hi
    have nn : (afterNext idx ⟨size, payload.metadata, payload.data⟩).next.1 =
        if idx < chunkCount size payload then some (chunkAt size payload idx) else none :=
      nth_next (c := ⟨size, payload.metadata, payload.data⟩) h2 idx
    rw [← h3, hn] at nn
    have hle : chunkCount size payload ≤ idx := by
      apply Nat.le_of_not_lt
      intro hlt
      rw [if_pos hlt] at nn
      cases nn
    refine quiet (ownInv_update inv hi (fun x h => h) rfl ?_)
    refine ⟨by rw [h1]; intro h; cases h; exact Nat.lt_irrefl _ h2, ?_, idx, h7⟩
    rw [h6, List.take_of_length_le]
    rw [h1, callFrames_some, List.length_map, List.length_range]
    exact hle
  | push md =>
    refine ⟨[⟨none, _, tr s.wire _⟩], ⟨accounts_append inv.acc none
      (.metadataPush (MetadataPushFrame.new md)) ⟨fun _ => ⟨md, rfl⟩, fun _ => rfl⟩, ?_, inv.chunk,
      inv.word, inv.ids, ?_, ?_, ?_⟩, fun x hx j hj => by
      cases List.mem_singleton.1 hx; cases hj⟩
    · intro x hx j hj
      rcases List.mem_append.1 hx with hx | hx
      · exact inv.lt x hx j hj
      · cases List.mem_singleton.1 hx
        cases hj
    · intro j d hj
      rw [sentBy_append_other (o := none) (fun h => nomatch h)]
      exact inv.call j d hj
    · show _ = askedPayloads (s.asked ++ _)
      rw [inv.payloads, askedPayloads, askedPayloads, List.filterMap_append]
      exact (List.append_nil _).symm
    · show pushedBy _ = (askedPushes (s.asked ++ _)).map _
      rw [pushedBy, List.filter_append, List.map_append, askedPushes, List.filterMap_append,
        List.map_append]
      exact congrArg (· ++ _) inv.pushed
  | env receivers =>
    exact quiet ⟨inv.acc, inv.lt, inv.chunk, inv.word, inv.ids, inv.call, inv.payloads, inv.pushed⟩

theorem ownInv {dbg : Bool} {tr : Transport} {m0 : RSocketMachine} {s : Conc}
    (h : ConcReachable dbg tr m0 s) : ∃ log, OwnInv tr m0 s log := by
  induction h with
  | init =>
    refine ⟨[], ⟨rfl, ?_, fun x hx => absurd hx List.not_mem_nil⟩,
      fun x hx => absurd hx List.not_mem_nil, rfl, rfl, ?_, ?_, rfl, rfl⟩
    · intro before x after e
      exact absurd (congrArg List.length e) (by simp)
    · intro i c sid hi
      simp [Conc.init] at hi
    · intro i c hi
      simp [Conc.init] at hi
  | @step s s' _ hs ih =>
    obtain ⟨log, inv⟩ := ih
    obtain ⟨more, inv', -⟩ := ownInv_step inv hs
    exact ⟨_, inv'⟩

theorem own_nil {fragment : Option Nat} {own : List Sent} {c : Call} (hc : OwnOk fragment own c)
    (hs : callId c = none) : own = [] := by
  cases c with
  | probing => exact hc
  | panicked => exact hc.2
  | _ => cases hs

theorem own_prefix {fragment : Option Nat} {own : List Sent} {c : Call} {sid : U32}
    (hc : OwnOk fragment own c) (hs : callId c = some sid) :
    own.map Sent.frame <+: callFrames sid fragment (callPayload c) := by
  cases c with
  | probing => cases hs
  | panicked => cases hs
  | checking p x =>
    have : own = [] := hc
    rw [this]; exact List.nil_prefix
  | sendingOne p x => rw [hc.2]; exact List.nil_prefix
  | sending p x idx n chunks =>
    cases hs
    obtain ⟨-, -, -, -, -, -, e, -⟩ := hc
    rw [e]; exact List.take_prefix _ _
  | done p x r =>
    cases hs
    cases r with
    | ok u => rw [hc.2.1]; exact List.prefix_refl _
    | error e =>
      obtain ⟨-, k, e', -⟩ := hc
      rw [e']; exact List.take_prefix _ _

theorem own_subset {s : Conc} {tr : Transport} {m0 : RSocketMachine} {log : List Sent}
    (inv : OwnInv tr m0 s log) (i : Nat) : (sentBy i log).map Sent.frame ⊆ s.wire := by
  rw [← inv.acc.frames]
  intro f hf
  obtain ⟨x, hx, rfl⟩ := List.mem_map.1 hf
  exact List.mem_map_of_mem (List.mem_filter.1 hx).1

end Binate
