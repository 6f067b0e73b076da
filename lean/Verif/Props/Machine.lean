import Verif.Lemmas.Owner

/-! # Properties of a machine as `RSocketMachine::new` makes it

C61, C63, C65. `tr` is any behaviour of the transport. -/

namespace Binate

open Spec PayloadChunks RSocketMachine StreamIdProvider

/-! ## C61 -/

/-- **C61**, initial state: no permits granted, no receiver registered, payloads not fragmented. -/
theorem C61_initial (role : Role) (t now : Nat) :
    (RSocketMachine.new role t now).requestN.load = 0 ∧
    (∀ x, (RSocketMachine.new role t now).receivers x = false) ∧
    (RSocketMachine.new role t now).chunkPayload = none ∧
    (RSocketMachine.new role t now).role = role :=
  ⟨by rfl, fun _ => rfl, rfl, rfl⟩

/-- **C61**, one caller: `fire_and_forget` calls made one after the other never panic or block,
each hands over exactly one complete frame with its payload, the ids are 1, 3, 5, … for a client
and 2, 4, 6, … for a server (modulo 2^31), and each call returns the transport's answer to its own
frame. -/
theorem C61_sequence (dbg : Bool) (tr : Transport) (role : Role) (t now : Nat)
    (ps : List Payload) :
    ∃ rs m', fireAll dbg tr (RSocketMachine.new role t now) ps [] =
        .ok (rs, ps.mapIdx fun i p =>
          fnfFrame (BitVec.ofNat 32 ((firstId role + 2 * i) % 2 ^ 31)) false p, m') ∧
      rs = (ps.mapIdx fun i p => tr ((ps.mapIdx fun i p =>
          fnfFrame (BitVec.ofNat 32 ((firstId role + 2 * i) % 2 ^ 31)) false p).take i)
        (fnfFrame (BitVec.ofNat 32 ((firstId role + 2 * i) % 2 ^ 31)) false p)) := by
  let m0 := RSocketMachine.new role t now
  let fr : Nat → Payload → Frame := fun i p =>
    fnfFrame (BitVec.ofNat 32 ((firstId role + 2 * i) % 2 ^ 31)) false p
  have key : ∀ (ps : List Payload) (n : Nat) (sent : List Frame),
      ∃ rs m', fireAll dbg tr { m0 with streamId := after m0.streamId n } ps sent =
        .ok (rs, sent ++ ps.mapIdx (fun i p => fr (i + n) p), m') ∧
      rs = ps.mapIdx (fun i p => tr (sent ++ (ps.mapIdx (fun i p => fr (i + n) p)).take i)
        (fr (i + n) p)) := by
    intro ps
    induction ps with
    | nil => intro n sent; exact ⟨[], _, by rw [fireAll, List.mapIdx_nil, List.append_nil], rfl⟩
    | cons p ps ih =>
      intro n sent
      have hid : StreamIdProvider.nextStreamId m0.receivers 1 (after m0.streamId n) =
          .ok (BitVec.ofNat 32 ((firstId role + 2 * n) % 2 ^ 31), after m0.streamId (n + 1)) := by
        rw [nextStreamId_iff]
        refine ⟨n, Nat.le_refl _, Nat.lt_succ_self _, ?_, rfl, fun j h1 h2 => by omega, rfl⟩
        rw [BitVec.toNat_ofNat, Nat.mod_eq_of_lt (by omega), new_word, idAt]
      have hc := fireAndForget_eq (dbg := dbg) (tr := tr) (p := p) (sent := sent)
        (m := { m0 with streamId := after m0.streamId n }) hid nofun
      have hd : deliver tr sent (callFrames (BitVec.ofNat 32 ((firstId role + 2 * n) % 2 ^ 31))
          none p) = (tr sent (fr n p), sent ++ [fr n p]) := by
        show deliver tr sent [fr n p] = _
        rw [deliver]
        cases htr : tr sent (fr n p) with
        | ok u => rfl
        | error e => rfl
      change _ = Outcome.ok ((deliver tr sent (callFrames _ none p)).1,
        (deliver tr sent (callFrames _ none p)).2,
        { m0 with streamId := after m0.streamId (n + 1) }) at hc
      rw [hd] at hc
      obtain ⟨rs, m', h1, h2⟩ := ih (n + 1) (sent ++ [fr n p])
      refine ⟨tr sent (fr n p) :: rs, m', ?_, ?_⟩
      · rw [fireAll]
        simp only [hc, h1]
        rw [List.mapIdx_cons, Nat.zero_add, List.append_assoc, List.singleton_append]
        simp only [Nat.add_assoc, Nat.add_comm 1 n]
      · rw [h2, List.mapIdx_cons, Nat.zero_add, List.mapIdx_cons, List.take_zero,
          List.append_nil, Nat.zero_add]
        simp only [Nat.add_assoc, Nat.add_comm 1 n, List.take_succ_cons, List.append_assoc,
          List.singleton_append]
  obtain ⟨rs, m', h1, h2⟩ := key ps 0 []
  rw [after_zero] at h1
  simp only [Nat.add_zero, List.nil_append] at h1 h2
  exact ⟨rs, m', h1, h2⟩

/-- **C61**, any number of concurrent callers, however many ids were drawn: no call panics, a call that
has returned has handed over exactly one frame, complete (FOLLOWS clear) and with its own payload, and
returned the transport's answer to it; a call that has not returned has handed over none. All frames on
the wire are accounted for by these calls and those of `metadata_push`, which hand over their metadata in
one frame each. There is one call per payload that was passed to `fire_and_forget`. -/
theorem C61_every_age {dbg : Bool} {tr : Transport} {role : Role} {t now : Nat} {s : Conc}
    (h : ConcReachable dbg tr (RSocketMachine.new role t now) s) :
    ∃ log, Accounts tr s.wire log ∧
      (∀ x ∈ log, ∀ i, x.owner = some i → i < s.calls.length) ∧
      s.calls.map callPayload = askedPayloads s.asked ∧
      pushedBy log = (askedPushes s.asked).map (fun p => (.metadataPush ⟨p.1⟩, p.2)) ∧
      ∀ (i : Nat) c, s.calls[i]? = some c → (∀ p, c ≠ .panicked p) ∧
        sentBy i log =
          match callId c, callResult c with
          | some sid, some r => [⟨some i, fnfFrame sid false (callPayload c), r⟩]
          | _, _ => [] := by
  obtain ⟨log, inv⟩ := ownInv h
  refine ⟨log, inv.acc, inv.lt, inv.payloads, inv.pushed, fun i c hi => ?_⟩
  have hok : OwnOk none (sentBy i log) c := inv.call i c hi
  refine ⟨?_, ?_⟩
  · rintro p rfl
    cases hok.1
  · cases c with
    | probing p => exact hok
    | panicked p => cases hok.1
    | checking p sid => exact hok
    | sendingOne p sid => exact hok.2
    | sending p sid idx n chunks =>
      obtain ⟨size, hs, -⟩ := hok
      cases hs
    | done p sid r =>
      cases r with
      | ok u =>
        obtain ⟨-, h1, k, h2⟩ := hok
        refine sentBy_one h1 ?_
        have hl := congrArg List.length h1
        have hl2 := congrArg List.length h2
        rw [List.length_map] at hl hl2
        rw [List.length_replicate] at hl2
        have : k = 1 := hl2.symm.trans hl
        rw [h2, this]
        rfl
      | error e =>
        obtain ⟨-, k, h1, h2⟩ := hok
        have h1' : (sentBy i log).map Sent.frame = [fnfFrame sid false p] :=
          h1.trans (by show fnfFrame sid false p :: List.take k [] = _; rw [List.take_nil])
        refine sentBy_one h1' ?_
        have hl := congrArg List.length h1'
        have hl2 := congrArg List.length h2
        rw [List.length_map] at hl hl2
        rw [List.length_append, List.length_replicate] at hl2
        have : k = 0 := Nat.succ.inj (hl2.symm.trans hl)
        rw [h2, this]
        rfl

/-- **C61**, any number of concurrent callers, however many ids were drawn: every id a call holds is
below 2^31 and has this side's parity. -/
theorem C61_ids {dbg : Bool} {tr : Transport} {role : Role} {t now : Nat} {s : Conc}
    (h : ConcReachable dbg tr (RSocketMachine.new role t now) s) {i : Nat} {c : Call} {sid : U32}
    (hi : s.calls[i]? = some c) (hs : callId c = some sid) :
    sid.toNat < 2 ^ 31 ∧ sid.toNat % 2 = sideParity role := by
  obtain ⟨log, inv⟩ := ownInv h
  obtain ⟨h1, h2⟩ := inv.ids i c sid hi hs
  refine ⟨h1, h2.trans ?_⟩
  rw [new_word]
  cases role <;> rfl

/-- **C61**, any number of concurrent callers, however many ids were drawn: every request frame is the
complete (FOLLOWS clear) frame of a call that has returned, with that call's id and payload. -/
theorem C61_frames {dbg : Bool} {tr : Transport} {role : Role} {t now : Nat} {s : Conc}
    (h : ConcReachable dbg tr (RSocketMachine.new role t now) s)
    {f : Frame} (hf : f ∈ s.wire) (hr : followsOf f ≠ none) :
    ∃ (i : Nat) (c : Call) (sid : U32), s.calls[i]? = some c ∧ (callResult c).isSome ∧
      callId c = some sid ∧ f = fnfFrame sid false (callPayload c) ∧
      sid.toNat % 2 = sideParity role ∧ sid.toNat < 2 ^ 31 := by
  obtain ⟨log, acc, lt, -, -, hc⟩ := C61_every_age h
  rw [← acc.frames] at hf
  obtain ⟨x, hx, rfl⟩ := List.mem_map.1 hf
  cases ho : x.owner with
  | none =>
    obtain ⟨md, e⟩ := (acc.pushes x hx).1 ho
    rw [e] at hr
    exact absurd rfl hr
  | some i =>
    have hlt := lt x hx i ho
    have hi : s.calls[i]? = some s.calls[i] := List.getElem?_eq_getElem hlt
    generalize s.calls[i] = c at hi
    obtain ⟨-, e⟩ := hc i c hi
    have hmem : x ∈ sentBy i log := List.mem_filter.2 ⟨hx, beq_iff_eq.2 ho⟩
    rw [e] at hmem
    cases h1 : callId c with
    | none => rw [h1] at hmem; cases hmem
    | some sid =>
      cases h2 : callResult c with
      | none => rw [h1, h2] at hmem; cases hmem
      | some r =>
        rw [h1, h2] at hmem
        have hx' := List.mem_singleton.1 hmem
        have ids := C61_ids h hi h1
        exact ⟨i, c, sid, hi, by rw [h2]; rfl, h1, by rw [hx'], ids.2, ids.1⟩

/-- **C61**: while at most 2^30 ids have been drawn, each call that has returned has put exactly one
frame, with its own payload, on its stream; a call that has not returned has put none. -/
theorem C61_one_frame {dbg : Bool} {tr : Transport} {role : Role} {t now : Nat} {s : Conc}
    (h : ConcReachable dbg tr (RSocketMachine.new role t now) s) (hd : s.draws ≤ 2 ^ 30)
    {i : Nat} {c : Call} (hi : s.calls[i]? = some c) {sid : U32} (hs : callId c = some sid) :
    s.wire.filter (onStream sid) =
      if (callResult c).isSome then [fnfFrame sid false (callPayload c)] else [] := by
  have hok := (concInv h hd).call i c hi
  cases c with
  | probing p => cases hs
  | panicked p => cases hs
  | checking p sid => cases hs; exact hok
  | sendingOne p sid => cases hs; exact hok.2
  | sending p sid idx n chunks =>
    obtain ⟨size, hs, -⟩ := hok
    cases hs
  | done p sid r =>
    cases hs
    cases r with
    | ok u => exact hok.2
    | error e =>
      obtain ⟨-, k, h1, h2, h3⟩ := hok
      have hl : (callFrames sid none p).length = 1 := rfl
      have hk : k = 1 := by
        have h2' : k ≤ (callFrames sid none p).length := h2
        omega
      rw [hk] at h3
      exact h3

/-- **C61**: the two sides of a connection never use the same id for requests, however many ids were
drawn. -/
theorem C61_no_collision {dbg : Bool} {tr tr' : Transport} {t now t' now' : Nat} {s s' : Conc}
    (h : ConcReachable dbg tr (RSocketMachine.new .client t now) s)
    (h' : ConcReachable dbg tr' (RSocketMachine.new .server t' now') s')
    {v v' : RequestFnfFrame} (hv : Frame.requestFnf v ∈ s.wire)
    (hv' : Frame.requestFnf v' ∈ s'.wire) : v.streamId ≠ v'.streamId := by
  obtain ⟨-, c, sid, -, -, -, e, h1, -⟩ := C61_frames h hv nofun
  obtain ⟨-, c', sid', -, -, -, e', h1', -⟩ := C61_frames h' hv' nofun
  cases e
  cases e'
  intro heq
  change sid = sid' at heq
  rw [heq, h1'] at h1
  cases h1

example : ∃ rs m', fireAll true openTransport (RSocketMachine.new .server 60 0)
    [⟨none, some [1#8]⟩, ⟨some [2#8], none⟩] [] =
      .ok (rs, [fnfFrame 2#32 false ⟨none, some [1#8]⟩, fnfFrame 4#32 false ⟨some [2#8], none⟩], m') ∧
    rs = [.ok (), .ok ()] := C61_sequence true openTransport .server 60 0 _

/-- A new client whose id counter has moved on, for the example. -/
abbrev newClient (w : U32) : RSocketMachine :=
  { RSocketMachine.new .client 60 0 with streamId := ⟨w⟩ }

/-- Two concurrent callers; the second one sends first. `C61_frames` and `C61_one_frame` apply,
and `C61_every_age` tells whose frame is whose. -/
example : ∃ s, ConcReachable true openTransport (RSocketMachine.new .client 60 0) s ∧ s.draws ≤ 2 ^ 30 ∧
    s.wire = [fnfFrame 3#32 false ⟨some [2#8], none⟩, fnfFrame 1#32 false ⟨none, some [1#8]⟩] ∧
    s.calls.map callResult = [some (.ok ()), some (.ok ())] ∧
    ∃ log, Accounts openTransport s.wire log ∧
      sentBy 0 log = [⟨some 0, fnfFrame 1#32 false ⟨none, some [1#8]⟩, .ok ()⟩] ∧
      sentBy 1 log = [⟨some 1, fnfFrame 3#32 false ⟨some [2#8], none⟩, .ok ()⟩] := by
  let a : Payload := ⟨none, some [1#8]⟩
  let b : Payload := ⟨some [2#8], none⟩
  let R := ConcReachable true openTransport (RSocketMachine.new .client 60 0)
  have via : ∀ {s s' s'' : Conc}, R s → ConcStep true openTransport s s' → s' = s'' → R s'' :=
    fun r h e => e ▸ r.step h
  let q : List Asked := [.fireAndForget a, .fireAndForget b]
  have r1 : R ⟨newClient 1#32, [.probing a], 0, [], [.fireAndForget a]⟩ := ConcReachable.init.step (.call _ a)
  have r2 : R ⟨newClient 1#32, [.probing a, .probing b], 0, [], q⟩ := r1.step (.call _ b)
  have r3 : R ⟨newClient 3#32, [.checking a 1#32, .probing b], 1, [], q⟩ :=
    via r2 (.fetch _ 0 a rfl) (by simp only [Conc.set]; rfl)
  have r4 : R ⟨newClient 5#32, [.checking a 1#32, .checking b 3#32], 2, [], q⟩ :=
    via r3 (.fetch _ 1 b rfl) (by simp only [Conc.set]; rfl)
  have r5 : R ⟨newClient 5#32, [.checking a 1#32, .sendingOne b 3#32], 2, [], q⟩ :=
    r4.step (.checkFree _ 1 b 3#32 rfl rfl)
  have r6 : R ⟨newClient 5#32, [.sendingOne a 1#32, .sendingOne b 3#32], 2, [], q⟩ :=
    r5.step (.checkFree _ 0 a 1#32 rfl rfl)
  have r7 : R ⟨newClient 5#32, [.sendingOne a 1#32, .done b 3#32 (.ok ())], 2,
      [fnfFrame 3#32 false b], q⟩ :=
    r6.step (.sendOne _ 1 b 3#32 ⟨3#32, ⟨0x80#16⟩, b⟩ rfl rfl)
  have r8 := r7.step (.sendOne _ 0 a 1#32 ⟨1#32, ⟨0#16⟩, a⟩ rfl rfl)
  obtain ⟨log, acc, -, -, -, hc⟩ := C61_every_age r8
  exact ⟨_, r8, by decide, rfl, rfl, log, acc, (hc 0 _ rfl).2, (hc 1 _ rfl).2⟩

/-! ## C63 -/

/-- What C63 says: every request kind of the `RSocket` trait can be used, on every machine that does not
have fragment size 0 and has a free id within reach (`α`: what the method returns, `β`: its argument). -/
def C63_statement : Prop :=
  ∀ (α β : Type) (dbg : Bool) (tr : Transport) (m : RSocketMachine) (keys : List U32),
    m.chunkPayload ≠ some 0 → (∀ x, m.receivers x = true → x ∈ keys) → keys.length < 2 ^ 30 →
    ∀ (p : Payload) (ps : β) (md : Bytes) (sent : List Frame),
      (∃ r : α, m.requestResponse p = .ok r) ∧ (∃ r : α, m.requestStream p = .ok r) ∧
      (∃ r : α, m.requestChannel ps = .ok r) ∧
      (∃ r sent' m', m.fireAndForget dbg (keys.length + 1) tr p sent = .ok (r, sent', m')) ∧
      ∃ r sent', m.metadataPush tr md sent = (r, sent', m)

/-- **C63** is false: request_response, request_stream and request_channel panic on every machine
and argument, and so does every method of the handler a new machine has. -/
theorem C63_unimplemented_false :
    ¬ C63_statement ∧
    (∀ (α β : Type) (m : RSocketMachine) (p : Payload) (ps : β),
      m.requestResponse p = (.panic "not implemented" : Outcome α) ∧
      m.requestStream p = (.panic "not implemented" : Outcome α) ∧
      m.requestChannel ps = (.panic "not implemented" : Outcome α)) ∧
    (∀ (α β : Type) (d : DummyRSocket) (p : Payload) (ps : β) (b : Bytes),
      d.requestResponse p = (.panic "not implemented: dummy rsocket" : Outcome α) ∧
      d.requestStream p = (.panic "not implemented: dummy rsocket" : Outcome α) ∧
      d.requestChannel ps = (.panic "not implemented: dummy rsocket" : Outcome α) ∧
      d.fireAndForget p = .panic "not implemented: dummy rsocket" ∧
      d.metadataPush b = .panic "not implemented: dummy rsocket") := by
  refine ⟨fun h => ?_, fun α β m p ps => ⟨rfl, rfl, rfl⟩,
    fun α β d p ps b => ⟨rfl, rfl, rfl, rfl, rfl⟩⟩
  obtain ⟨⟨r, hr⟩, -⟩ := h Unit Unit true openTransport (RSocketMachine.new .client 0 0) [] nofun nofun
    (by decide) ⟨none, none⟩ () [] []
  cases hr

/-- **C63**, what remains: on any machine that does not have fragment size 0 and has a free id
within reach, `fire_and_forget` returns; `metadata_push` always does. Missing: the other three. -/
theorem C63_usable_partial (dbg : Bool) (tr : Transport) (m : RSocketMachine) (keys : List U32)
    (h0 : m.chunkPayload ≠ some 0) (hk : ∀ x, m.receivers x = true → x ∈ keys)
    (hl : keys.length < 2 ^ 30) (p : Payload) (md : Bytes) (sent : List Frame) :
    (∃ r sent' m', m.fireAndForget dbg (keys.length + 1) tr p sent = .ok (r, sent', m')) ∧
    ∃ r sent', m.metadataPush tr md sent = (r, sent', m) := by
  refine ⟨?_, _, _, rfl⟩
  have hid : ∃ sid q, m.streamId.nextStreamId m.receivers (keys.length + 1) = .ok (sid, q) := by
    obtain ⟨k, h1, h2⟩ := exists_free (w := m.streamId.word.toNat) hl
    have h3 : m.receivers (BitVec.ofNat 32 (idAt m.streamId.word.toNat k)) = false := by
      cases hx : m.receivers (BitVec.ofNat 32 (idAt m.streamId.word.toNat k)) with
      | false => rfl
      | true => exact absurd (hk _ hx) h2
    rcases nextStreamId_cases m.receivers m.streamId (keys.length + 1) with ⟨⟨sid, q⟩, h⟩ | h
    · exact ⟨sid, q, h⟩
    · exfalso
      obtain ⟨k0, hk0, hmin⟩ : ∃ k0, (k0 ≤ keys.length ∧
          m.receivers (BitVec.ofNat 32 (idAt m.streamId.word.toNat k0)) = false) ∧
          ∀ j, j < k0 → ¬ (j ≤ keys.length ∧
            m.receivers (BitVec.ofNat 32 (idAt m.streamId.word.toNat j)) = false) :=
        exists_minimal ⟨k, h1, h3⟩
      have hok := (nextStreamId_iff m.receivers m.streamId (keys.length + 1) 0
        (BitVec.ofNat 32 (idAt m.streamId.word.toNat k0)) (after m.streamId (k0 + 1))).2
        ⟨k0, Nat.zero_le _, by omega, by
          rw [BitVec.toNat_ofNat, Nat.mod_eq_of_lt (Nat.lt_trans (idAt_lt _ _) (by decide))],
          hk0.2, fun j _ hj => by
            have := hmin j hj
            cases hx : inUse m.receivers (idAt m.streamId.word.toNat j) with
            | true => rfl
            | false => exact absurd ⟨by omega, hx⟩ this, rfl⟩
      rw [after_zero, h] at hok
      cases hok
  obtain ⟨sid, q, hid⟩ := hid
  exact ⟨_, _, _, fireAndForget_eq hid h0⟩

example : ∃ r sent' m', (RSocketMachine.new .client 60 0).fireAndForget true 1 openTransport
    ⟨none, none⟩ [] = .ok (r, sent', m') :=
  (C63_usable_partial true openTransport (RSocketMachine.new .client 60 0) [] nofun
    (fun _ h => (nomatch h)) (by decide) ⟨none, none⟩ [] []).1

/-! ## C65 -/

/-- What C65 says: however often the listener gets to run after the connection was closed, the
close is reported once. -/
def C65_statement : Prop :=
  ∀ T times, times.Pairwise (· < ·) → (∃ t ∈ times, T ≤ t) →
    (listener (observe (closesAt T) times)).1 = [.logError "connection was closed"]

/-- **C65**, what happens: one report for every time the listener asks after the close, without
end. Missing: it should be one report in all. -/
theorem C65_reports_partial (T : Nat) (times : List Nat) :
    (listener (observe (closesAt T) times)).1 =
      List.replicate (times.countP fun t => decide (T ≤ t)) (.logError "connection was closed") ∧
    (listener (observe (closesAt T) times)).2 = false := by
  induction times with
  | nil => exact ⟨rfl, rfl⟩
  | cons t times ih =>
    have e : listener (observe (closesAt T) (t :: times)) =
        (onStatus (closesAt T t) ++ (listener (observe (closesAt T) times)).1,
          (listener (observe (closesAt T) times)).2) := rfl
    rw [e, ih.1, ih.2, List.countP_cons]
    refine ⟨?_, rfl⟩
    by_cases h : t < T
    · rw [show closesAt T t = .connected from if_pos h, decide_eq_false (by omega)]
      rfl
    · rw [show closesAt T t = .closed from if_neg h, decide_eq_true (by omega), if_pos rfl,
        List.replicate_succ]
      rfl

/-- **C65** is false: asking twice after the close reports it twice. -/
theorem C65_once_false : ¬ C65_statement := by
  intro h
  have h1 := h 0 [0, 1] (by simp) ⟨0, by simp, Nat.le_refl _⟩
  rw [(C65_reports_partial 0 [0, 1]).1] at h1
  cases h1

/-- **C65**, the other direction fails, too: a status that has been replaced by the time the
listener asks is never reported. -/
theorem C65_missed (T : Nat) (msg : String) :
    (listener (observe (fun t => if t = T then .error msg else closesAt 0 t) [T + 1])).1 =
      [.logError "connection was closed"] := by
  have : ¬ (T + 1 = T) := by omega
  simp only [observe, List.map, if_neg this]
  rfl

example : (listener (observe (closesAt 5) [1, 4, 6, 7, 9])).1 =
    [.logError "connection was closed", .logError "connection was closed",
      .logError "connection was closed"] := (C65_reports_partial 5 [1, 4, 6, 7, 9]).1

end Binate
