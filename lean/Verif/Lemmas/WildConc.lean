import Verif.Lemmas.Owner
import Verif.Spec.Unwind

/-! # Concurrent calls over a transport that panics: simulation in both directions -/

namespace Binate

open Spec RSocketMachine

variable {dbg : Bool} {tr : WildTransport} {e : Error}

theorem refusing_ok {wire : List Frame} {f : Frame} {r : Except Error Unit} (h : tr wire f = .ok r) :
    refusing e tr wire f = r := by rw [refusing, h]

theorem refusing_panic {wire : List Frame} {f : Frame} {m : String} (h : tr wire f = .panic m) :
    refusing e tr wire f = .error e := by rw [refusing, h]

theorem panickedOn_more {wire : List Frame} {sid : U32} (h : PanickedOn tr wire sid) (more : List Frame) :
    PanickedOn tr (wire ++ more) sid := by
  obtain ⟨a, f, b, m, rfl, h1, h2⟩ := h
  exact ⟨a, f, b ++ more, m, by rw [List.append_assoc, List.cons_append], h1, h2⟩

theorem sameCall_more {wire : List Frame} {c d : Call} (h : SameCall tr e wire c d) (more : List Frame) :
    SameCall tr e (wire ++ more) c d := by
  rcases h with h | ⟨p, sid, h1, h2, h3⟩
  · exact .inl h
  · exact .inr ⟨p, sid, h1, h2, panickedOn_more h3 more⟩

/-- A call that has not panicked is in the same state on the other side. -/
theorem sameCall_left {wire : List Frame} {c d : Call} (h : SameCall tr e wire c d)
    (hc : ∀ p, c ≠ .panicked p) : d = c := by
  rcases h with h | ⟨p, sid, h1, -, -⟩
  · exact h.symm
  · exact absurd h1 (hc p)

theorem sameCall_right {wire : List Frame} {c d : Call} (h : SameCall tr e wire c d)
    (hd : ∀ p sid r, d ≠ .done p sid r) : c = d := by
  rcases h with h | ⟨p, sid, -, h2, -⟩
  · exact h
  · exact absurd h2 (hd p sid _)

theorem alike_get {w : WildConc} {s : Conc} (h : Alike tr e w s) {i : Nat} {c : Call}
    (hi : w.calls[i]? = some c) (hc : ∀ p, c ≠ .panicked p) : s.calls[i]? = some c := by
  obtain ⟨hl, -⟩ := List.getElem?_eq_some_iff.1 hi
  have hd : s.calls[i]? = some (s.calls[i]'(by rw [← h.count]; exact hl)) := List.getElem?_eq_getElem _
  rw [hd, sameCall_left (h.calls i _ _ hi hd) hc]

theorem alike_get' {w : WildConc} {s : Conc} (h : Alike tr e w s) {i : Nat} {d : Call}
    (hi : s.calls[i]? = some d) (hd : ∀ p sid r, d ≠ .done p sid r) : w.calls[i]? = some d := by
  obtain ⟨hl, -⟩ := List.getElem?_eq_some_iff.1 hi
  have hc : w.calls[i]? = some (w.calls[i]'(by rw [h.count]; exact hl)) := List.getElem?_eq_getElem _
  rw [hc, sameCall_right (h.calls i _ _ hc hi) hd]

/-- One call goes on and hands over `more`. -/
theorem alike_set {w : WildConc} {s : Conc} (h : Alike tr e w s) (i : Nat) (m : RSocketMachine) (n : Nat)
    (more : List Frame) {c d : Call} (hs : SameCall tr e (s.wire ++ more) c d) :
    Alike tr e { w with machine := m, calls := w.calls.set i c, draws := n, wire := w.wire ++ more }
      { s with machine := m, calls := s.calls.set i d, draws := n, wire := s.wire ++ more } := by
  refine ⟨rfl, congrArg (· ++ more) h.wire, rfl, h.asked, ?_, ?_⟩
  · show (w.calls.set i c).length = (s.calls.set i d).length
    rw [List.length_set, List.length_set, h.count]
  · intro j c' d' hc hd
    change (w.calls.set i c)[j]? = some c' at hc
    change (s.calls.set i d)[j]? = some d' at hd
    show SameCall tr e (s.wire ++ more) c' d'
    by_cases hij : i = j
    · subst hij
      rw [List.getElem?_set_self'] at hc hd
      cases hw : w.calls[i]? with
      | none => rw [hw] at hc; cases hc
      | some x =>
        cases hx : s.calls[i]? with
        | none => rw [hx] at hd; cases hd
        | some y => rw [hw] at hc; rw [hx] at hd; cases hc; cases hd; exact hs
    · rw [List.getElem?_set_ne hij] at hc hd
      exact sameCall_more (h.calls j c' d' hc hd) more

theorem alike_set' {w : WildConc} {s : Conc} (h : Alike tr e w s) (i : Nat) {c : Call} :
    Alike tr e (w.set i c) (s.set i c) := by
  have := alike_set h i s.machine s.draws [] (c := c) (d := c) (.inl rfl)
  rw [List.append_nil, List.append_nil] at this
  refine ⟨h.machine, this.wire, h.draws, this.asked, this.count, this.calls⟩

/-- Whatever a machine over `tr` does, one over the refusing transport can do. -/
theorem wild_forward {m : RSocketMachine} {w w' : WildConc} {s : Conc} (h : Alike tr e w s)
    (hr : ConcReachable dbg (refusing e tr) m s) (hs : WildStep dbg tr w w') :
    ∃ s', ConcStep dbg (refusing e tr) s s' ∧ Alike tr e w' s' := by
  obtain ⟨log, inv⟩ := ownInv hr
  have hp : ∀ {i : Nat} {c : Call} {sid : U32} {fl : Bool} {q : Payload} {f : RequestFnfFrame} {msg : String},
      w.calls[i]? = some c → callId c = some sid → (∀ p, c ≠ .panicked p) →
      RequestFnfFrame.new dbg sid fl q = .ok f → tr w.wire (.requestFnf f) = .panic msg → ∀ p,
      SameCall tr e (s.wire ++ [.requestFnf f]) (.panicked p) (.done p sid (.error e)) := by
    intro i c sid fl q f msg hi hid hc hf ht p
    have hlt := (inv.ids i c sid (alike_get h hi hc) hid).1
    refine .inr ⟨p, sid, rfl, rfl, s.wire, .requestFnf f, [], msg, rfl, ?_, by rw [← h.wire]; exact ht⟩
    rw [fnf_new_unique hlt hf]
    exact beq_self_eq_true sid
  cases hs with
  | call payload =>
    refine ⟨_, .call s payload, ⟨h.machine, h.wire, h.draws, ?_, ?_, ?_⟩⟩
    · show (w.asked ++ [_]).map (calm e) = s.asked ++ [_]
      rw [List.map_append, h.asked]; rfl
    · show (w.calls ++ [_]).length = (s.calls ++ [_]).length
      rw [List.length_append, List.length_append, h.count]
    · intro i c d hc hd
      change (w.calls ++ [.probing payload])[i]? = some c at hc
      change (s.calls ++ [.probing payload])[i]? = some d at hd
      rcases Nat.lt_trichotomy i w.calls.length with hl | hl | hl
      · rw [List.getElem?_append_left hl] at hc
        rw [List.getElem?_append_left (by rw [← h.count]; exact hl)] at hd
        exact h.calls i c d hc hd
      · rw [List.getElem?_append_right (Nat.le_of_eq hl.symm)] at hc
        rw [List.getElem?_append_right (by rw [← h.count]; omega), ← h.count] at hd
        exact .inl (Option.some.inj (hc.symm.trans hd))
      · rw [List.getElem?_eq_none (by rw [List.length_append]; exact hl)] at hc
        cases hc
  | fetch i payload hi =>
    refine ⟨_, .fetch s i payload (alike_get h hi nofun), ?_⟩
    have := alike_set h i { s.machine with streamId := s.machine.streamId.draw.2 } (s.draws + 1) []
      (c := .checking payload s.machine.streamId.draw.1) (.inl rfl)
    rw [List.append_nil, List.append_nil] at this
    rw [h.machine, h.draws]
    exact this
  | checkUsed i payload sid hi hu =>
    exact ⟨_, .checkUsed s i payload sid (alike_get h hi nofun) (by rw [← h.machine]; exact hu),
      alike_set' h i⟩
  | checkFree i payload sid hi hu =>
    refine ⟨_, .checkFree s i payload sid (alike_get h hi nofun) (by rw [← h.machine]; exact hu), ?_⟩
    rw [h.machine]
    exact alike_set' h i
  | sendOne i payload sid f r hi hf ht =>
    refine ⟨_, .sendOne s i payload sid f (alike_get h hi nofun) hf, ?_⟩
    have ht' : refusing e tr s.wire (.requestFnf f) = r := refusing_ok (by rw [← h.wire]; exact ht)
    have := alike_set h i s.machine s.draws [.requestFnf f] (c := .done payload sid r) (.inl rfl)
    rw [ht']
    exact ⟨h.machine, this.wire, h.draws, this.asked, this.count, this.calls⟩
  | sendOnePanic i payload sid f msg hi hf ht =>
    refine ⟨_, .sendOne s i payload sid f (alike_get h hi nofun) hf, ?_⟩
    have ht' : refusing e tr s.wire (.requestFnf f) = .error e :=
      refusing_panic (by rw [← h.wire]; exact ht)
    have := alike_set h i s.machine s.draws [.requestFnf f] (hp hi rfl nofun hf ht payload)
    rw [ht']
    exact ⟨h.machine, this.wire, h.draws, this.asked, this.count, this.calls⟩
  | sendChunk i payload sid idx n chunks chunks' chunked f hi hn hf ht =>
    refine ⟨_, .sendChunk s i payload sid idx n chunks chunks' chunked f (alike_get h hi nofun) hn hf
      (refusing_ok (by rw [← h.wire]; exact ht)), ?_⟩
    have := alike_set h i s.machine s.draws [.requestFnf f] (c := .sending payload sid (idx + 1) n chunks')
      (.inl rfl)
    exact ⟨h.machine, this.wire, h.draws, this.asked, this.count, this.calls⟩
  | sendChunkErr i payload sid idx n chunks chunks' chunked f e' hi hn hf ht =>
    refine ⟨_, .sendChunkErr s i payload sid idx n chunks chunks' chunked f e' (alike_get h hi nofun) hn hf
      (refusing_ok (by rw [← h.wire]; exact ht)), ?_⟩
    have := alike_set h i s.machine s.draws [.requestFnf f] (c := .done payload sid (.error e')) (.inl rfl)
    exact ⟨h.machine, this.wire, h.draws, this.asked, this.count, this.calls⟩
  | sendChunkPanic i payload sid idx n chunks chunks' chunked f msg hi hn hf ht =>
    refine ⟨_, .sendChunkErr s i payload sid idx n chunks chunks' chunked f e (alike_get h hi nofun) hn hf
      (refusing_panic (by rw [← h.wire]; exact ht)), ?_⟩
    have := alike_set h i s.machine s.draws [.requestFnf f] (hp hi rfl nofun hf ht payload)
    exact ⟨h.machine, this.wire, h.draws, this.asked, this.count, this.calls⟩
  | finish i payload sid idx n chunks chunks' hi hn =>
    exact ⟨_, .finish s i payload sid idx n chunks chunks' (alike_get h hi nofun) hn, alike_set' h i⟩
  | push md r ht =>
    refine ⟨_, .push s md, ⟨h.machine, congrArg (· ++ [_]) h.wire, h.draws, ?_, h.count, ?_⟩⟩
    · show (w.asked ++ [_]).map (calm e) = s.asked ++ [_]
      rw [List.map_append, h.asked, refusing_ok (by rw [← h.wire]; exact ht)]; rfl
    · exact fun i c d hc hd => sameCall_more (h.calls i c d hc hd) _
  | pushPanic md msg ht =>
    refine ⟨_, .push s md, ⟨h.machine, congrArg (· ++ [_]) h.wire, h.draws, ?_, h.count, ?_⟩⟩
    · show (w.asked ++ [_]).map (calm e) = s.asked ++ [_]
      rw [List.map_append, h.asked, refusing_panic (by rw [← h.wire]; exact ht)]; rfl
    · exact fun i c d hc hd => sameCall_more (h.calls i c d hc hd) _
  | env receivers =>
    refine ⟨_, .env s receivers, ⟨?_, h.wire, h.draws, h.asked, h.count, h.calls⟩⟩
    show { w.machine with receivers := receivers } = { s.machine with receivers := receivers }
    rw [h.machine]

/-- And the other way round, unless the transport hangs. -/
theorem wild_back {m : RSocketMachine} {w : WildConc} {s s' : Conc} (hno : ∀ x f, tr x f ≠ .diverge)
    (h : Alike tr e w s) (hr : ConcReachable dbg (refusing e tr) m s)
    (hs : ConcStep dbg (refusing e tr) s s') :
    ∃ w', WildStep dbg tr w w' ∧ Alike tr e w' s' := by
  obtain ⟨log, inv⟩ := ownInv hr
  have hp : ∀ {i : Nat} {c : Call} {sid : U32} {fl : Bool} {q : Payload} {f : RequestFnfFrame} {msg : String},
      s.calls[i]? = some c → callId c = some sid →
      RequestFnfFrame.new dbg sid fl q = .ok f → tr w.wire (.requestFnf f) = .panic msg → ∀ p,
      SameCall tr e (s.wire ++ [.requestFnf f]) (.panicked p) (.done p sid (.error e)) := by
    intro i c sid fl q f msg hi hid hf ht p
    have hlt := (inv.ids i c sid hi hid).1
    refine .inr ⟨p, sid, rfl, rfl, s.wire, .requestFnf f, [], msg, rfl, ?_, by rw [← h.wire]; exact ht⟩
    rw [fnf_new_unique hlt hf]
    exact beq_self_eq_true sid
  cases hs with
  | call payload =>
    refine ⟨_, .call w payload, ⟨h.machine, h.wire, h.draws, ?_, ?_, ?_⟩⟩
    · show (w.asked ++ [_]).map (calm e) = s.asked ++ [_]
      rw [List.map_append, h.asked]; rfl
    · show (w.calls ++ [_]).length = (s.calls ++ [_]).length
      rw [List.length_append, List.length_append, h.count]
    · intro i c d hc hd
      change (w.calls ++ [.probing payload])[i]? = some c at hc
      change (s.calls ++ [.probing payload])[i]? = some d at hd
      rcases Nat.lt_trichotomy i w.calls.length with hl | hl | hl
      · rw [List.getElem?_append_left hl] at hc
        rw [List.getElem?_append_left (by rw [← h.count]; exact hl)] at hd
        exact h.calls i c d hc hd
      · rw [List.getElem?_append_right (Nat.le_of_eq hl.symm)] at hc
        rw [List.getElem?_append_right (by rw [← h.count]; omega), ← h.count] at hd
        exact .inl (Option.some.inj (hc.symm.trans hd))
      · rw [List.getElem?_eq_none (by rw [List.length_append]; exact hl)] at hc
        cases hc
  | fetch i payload hi =>
    refine ⟨_, .fetch w i payload (alike_get' h hi nofun), ?_⟩
    have := alike_set h i { s.machine with streamId := s.machine.streamId.draw.2 } (s.draws + 1) []
      (c := .checking payload s.machine.streamId.draw.1) (.inl rfl)
    rw [List.append_nil, List.append_nil] at this
    rw [h.machine, h.draws]
    exact this
  | checkUsed i payload sid hi hu =>
    exact ⟨_, .checkUsed w i payload sid (alike_get' h hi nofun) (by rw [h.machine]; exact hu),
      alike_set' h i⟩
  | checkFree i payload sid hi hu =>
    refine ⟨_, .checkFree w i payload sid (alike_get' h hi nofun) (by rw [h.machine]; exact hu), ?_⟩
    rw [h.machine]
    exact alike_set' h i
  | sendOne i payload sid f hi hf =>
    cases ht : tr w.wire (.requestFnf f) with
    | ok r =>
      refine ⟨_, .sendOne w i payload sid f r (alike_get' h hi nofun) hf ht, ?_⟩
      have ht' : refusing e tr s.wire (.requestFnf f) = r := refusing_ok (by rw [← h.wire]; exact ht)
      have := alike_set h i s.machine s.draws [.requestFnf f] (c := .done payload sid r) (.inl rfl)
      rw [ht']
      exact ⟨h.machine, this.wire, h.draws, this.asked, this.count, this.calls⟩
    | panic msg =>
      refine ⟨_, .sendOnePanic w i payload sid f msg (alike_get' h hi nofun) hf ht, ?_⟩
      have ht' : refusing e tr s.wire (.requestFnf f) = .error e :=
        refusing_panic (by rw [← h.wire]; exact ht)
      have := alike_set h i s.machine s.draws [.requestFnf f] (hp hi rfl hf ht payload)
      rw [ht']
      exact ⟨h.machine, this.wire, h.draws, this.asked, this.count, this.calls⟩
    | diverge => exact absurd ht (hno _ _)
  | sendChunk i payload sid idx n chunks chunks' chunked f hi hn hf ha =>
    cases ht : tr w.wire (.requestFnf f) with
    | ok r =>
      have ht' : refusing e tr s.wire (.requestFnf f) = r := refusing_ok (by rw [← h.wire]; exact ht)
      refine ⟨_, .sendChunk w i payload sid idx n chunks chunks' chunked f (alike_get' h hi nofun) hn hf
        (by rw [ht, ← ht', ha]), ?_⟩
      have := alike_set h i s.machine s.draws [.requestFnf f] (c := .sending payload sid (idx + 1) n chunks')
        (.inl rfl)
      exact ⟨h.machine, this.wire, h.draws, this.asked, this.count, this.calls⟩
    | panic msg =>
      rw [refusing_panic (by rw [← h.wire]; exact ht)] at ha
      cases ha
    | diverge => exact absurd ht (hno _ _)
  | sendChunkErr i payload sid idx n chunks chunks' chunked f e' hi hn hf ha =>
    cases ht : tr w.wire (.requestFnf f) with
    | ok r =>
      have ht' : refusing e tr s.wire (.requestFnf f) = r := refusing_ok (by rw [← h.wire]; exact ht)
      refine ⟨_, .sendChunkErr w i payload sid idx n chunks chunks' chunked f e' (alike_get' h hi nofun) hn
        hf (by rw [ht, ← ht', ha]), ?_⟩
      have := alike_set h i s.machine s.draws [.requestFnf f] (c := .done payload sid (.error e')) (.inl rfl)
      exact ⟨h.machine, this.wire, h.draws, this.asked, this.count, this.calls⟩
    | panic msg =>
      rw [refusing_panic (by rw [← h.wire]; exact ht)] at ha
      cases ha
      refine ⟨_, .sendChunkPanic w i payload sid idx n chunks chunks' chunked f msg
        (alike_get' h hi nofun) hn hf ht, ?_⟩
      have := alike_set h i s.machine s.draws [.requestFnf f] (hp hi rfl hf ht payload)
      exact ⟨h.machine, this.wire, h.draws, this.asked, this.count, this.calls⟩
    | diverge => exact absurd ht (hno _ _)
  | finish i payload sid idx n chunks chunks' hi hn =>
    exact ⟨_, .finish w i payload sid idx n chunks chunks' (alike_get' h hi nofun) hn, alike_set' h i⟩
  | push md =>
    cases ht : tr w.wire (Frame.metadataPush (MetadataPushFrame.new md)) with
    | ok r =>
      refine ⟨_, .push w md r ht, ⟨h.machine, congrArg (· ++ [_]) h.wire, h.draws, ?_, h.count, ?_⟩⟩
      · show (w.asked ++ [_]).map (calm e) = s.asked ++ [_]
        rw [List.map_append, h.asked, refusing_ok (by rw [← h.wire]; exact ht)]; rfl
      · exact fun i c d hc hd => sameCall_more (h.calls i c d hc hd) _
    | panic msg =>
      refine ⟨_, .pushPanic w md msg ht, ⟨h.machine, congrArg (· ++ [_]) h.wire, h.draws, ?_, h.count, ?_⟩⟩
      · show (w.asked ++ [_]).map (calm e) = s.asked ++ [_]
        rw [List.map_append, h.asked, refusing_panic (by rw [← h.wire]; exact ht)]; rfl
      · exact fun i c d hc hd => sameCall_more (h.calls i c d hc hd) _
    | diverge => exact absurd ht (hno _ _)
  | env receivers =>
    refine ⟨_, .env w receivers, ⟨?_, h.wire, h.draws, h.asked, h.count, h.calls⟩⟩
    show { w.machine with receivers := receivers } = { s.machine with receivers := receivers }
    rw [h.machine]

theorem alike_init (m : RSocketMachine) : Alike tr e (WildConc.init m) (Conc.init m) :=
  ⟨rfl, rfl, rfl, rfl, rfl, fun i c d hc _ => by cases hc⟩

theorem wild_reaches {m : RSocketMachine} {w : WildConc} (h : WildReachable dbg tr m w) :
    ∃ s, ConcReachable dbg (refusing e tr) m s ∧ Alike tr e w s := by
  induction h with
  | init => exact ⟨_, .init, alike_init m⟩
  | step _ hs ih =>
    obtain ⟨s, hr, ha⟩ := ih
    obtain ⟨s', h1, h2⟩ := wild_forward ha hr hs
    exact ⟨s', .step hr h1, h2⟩

theorem reaches_wild {m : RSocketMachine} {s : Conc} (hno : ∀ x f, tr x f ≠ .diverge)
    (h : ConcReachable dbg (refusing e tr) m s) :
    ∃ w, WildReachable dbg tr m w ∧ Alike tr e w s := by
  induction h with
  | init => exact ⟨_, .init, alike_init m⟩
  | step hr hs ih =>
    obtain ⟨w, hw, ha⟩ := ih
    obtain ⟨w', h1, h2⟩ := wild_back hno ha hr hs
    exact ⟨w', .step hw h1, h2⟩

theorem answersFrom_split (t : Transport) (sid : U32) : ∀ (a b past : List Frame),
    answersFrom t sid past (a ++ b) = answersFrom t sid past a ++ answersFrom t sid (past ++ a) b
  | [], b, past => by rw [List.append_nil]; rfl
  | g :: a, b, past => by
    rw [List.cons_append, answersFrom, answersFrom, answersFrom_split t sid a, List.append_assoc,
      List.singleton_append]
    cases onStream sid g <;> rfl

/-- The frame panicked at is one refused with the error. -/
theorem panicked_answers {before after : List Frame} {f : Frame} {sid : U32} {msg : String}
    (h1 : onStream sid f = true) (h2 : tr before f = .panic msg) :
    answers (refusing e tr) sid (before ++ f :: after) = answers (refusing e tr) sid before ++
      .error e :: answersFrom (refusing e tr) sid (before ++ [f]) after := by
  rw [answers, answersFrom_split, answersFrom, h1, List.nil_append, refusing_panic h2]
  rfl

theorem other_error (e : Error) : ∃ e' : Error, e' ≠ e := by
  refine ⟨⟨e.kind, match e.source with | none => some "" | some _ => none⟩, fun h => ?_⟩
  have h2 := congrArg Error.source h
  cases hs : e.source with
  | none => rw [hs] at h2; cases h2
  | some x => rw [hs] at h2; cases h2

theorem answersFrom_nil (t : Transport) (sid : U32) : ∀ (wire past : List Frame),
    answersFrom t sid past wire = [] → wire.filter (onStream sid) = []
  | [], _, _ => rfl
  | g :: wire, past, h => by
    rw [answersFrom] at h
    cases hg : onStream sid g with
    | true => rw [hg] at h; cases h
    | false =>
      rw [hg] at h
      rw [List.filter_cons_of_neg (by rw [hg]; nofun)]
      exact answersFrom_nil t sid wire _ h

theorem pushedFrom_snoc (f : Frame) : ∀ (wire past : List Frame),
    pushedFrom tr past (wire ++ [f]) = pushedFrom tr past wire ++ pushedFrom tr (past ++ wire) [f]
  | [], past => by rw [List.append_nil]; rfl
  | g :: wire, past => by
    have ih := pushedFrom_snoc f wire (past ++ [g])
    rw [List.append_assoc, List.singleton_append] at ih
    rw [List.cons_append]
    cases g <;> (simp only [pushedFrom] at ih ⊢; rw [ih]; try rfl)

theorem wildPushes_append : ∀ (a b : List WildAsked), wildPushes (a ++ b) = wildPushes a ++ wildPushes b
  | [], _ => rfl
  | .fireAndForget _ :: a, b => wildPushes_append a b
  | .metadataPush md r :: a, b => congrArg ((md, r) :: ·) (wildPushes_append a b)

theorem wild_pushes {m : RSocketMachine} {w : WildConc} (h : WildReachable dbg tr m w) :
    wildPushes w.asked = pushedFrom tr [] w.wire := by
  induction h with
  | init => rfl
  | step _ hs ih =>
    have fnf : ∀ {wire : List Frame} {f : RequestFnfFrame},
        pushedFrom tr [] (wire ++ [.requestFnf f]) = pushedFrom tr [] wire := by
      intro wire f
      rw [pushedFrom_snoc]
      exact List.append_nil _
    cases hs with
    | call => rw [wildPushes_append, ih]; exact List.append_nil _
    | fetch => exact ih
    | checkUsed => exact ih
    | checkFree => exact ih
    | sendOne => exact ih.trans fnf.symm
    | sendOnePanic => exact ih.trans fnf.symm
    | sendChunk => exact ih.trans fnf.symm
    | sendChunkErr => exact ih.trans fnf.symm
    | sendChunkPanic => exact ih.trans fnf.symm
    | finish => exact ih
    | push md r ht =>
      rw [wildPushes_append, pushedFrom_snoc, ih]
      simp only [pushedFrom, List.nil_append]
      rw [ht]; rfl
    | pushPanic md msg ht =>
      rw [wildPushes_append, pushedFrom_snoc, ih]
      simp only [pushedFrom, List.nil_append]
      rw [ht]; rfl
    | env => exact ih

end Binate
