import Verif.Lemmas.Serial
import Verif.Props.Ascending

/-! # Concurrent calls as if made one after the other

C106. Several calls run on one socket at a time. One would like to find an order of the calls such
that making them in this order, one after the other, has the same effects: each call returns the same
and the connection is handed the same frames. -/

namespace Binate

open Spec RSocketMachine

/-- A new client does not number its streams 3, 1. -/
theorem not_numbered {wire : List Frame} (ids : streamIds wire = [3, 1]) :
    ¬NumberedInOrder (RSocketMachine.new .client 60 0) wire := by
  rintro ⟨l, q, h1, h2⟩
  rw [ids] at h2
  have hl : l.length = 2 := by
    have := congrArg List.length h2
    rw [List.length_reverse, List.length_map] at this
    exact this.symm
  have h3 : Alone (fun _ => false) StreamIdProvider.newForClient [3#32, 1#32] ⟨5#32⟩ :=
    .next (fuel := 1) (.next (fuel := 1) .none rfl) rfl
  rw [(alone_unique h1 h3 hl).1] at h2
  exact absurd h2 (by decide)

/-- **C106, refuted as stated.** Two calls on a new client that have both returned: no order of them
gives the frames that were sent. -/
theorem C106_frames_false : ∃ s, ConcReachable true openTransport (RSocketMachine.new .client 60 0) s ∧
    s.calls.map callResult = [some (.ok ()), some (.ok ())] ∧
    ¬∃ order, AsIfSerial true openTransport (RSocketMachine.new .client 60 0) s order s.wire := by
  obtain ⟨s, h, -, ids, res⟩ := C103_ascending_false
  refine ⟨s, h, res, fun ⟨order, as⟩ => ?_⟩
  obtain ⟨ops, rs, m', -, -, run⟩ := as.same
  have := (serialFacts rfl run).numbered
  exact not_numbered ids this

/-- A connection that refuses a stream when it is the first one and not number 1. -/
def wantsOne : Transport := fun sent f =>
  match f with
  | .requestFnf v => if v.streamId = 1#32 ∨ sent ≠ [] then .ok () else .error ⟨.connectionError, none⟩
  | _ => .ok ()

theorem first_id {ids : List U32} {q : StreamIdProvider}
    (h : Alone (fun _ => false) StreamIdProvider.newForClient ids q) {n : Nat} {l : List Nat}
    (e : n :: l = (ids.map BitVec.toNat).reverse) : n = 1 := by
  have key : ids = [] ∨ ids.getLast? = some 1#32 := by
    clear e
    induction h with
    | none => exact .inl rfl
    | @next ids q r fuel x h hn ih =>
      refine .inr ?_
      rcases ih with rfl | ih
      · cases h
        cases fuel with
        | zero => cases hn
        | succ fuel =>
          cases hn
          rfl
      · rw [List.getLast?_cons, ih]
        rfl
  rcases key with rfl | key
  · cases e
  · have : (n :: l).head? = some 1 := by
      rw [e, List.head?_reverse, List.getLast?_map, key]
      rfl
    exact Option.some.inj this

theorem wantsOne_later {past : List Frame} (h : past ≠ []) (l : List Frame) :
    ∀ r ∈ answersOf wantsOne past l, r = .ok () := by
  induction l generalizing past with
  | nil => exact fun r hr => nomatch hr
  | cons f l ih =>
    intro r hr
    rcases List.mem_cons.1 hr with rfl | hr
    · cases f <;> try rfl
      exact if_pos (.inr h)
    · exact ih (List.append_ne_nil_of_right_ne_nil _ (by nofun)) r hr

/-- **C106, refuted as stated.** Nor need there be an order in which the calls return the same: the
connection can tell from the numbers of the streams that the calls have overtaken each other. -/
theorem C106_results_false : ∃ s, ConcReachable true wantsOne (RSocketMachine.new .client 60 0) s ∧
    s.calls.map callResult = [some (.ok ()), some (.error ⟨.connectionError, none⟩)] ∧
    ¬∃ order frames, AsIfSerial true wantsOne (RSocketMachine.new .client 60 0) s order frames := by
  let a : Payload := ⟨none, some [1#8]⟩
  let R := ConcReachable true wantsOne (RSocketMachine.new .client 60 0)
  have via : ∀ {s s' s'' : Conc}, R s → ConcStep true wantsOne s s' → s' = s'' → R s'' :=
    fun r h e => e ▸ r.step h
  let q : List Asked := [.fireAndForget a, .fireAndForget a]
  have r1 : R ⟨exampleClient 1#32, [.probing a], 0, [], [.fireAndForget a]⟩ := ConcReachable.init.step (.call _ a)
  have r2 : R ⟨exampleClient 1#32, [.probing a, .probing a], 0, [], q⟩ := r1.step (.call _ a)
  have r3 : R ⟨exampleClient 3#32, [.checking a 1#32, .probing a], 1, [], q⟩ :=
    via r2 (.fetch _ 0 a rfl) (by simp only [Conc.set]; rfl)
  have r4 : R ⟨exampleClient 5#32, [.checking a 1#32, .checking a 3#32], 2, [], q⟩ :=
    via r3 (.fetch _ 1 a rfl) (by simp only [Conc.set]; rfl)
  have r5 : R ⟨exampleClient 5#32, [.checking a 1#32, .sendingOne a 3#32], 2, [], q⟩ :=
    r4.step (.checkFree _ 1 a 3#32 rfl rfl)
  have r6 : R ⟨exampleClient 5#32, [.sendingOne a 1#32, .sendingOne a 3#32], 2, [], q⟩ :=
    r5.step (.checkFree _ 0 a 1#32 rfl rfl)
  have r7 : R ⟨exampleClient 5#32, [.sendingOne a 1#32, .done a 3#32 (.error ⟨.connectionError, none⟩)], 2,
      [fnfFrame 3#32 false a], q⟩ :=
    r6.step (.sendOne _ 1 a 3#32 ⟨3#32, ⟨0#16⟩, a⟩ rfl rfl)
  have r8 : R ⟨exampleClient 5#32, [.done a 1#32 (.ok ()), .done a 3#32 (.error ⟨.connectionError, none⟩)], 2,
      [fnfFrame 3#32 false a, fnfFrame 1#32 false a], q⟩ :=
    r7.step (.sendOne _ 0 a 1#32 ⟨1#32, ⟨0#16⟩, a⟩ rfl rfl)
  refine ⟨_, r8, rfl, fun ⟨order, frames, as⟩ => ?_⟩
  obtain ⟨ops, rs, m', -, hrs, run⟩ := as.same
  have facts := serialFacts rfl run
  have h1 : (1 : Nat) ∈ order := (as.all 1).2 ⟨.error ⟨.connectionError, none⟩, rfl⟩
  have h2 : some (some (.error ⟨.connectionError, none⟩)) ∈
      rs.map (fun r : Except Error Unit => some (some r)) := by
    rw [← hrs]
    exact List.mem_map.2 ⟨1, h1, rfl⟩
  obtain ⟨r, h3, h4⟩ := List.mem_map.1 h2
  injection h4 with h4
  injection h4 with h4
  rw [facts.answers] at h3
  have h5 : r = .ok () := by
    obtain ⟨ids, i1, i2⟩ := facts.ids
    cases frames with
    | nil => cases h3
    | cons f l =>
      rcases List.mem_cons.1 h3 with rfl | h3
      · cases f <;> try rfl
        rename_i v
        have e : v.streamId.toNat = 1 := by
          have e1 : streamIds (Frame.requestFnf v :: l) = v.streamId.toNat :: streamIds l := rfl
          rw [e1] at i2
          exact first_id i1 i2
        exact if_pos (.inl (BitVec.eq_of_toNat_eq e))
      · exact wantsOne_later (by nofun) l r h3
  rw [h5] at h4
  cases h4

/-- **C106, refuted as stated.** On a socket that sends payloads in parts, the parts of two calls may
alternate: no order of the calls gives the frames that were sent, even up to the numbers of
streams. -/
theorem C106_fragments_false : ∃ s, ConcReachable true openTransport (fragmenting 1) s ∧
    s.calls.map callResult = [some (.ok ()), some (.ok ())] ∧
    ¬∃ order frames, AsIfSerial true openTransport (fragmenting 1) s order frames ∧
      SameButNumbers frames s.wire := by
  let a : Payload := ⟨none, some [1#8, 2#8]⟩
  let na := PayloadChunks.len ⟨1, none, some [1#8, 2#8]⟩
  have ha : na = 2 := len_afterNext (c := ⟨1, none, some [1#8, 2#8]⟩) (by decide) 0
    nofun nofun (by decide) (by decide)
  let R := ConcReachable true openTransport (fragmenting 1)
  let f (sid : U32) (b : Bool) (x : U8) : Frame := fnfFrame sid b ⟨none, some [x]⟩
  have via : ∀ {s s' s'' : Conc}, R s → ConcStep true openTransport s s' → s' = s'' → R s'' :=
    fun r h e => e ▸ r.step h
  let q : List Asked := [.fireAndForget a, .fireAndForget a]
  have r0 : R ⟨exampleMachine 1#32, [], 0, [], []⟩ := .init
  have r1 : R ⟨exampleMachine 1#32, [.probing a], 0, [], [.fireAndForget a]⟩ := r0.step (.call _ a)
  have r2 : R ⟨exampleMachine 1#32, [.probing a, .probing a], 0, [], q⟩ := r1.step (.call _ a)
  have r3 : R ⟨exampleMachine 3#32, [.checking a 1#32, .probing a], 1, [], q⟩ :=
    via r2 (.fetch _ 0 a rfl) (by simp only [Conc.set]; rfl)
  have r4 : R ⟨exampleMachine 5#32, [.checking a 1#32, .checking a 3#32], 2, [], q⟩ :=
    via r3 (.fetch _ 1 a rfl) (by simp only [Conc.set]; rfl)
  have r5 : R ⟨exampleMachine 5#32, [.checking a 1#32, .sending a 3#32 0 na ⟨1, none, a.data⟩], 2, [], q⟩ :=
    r4.step (.checkFree _ 1 a 3#32 rfl rfl)
  have r6 : R ⟨exampleMachine 5#32, [.sending a 1#32 0 na ⟨1, none, a.data⟩,
      .sending a 3#32 0 na ⟨1, none, a.data⟩], 2, [], q⟩ :=
    r5.step (.checkFree _ 0 a 1#32 rfl rfl)
  have r7 : R ⟨exampleMachine 5#32, [.sending a 1#32 1 na ⟨1, none, some [2#8]⟩,
      .sending a 3#32 0 na ⟨1, none, a.data⟩], 2, [f 1#32 true 1#8], q⟩ :=
    r6.step (.sendChunk _ 0 a 1#32 0 na _ ⟨1, none, some [2#8]⟩
      ⟨none, some [1#8]⟩ ⟨1#32, ⟨0x40#16⟩, ⟨none, some [1#8]⟩⟩ rfl rfl (by rw [ha]; rfl) rfl)
  have r8 : R ⟨exampleMachine 5#32, [.sending a 1#32 1 na ⟨1, none, some [2#8]⟩,
      .sending a 3#32 1 na ⟨1, none, some [2#8]⟩], 2, [f 1#32 true 1#8, f 3#32 true 1#8], q⟩ :=
    r7.step (.sendChunk _ 1 a 3#32 0 na _ ⟨1, none, some [2#8]⟩
      ⟨none, some [1#8]⟩ ⟨3#32, ⟨0x40#16⟩, ⟨none, some [1#8]⟩⟩ rfl rfl (by rw [ha]; rfl) rfl)
  have r9 : R ⟨exampleMachine 5#32, [.sending a 1#32 2 na ⟨1, none, none⟩,
      .sending a 3#32 1 na ⟨1, none, some [2#8]⟩], 2,
      [f 1#32 true 1#8, f 3#32 true 1#8, f 1#32 false 2#8], q⟩ :=
    r8.step (.sendChunk _ 0 a 1#32 1 na _ ⟨1, none, none⟩
      ⟨none, some [2#8]⟩ ⟨1#32, ⟨0#16⟩, ⟨none, some [2#8]⟩⟩ rfl rfl (by rw [ha]; rfl) rfl)
  have r10 : R ⟨exampleMachine 5#32, [.sending a 1#32 2 na ⟨1, none, none⟩,
      .sending a 3#32 2 na ⟨1, none, none⟩], 2,
      [f 1#32 true 1#8, f 3#32 true 1#8, f 1#32 false 2#8, f 3#32 false 2#8], q⟩ :=
    r9.step (.sendChunk _ 1 a 3#32 1 na _ ⟨1, none, none⟩
      ⟨none, some [2#8]⟩ ⟨3#32, ⟨0#16⟩, ⟨none, some [2#8]⟩⟩ rfl rfl (by rw [ha]; rfl) rfl)
  have r11 : R ⟨exampleMachine 5#32, [.done a 1#32 (.ok ()), .sending a 3#32 2 na ⟨1, none, none⟩], 2,
      [f 1#32 true 1#8, f 3#32 true 1#8, f 1#32 false 2#8, f 3#32 false 2#8], q⟩ :=
    r10.step (.finish _ 0 a 1#32 2 na _ ⟨1, none, none⟩ rfl rfl)
  have r12 : R ⟨exampleMachine 5#32, [.done a 1#32 (.ok ()), .done a 3#32 (.ok ())], 2,
      [f 1#32 true 1#8, f 3#32 true 1#8, f 1#32 false 2#8, f 3#32 false 2#8], q⟩ :=
    r11.step (.finish _ 1 a 3#32 2 na _ ⟨1, none, none⟩ rfl rfl)
  refine ⟨_, r12, rfl, fun ⟨order, frames, as, same⟩ => ?_⟩
  obtain ⟨ops, rs, m', hops, -, run⟩ := as.same
  have hmem : ∀ k, k ∈ order ↔ k ∈ [0, 1] := by
    intro k
    refine (as.all k).trans ⟨fun ⟨r, e⟩ => ?_, fun hk => ⟨.ok (), ?_⟩⟩
    · have hl := (List.getElem?_eq_some_iff.1 e).1
      have hl : k < 2 := hl
      rcases k with _ | _ | k
      · exact List.mem_cons_self
      · exact List.mem_cons_of_mem _ List.mem_cons_self
      · omega
    · rcases List.mem_cons.1 hk with rfl | hk
      · rfl
      · rw [List.mem_singleton.1 hk]
        rfl
  have hperm : order.Perm [0, 1] :=
    (List.perm_ext_iff_of_nodup as.once (by decide)).2 hmem
  have hops' : ops.map some = [some (Asked.fireAndForget a), some (Asked.fireAndForget a)] := by
    rw [← hops]
    have h1 : (order.map (q[·]?)).Perm (List.replicate 2 (some (.fireAndForget a))) :=
      hperm.map _
    exact List.perm_replicate.1 h1
  have hops'' : ops = ([] ++ [.fireAndForget a]) ++ [.fireAndForget a] := by
    rcases ops with _ | ⟨x, _ | ⟨y, _ | ⟨z, l⟩⟩⟩
    · cases hops'
    · cases hops'
    · injection hops' with h1 h2
      injection h2 with h2 h3
      injection h1 with h1
      injection h2 with h2
      rw [h1, h2]
      rfl
    · cases hops'
  rw [hops''] at run
  obtain ⟨_, sent, m1, fuel, r, run1, e2⟩ := serial_snoc run
  obtain ⟨_, sent0, m0, fuel0, r0', run0, e1⟩ := serial_snoc run1
  obtain ⟨e0, em⟩ := serial_nil run0
  subst e0 em
  obtain ⟨f1, g1⟩ := free_fire (size := 0) (fun _ => rfl) rfl e1
  subst g1
  obtain ⟨f2, g2⟩ := free_fire (size := 0) (fun _ => rfl) rfl e2
  have hc : ∀ sid, callFrames sid (some 1) a = [f sid true 1#8, f sid false 2#8] := by
    intro sid
    show loopFrames sid 1 na a = _
    rw [ha]
    rfl
  rw [f2, f1, hc, hc] at same
  have h2 := (List.cons.inj (List.cons.inj same).2).1
  cases h2

/-- **C106, what holds of sockets that do not send in parts.** Leave the numbers of streams aside,
on the wire and for the connection. Then the calls that have returned can be put into an order such
that making them in this order, one after the other, has the same effects: each call returns the same
and the same frames are sent. The order respects time: it is only extended later on, so that a call
that has returned precedes every call that returns later or is only made later. -/
theorem C106_unnumbered_partial {dbg : Bool} {tr : Transport} {m : RSocketMachine} {s s' : Conc}
    (h : ConcReachable dbg tr m s) (h' : ConcSteps dbg tr s s') (whole : m.chunkPayload = none)
    (free : SomeFree m) (ignores : IgnoresNumbers tr) :
    ∃ order more frames frames',
      AsIfSerial dbg tr m s order frames ∧ SameButNumbers frames s.wire ∧
      AsIfSerial dbg tr m s' (order ++ more) frames' ∧ SameButNumbers frames' s'.wire := by
  obtain ⟨order, inv⟩ := serialInv h whole
  obtain ⟨more, inv'⟩ := serialInv_steps inv h'
  obtain ⟨ids, q, i1, i2, -⟩ := alone_exists free (streamIds s.wire).length
  obtain ⟨ids', q', i1', i2', -⟩ := alone_exists free (streamIds s'.wire).length
  obtain ⟨ops, rs, frames, m1, run, facts, same, ho, -⟩ := inv.run dbg whole i1 i2
  obtain ⟨ops', rs', frames', m2, run', facts', same', ho', -⟩ := inv'.run dbg whole i1' i2'
  exact ⟨order, more, frames, frames',
    inv.asIf run ho (facts.answers.trans (answersOf_blind ignores same rfl)), same,
    inv'.asIf run' ho' (facts'.answers.trans (answersOf_blind ignores same' rfl)), same'⟩

/-- **C106, exactly.** On a socket that does not send in parts, for every connection: some order of
the calls that have returned gives the same results and the very same frames if and only if the
streams appear on the wire in the order of their numbers. -/
theorem C106_exact_partial {dbg : Bool} {tr : Transport} {m : RSocketMachine} {s : Conc}
    (h : ConcReachable dbg tr m s) (whole : m.chunkPayload = none) :
    (∃ order, AsIfSerial dbg tr m s order s.wire) ↔ NumberedInOrder m s.wire := by
  constructor
  · rintro ⟨order, as⟩
    obtain ⟨ops, rs, m', -, -, run⟩ := as.same
    exact (serialFacts whole run).numbered
  · rintro ⟨ids, q, h1, h2⟩
    obtain ⟨order, inv⟩ := serialInv h whole
    have hl : ids.length = (streamIds s.wire).length := by
      rw [h2, List.length_reverse, List.length_map]
    obtain ⟨ops, rs, frames, m1, run, facts, same, ho, he⟩ := inv.run dbg whole h1 hl
    have e : frames = s.wire := frames_eq same (he.trans h2.symm)
    rw [e] at run facts
    exact ⟨order, inv.asIf run ho facts.answers⟩

theorem new_free (role : Role) (t n : Nat) : SomeFree (RSocketMachine.new role t n) := by
  cases role with
  | client => exact ⟨1#32, by decide, rfl, rfl⟩
  | server => exact ⟨2#32, by decide, rfl, rfl⟩

/-- The sockets that the crate makes are such sockets. -/
theorem C106_new_partial {dbg : Bool} {tr : Transport} {role : Role} {t n : Nat} {s s' : Conc}
    (h : ConcReachable dbg tr (RSocketMachine.new role t n) s) (h' : ConcSteps dbg tr s s')
    (ignores : IgnoresNumbers tr) :
    ∃ order more frames frames',
      AsIfSerial dbg tr (RSocketMachine.new role t n) s order frames ∧ SameButNumbers frames s.wire ∧
      AsIfSerial dbg tr (RSocketMachine.new role t n) s' (order ++ more) frames' ∧
      SameButNumbers frames' s'.wire :=
  C106_unnumbered_partial h h' rfl (new_free role t n) ignores

example : IgnoresNumbers openTransport := fun _ _ _ _ _ _ => rfl

/-- A connection that counts does not look at the numbers. -/
example (e : Error) : IgnoresNumbers (fun sent _ => if sent.length < 3 then .ok () else .error e) := by
  intro l l' f f' h _
  have : l.length = l'.length := by
    have := congrArg List.length h
    rwa [List.length_map, List.length_map] at this
  show (if l.length < 3 then _ else _) = (if l'.length < 3 then _ else _)
  rw [this]

/-- The two calls of C103: in some order they are as if made one after the other, up to numbers. -/
example : ∃ s order frames, s.calls.map callResult = [some (.ok ()), some (.ok ())] ∧
    AsIfSerial true openTransport (RSocketMachine.new .client 60 0) s order frames ∧
    SameButNumbers frames s.wire ∧ ¬NumberedInOrder (RSocketMachine.new .client 60 0) s.wire := by
  obtain ⟨s, h, -, ids, res⟩ := C103_ascending_false
  obtain ⟨order, more, frames, frames', h1, h2, -, -⟩ :=
    C106_unnumbered_partial h (.refl s) rfl (new_free _ _ _) (fun _ _ _ _ _ _ => rfl)
  exact ⟨s, order, frames, res, h1, h2, not_numbered ids⟩

/-- A call of `metadata_push` after a call that has drawn its number: the second comes first. -/
example : ∃ s, ConcReachable true openTransport (RSocketMachine.new .client 60 0) s ∧
    s.wire = [.metadataPush ⟨[7#8]⟩, fnfFrame 1#32 false ⟨none, some [1#8]⟩] ∧
    AsIfSerial true openTransport (RSocketMachine.new .client 60 0) s [1, 0] s.wire := by
  let a : Payload := ⟨none, some [1#8]⟩
  let R := ConcReachable true openTransport (RSocketMachine.new .client 60 0)
  have via : ∀ {s s' s'' : Conc}, R s → ConcStep true openTransport s s' → s' = s'' → R s'' :=
    fun r h e => e ▸ r.step h
  let q : List Asked := [.fireAndForget a, .metadataPush [7#8] (.ok ())]
  have r1 : R ⟨exampleClient 1#32, [.probing a], 0, [], [.fireAndForget a]⟩ := ConcReachable.init.step (.call _ a)
  have r2 : R ⟨exampleClient 3#32, [.checking a 1#32], 1, [], [.fireAndForget a]⟩ :=
    via r1 (.fetch _ 0 a rfl) (by simp only [Conc.set]; rfl)
  have r3 : R ⟨exampleClient 3#32, [.checking a 1#32], 1, [.metadataPush ⟨[7#8]⟩], q⟩ :=
    r2.step (.push _ [7#8])
  have r4 : R ⟨exampleClient 3#32, [.sendingOne a 1#32], 1, [.metadataPush ⟨[7#8]⟩], q⟩ :=
    r3.step (.checkFree _ 0 a 1#32 rfl rfl)
  have r5 : R ⟨exampleClient 3#32, [.done a 1#32 (.ok ())], 1,
      [.metadataPush ⟨[7#8]⟩, fnfFrame 1#32 false a], q⟩ :=
    r4.step (.sendOne _ 0 a 1#32 ⟨1#32, ⟨0#16⟩, a⟩ rfl rfl)
  refine ⟨_, r5, rfl, by decide, fun k => ?_, [.metadataPush [7#8] (.ok ()), .fireAndForget a],
    [.ok (), .ok ()], exampleClient 3#32, rfl, rfl, ?_⟩
  · constructor
    · intro hk
      refine ⟨.ok (), ?_⟩
      rcases List.mem_cons.1 hk with rfl | hk
      · rfl
      · rw [List.mem_singleton.1 hk]
        rfl
    · rintro ⟨r, e⟩
      have hl : k < 2 := (List.getElem?_eq_some_iff.1 e).1
      rcases k with _ | _ | k
      · exact List.mem_cons_of_mem _ List.mem_cons_self
      · exact List.mem_cons_self
      · omega
  · exact .fireAndForget (ops := [.metadataPush [7#8] (.ok ())]) (rs := [.ok ()]) (fuel := 1)
      (.metadataPush (ops := []) (rs := []) .nothing rfl)
      (whole_fire rfl rfl a _)

end Binate
