import Verif.Lemmas.Lost
import Verif.Props.WildPeer

/-! # What the peer gets of a connection that is closed

C127. `delivered` is what reaches the peer over a connection that keeps its documentation, according to which
`send` does nothing once it is closed. -/

namespace Binate

open Spec RSocketMachine

section
variable {dbg dbg' : Bool} {tr : WildTransport} {role : Role} {timeout created spawned : Nat} {h k : Storm}

/-- **C127.** Until the connection is closed all frames reach the peer; of one that was closed there is a last
moment before the first close. -/
theorem C127_moment (hr : Storm.Reachable dbg tr role timeout created spawned h) :
    delivered h.sys.happened = h.sys.conc.wire ∧ closesOf h.sys.happened = 0 ∨
    ∃ k, Storm.Reachable dbg tr role timeout created spawned k ∧
      ClosedSince (Storm.Step dbg tr) (fun s => s.sys.happened) k h := by
  by_cases h0 : closesOf h.sys.happened = 0
  · exact .inl ⟨(delivered_all h0).trans (C120_requests hr).2, h0⟩
  · right
    induction hr with
    | init => exact absurd rfl h0
    | @step h h' hr hs ih =>
      by_cases h1 : closesOf h.sys.happened = 0
      · obtain ⟨added, ha, hc⟩ := stormStep_happened hs
        rcases hc with hc | rfl
        · rw [ha, closesOf_append, h1, hc] at h0
          exact absurd rfl h0
        · exact ⟨h, hr, h1, h', hs, ha, .here⟩
      · obtain ⟨k, hk, h2, k', h3, h4, h5⟩ := ih h1
        exact ⟨k, hk, h2, k', h3, h4, h5.next hs⟩

/-- **C127.** What reaches the peer is what was handed over before the first close, whatever is done and goes
wrong later. -/
theorem C127_delivered (hk : Storm.Reachable dbg tr role timeout created spawned k)
    (hc : ClosedSince (Storm.Step dbg tr) (fun s => s.sys.happened) k h) :
    delivered h.sys.happened = k.sys.conc.wire := by
  obtain ⟨h0, k', -, h1, h2⟩ := hc
  obtain ⟨more, h3⟩ := reached_storm_happened h2
  rw [h3, h1, delivered_before h0, (C120_requests hk).2]

/-- **C127.** A request is all or nothing for the peer, and which of the two is decided by whether the call had
ended at the first close, with `Ok`, an error or a panic. -/
theorem C127_request (hk : Storm.Reachable dbg tr role timeout created spawned k)
    (hc : ClosedSince (Storm.Step dbg tr) (fun s => s.sys.happened) k h)
    (hd : h.sys.conc.draws ≤ 2 ^ 30) {bs : List Bytes} (hb : encodeAll (delivered h.sys.happened) = .ok bs)
    {i : Nat} {c : Call} (hi : h.sys.conc.calls[i]? = some c) :
    (∀ sid, callId c = some sid → GotIff dbg' bs sid (callPayload c) (HadEnded k.sys.conc.calls i)) ∧
    (∀ p, c = .panicked p → ∃ sid, PanickedOn tr h.sys.conc.wire sid ∧
      GotIff dbg' bs sid p (HadEnded k.sys.conc.calls i)) := by
  rw [C127_delivered hk hc] at hb
  exact wild_since (C120_requests hk).1 (reached_storm_conc (closedSince_reached hc)) hd rfl hb hi

/-- **C127.** The pushes that reach the peer are those of the calls of `metadata_push` made before the first
close. -/
theorem C127_pushes (hk : Storm.Reachable dbg tr role timeout created spawned k)
    (hc : ClosedSince (Storm.Step dbg tr) (fun s => s.sys.happened) k h)
    {bs : List Bytes} (hb : encodeAll (delivered h.sys.happened) = .ok bs) :
    (bs.filter fun b => typeOf b == 12).map decode =
      (wildPushes k.sys.conc.asked).map fun e => .ok (.metadataPush ⟨e.1⟩) [] := by
  rw [C127_delivered hk hc] at hb
  exact C124_pushes (C120_requests hk).1 hb

/-- **C127.** Nothing reaches the peer on a stream that belongs to no call that had ended by then. -/
theorem C127_no_other_stream (hk : Storm.Reachable dbg tr role timeout created spawned k)
    (hc : ClosedSince (Storm.Step dbg tr) (fun s => s.sys.happened) k h)
    (hd : h.sys.conc.draws ≤ 2 ^ 30) {bs : List Bytes} (hb : encodeAll (delivered h.sys.happened) = .ok bs)
    {n : Nat} (hn : streamBuffers n bs ≠ []) :
    ∃ (i : Nat) (c : Call) (sid : U32), k.sys.conc.calls[i]? = some c ∧ Spec.Ended c ∧
      h.sys.conc.calls[i]? = some c ∧ sid.toNat = n ∧
      (callId c = some sid ∨ (∃ p, c = .panicked p) ∧ PanickedOn tr k.sys.conc.wire sid) := by
  rw [C127_delivered hk hc] at hb
  have hw := (C120_requests hk).1
  have hs := reached_storm_conc (closedSince_reached hc)
  obtain ⟨i, c, sid, h1, h2, h3⟩ := C124_no_other_stream hw hb hn
  have he : Spec.Ended c := by
    by_cases he : Spec.Ended c
    · exact he
    · rcases h3 with h3 | ⟨⟨p, rfl⟩, -⟩
      · have hd' : k.sys.conc.draws ≤ 2 ^ 30 := Nat.le_trans (reached_draws hs) hd
        subst h2
        exact absurd ((wild_since (dbg' := false) hw .here hd' rfl hb h1).1 sid h3 |>.2
          (by rintro ⟨d, hd, hed⟩; rw [h1] at hd; cases hd; exact he hed)) hn
      · exact .panicked p
  exact ⟨i, c, sid, h1, he, reached_ended hs h1 he, h2, h3⟩

end

/-- **C127.** So that a call of `fire_and_forget` has returned `Ok` does not mean that the peer gets its payload:
a first call returns, the connection is closed, a second call returns `Ok`, as the documentation of `send` asks
for, and the peer gets the first payload only. -/
theorem C127_ok_lost : ∃ k h bs, Storm.Reachable false (fun _ _ => .ok (.ok ())) .client 60 0 0 k ∧
    ClosedSince (Storm.Step false (fun _ _ => .ok (.ok ()))) (fun s => s.sys.happened) k h ∧
    h.sys.conc.draws ≤ 2 ^ 30 ∧ encodeAll (delivered h.sys.happened) = .ok bs ∧
    ∃ p q sid sid', h.sys.conc.calls = [.done p sid (.ok ()), .done q sid' (.ok ())] ∧
      reassembled true (streamBuffers sid.toNat bs) = .ok (.ok p) ∧ streamBuffers sid'.toNat bs = [] ∧
      HadEnded k.sys.conc.calls 0 ∧ ¬ HadEnded k.sys.conc.calls 1 := by
  let p : Payload := ⟨none, some [1#8]⟩
  let q : Payload := ⟨none, some [2#8]⟩
  let tr : WildTransport := fun _ _ => .ok (.ok ())
  let m : U32 → RSocketMachine := fun x => { RSocketMachine.new .client 60 0 with streamId := ⟨x⟩ }
  let c1 : WildConc := ⟨m 1#32, [.probing p], 0, [], [.fireAndForget p]⟩
  let c2 : WildConc := ⟨m 3#32, [.checking p 1#32], 1, [], [.fireAndForget p]⟩
  let c3 : WildConc := ⟨m 3#32, [.sendingOne p 1#32], 1, [], [.fireAndForget p]⟩
  let f := fnfFrame 1#32 false p
  let d := Call.done p 1#32 (.ok ())
  let c4 : WildConc := ⟨m 3#32, [d], 1, [f], [.fireAndForget p]⟩
  let asked : List WildAsked := [.fireAndForget p, .fireAndForget q]
  let c5 : WildConc := ⟨m 3#32, [d, .probing q], 1, [f], asked⟩
  let c6 : WildConc := ⟨m 5#32, [d, .checking q 3#32], 2, [f], asked⟩
  let c7 : WildConc := ⟨m 5#32, [d, .sendingOne q 3#32], 2, [f], asked⟩
  let f' := fnfFrame 3#32 false q
  let c8 : WildConc := ⟨m 5#32, [d, .done q 3#32 (.ok ())], 2, [f, f'], asked⟩
  let at' (c : WildConc) (hs : List Happening) (n : Nat) : Storm :=
    ⟨{ WildSystem.new .client 60 0 0 with conc := c, happened := hs, userCloses := n }, false, false⟩
  have req : ∀ {c c' : WildConc} {hs : List Happening} {n : Nat} (new : List Frame),
      WildStep false tr c c' → c'.wire = c.wire ++ new →
      Storm.Step false tr (at' c hs n) (at' c' (hs ++ new.map .frame) n) :=
    fun {c c' hs n} new h1 h2 =>
      .run (at' c hs n) _ (.request _ c' new (show 0 < 1 by decide) h1 h2) fun _ => ⟨rfl, rfl⟩
  have alike : ∀ {w w' w'' : WildConc}, WildStep false tr w w' → w' = w'' → WildStep false tr w w'' :=
    fun h e => e ▸ h
  have f2 : WildStep false tr c1 c2 := by
    refine alike (.fetch c1 0 p rfl) ?_
    simp only [WildConc.set, c1, c2, m]
    rfl
  have f6 : WildStep false tr c5 c6 := by
    refine alike (.fetch c5 1 q rfl) ?_
    simp only [WildConc.set, c5, c6, m]
    rfl
  have r0 : Storm.Reachable false tr .client 60 0 0 (at' (WildConc.init (m 1#32)) [] 0) := .init
  have r1 : Storm.Reachable false tr .client 60 0 0 (at' c1 [] 0) := r0.step (req [] (.call _ p) rfl)
  have r2 : Storm.Reachable false tr .client 60 0 0 (at' c2 [] 0) := r1.step (req [] f2 rfl)
  have r3 : Storm.Reachable false tr .client 60 0 0 (at' c3 [] 0) :=
    r2.step (req [] (.checkFree _ 0 p 1#32 rfl rfl) rfl)
  have r4 : Storm.Reachable false tr .client 60 0 0 (at' c4 [.frame f] 0) :=
    r3.step (req [f] (.sendOne _ 0 p 1#32 ⟨1#32, ⟨0#16⟩, p⟩ (.ok ()) rfl rfl rfl) rfl)
  let hs : List Happening := [.frame f, .act .close]
  have s5 : Reached (Storm.Step false tr) (at' c4 hs 1) (at' c5 hs 1) :=
    .next .here (req [] (.call _ q) rfl)
  have s6 : Reached (Storm.Step false tr) (at' c4 hs 1) (at' c6 hs 1) := s5.next (req [] f6 rfl)
  have s7 : Reached (Storm.Step false tr) (at' c4 hs 1) (at' c7 hs 1) :=
    s6.next (req [] (.checkFree _ 1 q 3#32 rfl rfl) rfl)
  have s8 : Reached (Storm.Step false tr) (at' c4 hs 1) (at' c8 (hs ++ [.frame f']) 1) :=
    s7.next (req [f'] (.sendOne _ 1 q 3#32 ⟨3#32, ⟨0#16⟩, q⟩ (.ok ()) rfl rfl rfl) rfl)
  refine ⟨_, _, [[0#8, 0, 0, 1, 0x14, 0, 0, 0, 0, 1]], r4,
    ⟨by decide +kernel, at' c4 hs 1, .run _ _ (.close _ (show 0 < 1 by decide)) fun _ => ⟨rfl, rfl⟩, rfl, s8⟩,
    show 2 ≤ 2 ^ 30 by decide, by decide +kernel, p, q, 1#32, 3#32, rfl, by rfl, by decide +kernel,
    ⟨d, rfl, .returned _ _ _⟩, ?_⟩
  rintro ⟨c, hc, -⟩
  cases hc

/-! ## Any number of sockets -/

section
variable {dbg dbg' : Bool} {trs : Nat → WildTransport} {t u : Storms} {g : Handle}

/-- **C127**, any number of sockets: the moment before the first close of one of them. -/
theorem C127_sockets_moment (ht : Storms.Reachable dbg trs t) (hg : g ∈ t.world.made) :
    delivered (t.keeper g.connection).happened = t.world.memory.wire g.connection ∧
      closesOf (t.keeper g.connection).happened = 0 ∨
    ∃ u, Storms.Reachable dbg trs u ∧ g ∈ u.world.made ∧
      ClosedSince (Storms.Step dbg trs) (fun t => (t.keeper g.connection).happened) u t := by
  by_cases h0 : closesOf (t.keeper g.connection).happened = 0
  · exact .inl ⟨(delivered_all h0).trans (C122_requests ht hg).2, h0⟩
  · right
    induction ht with
    | init => cases hg
    | @step t t' ht hs ih =>
      by_cases hm : g ∈ t.world.made
      · by_cases h1 : closesOf (t.keeper g.connection).happened = 0
        · have inv := stormsInv ht
          rcases storms_one (storms_acts inv.world inv.calm hs) hm with h2 | h2
          · obtain ⟨added, ha, hc⟩ := stormStep_happened h2
            change (t'.keeper g.connection).happened = (t.keeper g.connection).happened ++ added at ha
            rcases hc with hc | rfl
            · rw [ha, closesOf_append, h1, hc] at h0
              exact absurd rfl h0
            · exact ⟨t, ht, hm, h1, t', hs, ha, .here⟩
          · have h3 : (t'.keeper g.connection).happened = (t.keeper g.connection).happened :=
              congrArg (·.sys.happened) h2
            rw [h3] at h0
            exact absurd h1 h0
        · obtain ⟨u, hu, hm', h2, k', h3, h4, h5⟩ := ih hm h1
          exact ⟨u, hu, hm', h2, k', h3, h4, h5.next hs⟩
      · exfalso
        rcases C122_steps ht hs with ⟨-, e⟩ | ⟨r, e⟩ | ⟨_, -, -, -, e⟩ | ⟨g', _, _, _, _, -, e, -, e', -⟩
        · rw [e] at hg; exact hm hg
        · rw [e] at hg; exact hm hg
        · rw [e] at hg; exact hm hg
        · rw [e] at hg
          rcases List.mem_append.1 hg with hg | hg
          · exact hm hg
          · cases List.mem_singleton.1 hg
            exact h0 (congrArg (fun s => closesOf s.sys.happened) e')

/-- **C127**, any number of sockets: each peer gets what was handed over on its own socket before that was
closed, whatever is done and goes wrong later, there or elsewhere. -/
theorem C127_sockets (hu : Storms.Reachable dbg trs u) (hg : g ∈ u.world.made)
    (hc : ClosedSince (Storms.Step dbg trs) (fun t => (t.keeper g.connection).happened) u t)
    (hd : t.world.memory.draws g.streamId ≤ 2 ^ 30) {bs : List Bytes}
    (hb : encodeAll (delivered (t.keeper g.connection).happened) = .ok bs) :
    delivered (t.keeper g.connection).happened = u.world.memory.wire g.connection ∧
    (∀ (i : Nat) c, (stormOf t g).sys.conc.calls[i]? = some c →
      (∀ sid, callId c = some sid →
        GotIff dbg' bs sid (callPayload c) (HadEnded (stormOf u g).sys.conc.calls i)) ∧
      (∀ p, c = .panicked p →
        ∃ sid, PanickedOn (trs g.connection) (t.world.memory.wire g.connection) sid ∧
          GotIff dbg' bs sid p (HadEnded (stormOf u g).sys.conc.calls i))) ∧
    (bs.filter fun b => typeOf b == 12).map decode =
      (wildPushes (stormOf u g).sys.conc.asked).map fun e => .ok (.metadataPush ⟨e.1⟩) [] := by
  obtain ⟨spawned, -, -, hr⟩ := C122_one_machine hu hg
  have hc := closedSince_one hu hg hc
  exact ⟨C127_delivered hr hc, fun i c hi => C127_request hr hc hd hb hi, C127_pushes hr hc hb⟩

end

/-- Two sockets. A push is made on the first, whose connection panics when the watchdog closes it, and then
another; the peer gets the first push only. The second socket is not closed. -/
example : ∃ u t g k bs, Storms.Reachable false (fun _ _ _ => .ok (.ok ())) u ∧ u.world.made = [g, k] ∧
    ClosedSince (Storms.Step false fun _ _ _ => .ok (.ok ()))
      (fun t => (t.keeper g.connection).happened) u t ∧
    t.world.memory.draws g.streamId ≤ 2 ^ 30 ∧
    encodeAll (delivered (t.keeper g.connection).happened) = .ok bs ∧
    bs.map decode = [.ok (.metadataPush ⟨[1#8]⟩) []] ∧
    (t.world.memory.wire g.connection).length = 2 ∧ (t.keeper g.connection).panics = 1 ∧
    closesOf (t.keeper k.connection).happened = 0 := by
  let g : Handle := ⟨.client, 0, 1, 2, 3, none, 5, 0⟩
  let k : Handle := ⟨.server, 4, 5, 6, 7, none, 60, 0⟩
  let tr : Nat → WildTransport := fun _ _ _ => .ok (.ok ())
  have r0 : Storms.Reachable false tr _ := .init 0
  have r1 := r0.step (.new _ .client 5 0 0 (by decide))
  have r2 := r1.step (.new _ .server 60 0 0 (by decide))
  have r3 := r2.step (.request _ _ (.push _ 0 g [1#8] (.ok ()) rfl rfl))
  have r4 := r3.step (.time _ 9 (by decide))
  have r5 := r4.step (.wakeLate _ g List.mem_cons_self rfl rfl (by decide) (by decide))
  exact ⟨_, _, g, k, [[0#8, 0, 0, 0, 0x30, 0x80, 1]], r5, rfl,
    ⟨by decide +kernel, _, .dogPanics _ g List.mem_cons_self rfl rfl, rfl,
      .next .here (.request _ _ (.push _ 0 g [2#8] (.ok ()) rfl rfl))⟩,
    by decide, by decide +kernel, by decide +kernel, rfl, rfl, by decide +kernel⟩

end Binate
