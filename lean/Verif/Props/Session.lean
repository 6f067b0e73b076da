import Verif.Lemmas.Session
import Verif.Lemmas.System
import Verif.Props.Conc
import Verif.Props.Long
import Verif.Props.Ascending

/-! # What a machine sends against the rules of the protocol

C107. One would like every sequence of frames that a machine sends to be one that the protocol allows
its side to send. -/

namespace Binate

open Spec RSocketMachine System StreamIdProvider

variable {dbg : Bool} {tr : Transport}

theorem new_side (role : Role) (t now : Nat) :
    (RSocketMachine.new role t now).streamId.word.toNat % 2 = sideParity role := by
  rw [new_word]
  cases role <;> rfl

/-- **C107.** A machine sends REQUEST_FNF and METADATA_PUSH frames only: it opens no connection, keeps
none alive and answers nothing. -/
theorem C107_kinds {role : Role} {timeout created spawned : Nat} {s : System}
    (h : Reachable dbg tr role timeout created spawned s) :
    ∀ f ∈ framesOf s.happened, (∃ v, f = .requestFnf v) ∨ ∃ v, f = .metadataPush v := by
  intro f hf
  rw [(sysInv h).frames] at hf
  rcases wire_kinds (sysInv h).conc hf with hv | ⟨md, e⟩
  · exact .inl hv
  · exact .inr ⟨_, e⟩

/-- **C107, refuted as stated.** Whatever a client machine sends, it is not allowed: it never begins
with SETUP. -/
theorem C107_setup_false {m : RSocketMachine} {s : Conc} (h : ConcReachable dbg tr m s)
    (hw : s.wire ≠ []) : ¬ Conforms .client s.wire := by
  rintro ⟨t, ht⟩
  cases e : s.wire with
  | nil => exact hw e
  | cons f l =>
    rw [e] at ht
    rcases wire_kinds h (f := f) (by rw [e]; exact List.mem_cons_self) with ⟨v, rfl⟩ | ⟨md, rfl⟩ <;>
      cases ht

example : ∃ s, ConcReachable true openTransport (RSocketMachine.new .client 60 0) s ∧ s.wire ≠ [] := by
  obtain ⟨s, h, -, e, -⟩ := C103_ascending_false
  exact ⟨s, h, fun e' => by rw [e'] at e; cases e⟩

/-- **C107** (partial: somebody else opens the connection). For any machine with ids of its side,
whatever its fragment size, the receivers, the interleaving and the number of draws: the frames are
allowed exactly if none of the requests is on stream 0 and no request frame is sent on a stream after
one with the FOLLOWS flag. -/
theorem C107_exact_partial {role : Role} {m : RSocketMachine} {s : Conc} {g : List Frame}
    (h : ConcReachable dbg tr m s) (hp : m.streamId.word.toNat % 2 = sideParity role)
    (hg : Greeting role g) :
    Conforms role (g ++ s.wire) ↔ 0 ∉ streamIds s.wire ∧ NoneAfterFollows s.wire :=
  conforms_iff hg (wire_own h hp)

/-- **C107** (partial). Without a fragment size only stream 0 matters. -/
theorem C107_whole_partial {role : Role} {m : RSocketMachine} {s : Conc} {g : List Frame}
    (h : ConcReachable dbg tr m s) (hp : m.streamId.word.toNat % 2 = sideParity role)
    (hm : m.chunkPayload = none) (hg : Greeting role g) :
    Conforms role (g ++ s.wire) ↔ 0 ∉ streamIds s.wire := by
  rw [C107_exact_partial h hp hg]
  refine ⟨And.left, fun h0 => ⟨h0, fun a f b e sid _ x hx hs => ?_⟩⟩
  have hx' : x ∈ s.wire := by rw [e]; exact List.mem_append_left _ hx
  obtain ⟨log, inv⟩ := ownInv h
  rw [← inv.acc.frames] at hx'
  obtain ⟨y, hy, rfl⟩ := List.mem_map.1 hx'
  cases ho : y.owner with
  | none =>
    obtain ⟨md, e⟩ := (inv.acc.pushes y hy).1 ho
    rw [e] at hs
    cases hs
  | some i =>
    have hlt := inv.lt y hy i ho
    have hi : s.calls[i]? = some s.calls[i] := List.getElem?_eq_getElem hlt
    generalize s.calls[i] = c at hi
    have hmem : y ∈ sentBy i log := List.mem_filter.2 ⟨hy, beq_iff_eq.2 ho⟩
    cases hid : callId c with
    | none => rw [own_nil (inv.call i c hi) hid] at hmem; cases hmem
    | some id =>
      have hf := (own_prefix (inv.call i c hi) hid).subset (List.mem_map_of_mem hmem)
      rw [hm] at hf
      rw [List.mem_singleton.1 hf]
      refine followsOf_false.2 ?_
      show ¬ (BitVec.ofNat 16 ((if false = true then 2 ^ 6 else 0) +
        (if (callPayload c).metadata.isSome then 2 ^ 7 else 0))).toNat.testBit 6 = true
      generalize (callPayload c).metadata.isSome = b
      cases b <;> decide

/-- **C107** (partial: somebody else opens the connection). Whatever happens to a new client machine,
for however long, the frames are allowed. -/
theorem C107_client_partial {timeout created spawned : Nat} {s : System} {g : List Frame}
    (h : Reachable dbg tr .client timeout created spawned s) (hg : Greeting .client g) :
    Conforms .client (g ++ framesOf s.happened) := by
  rw [(sysInv h).frames]
  refine (C107_whole_partial (sysInv h).conc (new_side _ _ _) rfl hg).2 fun h0 => ?_
  obtain ⟨f, hf, e⟩ := List.mem_filterMap.1 h0
  rcases wire_own (role := .client) (sysInv h).conc (new_side _ _ _) f hf with ⟨v, rfl, -, h2⟩ | ⟨md, rfl⟩
  · have e : v.streamId.toNat = 0 := Option.some.inj e
    rw [e] at h2
    cases h2
  · cases e

example : ∃ s, Reachable true openTransport .client 60 0 0 s ∧
    framesOf s.happened = [.metadataPush ⟨[1#8]⟩] := by
  refine ⟨_, .step .init (.request _ _ [.metadataPush ⟨[1#8]⟩] Nat.zero_lt_one (.push _ [1#8]) rfl), rfl⟩

/-- **C107** (partial: fewer than 2^30 ids are drawn). Whatever happens to a new server machine, the
frames are allowed. -/
theorem C107_server_partial {timeout created spawned : Nat} {s : System}
    (h : Reachable dbg tr .server timeout created spawned s) (hd : s.conc.draws < 2 ^ 30) :
    Conforms .server (framesOf s.happened) := by
  rw [(sysInv h).frames]
  refine (C107_whole_partial (role := .server) (g := []) (sysInv h).conc (new_side _ _ _) rfl rfl).2 fun h0 => ?_
  obtain ⟨f, hf, e⟩ := List.mem_filterMap.1 h0
  rcases wire_kinds (sysInv h).conc hf with ⟨v, rfl⟩ | ⟨md, rfl⟩
  · have e : v.streamId.toNat = 0 := Option.some.inj e
    obtain ⟨n, h1, h2⟩ := (concInv (sysInv h).conc (Nat.le_of_lt hd)).old v.streamId
      (List.ne_nil_of_mem (List.mem_filter.2 ⟨hf, beq_self_eq_true _⟩))
    rw [e, new_word, show firstId .server = 2 from rfl, idAt] at h2
    omega
  · cases e

/-- A new server with this id counter. -/
abbrev countingServer (q : StreamIdProvider) : RSocketMachine :=
  { RSocketMachine.new .server 60 0 with streamId := q }

/-- Calls on a new server one after the other. -/
theorem serverCalls (n : Nat) : ∃ s, ConcReachable true openTransport (RSocketMachine.new .server 60 0) s ∧
    s.draws = n ∧ s.machine = countingServer (after newForServer n) ∧
    streamIds s.wire = (List.range n).map (idAt 2) := by
  let p : Payload := ⟨none, some [1#8]⟩
  induction n with
  | zero => exact ⟨_, .init, rfl, by rw [after_zero]; rfl, rfl⟩
  | succ n ih =>
    obtain ⟨s, r, h1, h2, h3⟩ := ih
    let q := after newForServer n
    have hq := draw_after newForServer n
    obtain ⟨m, calls, draws, wire, asked⟩ := s
    have h2 : m = _ := h2
    have h1 : draws = n := h1
    subst h2
    have last : ∀ c : Call, (calls ++ [c])[calls.length]? = some c := fun c => by simp
    have set' : ∀ c d : Call, (calls ++ [c]).set calls.length d = calls ++ [d] := fun c d => by simp
    obtain ⟨v, hv, e⟩ := fnf_new (dbg := true) (sid := q.draw.1) (by rw [hq.1]; exact idAt_lt _ _) false p
    have r1 := r.step (.call _ p)
    have r2 := r1.step (.fetch _ calls.length p (last _))
    simp only [Conc.set, set'] at r2
    have r3 := r2.step (.checkFree _ calls.length p q.draw.1 (last _) rfl)
    simp only [Conc.set, set'] at r3
    have r4 := r3.step (.sendOne _ calls.length p q.draw.1 v (last _) hv)
    refine ⟨_, r4, congrArg Nat.succ h1, ?_, ?_⟩
    · show countingServer q.draw.2 = _
      rw [hq.2]
    · show streamIds (wire ++ [.requestFnf v]) = _
      rw [streamIds_snoc, h3, List.range_succ, List.map_append, e]
      show _ ++ [q.draw.1.toNat] = _
      rw [hq.1]
      rfl

/-- **C107, refuted as stated**, for servers: after 2^30 - 1 calls the next one sends its request on
stream 0. -/
theorem C107_zero_false : ∃ s, ConcReachable true openTransport (RSocketMachine.new .server 60 0) s ∧
    s.draws = 2 ^ 30 ∧ ¬ Conforms .server s.wire := by
  generalize hn : 2 ^ 30 = n
  obtain ⟨s, h, h1, -, h3⟩ := serverCalls n
  refine ⟨s, h, h1, fun hc => ?_⟩
  refine (C107_whole_partial (role := .server) (g := []) h (new_side _ _ _) rfl rfl).1 hc ?_
  rw [h3]
  refine List.mem_map.2 ⟨n - 1, List.mem_range.2 (by omega), ?_⟩
  rw [idAt]
  omega

/-- **C107** (partial: parts that are chunked exactly). With a fragment size, while no stream id is used
twice: the frames are allowed exactly if no request is on stream 0 and no call has sent more than one
frame. -/
theorem C107_fragments_partial {role : Role} {m : RSocketMachine} {s : Conc} {g : List Frame}
    (h : ConcReachable dbg tr m s) (hp : m.streamId.word.toNat % 2 = sideParity role)
    (hd : s.draws ≤ 2 ^ 30)
    (hok : ∀ c ∈ s.calls, PartOk (callPayload c).metadata ∧ PartOk (callPayload c).data)
    (hg : Greeting role g) :
    Conforms role (g ++ s.wire) ↔ 0 ∉ streamIds s.wire ∧
      ∀ c ∈ s.calls, ∀ sid, callId c = some sid → (s.wire.filter (onStream sid)).length ≤ 1 := by
  rw [C107_exact_partial h hp hg]
  refine and_congr_right fun _ => ⟨fun hn c hc sid hs => ?_, fun hone a f b e sid hf x hx hxs => ?_⟩
  · obtain ⟨i, hi⟩ := List.mem_iff_getElem?.1 hc
    by_cases h0 : m.chunkPayload = some 0
    · have hc' := (concInv h hd).call i c hi
      rw [h0] at hc'
      rw [show s.wire.filter (onStream sid) = [] from (size_zero hc' hs).1]
      exact Nat.zero_le 1
    obtain ⟨frames, -, h2, -, -, h5⟩ := C57_own_frames h hd h0 hi hs
    rw [h5 (hok c hc).1 (hok c hc).2] at h2
    refine Nat.le_of_not_lt fun hl => ?_
    match hw : s.wire.filter (onStream sid) with
    | [] => rw [hw] at hl; exact absurd hl (by decide)
    | [_] => rw [hw] at hl; exact absurd hl (Nat.lt_irrefl 1)
    | x :: y :: l =>
      obtain ⟨a, b, e1, -, hx, e2⟩ := List.filter_eq_cons_iff.1 hw
      obtain ⟨c', d, e3, -, hy, -⟩ := List.filter_eq_cons_iff.1 e2
      have hfx := hn (a ++ x :: c') y d (by rw [e1, e3, List.append_assoc]; rfl) sid hy x
        (List.mem_append_right _ List.mem_cons_self) hx
      rw [hw] at h2
      obtain ⟨t, ht⟩ := h2
      cases hm : m.chunkPayload with
      | none =>
        rw [hm] at ht
        cases ht
      | some size =>
        rw [hm] at ht
        have hlen := congrArg List.length ht
        rw [fnfFrames, List.length_map, List.length_range] at hlen
        have hlen : l.length + t.length + 2 = chunkCount size (callPayload c) := by
          rw [← hlen]
          simp only [List.length_append, List.length_cons]
          omega
        have h0' := congrArg (·[0]?) ht
        have h0' : some x = (fnfFrames sid (some size) (callPayload c))[0]? := h0'
        rw [fnfFrames, List.getElem?_map, List.getElem?_range (by omega)] at h0'
        have h0' : x = fnfFrame sid (decide (0 + 1 < chunkCount size (callPayload c)))
          (chunkAt size (callPayload c) 0) := Option.some.inj h0'
        rw [h0', decide_eq_true (show 0 + 1 < chunkCount size (callPayload c) by omega)] at hfx
        refine followsOf_false.1 hfx ?_
        show (BitVec.ofNat 16 ((if true = true then 2 ^ 6 else 0) +
          (if (chunkAt size (callPayload c) 0).metadata.isSome then 2 ^ 7 else 0))).toNat.testBit 6
            = true
        generalize (chunkAt size (callPayload c) 0).metadata.isSome = b
        cases b <;> decide
  · exfalso
    have hmem : f ∈ s.wire.filter (onStream sid) :=
      List.mem_filter.2 ⟨by rw [e]; exact List.mem_append_right _ List.mem_cons_self, hf⟩
    obtain ⟨i, c, hi, hs⟩ := (concInv h hd).owner sid (List.ne_nil_of_mem hmem)
    have hl := hone c (List.mem_of_getElem? hi) sid hs
    rw [e, List.filter_append, List.length_append, List.filter_cons_of_pos hf, List.length_cons] at hl
    have : 0 < (a.filter (onStream sid)).length :=
      List.length_pos_of_mem (List.mem_filter.2 ⟨hx, hxs⟩)
    omega

/-- **C107, refuted as stated**, with a fragment size: the second fragment of a request is sent as
another REQUEST_FNF on a stream that is in use. -/
theorem C107_fragments_false : ∃ s, ConcReachable true openTransport (fragmenting 1) s ∧ s.draws = 2 ∧
    ∀ g, Greeting .client g → ¬ Conforms .client (g ++ s.wire) := by
  obtain ⟨s, h, h1, h2, -⟩ := exampleTwoCalls
  refine ⟨s, h, h1, fun g hg hc => ?_⟩
  have hn := ((C107_exact_partial (role := .client) h rfl hg).1 hc).2
  have := hn [_, _] _ [_] h2 3#32 rfl _ List.mem_cons_self rfl
  cases this

/-- The rules can be kept: a client may send a request in fragments, and then use the stream id again. -/
example : Conforms .client
    [.setup ⟨⟨0#16⟩, ⟨1#16, 0#16⟩, 1#32, 1#32, none, [], [], ⟨none, none⟩⟩,
      fnfFrame 1#32 true ⟨none, some [1#8]⟩, .payload ⟨1#32, ⟨0x20#16⟩, ⟨none, some [2#8]⟩⟩,
      fnfFrame 1#32 false ⟨none, none⟩] :=
  Option.isSome_iff_exists.1 (by decide +kernel)

/-- And the rules say something: no server may begin with SETUP, and no client may leave it out, send it
twice, use an even id, or use the same id in the midst of a request. -/
example (v : SetupFrame) : ¬ Conforms .server [.setup v] ∧ ¬ Conforms .client [.metadataPush ⟨[]⟩] ∧
    ¬ Conforms .client [.setup v, .setup v] ∧
    ¬ Conforms .client [.setup v, fnfFrame 2#32 false ⟨none, none⟩] ∧
    ¬ Conforms .client [.setup v, fnfFrame 1#32 true ⟨none, none⟩, fnfFrame 1#32 false ⟨none, none⟩] :=
  ⟨nofun, nofun, nofun, nofun, nofun⟩

end Binate
