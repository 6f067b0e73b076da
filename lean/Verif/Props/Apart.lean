import Verif.Lemmas.Apart
import Verif.Props.Serial

/-! # Concurrent calls as if made one after the other, stream by stream

C110. The parts of payloads that are sent by several calls at a time may alternate on the connection, and
calls that have drawn their ids in one order may send in another (C106). Looked at stream by stream there is
no difference to calls made one after the other. -/

namespace Binate

open Spec RSocketMachine

/-- **C110**: calls on one socket that have all returned, on a connection that answers for each stream on
its own, while no id is taken or given back by others. There is an order of the calls such that making them
in this order one after the other has the same effects: each call returns the same, and on each stream the
connection is handed the same frames in the same order, and so are the METADATA_PUSH frames. A call that
has returned before another is made comes before it in this order. -/
theorem C110_streams {dbg : Bool} {tr : Transport} {m : RSocketMachine} {past : List Conc} {s : Conc}
    (h : CalmRun dbg tr m past s) (h0 : m.chunkPayload ≠ some 0) (hd : s.draws ≤ 2 ^ 30)
    (apart : StreamsApart tr) (all : ∀ c ∈ s.calls, callResult c ≠ none) :
    ∃ order frames, AsIfSerial dbg tr m s order frames ∧ SameStreams frames s.wire ∧
      KeepsOrder past order := by
  obtain ⟨order, inv, keeps⟩ := calmInv apart h0 h
  obtain ⟨frames, h1, h2⟩ := serial_all apart h0 (calm_reachable h).1 hd inv all
  exact ⟨order, frames, h1, h2, keeps⟩

/-- A connection that refuses the second frame of stream 3. -/
def oneOfThree : Transport := fun sent f =>
  if channel f = some 3#32 ∧ onChannel (some 3#32) sent ≠ [] then .error ⟨.connectionError, none⟩
  else .ok ()

theorem oneOfThree_apart : StreamsApart oneOfThree := by
  intro l l' f h
  unfold oneOfThree
  by_cases e : channel f = some 3#32
  · rw [e] at h
    rw [h]
  · rw [if_neg fun x => e x.1, if_neg fun x => e x.1]

/-- A connection that takes only two frames. -/
def onlyTwo : Transport := fun sent _ =>
  if sent.length < 2 then .ok () else .error ⟨.connectionError, none⟩

/-- Two calls whose parts alternate, on a connection that accepts the first frame of each. -/
theorem alternating (tr : Transport)
    (ok1 : tr [] (fnfFrame 1#32 true ⟨none, some [1#8]⟩) = .ok ())
    (ok2 : tr [fnfFrame 1#32 true ⟨none, some [1#8]⟩] (fnfFrame 3#32 true ⟨none, some [1#8]⟩) = .ok ()) :
    ∃ past s, CalmRun true tr (fragmenting 1) past s ∧ s.draws = 2 ∧
      s.asked = [.fireAndForget ⟨none, some [1#8, 2#8]⟩, .fireAndForget ⟨none, some [1#8, 2#8]⟩] ∧
      s.wire = [fnfFrame 1#32 true ⟨none, some [1#8]⟩, fnfFrame 3#32 true ⟨none, some [1#8]⟩,
        fnfFrame 1#32 false ⟨none, some [2#8]⟩, fnfFrame 3#32 false ⟨none, some [2#8]⟩] ∧
      s.calls.map callResult = [
        some (tr [fnfFrame 1#32 true ⟨none, some [1#8]⟩, fnfFrame 3#32 true ⟨none, some [1#8]⟩]
          (fnfFrame 1#32 false ⟨none, some [2#8]⟩)),
        some (tr [fnfFrame 1#32 true ⟨none, some [1#8]⟩, fnfFrame 3#32 true ⟨none, some [1#8]⟩,
          fnfFrame 1#32 false ⟨none, some [2#8]⟩] (fnfFrame 3#32 false ⟨none, some [2#8]⟩))] := by
  let a : Payload := ⟨none, some [1#8, 2#8]⟩
  let na := PayloadChunks.len ⟨1, none, some [1#8, 2#8]⟩
  have ha : na = 2 := len_afterNext (c := ⟨1, none, some [1#8, 2#8]⟩) (by decide) 0
    nofun nofun (by decide) (by decide)
  let f (sid : U32) (b : Bool) (x : U8) : Frame := fnfFrame sid b ⟨none, some [x]⟩
  let R (s : Conc) := ∃ past, CalmRun true tr (fragmenting 1) past s
  have step : ∀ {s s' : Conc}, R s → ConcStep true tr s s' →
      s'.machine.receivers = s.machine.receivers → R s' := fun ⟨_, r⟩ h e => ⟨_, r.step h e⟩
  have via : ∀ {s s' s'' : Conc}, R s → ConcStep true tr s s' →
      s'.machine.receivers = s.machine.receivers → s' = s'' → R s'' :=
    fun r h e e' => e' ▸ step r h e
  let q : List Asked := [.fireAndForget a, .fireAndForget a]
  have r0 : R ⟨exampleMachine 1#32, [], 0, [], []⟩ := ⟨_, .init⟩
  have r1 : R ⟨exampleMachine 1#32, [.probing a], 0, [], [.fireAndForget a]⟩ := step r0 (.call _ a) rfl
  have r2 : R ⟨exampleMachine 1#32, [.probing a, .probing a], 0, [], q⟩ := step r1 (.call _ a) rfl
  have r3 : R ⟨exampleMachine 3#32, [.checking a 1#32, .probing a], 1, [], q⟩ :=
    via r2 (.fetch _ 0 a rfl) rfl (by simp only [Conc.set]; rfl)
  have r4 : R ⟨exampleMachine 5#32, [.checking a 1#32, .checking a 3#32], 2, [], q⟩ :=
    via r3 (.fetch _ 1 a rfl) rfl (by simp only [Conc.set]; rfl)
  have r5 : R ⟨exampleMachine 5#32, [.checking a 1#32, .sending a 3#32 0 na ⟨1, none, a.data⟩], 2, [], q⟩ :=
    step r4 (.checkFree _ 1 a 3#32 rfl rfl) rfl
  have r6 : R ⟨exampleMachine 5#32, [.sending a 1#32 0 na ⟨1, none, a.data⟩,
      .sending a 3#32 0 na ⟨1, none, a.data⟩], 2, [], q⟩ :=
    step r5 (.checkFree _ 0 a 1#32 rfl rfl) rfl
  have r7 : R ⟨exampleMachine 5#32, [.sending a 1#32 1 na ⟨1, none, some [2#8]⟩,
      .sending a 3#32 0 na ⟨1, none, a.data⟩], 2, [f 1#32 true 1#8], q⟩ :=
    step r6 (.sendChunk _ 0 a 1#32 0 na _ ⟨1, none, some [2#8]⟩
      ⟨none, some [1#8]⟩ ⟨1#32, ⟨0x40#16⟩, ⟨none, some [1#8]⟩⟩ rfl rfl (by rw [ha]; rfl) ok1) rfl
  have r8 : R ⟨exampleMachine 5#32, [.sending a 1#32 1 na ⟨1, none, some [2#8]⟩,
      .sending a 3#32 1 na ⟨1, none, some [2#8]⟩], 2, [f 1#32 true 1#8, f 3#32 true 1#8], q⟩ :=
    step r7 (.sendChunk _ 1 a 3#32 0 na _ ⟨1, none, some [2#8]⟩
      ⟨none, some [1#8]⟩ ⟨3#32, ⟨0x40#16⟩, ⟨none, some [1#8]⟩⟩ rfl rfl (by rw [ha]; rfl) ok2) rfl
  have r9 : R ⟨exampleMachine 5#32, [
      .done a 1#32 (tr [f 1#32 true 1#8, f 3#32 true 1#8] (f 1#32 false 2#8)),
      .sending a 3#32 1 na ⟨1, none, some [2#8]⟩], 2,
      [f 1#32 true 1#8, f 3#32 true 1#8, f 1#32 false 2#8], q⟩ := by
    cases e : tr [f 1#32 true 1#8, f 3#32 true 1#8] (f 1#32 false 2#8) with
    | error x =>
      exact step r8 (.sendChunkErr _ 0 a 1#32 1 na _ ⟨1, none, none⟩
        ⟨none, some [2#8]⟩ ⟨1#32, ⟨0#16⟩, ⟨none, some [2#8]⟩⟩ x rfl rfl (by rw [ha]; rfl) e) rfl
    | ok u =>
      have := step (s' := ⟨exampleMachine 5#32, [.sending a 1#32 2 na ⟨1, none, none⟩,
        .sending a 3#32 1 na ⟨1, none, some [2#8]⟩], 2,
        [f 1#32 true 1#8, f 3#32 true 1#8, f 1#32 false 2#8], q⟩) r8
        (.sendChunk _ 0 a 1#32 1 na _ ⟨1, none, none⟩
        ⟨none, some [2#8]⟩ ⟨1#32, ⟨0#16⟩, ⟨none, some [2#8]⟩⟩ rfl rfl (by rw [ha]; rfl) e) rfl
      exact step this (.finish _ 0 a 1#32 2 na _ ⟨1, none, none⟩ rfl rfl) rfl
  generalize tr [f 1#32 true 1#8, f 3#32 true 1#8] (f 1#32 false 2#8) = x at r9
  have r10 : R ⟨exampleMachine 5#32, [.done a 1#32 x,
      .done a 3#32 (tr [f 1#32 true 1#8, f 3#32 true 1#8, f 1#32 false 2#8] (f 3#32 false 2#8))], 2,
      [f 1#32 true 1#8, f 3#32 true 1#8, f 1#32 false 2#8, f 3#32 false 2#8], q⟩ := by
    cases e : tr [f 1#32 true 1#8, f 3#32 true 1#8, f 1#32 false 2#8] (f 3#32 false 2#8) with
    | error x =>
      exact step r9 (.sendChunkErr _ 1 a 3#32 1 na _ ⟨1, none, none⟩
        ⟨none, some [2#8]⟩ ⟨3#32, ⟨0#16⟩, ⟨none, some [2#8]⟩⟩ x rfl rfl (by rw [ha]; rfl) e) rfl
    | ok u =>
      have := step (s' := ⟨exampleMachine 5#32, [.done a 1#32 x,
        .sending a 3#32 2 na ⟨1, none, none⟩], 2,
        [f 1#32 true 1#8, f 3#32 true 1#8, f 1#32 false 2#8, f 3#32 false 2#8], q⟩) r9
        (.sendChunk _ 1 a 3#32 1 na _ ⟨1, none, none⟩
        ⟨none, some [2#8]⟩ ⟨3#32, ⟨0#16⟩, ⟨none, some [2#8]⟩⟩ rfl rfl (by rw [ha]; rfl) e) rfl
      exact step this (.finish _ 1 a 3#32 2 na _ ⟨1, none, none⟩ rfl rfl) rfl
  obtain ⟨past, r⟩ := r10
  exact ⟨past, _, r, rfl, rfl, rfl, rfl⟩

/-- Parts that alternate, one call succeeds and one fails. -/
example : ∃ past s order frames, CalmRun true oneOfThree (fragmenting 1) past s ∧
    s.calls.map callResult = [some (.ok ()), some (.error ⟨.connectionError, none⟩)] ∧
    streamIds s.wire = [1, 3, 1, 3] ∧
    AsIfSerial true oneOfThree (fragmenting 1) s order frames ∧ SameStreams frames s.wire ∧
    KeepsOrder past order := by
  obtain ⟨past, s, r, h1, -, h3, h4⟩ := alternating oneOfThree rfl rfl
  obtain ⟨order, frames, h⟩ := C110_streams r (by decide) (by rw [h1]; decide) oneOfThree_apart (by
    intro c hc e
    have : none ∈ s.calls.map callResult := e ▸ List.mem_map_of_mem hc
    rw [h4] at this
    simp at this)
  exact ⟨past, s, order, frames, r, h4, by rw [h3]; rfl, h⟩

theorem onlyTwo_ok {sent fs : List Frame} (h : sent.length + fs.length ≤ 2) :
    (deliver onlyTwo sent fs).1 = .ok () := by
  induction fs generalizing sent with
  | nil => rfl
  | cons f fs ih =>
    rw [List.length_cons] at h
    have e : onlyTwo sent f = .ok () := if_pos (by omega)
    unfold deliver
    rw [e]
    exact ih (by rw [List.length_append, List.length_singleton]; omega)

theorem onlyTwo_first {ops : List Asked} {rs : List (Except Error Unit)} {frames : List Frame}
    {m' : RSocketMachine} (h : Serial true onlyTwo (fragmenting 1) ops rs frames m')
    (ho : ∀ op ∈ ops, op = .fireAndForget ⟨none, some [1#8, 2#8]⟩) :
    (ops = [] ∧ rs = [] ∧ frames = [] ∧ m' = fragmenting 1) ∨ .ok () ∈ rs := by
  induction h with
  | nothing => exact .inl ⟨rfl, rfl, rfl, rfl⟩
  | @fireAndForget ops rs sent m' p fuel r sent' m'' _ e ih =>
    refine .inr ?_
    rcases ih fun op h => ho op (List.mem_append_left _ h) with ⟨rfl, rfl, rfl, rfl⟩ | h
    · have hp := ho (.fireAndForget p) (List.mem_append_right _ List.mem_cons_self)
      cases hp
      obtain ⟨sid, q, hid⟩ := fire_draws e
      rw [fireAndForget_eq hid (by decide)] at e
      cases e
      refine List.mem_append_right _ (List.mem_singleton.2 (onlyTwo_ok ?_).symm)
      show 0 + (callFrames sid (some 1) _).length ≤ 2
      rw [callFrames_some, List.length_map, List.length_range]
      decide
    · exact List.mem_append_left _ h
  | metadataPush _ _ ih =>
    have := ho (.metadataPush _ _) (List.mem_append_right _ List.mem_cons_self)
    cases this

/-- **C110**, why the connection has to answer for each stream on its own: a connection that takes two
frames in all fails two calls whose parts alternate, while of two calls made one after the other the first
returns `Ok`. -/
theorem C110_needs_apart : ∃ past s, CalmRun true onlyTwo (fragmenting 1) past s ∧
    (∀ c ∈ s.calls, callResult c ≠ none) ∧
    ¬∃ order frames, AsIfSerial true onlyTwo (fragmenting 1) s order frames := by
  obtain ⟨past, s, r, h1, h2, h3, h4⟩ := alternating onlyTwo rfl rfl
  refine ⟨past, s, r, ?_, ?_⟩
  · intro c hc e
    have : none ∈ s.calls.map callResult := e ▸ List.mem_map_of_mem hc
    rw [h4] at this
    simp at this
  · rintro ⟨order, frames, as⟩
    obtain ⟨ops, rs, m', hops, hrs, run⟩ := as.same
    have hret : returns s = [some (.error ⟨.connectionError, none⟩), some (.error ⟨.connectionError, none⟩)] := by
      unfold returns
      rw [h2, h4]
      rfl
    have hfail : ∀ r ∈ rs, r = .error ⟨.connectionError, none⟩ := by
      intro r hr
      have : some (some r) ∈ order.map ((returns s)[·]?) := by
        rw [hrs]
        exact List.mem_map.2 ⟨r, hr, rfl⟩
      obtain ⟨k, -, hk⟩ := List.mem_map.1 this
      rw [hret] at hk
      rcases k with _ | _ | k
      · cases hk; rfl
      · cases hk; rfl
      · cases hk
    have hone : ∀ op ∈ ops, op = .fireAndForget ⟨none, some [1#8, 2#8]⟩ := by
      intro op ho
      have : some op ∈ order.map (s.asked[·]?) := by
        rw [hops]
        exact List.mem_map.2 ⟨op, ho, rfl⟩
      obtain ⟨k, -, hk⟩ := List.mem_map.1 this
      rw [h2] at hk
      rcases k with _ | _ | k
      · cases hk; rfl
      · cases hk; rfl
      · cases hk
    have hne : ops ≠ [] := by
      rintro rfl
      have : (0 : Nat) ∈ order := (as.all 0).2 ⟨.error ⟨.connectionError, none⟩, by rw [hret]; rfl⟩
      cases order with
      | nil => cases this
      | cons => cases hops
    rcases onlyTwo_first run hone with ⟨h, -⟩ | h
    · exact hne h
    · exact absurd (hfail _ h) (by nofun)

end Binate
