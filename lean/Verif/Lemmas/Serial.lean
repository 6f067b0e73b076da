import Verif.Spec.Serial
import Verif.Lemmas.Ascending

/-! # Facts about serial executions -/

namespace Binate

open Spec RSocketMachine StreamIdProvider

/-- The answers to frames that are handed over one after the other. -/
def answersOf (tr : Transport) (past : List Frame) : List Frame → List (Except Error Unit)
  | [] => []
  | f :: rest => tr past f :: answersOf tr (past ++ [f]) rest

theorem answersOf_snoc (tr : Transport) (past l : List Frame) (f : Frame) :
    answersOf tr past (l ++ [f]) = answersOf tr past l ++ [tr (past ++ l) f] := by
  induction l generalizing past with
  | nil => rw [List.append_nil]; rfl
  | cons g l ih =>
    show tr past g :: answersOf tr (past ++ [g]) (l ++ [f]) = _
    rw [ih, List.append_assoc]
    rfl

theorem answersOf_blind {tr : Transport} (hb : IgnoresNumbers tr) {l l' : List Frame}
    (h : SameButNumbers l l') {past past' : List Frame} (hp : SameButNumbers past past') :
    answersOf tr past l = answersOf tr past' l' := by
  induction l generalizing l' past past' with
  | nil =>
    cases l' with
    | nil => rfl
    | cons g l' => cases h
  | cons f l ih =>
    cases l' with
    | nil => cases h
    | cons g l' =>
      obtain ⟨h1, h2⟩ := List.cons.inj h
      have h3 : SameButNumbers (past ++ [f]) (past' ++ [g]) := by
        show List.map _ _ = List.map _ _
        rw [List.map_append, List.map_append]
        exact congr (congrArg _ hp) (congrArg (fun x => [x]) h1)
      show tr past f :: _ = tr past' g :: _
      rw [hb past past' f g hp h1, ih h2 h3]

/-- The frame of a call, without its number. -/
def opFrame : Asked → Frame
  | .fireAndForget p => fnfFrame 0#32 false p
  | .metadataPush md _ => .metadataPush ⟨md⟩

theorem unnumbered_fnf (sid : U32) (p : Payload) :
    unnumbered (fnfFrame sid false p) = fnfFrame 0#32 false p := rfl

theorem frames_eq {l l' : List Frame} (h : SameButNumbers l l') (hi : streamIds l = streamIds l') :
    l = l' := by
  induction l generalizing l' with
  | nil =>
    cases l' with
    | nil => rfl
    | cons g l' => cases h
  | cons f l ih =>
    cases l' with
    | nil => cases h
    | cons g l' =>
      obtain ⟨h1, h2⟩ := List.cons.inj h
      have key : f = g ∧ streamIds l = streamIds l' := by
        cases f <;> cases g <;> first
          | exact ⟨h1, hi⟩
          | (exact absurd h1 (fun h => by cases h))
          | skip
        rename_i v w
        obtain ⟨h3, h4⟩ := List.cons.inj (show v.streamId.toNat :: streamIds l =
          w.streamId.toNat :: streamIds l' from hi)
        have h5 : ({ v with streamId := 0#32 } : RequestFnfFrame) = { w with streamId := 0#32 } :=
          Frame.requestFnf.inj h1
        obtain ⟨s, fl, p⟩ := v
        obtain ⟨s', fl', p'⟩ := w
        have h6 : s = s' := BitVec.eq_of_toNat_eq h3
        subst h6
        injection h5 with _ h7 h8
        subst h7 h8
        exact ⟨rfl, h4⟩
      rw [key.1, ih h2 key.2]

theorem deliver_one (tr : Transport) (sent : List Frame) (f : Frame) :
    deliver tr sent [f] = (tr sent f, sent ++ [f]) := by
  unfold deliver
  cases tr sent f with
  | error e => rfl
  | ok u => rfl

theorem whole_fire {dbg : Bool} {fuel : Nat} {tr : Transport} {m : RSocketMachine} {sid : U32}
    {q : StreamIdProvider} (h : m.chunkPayload = none)
    (hid : m.streamId.nextStreamId m.receivers fuel = .ok (sid, q)) (p : Payload)
    (sent : List Frame) :
    m.fireAndForget dbg fuel tr p sent =
      .ok (tr sent (fnfFrame sid false p), sent ++ [fnfFrame sid false p],
        { m with streamId := q }) := by
  rw [fireAndForget_eq hid (by rw [h]; exact (nomatch ·)), h]
  show Outcome.ok ((deliver tr sent [_]).1, (deliver tr sent [_]).2, _) = _
  rw [deliver_one]

theorem fire_draws {dbg : Bool} {fuel : Nat} {tr : Transport} {m : RSocketMachine} {p : Payload}
    {sent : List Frame} {x : Except Error Unit × List Frame × RSocketMachine}
    (h : m.fireAndForget dbg fuel tr p sent = .ok x) :
    ∃ sid q, m.streamId.nextStreamId m.receivers fuel = .ok (sid, q) := by
  rcases nextStreamId_cases m.receivers m.streamId fuel with ⟨⟨sid, q⟩, h1⟩ | h1
  · exact ⟨sid, q, h1⟩
  · unfold fireAndForget at h
    rw [h1] at h
    cases h

/-- An id is found as long as one is free. -/
theorem free_next {store : Store} {p : StreamIdProvider} {x : U32} (h1 : x.toNat < 2 ^ 31)
    (h2 : x.toNat % 2 = p.word.toNat % 2) (h3 : store x = false) :
    ∃ fuel sid q, p.nextStreamId store fuel = .ok (sid, q) ∧
      q.word.toNat % 2 = p.word.toNat % 2 := by
  have hk : ∃ k, idAt p.word.toNat k = x.toNat := by
    refine ⟨(x.toNat + 2 ^ 33 - p.word.toNat) / 2, ?_⟩
    have := p.word.isLt
    unfold idAt
    omega
  have hP : ∃ k, inUse store (idAt p.word.toNat k) = false := by
    obtain ⟨k, e⟩ := hk
    refine ⟨k, ?_⟩
    rw [e]
    show store (BitVec.ofNat 32 x.toNat) = false
    rw [BitVec.ofNat_toNat, BitVec.setWidth_eq]
    exact h3
  obtain ⟨n, n1, n2⟩ := exists_minimal hP
  have em : (BitVec.ofNat 32 (idAt p.word.toNat n)).toNat = idAt p.word.toNat n := by
    rw [BitVec.toNat_ofNat, Nat.mod_eq_of_lt]
    exact Nat.lt_trans (idAt_lt _ _) (by omega)
  have := (nextStreamId_iff store p (n + 1) 0 (BitVec.ofNat 32 (idAt p.word.toNat n))
    (after p (n + 1))).2 ⟨n, by omega, by omega, em, n1, fun j _ hj => by
      cases hu : inUse store (idAt p.word.toNat j) with
      | true => rfl
      | false => exact absurd hu (n2 j hj), rfl⟩
  rw [after_zero] at this
  refine ⟨_, _, _, this, ?_⟩
  show (BitVec.ofNat 32 (p.word.toNat + 2 * (n + 1))).toNat % 2 = _
  rw [BitVec.toNat_ofNat]
  omega

theorem alone_exists {m : RSocketMachine} (h : SomeFree m) (n : Nat) :
    ∃ ids q, Alone m.receivers m.streamId ids q ∧ ids.length = n ∧
      q.word.toNat % 2 = m.streamId.word.toNat % 2 := by
  obtain ⟨x, h1, h2, h3⟩ := h
  induction n with
  | zero => exact ⟨[], _, .none, rfl, rfl⟩
  | succ n ih =>
    obtain ⟨ids, q, i1, i2, i3⟩ := ih
    obtain ⟨fuel, sid, r, n1, n2⟩ := free_next h1 (h2.trans i3.symm) h3
    exact ⟨sid :: ids, r, .next i1 n1, congrArg Nat.succ i2, n2.trans i3⟩

/-- Everything about a serial execution. -/
structure SerialFacts (tr : Transport) (m : RSocketMachine) (ops : List Asked)
    (rs : List (Except Error Unit)) (frames : List Frame) (m' : RSocketMachine) : Prop where
  answers : rs = answersOf tr [] frames
  same : frames.map unnumbered = ops.map opFrame
  ids : ∃ ids, Alone m.receivers m.streamId ids m'.streamId ∧
    streamIds frames = (ids.map BitVec.toNat).reverse
  whole : m'.chunkPayload = none
  recv : m'.receivers = m.receivers

theorem serialFacts_fire {dbg : Bool} {fuel : Nat} {tr : Transport} {m m' m'' : RSocketMachine}
    {ops : List Asked} {rs : List (Except Error Unit)} {sent sent' : List Frame} {p : Payload}
    {r : Except Error Unit} (h : SerialFacts tr m ops rs sent m')
    (e : m'.fireAndForget dbg fuel tr p sent = .ok (r, sent', m'')) :
    SerialFacts tr m (ops ++ [.fireAndForget p]) (rs ++ [r]) sent' m'' := by
  obtain ⟨sid, q, hid⟩ := fire_draws e
  rw [whole_fire h.whole hid] at e
  injection e with e
  injection e with e1 e
  injection e with e2 e3
  subst e1 e2 e3
  obtain ⟨ids, i1, i2⟩ := h.ids
  refine ⟨?_, ?_, ⟨sid :: ids, ?_, ?_⟩, h.whole, h.recv⟩
  · rw [answersOf_snoc, ← h.answers, List.nil_append]
  · rw [List.map_append, List.map_append, h.same]
    rfl
  · rw [h.recv] at hid
    exact i1.next hid
  · rw [streamIds_append, List.map_cons, List.reverse_cons, ← i2]
    rfl

theorem serialFacts_push {tr : Transport} {m m' m'' : RSocketMachine}
    {ops : List Asked} {rs : List (Except Error Unit)} {sent sent' : List Frame} {md : Bytes}
    {a r : Except Error Unit} (h : SerialFacts tr m ops rs sent m')
    (e : m'.metadataPush tr md sent = (r, sent', m'')) :
    SerialFacts tr m (ops ++ [.metadataPush md a]) (rs ++ [r]) sent' m'' := by
  injection e with e1 e
  injection e with e2 e3
  subst e1 e2 e3
  have hids : streamIds (sent ++ [.metadataPush (MetadataPushFrame.new md)]) = streamIds sent := by
    rw [streamIds_append]
    exact List.append_nil _
  refine ⟨?_, ?_, ?_, h.whole, h.recv⟩
  · rw [answersOf_snoc, ← h.answers, List.nil_append]
  · rw [List.map_append, List.map_append, h.same]
    rfl
  · rw [hids]
    exact h.ids

theorem serialFacts {dbg : Bool} {tr : Transport} {m m' : RSocketMachine}
    (hm : m.chunkPayload = none) {ops : List Asked} {rs : List (Except Error Unit)}
    {frames : List Frame} (h : Serial dbg tr m ops rs frames m') :
    SerialFacts tr m ops rs frames m' := by
  induction h with
  | nothing => exact ⟨rfl, rfl, ⟨[], .none, rfl⟩, hm, rfl⟩
  | fireAndForget _ e ih => exact serialFacts_fire ih e
  | metadataPush _ e ih => exact serialFacts_push ih e

theorem SerialFacts.numbered {tr : Transport} {m m' : RSocketMachine} {ops : List Asked}
    {rs : List (Except Error Unit)} {frames : List Frame} (h : SerialFacts tr m ops rs frames m') :
    NumberedInOrder m frames := by
  obtain ⟨ids, h1, h2⟩ := h.ids
  exact ⟨ids, _, h1, h2⟩

/-- The calls can be made one after the other when there are enough ids. -/
theorem serial_exists (dbg : Bool) (tr : Transport) {m : RSocketMachine} (hm : m.chunkPayload = none)
    (ops : List Asked) {ids : List U32} {q : StreamIdProvider}
    (ha : Alone m.receivers m.streamId ids q) (hl : ids.length = (askedPayloads ops).length) :
    ∃ rs frames m', Serial dbg tr m ops rs frames m' ∧ m'.streamId = q := by
  induction ops using List.reverseRecOn generalizing ids q with
  | nil =>
    cases ha with
    | none => exact ⟨_, _, _, .nothing, rfl⟩
    | next _ _ => cases hl
  | append_singleton ops op ih =>
    rw [askedPayloads, List.filterMap_append, List.length_append] at hl
    cases op with
    | fireAndForget p =>
      cases ha with
      | none =>
        have hl : 0 = (askedPayloads ops).length + 1 := hl
        omega
      | next ha hn =>
        have hl : _ + 1 = (askedPayloads ops).length + 1 := hl
        obtain ⟨rs, frames, m', h, e⟩ := ih ha (Nat.succ.inj hl)
        have facts := serialFacts hm h
        rw [← facts.recv, ← e] at hn
        exact ⟨_, _, _, .fireAndForget h (whole_fire facts.whole hn p frames), rfl⟩
    | metadataPush md a =>
      obtain ⟨rs, frames, m', h, e⟩ := ih ha hl
      exact ⟨_, _, _, .metadataPush h rfl, e⟩

theorem streamIds_unnumbered (l : List Frame) :
    (streamIds (l.map unnumbered)).length = (streamIds l).length := by
  induction l with
  | nil => rfl
  | cons f l ih => cases f <;> first | exact ih | exact congrArg Nat.succ ih

theorem streamIds_ops (ops : List Asked) :
    (streamIds (ops.map opFrame)).length = (askedPayloads ops).length := by
  induction ops with
  | nil => rfl
  | cons op ops ih => cases op <;> first | exact ih | exact congrArg Nat.succ ih

/-! ## What has returned -/

theorem returnsOf_length {as : List Asked} {rs : List (Option (Except Error Unit))}
    (h : (askedPayloads as).length = rs.length) : (returnsOf as rs).length = as.length := by
  induction as generalizing rs with
  | nil => cases rs <;> rfl
  | cons a as ih =>
    cases a with
    | fireAndForget p =>
      cases rs with
      | nil => cases h
      | cons r rs => exact congrArg Nat.succ (ih (Nat.succ.inj h))
    | metadataPush md r =>
      cases rs with
      | nil => exact congrArg Nat.succ (ih h)
      | cons r' rs => exact congrArg Nat.succ (ih h)

theorem returnsOf_call {as : List Asked} {rs : List (Option (Except Error Unit))}
    (h : (askedPayloads as).length = rs.length) (p : Payload) (r : Option (Except Error Unit)) :
    returnsOf (as ++ [.fireAndForget p]) (rs ++ [r]) = returnsOf as rs ++ [r] := by
  induction as generalizing rs with
  | nil =>
    cases rs with
    | nil => rfl
    | cons => cases h
  | cons a as ih =>
    cases a with
    | fireAndForget q =>
      cases rs with
      | nil => cases h
      | cons r rs => exact congrArg _ (ih (Nat.succ.inj h))
    | metadataPush md r =>
      cases rs with
      | nil => exact congrArg _ (ih h)
      | cons r' rs => exact congrArg _ (ih h)

theorem returnsOf_push {as : List Asked} {rs : List (Option (Except Error Unit))}
    (h : (askedPayloads as).length = rs.length) (md : Bytes) (a : Except Error Unit) :
    returnsOf (as ++ [.metadataPush md a]) rs = returnsOf as rs ++ [some a] := by
  induction as generalizing rs with
  | nil =>
    cases rs with
    | nil => rfl
    | cons => cases h
  | cons b as ih =>
    cases b with
    | fireAndForget q =>
      cases rs with
      | nil => cases h
      | cons r rs => exact congrArg _ (ih (Nat.succ.inj h))
    | metadataPush md r =>
      cases rs with
      | nil => exact congrArg _ (ih h)
      | cons r' rs => exact congrArg _ (ih h)

/-- Where the `i`-th call of `fire_and_forget` is among all calls. -/
theorem returnsOf_set {as : List Asked} {rs : List (Option (Except Error Unit))}
    (h : (askedPayloads as).length = rs.length) {i : Nat} {p : Payload}
    (hi : (askedPayloads as)[i]? = some p) : ∃ k, as[k]? = some (.fireAndForget p) ∧
      (returnsOf as rs)[k]? = rs[i]? ∧
      ∀ v, returnsOf as (rs.set i v) = (returnsOf as rs).set k v := by
  induction as generalizing rs i with
  | nil => cases hi
  | cons a as ih =>
    cases a with
    | fireAndForget q =>
      cases rs with
      | nil => cases h
      | cons r rs =>
        cases i with
        | zero =>
          cases hi
          exact ⟨0, rfl, rfl, fun v => rfl⟩
        | succ i =>
          obtain ⟨k, h1, h2, h3⟩ := ih (Nat.succ.inj h) (i := i) hi
          exact ⟨k + 1, h1, h2, fun v => congrArg _ (h3 v)⟩
    | metadataPush md r =>
      obtain ⟨k, h1, h2, h3⟩ := ih (rs := rs) h (i := i) hi
      have e : ∀ rs', returnsOf (.metadataPush md r :: as) rs' = some r :: returnsOf as rs' := by
        intro rs'
        cases rs' <;> rfl
      refine ⟨k + 1, h1, ?_, fun v => ?_⟩
      · rw [e]
        exact h2
      · rw [e, e, h3]
        rfl

/-! ## The order of the calls -/

/-- The calls in `order` are those that have returned, and what they have returned and sent. -/
structure Ordered (tr : Transport) (asked : List Asked) (rets : List (Option (Except Error Unit)))
    (wire : List Frame) (order : List Nat) : Prop where
  once : order.Nodup
  all : ∀ k, k ∈ order ↔ ∃ r, rets[k]? = some (some r)
  answers : order.map (rets[·]?) = (answersOf tr [] wire).map (fun r => some (some r))
  ops : ∃ ops : List Asked, order.map (asked[·]?) = ops.map some ∧ wire.map unnumbered = ops.map opFrame

/-- Nothing is sent, nothing returns. -/
theorem Ordered.quiet {tr : Transport} {asked asked' : List Asked}
    {rets rets' : List (Option (Except Error Unit))} {wire : List Frame} {order : List Nat}
    (h : Ordered tr asked rets wire order)
    (hr : ∀ (k : Nat) r, rets'[k]? = some (some r) ↔ rets[k]? = some (some r))
    (ha : ∀ (k : Nat) op, asked[k]? = some op → asked'[k]? = some op) :
    Ordered tr asked' rets' wire order := by
  obtain ⟨ops, h1, h2⟩ := h.ops
  refine ⟨h.once, fun k => (h.all k).trans (exists_congr fun r => (hr k r).symm), ?_, ops, ?_, h2⟩
  · rw [← h.answers]
    apply List.map_congr_left
    intro k hk
    obtain ⟨r, e⟩ := (h.all k).1 hk
    rw [e, (hr k r).2 e]
  · rw [← h1]
    apply List.map_congr_left
    intro k hk
    have : asked[k]? ∈ ops.map some := h1 ▸ List.mem_map_of_mem hk
    obtain ⟨op, -, e⟩ := List.mem_map.1 this
    rw [← e, ha k op e.symm]

/-- Call `k` sends and returns. -/
theorem Ordered.event {tr : Transport} {asked asked' : List Asked}
    {rets rets' : List (Option (Except Error Unit))} {wire : List Frame} {order : List Nat}
    (h : Ordered tr asked rets wire order) {k : Nat} {f : Frame} {op : Asked}
    (hk : ∀ r, rets[k]? ≠ some (some r)) (hk' : rets'[k]? = some (some (tr wire f)))
    (hr : ∀ j : Nat, j ≠ k → ∀ r, rets'[j]? = some (some r) ↔ rets[j]? = some (some r))
    (ha : ∀ (j : Nat) op, asked[j]? = some op → asked'[j]? = some op)
    (ho : asked'[k]? = some op) (hf : unnumbered f = opFrame op) :
    Ordered tr asked' rets' (wire ++ [f]) (order ++ [k]) := by
  have hn : k ∉ order := fun hm => by
    obtain ⟨r, e⟩ := (h.all k).1 hm
    exact hk r e
  obtain ⟨ops, h1, h2⟩ := h.ops
  refine ⟨?_, ?_, ?_, ops ++ [op], ?_, ?_⟩
  · rw [List.nodup_append]
    refine ⟨h.once, List.nodup_singleton k, fun a ha' b hb e => ?_⟩
    rw [List.mem_singleton.1 hb] at e
    exact hn (e ▸ ha')
  · intro j
    rw [List.mem_append, List.mem_singleton]
    by_cases e : j = k
    · subst e
      exact ⟨fun _ => ⟨_, hk'⟩, fun _ => .inr rfl⟩
    · rw [h.all j]
      constructor
      · rintro (⟨r, e'⟩ | e')
        · exact ⟨r, (hr j e r).2 e'⟩
        · exact absurd e' e
      · rintro ⟨r, e'⟩
        exact .inl ⟨r, (hr j e r).1 e'⟩
  · rw [answersOf_snoc, List.map_append, List.map_append, ← h.answers, List.nil_append]
    congr 1
    · apply List.map_congr_left
      intro j hj
      obtain ⟨r, e⟩ := (h.all j).1 hj
      rw [e, (hr j (fun e' => hn (e' ▸ hj)) r).2 e]
    · exact congrArg (fun x => [x]) hk'
  · rw [List.map_append, List.map_append, ← h1]
    congr 1
    · apply List.map_congr_left
      intro j hj
      have : asked[j]? ∈ ops.map some := h1 ▸ List.mem_map_of_mem hj
      obtain ⟨op, -, e⟩ := List.mem_map.1 this
      rw [← e, ha j op e.symm]
    · exact congrArg (fun x => [x]) ho
  · rw [List.map_append, List.map_append, h2]
    exact congrArg (fun x => _ ++ [x]) hf

/-- A call of a machine without fragmentation. -/
def WholeCall : Call → Prop
  | .probing _ => True
  | .checking _ sid => sid.toNat < 2 ^ 31
  | .sendingOne _ sid => sid.toNat < 2 ^ 31
  | .done .. => True
  | .sending .. => False
  | .panicked _ => False

/-- The state, and the order of the calls that have returned. -/
structure SerialInv (tr : Transport) (s : Conc) (order : List Nat) : Prop where
  whole : s.machine.chunkPayload = none
  calls : ∀ c ∈ s.calls, WholeCall c
  pay : s.calls.map callPayload = askedPayloads s.asked
  ordered : Ordered tr s.asked (returns s) s.wire order

theorem SerialInv.lengths {tr : Transport} {s : Conc} {order : List Nat}
    (h : SerialInv tr s order) : (askedPayloads s.asked).length = (s.calls.map callResult).length := by
  rw [← h.pay, List.length_map, List.length_map]

/-- A call goes on, but does not return. -/
theorem SerialInv.moves {tr : Transport} {s s' : Conc} {order : List Nat}
    (h : SerialInv tr s order) {i : Nat} {c c' : Call} (hi : s.calls[i]? = some c)
    (hc : callResult c = none) (hp : callPayload c' = callPayload c) (hc' : callResult c' = none)
    (hw : WholeCall c') (e1 : s'.calls = s.calls.set i c') (e2 : s'.asked = s.asked)
    (e3 : s'.wire = s.wire) (e4 : s'.machine.chunkPayload = none) : SerialInv tr s' order := by
  have same : ∀ {α : Type} (g : Call → α), g c' = g c → (s.calls.set i c').map g = s.calls.map g := by
    intro α g e
    rw [List.map_set, e]
    apply List.ext_getElem?
    intro j
    rw [List.getElem?_set]
    split
    · rename_i hj
      subst hj
      rw [List.getElem?_map, hi]
      split
      · rfl
      · rename_i hl
        rw [List.length_map] at hl
        exact absurd (List.getElem?_eq_some_iff.1 hi).1 hl
    · rfl
  refine ⟨e4, ?_, ?_, ?_⟩
  · rw [e1]
    intro x hx
    rcases List.mem_or_eq_of_mem_set hx with hx | rfl
    · exact h.calls x hx
    · exact hw
  · rw [e1, e2, same _ hp, h.pay]
  · have : returns s' = returns s := by
      show returnsOf s'.asked (s'.calls.map callResult) = _
      rw [e1, e2, same _ (hc'.trans hc.symm)]
      rfl
    rw [this, e2, e3]
    exact h.ordered

theorem serialInv_step {dbg : Bool} {tr : Transport} {s s' : Conc} {order : List Nat}
    (h : SerialInv tr s order) (hs : ConcStep dbg tr s s') :
    ∃ more, SerialInv tr s' (order ++ more) := by
  cases hs with
  | call payload =>
    refine ⟨[], ?_⟩
    rw [List.append_nil]
    refine ⟨h.whole, ?_, ?_, ?_⟩
    · intro c hc
      rcases List.mem_append.1 hc with hc | hc
      · exact h.calls c hc
      · rw [List.mem_singleton.1 hc]
        trivial
    · show (s.calls ++ [_]).map callPayload = askedPayloads (s.asked ++ [_])
      rw [List.map_append, h.pay, askedPayloads, askedPayloads, List.filterMap_append]
      rfl
    · have e : returnsOf (s.asked ++ [.fireAndForget payload])
          ((s.calls ++ [Call.probing payload]).map callResult) = returns s ++ [none] := by
        rw [List.map_append]
        exact returnsOf_call h.lengths payload none
      refine h.ordered.quiet (fun k r => ?_) fun k op he => ?_
      · show (returnsOf _ _)[k]? = _ ↔ _
        rw [e, List.getElem?_append]
        split
        · exact Iff.rfl
        · rename_i hl
          rw [List.getElem?_eq_none (Nat.le_of_not_lt hl)]
          cases k - (returns s).length with
          | zero => exact ⟨(nomatch ·), (nomatch ·)⟩
          | succ n => exact ⟨(nomatch ·), (nomatch ·)⟩
      · show (s.asked ++ [_])[k]? = _
        rw [List.getElem?_append_left (List.getElem?_eq_some_iff.1 he).1]
        exact he
  | fetch i payload hi =>
    refine ⟨[], ?_⟩
    rw [List.append_nil]
    refine h.moves (c' := .checking payload s.machine.streamId.draw.1) hi rfl rfl rfl ?_ rfl rfl rfl h.whole
    have := (draw_after s.machine.streamId 0).1
    rw [after_zero] at this
    show (s.machine.streamId.draw.1).toNat < 2 ^ 31
    rw [this]
    exact idAt_lt _ _
  | checkUsed i payload sid hi _ =>
    refine ⟨[], ?_⟩
    rw [List.append_nil]
    exact h.moves (c' := .probing payload) hi rfl rfl rfl trivial rfl rfl rfl h.whole
  | checkFree i payload sid hi _ =>
    refine ⟨[], ?_⟩
    rw [List.append_nil]
    have e : afterId s.machine payload sid = .sendingOne payload sid := by
      unfold afterId
      rw [h.whole]
    rw [e]
    exact h.moves (c' := .sendingOne payload sid) hi rfl rfl rfl
      (h.calls _ (List.mem_of_getElem? hi) : WholeCall (.checking payload sid)) rfl rfl rfl h.whole
  | sendOne i payload sid f hi hf =>
    have hsid : sid.toNat < 2 ^ 31 :=
      (h.calls _ (List.mem_of_getElem? hi) : WholeCall (.sendingOne payload sid))
    have hf' := fnf_new_unique hsid hf
    have hp : (askedPayloads s.asked)[i]? = some payload := by
      rw [← h.pay, List.getElem?_map, hi]
      rfl
    obtain ⟨k, h1, h2, h3⟩ := returnsOf_set h.lengths hp
    have h2 : (returns s)[k]? = some none := by
      refine h2.trans ?_
      rw [List.getElem?_map, hi]
      rfl
    refine ⟨[k], h.whole, ?_, ?_, ?_⟩
    · intro x hx
      rcases List.mem_or_eq_of_mem_set hx with hx | rfl
      · exact h.calls x hx
      · trivial
    · show (s.calls.set i _).map callPayload = askedPayloads s.asked
      rw [← h.pay, List.map_set]
      apply List.ext_getElem?
      intro j
      rw [List.getElem?_set]
      split
      · rename_i hj
        subst hj
        rw [List.getElem?_map, hi]
        split
        · rfl
        · rename_i hl
          rw [List.length_map] at hl
          exact absurd (List.getElem?_eq_some_iff.1 hi).1 hl
      · rfl
    · have e : returnsOf s.asked ((s.calls.set i (.done payload sid
          (tr s.wire (Frame.requestFnf f)))).map callResult) =
          (returns s).set k (some (tr s.wire (Frame.requestFnf f))) := by
        rw [List.map_set]
        exact h3 _
      have hkl : k < (returns s).length := (List.getElem?_eq_some_iff.1 h2).1
      refine h.ordered.event (k := k) (op := .fireAndForget payload) (fun r he => ?_) ?_
        (fun j hj r => ?_) (fun j op he => he) h1 ?_
      · rw [h2] at he
        cases he
      · show (returnsOf s.asked ((s.calls.set i (.done payload sid
          (tr s.wire (Frame.requestFnf f)))).map callResult))[k]? = _
        rw [e, List.getElem?_set_self hkl]
      · show (returnsOf s.asked ((s.calls.set i (.done payload sid
          (tr s.wire (Frame.requestFnf f)))).map callResult))[j]? = _ ↔ _
        rw [e, List.getElem?_set_ne (Ne.symm hj)]
      · rw [hf']
        rfl
  | sendChunk i payload sid idx n chunks chunks' chunked f hi =>
    exact (h.calls _ (List.mem_of_getElem? hi) : WholeCall (.sending ..)).elim
  | sendChunkErr i payload sid idx n chunks chunks' chunked f e hi =>
    exact (h.calls _ (List.mem_of_getElem? hi) : WholeCall (.sending ..)).elim
  | finish i payload sid idx n chunks chunks' hi =>
    exact (h.calls _ (List.mem_of_getElem? hi) : WholeCall (.sending ..)).elim
  | push metadata =>
    refine ⟨[s.asked.length], h.whole, h.calls, ?_, ?_⟩
    · show s.calls.map callPayload = askedPayloads (s.asked ++ [_])
      rw [h.pay, askedPayloads, askedPayloads, List.filterMap_append]
      exact (List.append_nil _).symm
    · have hl : (returns s).length = s.asked.length := returnsOf_length h.lengths
      have e := returnsOf_push h.lengths metadata
        (tr s.wire (Frame.metadataPush (MetadataPushFrame.new metadata)))
      refine h.ordered.event (k := s.asked.length) (op := .metadataPush metadata
        (tr s.wire (Frame.metadataPush (MetadataPushFrame.new metadata)))) (fun r he => ?_) ?_
        (fun j hj r => ?_) (fun j op he => ?_) ?_ rfl
      · rw [List.getElem?_eq_none (Nat.le_of_eq hl)] at he
        cases he
      · show (returnsOf _ _)[_]? = _
        rw [e, ← hl]
        exact List.getElem?_concat_length
      · show (returnsOf _ _)[j]? = _ ↔ _
        rw [e, List.getElem?_append]
        split
        · exact Iff.rfl
        · rename_i hj'
          have hj' : (returns s).length ≤ j := Nat.le_of_not_lt hj'
          rw [List.getElem?_eq_none hj']
          have : 0 < j - (returnsOf s.asked (s.calls.map callResult)).length := by
            show 0 < j - (returns s).length
            omega
          obtain ⟨n, en⟩ := Nat.exists_eq_succ_of_ne_zero (Nat.ne_of_gt this)
          rw [en]
          exact ⟨(nomatch ·), (nomatch ·)⟩
      · show (s.asked ++ [_])[j]? = _
        rw [List.getElem?_append_left (List.getElem?_eq_some_iff.1 he).1]
        exact he
      · exact List.getElem?_concat_length
  | env receivers =>
    refine ⟨[], ?_⟩
    rw [List.append_nil]
    exact ⟨h.whole, h.calls, h.pay, h.ordered⟩

theorem serialInv {dbg : Bool} {tr : Transport} {m : RSocketMachine} {s : Conc}
    (h : ConcReachable dbg tr m s) (h0 : m.chunkPayload = none) : ∃ order, SerialInv tr s order := by
  induction h with
  | init =>
    refine ⟨[], h0, (fun c hc => nomatch hc), rfl, List.nodup_nil, fun k => ?_, rfl, [], rfl, rfl⟩
    exact ⟨(nomatch ·), fun ⟨r, e⟩ => nomatch e⟩
  | step _ hs ih =>
    obtain ⟨order, inv⟩ := ih
    obtain ⟨more, inv'⟩ := serialInv_step inv hs
    exact ⟨_, inv'⟩

theorem serialInv_steps {dbg : Bool} {tr : Transport} {s s' : Conc} {order : List Nat}
    (h : SerialInv tr s order) (h' : ConcSteps dbg tr s s') :
    ∃ more, SerialInv tr s' (order ++ more) := by
  induction h' with
  | refl => exact ⟨[], by rw [List.append_nil]; exact h⟩
  | step _ hs ih =>
    obtain ⟨more, inv⟩ := ih
    obtain ⟨more', inv'⟩ := serialInv_step inv hs
    exact ⟨more ++ more', by rw [← List.append_assoc]; exact inv'⟩

/-- The serial execution in this order. -/
theorem SerialInv.run (dbg : Bool) {tr : Transport} {m : RSocketMachine} {s : Conc}
    {order : List Nat} (h : SerialInv tr s order) (hm : m.chunkPayload = none) {ids : List U32}
    {q : StreamIdProvider} (ha : Alone m.receivers m.streamId ids q)
    (hl : ids.length = (streamIds s.wire).length) :
    ∃ ops rs frames m', Serial dbg tr m ops rs frames m' ∧ SerialFacts tr m ops rs frames m' ∧
      SameButNumbers frames s.wire ∧ order.map (s.asked[·]?) = ops.map some ∧
      streamIds frames = (ids.map BitVec.toNat).reverse := by
  obtain ⟨ops, h1, h2⟩ := h.ordered.ops
  have hn : ids.length = (askedPayloads ops).length := by
    rw [hl, ← streamIds_unnumbered, h2, streamIds_ops]
  obtain ⟨rs, frames, m', hs, -⟩ := serial_exists dbg tr hm ops ha hn
  have facts := serialFacts hm hs
  refine ⟨ops, rs, frames, m', hs, facts, facts.same.trans h2.symm, h1, ?_⟩
  obtain ⟨ids', i1, i2⟩ := facts.ids
  have : ids'.length = ids.length := by
    rw [hn, ← streamIds_ops, ← facts.same, streamIds_unnumbered, i2, List.length_reverse,
      List.length_map]
  rw [i2, (alone_unique i1 ha this).1]

theorem SerialInv.asIf {dbg : Bool} {tr : Transport} {m m' : RSocketMachine} {s : Conc}
    {order : List Nat} (h : SerialInv tr s order) {ops : List Asked}
    {rs : List (Except Error Unit)} {frames : List Frame} (hs : Serial dbg tr m ops rs frames m')
    (ho : order.map (s.asked[·]?) = ops.map some) (hr : rs = answersOf tr [] s.wire) :
    AsIfSerial dbg tr m s order frames :=
  ⟨h.ordered.once, h.ordered.all, ops, rs, m', ho, by rw [hr]; exact h.ordered.answers, hs⟩

/-! ## Two calls with fragments -/

theorem serial_nil {dbg : Bool} {tr : Transport} {m m' : RSocketMachine}
    {rs : List (Except Error Unit)} {frames : List Frame} (h : Serial dbg tr m [] rs frames m') :
    frames = [] ∧ m' = m := by
  generalize e : ([] : List Asked) = ops at h
  cases h with
  | nothing => exact ⟨rfl, rfl⟩
  | fireAndForget _ _ => exact absurd e.symm (List.append_ne_nil_of_right_ne_nil _ (by nofun))
  | metadataPush _ _ => exact absurd e.symm (List.append_ne_nil_of_right_ne_nil _ (by nofun))

theorem serial_snoc {dbg : Bool} {tr : Transport} {m m'' : RSocketMachine} {ops : List Asked}
    {p : Payload} {rs : List (Except Error Unit)} {sent' : List Frame}
    (h : Serial dbg tr m (ops ++ [.fireAndForget p]) rs sent' m'') :
    ∃ rs0 sent m' fuel r, Serial dbg tr m ops rs0 sent m' ∧
      m'.fireAndForget dbg fuel tr p sent = .ok (r, sent', m'') := by
  generalize e : ops ++ [.fireAndForget p] = l at h
  cases h with
  | nothing => exact absurd e (List.append_ne_nil_of_right_ne_nil _ (by nofun))
  | fireAndForget h0 h1 =>
    obtain ⟨e1, e2⟩ := List.append_inj' e rfl
    cases e2
    subst e1
    exact ⟨_, _, _, _, _, h0, h1⟩
  | metadataPush _ _ =>
    obtain ⟨-, e2⟩ := List.append_inj' e rfl
    cases e2

theorem free_fire {dbg : Bool} {fuel : Nat} {m m' : RSocketMachine} {size : Nat}
    (hf : ∀ x, m.receivers x = false) (hs : m.chunkPayload = some (size + 1)) {p : Payload}
    {sent sent' : List Frame} {r : Except Error Unit}
    (h : m.fireAndForget dbg fuel openTransport p sent = .ok (r, sent', m')) :
    sent' = sent ++ callFrames m.streamId.draw.1 (some (size + 1)) p ∧
      m' = { m with streamId := m.streamId.draw.2 } := by
  cases fuel with
  | zero => cases h
  | succ fuel =>
    have hid : m.streamId.nextStreamId m.receivers (fuel + 1) = .ok m.streamId.draw := by
      show (if !m.receivers m.streamId.draw.1 then _ else _) = _
      rw [hf]
      rfl
    rw [fireAndForget_eq hid (by rw [hs]; exact fun h => nomatch h)] at h
    injection h with h
    injection h with h1 h
    injection h with h2 h3
    refine ⟨?_, h3.symm⟩
    have all : ∀ l sent, (deliver openTransport sent l).2 = sent ++ l := by
      intro l
      induction l with
      | nil => intro sent; exact (List.append_nil _).symm
      | cons f l ih =>
        intro sent
        exact (ih (sent ++ [f])).trans (List.append_assoc ..)
    rw [← h2, all, hs]
    rfl

end Binate
