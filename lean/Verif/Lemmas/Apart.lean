import Verif.Spec.Apart
import Verif.Lemmas.Serial
import Verif.Lemmas.Owner

/-! # Helper lemmas on streams looked at one by one -/

namespace Binate

open Spec RSocketMachine

/-! ## Calls among the calls made -/

/-- The number of the call of `fire_and_forget` that is the `k`-th of all calls. -/
def callOf (as : List Asked) (k : Nat) : Nat := (askedPayloads (as.take k)).length

theorem callOf_cons (a : Asked) (as : List Asked) (k : Nat) :
    callOf (a :: as) (k + 1) = callOf as k + (askedPayloads [a]).length := by
  cases a <;> rfl

theorem callOf_payload {as : List Asked} {k : Nat} {p : Payload}
    (h : as[k]? = some (.fireAndForget p)) : (askedPayloads as)[callOf as k]? = some p := by
  induction as generalizing k with
  | nil => cases h
  | cons a as ih =>
    cases k with
    | zero => cases h; rfl
    | succ k =>
      have := ih (k := k) h
      cases a <;> exact this

theorem callOf_find {as : List Asked} {i : Nat} {p : Payload}
    (h : (askedPayloads as)[i]? = some p) : ∃ k : Nat, as[k]? = some (.fireAndForget p) ∧
      callOf as k = i := by
  induction as generalizing i with
  | nil => cases h
  | cons a as ih =>
    cases a with
    | fireAndForget q =>
      cases i with
      | zero => cases h; exact ⟨0, rfl, rfl⟩
      | succ i =>
        obtain ⟨k, h1, h2⟩ := ih (i := i) h
        exact ⟨k + 1, h1, by rw [callOf_cons, h2]; rfl⟩
    | metadataPush md r =>
      obtain ⟨k, h1, h2⟩ := ih (i := i) h
      exact ⟨k + 1, h1, by rw [callOf_cons, h2]; rfl⟩

theorem callOf_inj {as : List Asked} {k k' : Nat} {p p' : Payload}
    (h : as[k]? = some (.fireAndForget p)) (h' : as[k']? = some (.fireAndForget p'))
    (e : callOf as k = callOf as k') : k = k' := by
  induction as generalizing k k' with
  | nil => cases h
  | cons a as ih =>
    cases k with
    | zero =>
      cases h
      cases k' with
      | zero => rfl
      | succ k' =>
        rw [callOf_cons] at e
        exact absurd e.symm (Nat.succ_ne_zero _)
    | succ k =>
      cases k' with
      | zero =>
        cases h'
        rw [callOf_cons] at e
        exact absurd e (Nat.succ_ne_zero _)
      | succ k' =>
        rw [callOf_cons, callOf_cons] at e
        exact congrArg _ (ih h h' (by omega))

theorem callOf_append {as bs : List Asked} {k : Nat} (h : k ≤ as.length) :
    callOf (as ++ bs) k = callOf as k := by
  rw [callOf, List.take_append_of_le_length h, callOf]

theorem returnsOf_fire {as : List Asked} {rs : List (Option (Except Error Unit))}
    (h : (askedPayloads as).length = rs.length) {k : Nat} {p : Payload}
    (hk : as[k]? = some (.fireAndForget p)) : (returnsOf as rs)[k]? = rs[callOf as k]? := by
  induction as generalizing rs k with
  | nil => cases hk
  | cons a as ih =>
    cases a with
    | fireAndForget q =>
      cases rs with
      | nil => cases h
      | cons r rs =>
        cases k with
        | zero => rfl
        | succ k =>
          rw [callOf_cons]
          exact ih (Nat.succ.inj h) hk
    | metadataPush md r =>
      have e : returnsOf (.metadataPush md r :: as) rs = some r :: returnsOf as rs := by
        cases rs <;> rfl
      rw [e]
      cases k with
      | zero => cases hk
      | succ k =>
        rw [callOf_cons]
        exact ih h hk

theorem returnsOf_pushed {as : List Asked} {rs : List (Option (Except Error Unit))}
    (h : (askedPayloads as).length = rs.length) {k : Nat} {md : Bytes} {a : Except Error Unit}
    (hk : as[k]? = some (.metadataPush md a)) : (returnsOf as rs)[k]? = some (some a) := by
  induction as generalizing rs k with
  | nil => cases hk
  | cons b as ih =>
    cases b with
    | fireAndForget q =>
      cases rs with
      | nil => cases h
      | cons r rs =>
        cases k with
        | zero => cases hk
        | succ k => exact ih (Nat.succ.inj h) hk
    | metadataPush md r =>
      have e : returnsOf (.metadataPush md r :: as) rs = some r :: returnsOf as rs := by
        cases rs <;> rfl
      rw [e]
      cases k with
      | zero => cases hk; rfl
      | succ k => exact ih h hk

/-! ## Connections that keep streams apart -/

theorem onChannel_append (c : Option U32) (a b : List Frame) :
    onChannel c (a ++ b) = onChannel c a ++ onChannel c b := List.filter_append ..

theorem onChannel_stream (sid : U32) (l : List Frame) : onChannel (some sid) l = onWire sid l := by
  refine List.filter_congr fun f _ => ?_
  cases f <;> rfl

theorem onChannel_idem (c : Option U32) (l : List Frame) : onChannel c (onChannel c l) = onChannel c l := by
  simp [onChannel]

theorem apart_own {tr : Transport} (ha : StreamsApart tr) {c : Option U32} {f : Frame}
    (hf : channel f = c) (l : List Frame) : tr l f = tr (onChannel c l) f := by
  subst hf
  exact ha _ _ _ (onChannel_idem _ _).symm

theorem onStream_channel {sid : U32} {f : Frame} : onStream sid f = true ↔ channel f = some sid := by
  cases f with
  | requestFnf v => exact beq_iff_eq.trans ⟨fun h => congrArg some h, fun h => Option.some.inj h⟩
  | _ => exact ⟨nofun, nofun⟩

theorem answersFrom_apart {tr : Transport} (ha : StreamsApart tr) (sid : U32)
    (past wire : List Frame) :
    answersFrom tr sid past wire = answersOf tr (onWire sid past) (onWire sid wire) := by
  induction wire generalizing past with
  | nil => rfl
  | cons f l ih =>
    by_cases hf : onStream sid f = true
    · have e1 : answersFrom tr sid past (f :: l) = tr past f :: answersFrom tr sid (past ++ [f]) l :=
        if_pos hf
      have e2 : onWire sid (f :: l) = f :: onWire sid l := List.filter_cons_of_pos hf
      have e3 : onWire sid (past ++ [f]) = onWire sid past ++ [f] := by
        rw [onWire, List.filter_append, List.filter_cons_of_pos hf]; rfl
      rw [e1, e2, ih, e3, apart_own ha (onStream_channel.1 hf), onChannel_stream]
      rfl
    · have e1 : answersFrom tr sid past (f :: l) = answersFrom tr sid (past ++ [f]) l := if_neg hf
      have e2 : onWire sid (f :: l) = onWire sid l := List.filter_cons_of_neg hf
      have e3 : onWire sid (past ++ [f]) = onWire sid past := by
        rw [onWire, List.filter_append, List.filter_cons_of_neg hf]; exact List.append_nil _
      rw [e1, e2, ih, e3]

theorem deliver_of_ok {tr : Transport} {past own : List Frame} {k : Nat}
    (h : answersOf tr past own = List.replicate k (.ok ())) :
    deliver tr past own = (.ok (), past ++ own) := by
  induction own generalizing past k with
  | nil => rw [List.append_nil]; rfl
  | cons f own ih =>
    cases k with
    | zero => cases h
    | succ k =>
      injection h with h1 h2
      unfold deliver
      rw [h1, ih h2, List.append_assoc]
      rfl

theorem deliver_of_error {tr : Transport} {past own rest : List Frame} {k : Nat} {e : Error}
    (h : answersOf tr past own = List.replicate k (.ok ()) ++ [.error e]) :
    deliver tr past (own ++ rest) = (.error e, past ++ own) := by
  induction own generalizing past k with
  | nil => cases k <;> cases h
  | cons f own ih =>
    cases k with
    | zero =>
      injection h with h1 h2
      cases own with
      | cons => cases h2
      | nil =>
        show deliver tr past (f :: rest) = _
        unfold deliver
        rw [h1]
    | succ k =>
      injection h with h1 h2
      show deliver tr past (f :: (own ++ rest)) = _
      unfold deliver
      rw [h1]
      show deliver tr (past ++ [f]) (own ++ rest) = _
      rw [ih h2, List.append_assoc]
      rfl

/-- What is sent on a stream does not depend on the frames of other streams. -/
theorem deliver_apart {tr : Transport} (ha : StreamsApart tr) {sid : U32} {fs : List Frame}
    (hfs : ∀ f ∈ fs, channel f = some sid) (sent past : List Frame)
    (hp : onWire sid sent = onWire sid past) :
    ∃ own, deliver tr past fs = ((deliver tr past fs).1, past ++ own) ∧
      deliver tr sent fs = ((deliver tr past fs).1, sent ++ own) ∧
      ∀ f ∈ own, channel f = some sid := by
  induction fs generalizing sent past with
  | nil => exact ⟨[], by rw [List.append_nil]; rfl, by rw [List.append_nil]; rfl, nofun⟩
  | cons f fs ih =>
    have hf := hfs f List.mem_cons_self
    have e : tr sent f = tr past f :=
      ha _ _ _ (by rw [hf, onChannel_stream, onChannel_stream, hp])
    unfold deliver
    rw [e]
    cases tr past f with
    | error x =>
      exact ⟨[f], rfl, rfl, fun g hg => List.mem_singleton.1 hg ▸ hf⟩
    | ok u =>
      obtain ⟨own, h1, h2, h3⟩ := ih (fun g hg => hfs g (List.mem_cons_of_mem _ hg)) (sent ++ [f])
        (past ++ [f]) (by
          rw [onWire, onWire, List.filter_append, List.filter_append]
          exact congrArg (· ++ _) hp)
      refine ⟨f :: own, ?_, ?_, ?_⟩
      · show deliver tr (past ++ [f]) fs = _
        rw [h1, List.append_assoc]
        rfl
      · show deliver tr (sent ++ [f]) fs = _
        rw [h2, List.append_assoc]
        rfl
      · intro g hg
        rcases List.mem_cons.1 hg with rfl | hg
        · exact hf
        · exact h3 g hg

/-- What a call that has returned has sent and returned. -/
theorem done_deliver {dbg : Bool} {tr : Transport} (ha : StreamsApart tr) {m : RSocketMachine}
    {s : Conc} (h : ConcReachable dbg tr m s) (hd : s.draws ≤ 2 ^ 30) {i : Nat} {p : Payload}
    {sid : U32} {r : Except Error Unit} (hi : s.calls[i]? = some (.done p sid r)) :
    deliver tr [] (callFrames sid m.chunkPayload p) = (r, onWire sid s.wire) := by
  have inv := concInv h hd
  have hc := inv.call i _ hi
  obtain ⟨k, hk⟩ := ansInv h hd i _ sid hi rfl
  have e : answers tr sid s.wire = answersOf tr [] (onWire sid s.wire) := answersFrom_apart ha sid [] _
  rw [e] at hk
  cases r with
  | ok u =>
    obtain ⟨-, hw⟩ := hc
    rw [← hw]
    have hk : _ = List.replicate k _ ++ [] := hk
    rw [List.append_nil] at hk
    exact deliver_of_ok hk
  | error x =>
    obtain ⟨-, n, -, -, hw⟩ := hc
    have := deliver_of_error (rest := (callFrames sid m.chunkPayload p).drop n) hk
    rw [hw, List.take_append_drop] at this
    rw [hw]
    exact this

theorem callFrames_channel (sid : U32) (fragment : Option Nat) (p : Payload) :
    ∀ f ∈ callFrames sid fragment p, channel f = some sid := by
  intro f hf
  cases fragment with
  | none =>
    rw [List.mem_singleton.1 hf]
    rfl
  | some size =>
    rw [callFrames_some] at hf
    obtain ⟨i, -, rfl⟩ := List.mem_map.1 hf
    rfl

/-! ## The order of the calls -/

/-- The id of the `k`-th call. -/
def idOf (s : Conc) (k : Nat) : Option U32 :=
  match s.asked[k]? with
  | some (.fireAndForget _) => (s.calls[callOf s.asked k]?).bind callId
  | _ => none

/-- The METADATA_PUSH frame of the `k`-th call. -/
def pushAt (as : List Asked) (k : Nat) : Option Frame :=
  match as[k]? with
  | some (.metadataPush md _) => some (.metadataPush ⟨md⟩)
  | _ => none

/-- The calls that have their place in the order. -/
def Placed (m : RSocketMachine) (s : Conc) (k : Nat) : Prop :=
  pushAt s.asked k ≠ none ∨ ∃ sid, idOf s k = some sid ∧ m.receivers sid = false

/-- Drawing from the second word is drawing from the first. -/
def Skips (store : Store) (q p : StreamIdProvider) : Prop :=
  ∀ fuel, ∃ fuel', q.nextStreamId store fuel' = p.nextStreamId store fuel

theorem idOf_fire {s : Conc} {k : Nat} {p : Payload} (h : s.asked[k]? = some (.fireAndForget p)) :
    idOf s k = (s.calls[callOf s.asked k]?).bind callId := by
  unfold idOf
  rw [h]

theorem idOf_asked {s : Conc} {k : Nat} {sid : U32} (h : idOf s k = some sid) :
    ∃ p c, s.asked[k]? = some (.fireAndForget p) ∧ s.calls[callOf s.asked k]? = some c ∧
      callId c = some sid := by
  unfold idOf at h
  split at h
  · rename_i p hp
    cases hc : s.calls[callOf s.asked k]? with
    | none => rw [hc] at h; cases h
    | some c => rw [hc] at h; exact ⟨p, c, hp, rfl, h⟩
  · cases h

theorem pushAt_asked {as : List Asked} {k : Nat} (h : pushAt as k ≠ none) :
    ∃ md a, as[k]? = some (.metadataPush md a) ∧ pushAt as k = some (.metadataPush ⟨md⟩) := by
  unfold pushAt at h ⊢
  split at h
  · rename_i md a e
    rw [e]
    exact ⟨md, a, rfl, rfl⟩
  · exact absurd rfl h

theorem placed_lt {m : RSocketMachine} {s : Conc} {k : Nat} (h : Placed m s k) :
    k < s.asked.length := by
  rcases h with h | ⟨sid, h, -⟩
  · obtain ⟨md, a, e, -⟩ := pushAt_asked h
    exact (List.getElem?_eq_some_iff.1 e).1
  · obtain ⟨p, c, e, -⟩ := idOf_asked h
    exact (List.getElem?_eq_some_iff.1 e).1

/-- Invariant of executions in which the ids in use stay as they are. -/
structure CalmInv (tr : Transport) (m : RSocketMachine) (s : Conc) (order : List Nat) : Prop where
  store : s.machine.receivers = m.receivers
  payloads : s.calls.map callPayload = askedPayloads s.asked
  once : order.Nodup
  placed : ∀ k, k ∈ order ↔ Placed m s k
  ids : ∃ ids q, Alone m.receivers m.streamId ids q ∧ Skips m.receivers q s.machine.streamId ∧
    order.filterMap (idOf s) = ids.reverse
  late : ∀ (i : Nat) c sid, s.calls[i]? = some c → callId c = some sid →
    (∃ p, c = .checking p sid) ∨ m.receivers sid = false
  pushes : onChannel none s.wire = order.filterMap (pushAt s.asked)
  answers : ∀ o k rest md a, order = o ++ k :: rest → s.asked[k]? = some (.metadataPush md a) →
    a = tr (o.filterMap (pushAt s.asked)) (.metadataPush ⟨md⟩)

theorem filterMap_same {α β : Type} {f g : α → Option β} {l : List α} (h : ∀ x ∈ l, f x = g x) :
    l.filterMap f = l.filterMap g := List.filterMap_congr h

/-- No call gets its place. -/
theorem CalmInv.quiet {tr : Transport} {m : RSocketMachine} {s s' : Conc} {order : List Nat}
    (inv : CalmInv tr m s order) (store : s'.machine.receivers = s.machine.receivers)
    (payloads : s'.calls.map callPayload = askedPayloads s'.asked)
    (asked : ∀ k ∈ order, s'.asked[k]? = s.asked[k]?)
    (ids : ∀ k ∈ order, idOf s' k = idOf s k)
    (placed : ∀ k, Placed m s' k → Placed m s k)
    (word : ∀ q, Skips m.receivers q s.machine.streamId → Skips m.receivers q s'.machine.streamId)
    (late : ∀ (i : Nat) c sid, s'.calls[i]? = some c → callId c = some sid →
      (∃ p, c = .checking p sid) ∨ m.receivers sid = false)
    (wire : onChannel none s'.wire = onChannel none s.wire) : CalmInv tr m s' order := by
  have hp : ∀ k ∈ order, pushAt s'.asked k = pushAt s.asked k := fun k hk => by
    unfold pushAt
    rw [asked k hk]
  obtain ⟨l, q, h1, h2, h3⟩ := inv.ids
  refine ⟨store.trans inv.store, payloads, inv.once, fun k => ⟨fun hk => ?_, fun hk => ?_⟩,
    ⟨l, q, h1, word q h2, (filterMap_same ids).trans h3⟩, late, ?_, ?_⟩
  · rcases (inv.placed k).1 hk with h | ⟨sid, h, h'⟩
    · exact .inl (by rw [hp k hk]; exact h)
    · exact .inr ⟨sid, by rw [ids k hk]; exact h, h'⟩
  · exact (inv.placed k).2 (placed k hk)
  · rw [wire, inv.pushes]
    exact (filterMap_same hp).symm
  · intro o k rest md a e h
    have hk : k ∈ order := by rw [e]; exact List.mem_append_right _ List.mem_cons_self
    rw [asked k hk] at h
    rw [inv.answers o k rest md a e h]
    congr 1
    exact (filterMap_same fun j hj => hp j (by rw [e]; exact List.mem_append_left _ hj)).symm

/-- What becomes of the ids when one call is changed. -/
theorem idOf_set {s s' : Conc} {i : Nat} {c c' : Call} (hi : s.calls[i]? = some c)
    (ha : s'.asked = s.asked) (hc : s'.calls = s.calls.set i c') (k : Nat) :
    (idOf s' k = idOf s k ∧ ∀ p, s.asked[k]? = some (.fireAndForget p) → callOf s.asked k ≠ i) ∨
    ∃ p, s.asked[k]? = some (.fireAndForget p) ∧ callOf s.asked k = i ∧ idOf s k = callId c ∧
      idOf s' k = callId c' := by
  unfold idOf
  rw [ha, hc]
  split
  · rename_i p hp
    by_cases e : i = callOf s.asked k
    · refine .inr ⟨p, hp, e.symm, ?_, ?_⟩
      · rw [← e, hi]
        rfl
      · rw [← e, List.getElem?_set_self', hi]
        rfl
    · rw [List.getElem?_set_ne e]
      exact .inl ⟨rfl, fun _ _ h => e h.symm⟩
  · rename_i hne
    exact .inl ⟨rfl, fun p hp => absurd hp (hne p)⟩

/-- One call is changed and does not get its place. -/
theorem CalmInv.update {tr : Transport} {m : RSocketMachine} {s s' : Conc} {order : List Nat}
    (inv : CalmInv tr m s order) {i : Nat} {c c' : Call} (hi : s.calls[i]? = some c)
    (ha : s'.asked = s.asked) (hc : s'.calls = s.calls.set i c')
    (hp : callPayload c' = callPayload c)
    (hid : ∀ sid, m.receivers sid = false → (callId c' = some sid ↔ callId c = some sid))
    (store : s'.machine.receivers = s.machine.receivers)
    (word : ∀ q, Skips m.receivers q s.machine.streamId → Skips m.receivers q s'.machine.streamId)
    (late : ∀ sid, callId c' = some sid → (∃ p, c' = .checking p sid) ∨ m.receivers sid = false)
    (wire : onChannel none s'.wire = onChannel none s.wire) : CalmInv tr m s' order := by
  refine inv.quiet store ?_ (fun k _ => by rw [ha]) ?_ ?_ word ?_ wire
  · rw [hc, ha, map_set_same hi hp]
    exact inv.payloads
  · intro k hk
    rcases idOf_set hi ha hc k with ⟨h, -⟩ | ⟨p, h1, -, h3, h4⟩
    · exact h
    · rcases (inv.placed k).1 hk with h | ⟨sid, h, h'⟩
      · obtain ⟨md, a, e, -⟩ := pushAt_asked h
        rw [h1] at e
        cases e
      · rw [h4, h, (hid sid h').2 (h3 ▸ h)]
  · rintro k (h | ⟨sid, h, h'⟩)
    · exact .inl (ha ▸ h)
    · rcases idOf_set hi ha hc k with ⟨e, -⟩ | ⟨p, h1, -, h3, h4⟩
      · exact .inr ⟨sid, e ▸ h, h'⟩
      · exact .inr ⟨sid, h3.trans ((hid sid h').1 (h4 ▸ h)), h'⟩
  · intro j d sid hj hd
    rw [hc] at hj
    rcases getElem?_set_cases hj with ⟨rfl, rfl⟩ | ⟨-, hj⟩
    · exact late sid hd
    · exact inv.late j d sid hj hd

theorem split_snoc {α : Type} {l o rest : List α} {k j : α} (h : l ++ [k] = o ++ j :: rest) :
    (o = l ∧ j = k) ∨ ∃ rest', l = o ++ j :: rest' := by
  rcases List.eq_nil_or_concat rest with rfl | ⟨r, x, rfl⟩
  · obtain ⟨h1, h2⟩ := List.append_inj' h rfl
    exact .inl ⟨h1.symm, (List.cons.inj h2).1.symm⟩
  · refine .inr ⟨r, ?_⟩
    have h : l ++ [k] = (o ++ j :: r) ++ [x] := by
      rw [h, List.append_assoc]
      simp
    exact (List.append_inj' h rfl).1

theorem nodup_snoc {order : List Nat} (h : order.Nodup) {k : Nat} (hk : k ∉ order) :
    (order ++ [k]).Nodup := by
  rw [List.nodup_append]
  refine ⟨h, List.nodup_singleton k, fun a ha b hb e => ?_⟩
  rw [List.mem_singleton.1 hb] at e
  exact hk (e ▸ ha)

/-- A call draws the id it will keep. -/
theorem CalmInv.draw {tr : Transport} {m : RSocketMachine} {s s' : Conc} {order : List Nat}
    (inv : CalmInv tr m s order) {i : Nat} {p : Payload} (hi : s.calls[i]? = some (.probing p))
    (ha : s'.asked = s.asked)
    (hc : s'.calls = s.calls.set i (.checking p s.machine.streamId.draw.1))
    (hw : s'.machine.streamId = s.machine.streamId.draw.2)
    (store : s'.machine.receivers = s.machine.receivers) (wire : s'.wire = s.wire)
    (free : m.receivers s.machine.streamId.draw.1 = false) :
    ∃ k, CalmInv tr m s' (order ++ [k]) := by
  have hpl : (askedPayloads s.asked)[i]? = some p := by
    rw [← inv.payloads, List.getElem?_map, hi]
    rfl
  obtain ⟨k, hk, hki⟩ := callOf_find hpl
  have hkn : idOf s k = none := by
    rw [idOf_fire hk, hki, hi]
    rfl
  have hkp : pushAt s.asked k = none := by
    unfold pushAt
    rw [hk]
  have hno : k ∉ order := fun h => by
    rcases (inv.placed k).1 h with h | ⟨sid, h, -⟩
    · exact h hkp
    · rw [hkn] at h
      cases h
  have hk' : idOf s' k = some s.machine.streamId.draw.1 := by
    rcases idOf_set hi ha hc k with ⟨-, h⟩ | ⟨_, -, -, -, h⟩
    · exact absurd hki (h p hk)
    · exact h
  have hoth : ∀ j, j ≠ k → idOf s' j = idOf s j := by
    intro j hj
    rcases idOf_set hi ha hc j with ⟨h, -⟩ | ⟨q, h, h', -⟩
    · exact h
    · exact absurd (callOf_inj h hk (h'.trans hki.symm)) hj
  obtain ⟨l, q, h1, h2, h3⟩ := inv.ids
  refine ⟨k, store.trans inv.store, ?_, nodup_snoc inv.once hno, ?_, ?_, ?_, ?_, ?_⟩
  · rw [hc, ha, map_set_same hi (c' := .checking p _) rfl]
    exact inv.payloads
  · intro j
    rw [List.mem_append, List.mem_singleton, inv.placed j]
    by_cases e : j = k
    · subst e
      exact ⟨fun _ => .inr ⟨_, hk', free⟩, fun _ => .inr rfl⟩
    · have : Placed m s' j ↔ Placed m s j := by
        unfold Placed
        rw [hoth j e, ha]
      rw [this]
      exact ⟨fun h => h.resolve_right e, .inl⟩
  · obtain ⟨fuel, hf⟩ := h2 1
    refine ⟨_ :: l, s'.machine.streamId, h1.next (fuel := fuel) (x := s.machine.streamId.draw.1) ?_,
      fun fuel => ⟨fuel, rfl⟩, ?_⟩
    · rw [hf, hw]
      unfold StreamIdProvider.nextStreamId
      simp only [free]
      rfl
    · rw [List.filterMap_append, List.reverse_cons, ← h3]
      congr 1
      · exact filterMap_same fun j hj => hoth j fun e => hno (e ▸ hj)
      · simp [hk']
  · intro j d sid hj hd
    rw [hc] at hj
    rcases getElem?_set_cases hj with ⟨rfl, rfl⟩ | ⟨-, hj⟩
    · cases hd
      exact .inl ⟨p, rfl⟩
    · exact inv.late j d sid hj hd
  · rw [wire, inv.pushes, List.filterMap_append, ha]
    simp [hkp]
  · intro o j rest md a e h
    rw [ha] at h ⊢
    rcases split_snoc e with ⟨-, rfl⟩ | ⟨rest', e⟩
    · rw [hk] at h
      cases h
    · exact inv.answers o j rest' md a e h

theorem asked_snoc {as : List Asked} {a : Asked} {k : Nat} (h : k ≠ as.length) :
    (as ++ [a])[k]? = as[k]? := by
  rcases Nat.lt_or_gt_of_ne h with h | h
  · exact List.getElem?_append_left h
  · rw [List.getElem?_eq_none (by rw [List.length_append]; exact h),
      List.getElem?_eq_none (Nat.le_of_lt h)]

theorem asked_length {as : List Asked} (a : Asked) : (as ++ [a])[as.length]? = some a := by
  rw [List.getElem?_append_right (Nat.le_refl _), Nat.sub_self]
  rfl

/-- A frame of `metadata_push` is handed over. -/
theorem CalmInv.push {tr : Transport} (hap : StreamsApart tr) {m : RSocketMachine} {s s' : Conc}
    {order : List Nat} (inv : CalmInv tr m s order) {md : Bytes}
    (ha : s'.asked = s.asked ++ [.metadataPush md (tr s.wire (.metadataPush ⟨md⟩))])
    (hc : s'.calls = s.calls) (hw : s'.machine = s.machine)
    (wire : s'.wire = s.wire ++ [.metadataPush ⟨md⟩]) :
    CalmInv tr m s' (order ++ [s.asked.length]) := by
  have hno : s.asked.length ∉ order := fun h =>
    absurd (placed_lt ((inv.placed _).1 h)) (Nat.lt_irrefl _)
  have hpl : askedPayloads s'.asked = askedPayloads s.asked := by
    rw [ha, askedPayloads, List.filterMap_append]
    exact List.append_nil _
  have hkp : pushAt s'.asked s.asked.length = some (.metadataPush ⟨md⟩) := by
    unfold pushAt
    rw [ha, asked_length]
  have hkn : idOf s' s.asked.length = none := by
    unfold idOf
    rw [ha, asked_length]
  have hpush : ∀ k, k ≠ s.asked.length → pushAt s'.asked k = pushAt s.asked k := by
    intro k hk
    unfold pushAt
    rw [ha, asked_snoc hk]
  have hoth : ∀ k, k ≠ s.asked.length → idOf s' k = idOf s k := by
    intro k hk
    unfold idOf
    rw [ha, asked_snoc hk, hc]
    split
    · rename_i p hp
      rw [callOf_append (Nat.le_of_lt (List.getElem?_eq_some_iff.1 hp).1)]
    · rfl
  have hin : ∀ k ∈ order, k ≠ s.asked.length := fun k hk e => hno (e ▸ hk)
  obtain ⟨l, q, h1, h2, h3⟩ := inv.ids
  refine ⟨by rw [hw]; exact inv.store, by rw [hc, hpl]; exact inv.payloads, nodup_snoc inv.once hno,
    ?_, ⟨l, q, h1, by rw [hw]; exact h2, ?_⟩, fun j d sid hj hd => inv.late j d sid (hc ▸ hj) hd,
    ?_, ?_⟩
  · intro j
    rw [List.mem_append, List.mem_singleton, inv.placed j]
    by_cases e : j = s.asked.length
    · subst e
      exact ⟨fun _ => .inl (by rw [hkp]; nofun), fun _ => .inr rfl⟩
    · have : Placed m s' j ↔ Placed m s j := by
        unfold Placed
        rw [hoth j e, hpush j e]
      rw [this]
      exact ⟨fun h => h.resolve_right e, .inl⟩
  · rw [List.filterMap_append, ← h3, filterMap_same fun j hj => hoth j (hin j hj)]
    simp [hkn]
  · rw [wire, onChannel_append, inv.pushes, List.filterMap_append,
      filterMap_same fun j hj => hpush j (hin j hj)]
    simp [hkp]
    rfl
  · intro o j rest md' a e h
    rcases split_snoc e with ⟨rfl, rfl⟩ | ⟨rest', e⟩
    · rw [ha, asked_length] at h
      cases h
      rw [filterMap_same fun j hj => hpush j (hin j hj), ← inv.pushes]
      exact apart_own hap rfl _
    · have hj : ∀ x ∈ o ++ j :: rest', x ≠ s.asked.length := e ▸ hin
      rw [ha, asked_snoc (hj j (by simp))] at h
      rw [inv.answers o j rest' md' a e h,
        filterMap_same fun x hx => hpush x (hj x (List.mem_append_left _ hx))]

theorem afterId_id {m : RSocketMachine} (h0 : m.chunkPayload ≠ some 0) (p : Payload) (sid : U32) :
    callId (afterId m p sid) = some sid ∧ callPayload (afterId m p sid) = p := by
  unfold afterId
  cases hm : m.chunkPayload with
  | none => exact ⟨rfl, rfl⟩
  | some size =>
    rcases Nat.eq_zero_or_pos size with rfl | hpos
    · exact absurd hm h0
    · simp only [chunks_ok hpos]
      exact ⟨rfl, rfl⟩

theorem onChannel_fnf (wire : List Frame) (f : RequestFnfFrame) :
    onChannel none (wire ++ [.requestFnf f]) = onChannel none wire := by
  rw [onChannel_append]
  exact List.append_nil _

/-- One step. -/
theorem calmInv_step {dbg : Bool} {tr : Transport} (hap : StreamsApart tr) {m : RSocketMachine}
    {s s' : Conc} {order : List Nat} (inv : CalmInv tr m s order) (h : ConcStep dbg tr s s')
    (h0 : s.machine.chunkPayload ≠ some 0) (store : s'.machine.receivers = s.machine.receivers) :
    ∃ more, CalmInv tr m s' (order ++ more) := by
  have none : ∀ {s'}, CalmInv tr m s' order → ∃ more, CalmInv tr m s' (order ++ more) :=
    fun h => ⟨[], by rw [List.append_nil]; exact h⟩
  cases h with
  | call p =>
    have key : ∀ k, idOf { s with
        calls := s.calls ++ [Call.probing p], asked := s.asked ++ [.fireAndForget p] } k = idOf s k := by
      intro k
      by_cases hk : k = s.asked.length
      · have e : (s.asked ++ [Asked.fireAndForget p])[k]? = some (.fireAndForget p) := by
          rw [hk, asked_length]
        have e' : idOf s k = Option.none := by
          unfold idOf
          rw [hk, List.getElem?_eq_none (Nat.le_refl _)]
        have e'' : callOf (s.asked ++ [Asked.fireAndForget p]) k = s.calls.length := by
          have := congrArg List.length inv.payloads
          rw [List.length_map] at this
          rw [callOf_append (Nat.le_of_eq hk), callOf, hk, List.take_length, this]
        rw [idOf_fire (p := p) e, e']
        show ((s.calls ++ [Call.probing p])[callOf (s.asked ++ [Asked.fireAndForget p]) k]?).bind callId = _
        rw [e'', List.getElem?_append_right (Nat.le_refl _), Nat.sub_self]
        rfl
      · unfold idOf
        show (match (s.asked ++ [Asked.fireAndForget p])[k]? with
          | some (.fireAndForget _) => ((s.calls ++ [Call.probing p])[callOf (s.asked ++ _) k]?).bind callId
          | _ => Option.none) = _
        rw [asked_snoc hk]
        cases hq : s.asked[k]? with
        | none => rfl
        | some a =>
          cases a with
          | metadataPush md a => rfl
          | fireAndForget q =>
            have hl := (List.getElem?_eq_some_iff.1 hq).1
            have hc := callOf_payload hq
            rw [← inv.payloads] at hc
            have hl' := (List.getElem?_eq_some_iff.1 hc).1
            rw [List.length_map] at hl'
            show ((s.calls ++ [Call.probing p])[callOf (s.asked ++ _) k]?).bind callId = _
            rw [callOf_append (Nat.le_of_lt hl), List.getElem?_append_left hl']
    refine none (inv.quiet rfl ?_ ?_ (fun k _ => key k) ?_ (fun _ h => h) ?_ rfl)
    · show (s.calls ++ [Call.probing p]).map callPayload = askedPayloads (s.asked ++ [.fireAndForget p])
      rw [List.map_append, inv.payloads, askedPayloads, askedPayloads, List.filterMap_append]
      rfl
    · intro k hk
      exact asked_snoc (Nat.ne_of_lt (placed_lt ((inv.placed k).1 hk)))
    · rintro k (h | ⟨sid, h, h'⟩)
      · refine .inl ?_
        by_cases hk : k = s.asked.length
        · exfalso
          apply h
          unfold pushAt
          show (match (s.asked ++ [Asked.fireAndForget p])[k]? with
            | some (.metadataPush md _) => _
            | _ => Option.none) = _
          rw [hk, asked_length]
        · unfold pushAt at h ⊢
          rw [← asked_snoc hk]
          exact h
      · rw [key] at h
        exact .inr ⟨sid, h, h'⟩
    · intro j d sid hj hd
      have hj : (s.calls ++ [Call.probing p])[j]? = some d := hj
      by_cases hl : j < s.calls.length
      · rw [List.getElem?_append_left hl] at hj
        exact inv.late j d sid hj hd
      · rw [List.getElem?_append_right (by omega)] at hj
        cases hk : j - s.calls.length with
        | zero => rw [hk] at hj; cases hj; cases hd
        | succ k => rw [hk] at hj; cases hj
  | fetch i p hi =>
    cases hu : m.receivers s.machine.streamId.draw.1 with
    | false =>
      obtain ⟨k, h⟩ := inv.draw (s' := { (s.set i (.checking p s.machine.streamId.draw.1)) with
        machine := { s.machine with streamId := s.machine.streamId.draw.2 }
        draws := s.draws + 1 }) hi rfl rfl rfl rfl rfl hu
      exact ⟨[k], h⟩
    | true =>
      refine none (inv.update (s' := { (s.set i (.checking p s.machine.streamId.draw.1)) with
        machine := { s.machine with streamId := s.machine.streamId.draw.2 }
        draws := s.draws + 1 }) (c' := .checking p s.machine.streamId.draw.1)
        hi rfl rfl rfl (fun x hx => ⟨fun h => ?_, nofun⟩) rfl
        (fun q hq fuel => ?_) (fun x hx => ?_) rfl)
      · cases h
        rw [hx] at hu
        cases hu
      · obtain ⟨fuel', h⟩ := hq (fuel + 1)
        refine ⟨fuel', h.trans ?_⟩
        conv => lhs; unfold StreamIdProvider.nextStreamId
        simp only [hu]
        rfl
      · cases hx
        exact .inl ⟨p, rfl⟩
  | checkUsed i p sid hi hu =>
    refine none (inv.update hi rfl rfl rfl (fun x hx => ⟨nofun, fun h => ?_⟩) rfl (fun _ h => h)
      nofun rfl)
    cases h
    rw [inv.store, hx] at hu
    cases hu
  | checkFree i p sid hi hu =>
    obtain ⟨e1, e2⟩ := afterId_id h0 p sid
    refine none (inv.update hi rfl rfl e2 (fun x _ => by rw [e1]; rfl) rfl (fun _ h => h) ?_ rfl)
    intro x hx
    rw [e1] at hx
    cases hx
    exact .inr (inv.store ▸ hu)
  | sendOne i p sid f hi hf =>
    refine none (inv.update hi rfl rfl rfl (fun x _ => Iff.rfl) rfl (fun _ h => h) ?_
      (onChannel_fnf _ _))
    intro x hx
    exact .inr ((inv.late i _ x hi hx).resolve_left nofun)
  | sendChunk i p sid idx n chunks chunks' chunked f hi h1 h2 h3 =>
    refine none (inv.update hi rfl rfl rfl (fun x _ => Iff.rfl) rfl (fun _ h => h) ?_
      (onChannel_fnf _ _))
    intro x hx
    exact .inr ((inv.late i _ x hi hx).resolve_left nofun)
  | sendChunkErr i p sid idx n chunks chunks' chunked f e hi h1 h2 h3 =>
    refine none (inv.update hi rfl rfl rfl (fun x _ => Iff.rfl) rfl (fun _ h => h) ?_
      (onChannel_fnf _ _))
    intro x hx
    exact .inr ((inv.late i _ x hi hx).resolve_left nofun)
  | finish i p sid idx n chunks chunks' hi h1 =>
    refine none (inv.update hi rfl rfl rfl (fun x _ => Iff.rfl) rfl (fun _ h => h) ?_ rfl)
    intro x hx
    exact .inr ((inv.late i _ x hi hx).resolve_left nofun)
  | push md => exact ⟨_, inv.push hap rfl rfl rfl rfl⟩
  | env R =>
    exact none (inv.quiet store inv.payloads (fun _ _ => rfl) (fun _ _ => rfl) (fun _ h => h)
      (fun _ h => h) inv.late rfl)

theorem calm_reachable {dbg : Bool} {tr : Transport} {m : RSocketMachine} {past : List Conc} {s : Conc}
    (h : CalmRun dbg tr m past s) : ConcReachable dbg tr m s ∧
      s.machine.chunkPayload = m.chunkPayload := by
  induction h with
  | init => exact ⟨.init, rfl⟩
  | step _ hs _ ih => exact ⟨ih.1.step hs, (by cases hs <;> rfl : _ = _).trans ih.2⟩

theorem callResult_done {c : Call} {r : Except Error Unit} (h : callResult c = some r) :
    ∃ p sid, c = .done p sid r := by
  cases c with
  | done p sid r' => cases h; exact ⟨p, sid, rfl⟩
  | _ => cases h

/-- What has returned. -/
theorem CalmInv.returned {tr : Transport} {m : RSocketMachine} {s : Conc} {order : List Nat}
    (inv : CalmInv tr m s order) {k : Nat} {r : Except Error Unit}
    (h : (returns s)[k]? = some (some r)) :
    (∃ p sid, s.asked[k]? = some (.fireAndForget p) ∧
      s.calls[callOf s.asked k]? = some (.done p sid r) ∧ idOf s k = some sid ∧
      m.receivers sid = false) ∨
    ∃ md, s.asked[k]? = some (.metadataPush md r) := by
  have hl : (askedPayloads s.asked).length = (s.calls.map callResult).length := by
    rw [← inv.payloads, List.length_map, List.length_map]
  have hk : k < s.asked.length := by
    rw [← returnsOf_length hl]
    exact (List.getElem?_eq_some_iff.1 h).1
  cases ha : s.asked[k]? with
  | none => exact absurd (List.getElem?_eq_none_iff.1 ha) (Nat.not_le_of_lt hk)
  | some a =>
    cases a with
    | metadataPush md a =>
      have := returnsOf_pushed hl ha
      rw [show (returnsOf s.asked _)[k]? = _ from h] at this
      cases this
      exact .inr ⟨md, rfl⟩
    | fireAndForget p =>
      have e := returnsOf_fire hl ha
      rw [show (returnsOf s.asked _)[k]? = _ from h, List.getElem?_map] at e
      cases hc : s.calls[callOf s.asked k]? with
      | none => rw [hc] at e; cases e
      | some c =>
        rw [hc] at e
        obtain ⟨p', sid, rfl⟩ := callResult_done (Option.some.inj e).symm
        have hp := callOf_payload ha
        rw [← inv.payloads, List.getElem?_map, hc] at hp
        cases hp
        have hi : idOf s k = some sid := by
          rw [idOf_fire ha, hc]
          rfl
        exact .inl ⟨p', sid, rfl, rfl, hi, (inv.late _ _ sid hc rfl).resolve_left nofun⟩

theorem CalmInv.returned_in {tr : Transport} {m : RSocketMachine} {s : Conc} {order : List Nat}
    (inv : CalmInv tr m s order) {k : Nat} {r : Except Error Unit}
    (h : (returns s)[k]? = some (some r)) : k ∈ order := by
  rw [inv.placed]
  rcases inv.returned h with ⟨p, sid, -, -, h, h'⟩ | ⟨md, h⟩
  · exact .inr ⟨sid, h, h'⟩
  · refine .inl ?_
    unfold pushAt
    rw [h]
    nofun

theorem calmInv {dbg : Bool} {tr : Transport} (hap : StreamsApart tr) {m : RSocketMachine}
    (h0 : m.chunkPayload ≠ some 0) {past : List Conc} {s : Conc} (h : CalmRun dbg tr m past s) :
    ∃ order, CalmInv tr m s order ∧ KeepsOrder past order := by
  induction h with
  | init =>
    refine ⟨[], ⟨rfl, rfl, List.nodup_nil, fun k => ⟨nofun, fun h => ?_⟩,
      ⟨[], _, .none, fun fuel => ⟨fuel, rfl⟩, rfl⟩, fun i c sid hi => by simp [Conc.init] at hi, rfl,
      fun o k rest md a e => by cases o <;> cases e⟩, nofun⟩
    exact absurd (placed_lt h) (Nat.not_lt_zero _)
  | @step past s s' h hs store ih =>
    obtain ⟨order, inv, keeps⟩ := ih
    obtain ⟨more, inv'⟩ := calmInv_step hap inv hs (by rw [(calm_reachable h).2]; exact h0) store
    refine ⟨order ++ more, inv', fun t ht => ?_⟩
    rcases List.mem_cons.1 ht with rfl | ht
    · exact ⟨order, more, rfl, fun k r hk => inv.returned_in hk,
        fun k hk => placed_lt ((inv.placed k).1 hk)⟩
    · obtain ⟨a, b, e, h1, h2⟩ := keeps t ht
      exact ⟨a, b ++ more, by rw [e, List.append_assoc], h1, h2⟩

/-! ## The calls one after the other -/

theorem all_returned {tr : Transport} {m : RSocketMachine} {s : Conc} {order : List Nat}
    (inv : CalmInv tr m s order) (all : ∀ c ∈ s.calls, callResult c ≠ none) {k : Nat}
    (hk : k < s.asked.length) : ∃ r, (returns s)[k]? = some (some r) := by
  have hl : (askedPayloads s.asked).length = (s.calls.map callResult).length := by
    rw [← inv.payloads, List.length_map, List.length_map]
  cases ha : s.asked[k]? with
  | none => exact absurd (List.getElem?_eq_none_iff.1 ha) (Nat.not_le_of_lt hk)
  | some a =>
    cases a with
    | metadataPush md a => exact ⟨a, returnsOf_pushed hl ha⟩
    | fireAndForget p =>
      have hp := callOf_payload ha
      rw [← inv.payloads, List.getElem?_map] at hp
      cases hc : s.calls[callOf s.asked k]? with
      | none => rw [hc] at hp; cases hp
      | some c =>
        cases hr : callResult c with
        | none => exact absurd hr (all c (List.mem_of_getElem? hc))
        | some r =>
          refine ⟨r, (returnsOf_fire hl ha).trans ?_⟩
          rw [List.getElem?_map, hc]
          exact congrArg some hr

/-- The calls of a part of the order made one after the other. -/
theorem serial_prefix {dbg : Bool} {tr : Transport} (hap : StreamsApart tr) {m : RSocketMachine}
    (h0 : m.chunkPayload ≠ some 0) {s : Conc} (h : ConcReachable dbg tr m s) (hd : s.draws ≤ 2 ^ 30)
    {order : List Nat} (inv : CalmInv tr m s order) (all : ∀ c ∈ s.calls, callResult c ≠ none)
    (o rest : List Nat) (ho : order = o ++ rest) {ids : List U32} {q : StreamIdProvider}
    (hal : Alone m.receivers m.streamId ids q) (hids : o.filterMap (idOf s) = ids.reverse) :
    ∃ ops rs frames m', o.map (s.asked[·]?) = ops.map some ∧
      o.map ((returns s)[·]?) = rs.map (fun r => some (some r)) ∧
      Serial dbg tr m ops rs frames m' ∧ m'.streamId = q ∧ m'.receivers = m.receivers ∧
      m'.chunkPayload = m.chunkPayload ∧ onChannel none frames = o.filterMap (pushAt s.asked) ∧
      ∀ sid, (sid ∈ ids → onWire sid frames = onWire sid s.wire) ∧
        (sid ∉ ids → onWire sid frames = []) := by
  induction o using List.reverseRecOn generalizing rest ids q with
  | nil =>
    cases hal with
    | none => exact ⟨[], [], [], m, rfl, rfl, .nothing, rfl, rfl, rfl, rfl, fun sid => ⟨nofun, fun _ => rfl⟩⟩
    | next _ _ =>
      rw [List.reverse_cons] at hids
      exact absurd hids.symm (List.append_ne_nil_of_right_ne_nil _ (by nofun))
  | append_singleton o k ih =>
    have ho' : order = o ++ k :: rest := by rw [ho, List.append_assoc]; rfl
    have hk : k ∈ order := by rw [ho']; exact List.mem_append_right _ List.mem_cons_self
    have hko : k ∉ o := by
      have := inv.once
      rw [ho', List.nodup_append] at this
      exact fun hm => this.2.2 k hm k List.mem_cons_self rfl
    obtain ⟨r, hr⟩ := all_returned inv all (placed_lt ((inv.placed k).1 hk))
    rw [List.filterMap_append] at hids
    rcases inv.returned hr with ⟨p, sid, ha, hc, hi, -⟩ | ⟨md, ha⟩
    · have e1 : [k].filterMap (idOf s) = [sid] := by simp [hi]
      have e2 : pushAt s.asked k = none := by
        unfold pushAt
        rw [ha]
      rw [e1] at hids
      cases hal with
      | none => exact absurd hids (List.append_ne_nil_of_right_ne_nil _ (by nofun))
      | @next ids q' _ fuel x hal hn =>
        rw [List.reverse_cons] at hids
        obtain ⟨hids', e⟩ := List.append_inj' hids rfl
        obtain rfl : sid = x := (List.cons.inj e).1
        obtain ⟨ops, rs, frames, m', i1, i2, i3, rfl, i5, i6, i7, i8⟩ := ih (k :: rest) ho' hal hids'
        have hfree : sid ∉ ids := fun hm => by
          have hm : sid ∈ o.filterMap (idOf s) := by rw [hids']; exact List.mem_reverse.2 hm
          obtain ⟨j, hj, hj'⟩ := List.mem_filterMap.1 hm
          obtain ⟨p', c, h1, h2, h3⟩ := idOf_asked hj'
          have := (concInv h hd).uniq _ _ _ _ sid h2 hc h3 rfl
          exact hko (callOf_inj h1 ha this ▸ hj)
        have hdel := done_deliver hap h hd hc
        obtain ⟨own, d1, d2, d3⟩ := deliver_apart hap (callFrames_channel sid m.chunkPayload p) frames []
          ((i8 sid).2 hfree)
        rw [hdel] at d1 d2
        obtain rfl : onWire sid s.wire = own := congrArg Prod.snd d1
        have hfire := fireAndForget_eq (dbg := dbg) (tr := tr) (p := p) (sent := frames)
          (i5.symm ▸ hn : m'.streamId.nextStreamId m'.receivers fuel = _) (by rw [i6]; exact h0)
        rw [← i6] at d2
        rw [d2] at hfire
        refine ⟨ops ++ [.fireAndForget p], rs ++ [r], frames ++ onWire sid s.wire,
          { m' with streamId := q }, ?_, ?_, i3.fireAndForget hfire, rfl, i5, i6,
          ?_, ?_⟩
        · rw [List.map_append, List.map_append, i1]
          exact congrArg (_ ++ [·]) ha
        · rw [List.map_append, List.map_append, i2]
          exact congrArg (_ ++ [·]) hr
        · have e3 : onChannel none (onWire sid s.wire) = [] := by
            apply List.filter_eq_nil_iff.2
            intro f hf hf'
            rw [d3 f hf] at hf'
            cases hf'
          rw [onChannel_append, i7, e3, List.filterMap_append]
          simp [e2]
        · intro x
          have e4 : onWire x (frames ++ onWire sid s.wire) = onWire x frames ++
              onWire x (onWire sid s.wire) := List.filter_append ..
          have e5 : x = sid → onWire x (onWire sid s.wire) = onWire sid s.wire := by
            rintro rfl
            exact List.filter_eq_self.2 fun f hf => onStream_channel.2 (d3 f hf)
          have e6 : x ≠ sid → onWire x (onWire sid s.wire) = [] := by
            intro hx
            apply List.filter_eq_nil_iff.2
            intro f hf hf'
            have := onStream_channel.1 hf'
            rw [d3 f hf] at this
            exact hx (Option.some.inj this).symm
          by_cases hx : x = sid
          · refine ⟨fun _ => ?_, fun hm => absurd (hx ▸ List.mem_cons_self) hm⟩
            rw [e4, e5 hx, hx, (i8 sid).2 hfree]
            rfl
          · refine ⟨fun hm => ?_, fun hm => ?_⟩
            · rw [e4, e6 hx, List.append_nil]
              exact (i8 x).1 ((List.mem_cons.1 hm).resolve_left hx)
            · rw [e4, e6 hx, List.append_nil]
              exact (i8 x).2 fun h => hm (List.mem_cons_of_mem _ h)
    · have e1 : [k].filterMap (idOf s) = [] := by
        have : idOf s k = none := by
          unfold idOf
          rw [ha]
        simp [this]
      have e2 : pushAt s.asked k = some (.metadataPush ⟨md⟩) := by
        unfold pushAt
        rw [ha]
      rw [e1, List.append_nil] at hids
      obtain ⟨ops, rs, frames, m', i1, i2, i3, rfl, i5, i6, i7, i8⟩ := ih (k :: rest) ho' hal hids
      have hans := inv.answers o k rest md r ho' ha
      rw [← i7, ← apart_own hap (c := none) (f := .metadataPush ⟨md⟩) rfl frames] at hans
      refine ⟨ops ++ [.metadataPush md r], rs ++ [r], frames ++ [.metadataPush ⟨md⟩], m', ?_, ?_,
        i3.metadataPush (hans ▸ rfl), rfl, i5, i6, ?_, ?_⟩
      · rw [List.map_append, List.map_append, i1]
        exact congrArg (_ ++ [·]) ha
      · rw [List.map_append, List.map_append, i2]
        exact congrArg (_ ++ [·]) hr
      · rw [onChannel_append, i7, List.filterMap_append]
        simp [e2]
        rfl
      · intro x
        have e4 : onWire x (frames ++ [.metadataPush ⟨md⟩]) = onWire x frames := onWire_append_push
        rw [e4]
        exact i8 x

/-- All calls made one after the other. -/
theorem serial_all {dbg : Bool} {tr : Transport} (hap : StreamsApart tr) {m : RSocketMachine}
    (h0 : m.chunkPayload ≠ some 0) {s : Conc} (h : ConcReachable dbg tr m s) (hd : s.draws ≤ 2 ^ 30)
    {order : List Nat} (inv : CalmInv tr m s order) (all : ∀ c ∈ s.calls, callResult c ≠ none) :
    ∃ frames, AsIfSerial dbg tr m s order frames ∧ SameStreams frames s.wire := by
  obtain ⟨ids, q, h1, -, h3⟩ := inv.ids
  obtain ⟨ops, rs, frames, m', i1, i2, i3, -, -, -, i7, i8⟩ :=
    serial_prefix hap h0 h hd inv all order [] (List.append_nil _).symm h1 h3
  refine ⟨frames, ⟨inv.once, fun k => ⟨fun hk => all_returned inv all (placed_lt ((inv.placed k).1 hk)),
    fun ⟨r, hr⟩ => inv.returned_in hr⟩, ops, rs, m', i1, i2, i3⟩, fun c => ?_⟩
  cases c with
  | none => rw [i7, inv.pushes]
  | some sid =>
    rw [onChannel_stream, onChannel_stream]
    by_cases hm : sid ∈ ids
    · exact (i8 sid).1 hm
    · rw [(i8 sid).2 hm]
      refine (Classical.byContradiction fun hne => ?_ : onWire sid s.wire = []).symm
      obtain ⟨i, c, hc, hs⟩ := (concInv h hd).owner sid hne
      have hpl : (askedPayloads s.asked)[i]? = some (callPayload c) := by
        rw [← inv.payloads, List.getElem?_map, hc]
        rfl
      obtain ⟨k, hk, rfl⟩ := callOf_find hpl
      have hi : idOf s k = some sid := by
        rw [idOf_fire hk, hc]
        exact hs
      obtain ⟨r, hr⟩ := all_returned inv all (List.getElem?_eq_some_iff.1 hk).1
      refine hm (List.mem_reverse.1 ?_)
      rw [← h3]
      exact List.mem_filterMap.2 ⟨k, inv.returned_in hr, hi⟩

end Binate
