import Verif.Model.System
import Verif.Spec.World
import Verif.Lemmas.Conc

/-! # Helper lemmas on several sockets -/

namespace Binate

open Spec RSocketMachine

/-- What belongs to the connection of a handle. -/
def pickOf {α : Type} (g : Handle) (l : List (Handle × α)) : List α :=
  l.filterMap fun c => if c.1.connection = g.connection then some c.2 else none

theorem pickOf_own {α : Type} {g h : Handle} (hg : h.connection = g.connection) (x : α)
    (l : List (Handle × α)) : pickOf g ((h, x) :: l) = x :: pickOf g l :=
  List.filterMap_cons_some (if_pos hg)

theorem pickOf_other {α : Type} {g h : Handle} (hg : h.connection ≠ g.connection) (x : α)
    (l : List (Handle × α)) : pickOf g ((h, x) :: l) = pickOf g l :=
  List.filterMap_cons_none (if_neg hg)

theorem pickOf_append {α : Type} (g : Handle) (l l' : List (Handle × α)) :
    pickOf g (l ++ l') = pickOf g l ++ pickOf g l' := List.filterMap_append ..

theorem pickOf_set_own {α : Type} {g h : Handle} (hg : h.connection = g.connection)
    {l : List (Handle × α)} {j : Nat} {x : α} (hj : l[j]? = some (h, x)) :
    ∃ i : Nat, (pickOf g l)[i]? = some x ∧ ∀ y, pickOf g (l.set j (h, y)) = (pickOf g l).set i y := by
  induction l generalizing j with
  | nil => cases hj
  | cons a l ih =>
    cases j with
    | zero =>
      cases hj
      refine ⟨0, by rw [pickOf_own hg]; rfl, fun y => ?_⟩
      rw [List.set_cons_zero, pickOf_own hg, pickOf_own hg]
      rfl
    | succ j =>
      obtain ⟨i, h1, h2⟩ := ih (j := j) hj
      obtain ⟨k, z⟩ := a
      by_cases hk : k.connection = g.connection
      · refine ⟨i + 1, by rw [pickOf_own hk]; exact h1, fun y => ?_⟩
        rw [List.set_cons_succ, pickOf_own hk, pickOf_own hk, h2]
        rfl
      · refine ⟨i, by rw [pickOf_other hk]; exact h1, fun y => ?_⟩
        rw [List.set_cons_succ, pickOf_other hk, pickOf_other hk, h2]

theorem pickOf_set_other {α : Type} {g h : Handle} (hg : h.connection ≠ g.connection)
    {l : List (Handle × α)} {j : Nat} {x : α} (hj : l[j]? = some (h, x)) (y : α) :
    pickOf g (l.set j (h, y)) = pickOf g l := by
  induction l generalizing j with
  | nil => cases hj
  | cons a l ih =>
    cases j with
    | zero =>
      cases hj
      rw [List.set_cons_zero, pickOf_other hg, pickOf_other hg]
    | succ j =>
      obtain ⟨k, z⟩ := a
      by_cases hk : k.connection = g.connection
      · rw [List.set_cons_succ, pickOf_own hk, pickOf_own hk, ih hj]
      · rw [List.set_cons_succ, pickOf_other hk, pickOf_other hk, ih hj]

/-- Where an element of what belongs to a connection is among all. -/
theorem pickOf_find {α : Type} {g : Handle} {l : List (Handle × α)} {i : Nat} {x : α}
    (hi : (pickOf g l)[i]? = some x) : ∃ (j : Nat) (h : Handle), h.connection = g.connection ∧
      l[j]? = some (h, x) ∧ ∀ y, pickOf g (l.set j (h, y)) = (pickOf g l).set i y := by
  induction l generalizing i with
  | nil => cases hi
  | cons a l ih =>
    obtain ⟨k, z⟩ := a
    by_cases hk : k.connection = g.connection
    · rw [pickOf_own hk] at hi
      cases i with
      | zero =>
        cases hi
        refine ⟨0, k, hk, rfl, fun y => ?_⟩
        rw [List.set_cons_zero, pickOf_own hk, pickOf_own hk]
        rfl
      | succ i =>
        obtain ⟨j, h, h1, h2, h3⟩ := ih (i := i) hi
        refine ⟨j + 1, h, h1, h2, fun y => ?_⟩
        rw [List.set_cons_succ, pickOf_own hk, pickOf_own hk, h3]
        rfl
    · rw [pickOf_other hk] at hi
      obtain ⟨j, h, h1, h2, h3⟩ := ih hi
      refine ⟨j + 1, h, h1, h2, fun y => ?_⟩
      rw [List.set_cons_succ, pickOf_other hk, pickOf_other hk, h3]

theorem pickOf_none {α : Type} {g : Handle} {l : List (Handle × α)}
    (h : ∀ c ∈ l, c.1.connection ≠ g.connection) : pickOf g l = [] := by
  induction l with
  | nil => rfl
  | cons a l ih =>
    obtain ⟨k, z⟩ := a
    rw [pickOf_other (h _ List.mem_cons_self)]
    exact ih fun c hc => h c (List.mem_cons_of_mem _ hc)

theorem put_same {α : Type} (f : Nat → α) (a : Nat) (x : α) : put f a x a = x := if_pos rfl

theorem put_other {α : Type} (f : Nat → α) {a b : Nat} (h : b ≠ a) (x : α) : put f a x b = f b :=
  if_neg h

/-- Invariant. -/
structure WorldInv (w : World) : Prop where
  lt : ∀ g ∈ w.made, g.streamId < w.memory.next ∧ g.connection < w.memory.next ∧
    g.receivers < w.memory.next ∧ g.requestN < w.memory.next
  apart : ∀ g ∈ w.made, ∀ g' ∈ w.made, g ≠ g' → g.streamId ≠ g'.streamId ∧
    g.connection ≠ g'.connection ∧ g.receivers ≠ g'.receivers
  once : w.made.Nodup
  live : ∀ h, some h ∈ w.handles → h ∈ w.made
  calls : ∀ c ∈ w.calls, c.1 ∈ w.made
  asked : ∀ a ∈ w.asked, a.1 ∈ w.made

theorem mem_set {α : Type} {l : List α} {i : Nat} {a b : α} (h : b ∈ l.set i a) : b = a ∨ b ∈ l := by
  rcases List.mem_or_eq_of_mem_set h with h | h
  · exact .inr h
  · exact .inl h

theorem set_handle {w : World} (inv : WorldInv w) {j : Nat} {h : Handle} {c : Call}
    (hj : w.calls[j]? = some (h, c)) (c' : Call) : ∀ d ∈ w.calls.set j (h, c'), d.1 ∈ w.made := by
  intro d hd
  rcases mem_set hd with rfl | hd
  · exact inv.calls (h, c) (List.mem_of_getElem? hj)
  · exact inv.calls d hd

theorem snoc_handle {α : Type} {w : World} {l : List (Handle × α)} (hl : ∀ d ∈ l, d.1 ∈ w.made)
    {h : Handle} (hh : h ∈ w.made) (x : α) : ∀ d ∈ l ++ [(h, x)], d.1 ∈ w.made := by
  intro d hd
  rcases List.mem_append.1 hd with hd | hd
  · exact hl d hd
  · rw [List.mem_singleton.1 hd]
    exact hh

theorem worldInv_step {dbg : Bool} {trs : Nat → Transport} {w w' : World} (inv : WorldInv w)
    (h : WorldStep dbg trs w w') : WorldInv w' := by
  cases h with
  | new role chunk timeout now =>
    have old : ∀ {g : Handle}, g ∈ w.made → g ≠ w.memory.handle role chunk timeout now := by
      rintro g hg rfl
      have : w.memory.next < w.memory.next := (inv.lt _ hg).1
      omega
    refine ⟨?_, ?_, ?_, ?_, ?_, ?_⟩
    · intro g hg
      show _ < w.memory.next + 4 ∧ _ < w.memory.next + 4 ∧ _ < w.memory.next + 4 ∧ _ < w.memory.next + 4
      rcases List.mem_append.1 hg with hg | hg
      · have := inv.lt g hg
        omega
      · rw [List.mem_singleton.1 hg]
        show w.memory.next < _ ∧ w.memory.next + 1 < _ ∧ w.memory.next + 2 < _ ∧ w.memory.next + 3 < _
        omega
    · intro g hg g' hg' hne
      rcases List.mem_append.1 hg with hg | hg <;> rcases List.mem_append.1 hg' with hg' | hg'
      · exact inv.apart g hg g' hg' hne
      · rw [List.mem_singleton.1 hg']
        show _ ≠ w.memory.next ∧ _ ≠ w.memory.next + 1 ∧ _ ≠ w.memory.next + 2
        have := inv.lt g hg
        omega
      · rw [List.mem_singleton.1 hg]
        show w.memory.next ≠ _ ∧ w.memory.next + 1 ≠ _ ∧ w.memory.next + 2 ≠ _
        have := inv.lt g' hg'
        omega
      · exact absurd ((List.mem_singleton.1 hg).trans (List.mem_singleton.1 hg').symm) hne
    · show (w.made ++ [_]).Nodup
      rw [List.nodup_append]
      exact ⟨inv.once, List.nodup_singleton _, fun a ha b hb e =>
        old ha (e.trans (List.mem_singleton.1 hb))⟩
    · intro h hh
      rcases List.mem_append.1 hh with hh | hh
      · exact List.mem_append_left _ (inv.live h hh)
      · injection List.mem_singleton.1 hh with e
        rw [e]
        exact List.mem_append_right _ List.mem_cons_self
    · exact fun c hc => List.mem_append_left _ (inv.calls c hc)
    · exact fun a ha => List.mem_append_left _ (inv.asked a ha)
  | clone i h hi =>
    refine ⟨inv.lt, inv.apart, inv.once, ?_, inv.calls, inv.asked⟩
    intro g hg
    rcases List.mem_append.1 hg with hg | hg
    · exact inv.live g hg
    · injection List.mem_singleton.1 hg with e
      rw [e]
      exact inv.live h (List.mem_of_getElem? hi)
  | drop i h hi =>
    refine ⟨inv.lt, inv.apart, inv.once, ?_, inv.calls, inv.asked⟩
    intro g hg
    rcases mem_set hg with hg | hg
    · cases hg
    · exact inv.live g hg
  | call i h p hi =>
    have hm := inv.live h (List.mem_of_getElem? hi)
    exact ⟨inv.lt, inv.apart, inv.once, inv.live, snoc_handle inv.calls hm _, snoc_handle inv.asked hm _⟩
  | fetch j h p hj => exact ⟨inv.lt, inv.apart, inv.once, inv.live, set_handle inv hj _, inv.asked⟩
  | checkUsed j h p sid hj _ => exact ⟨inv.lt, inv.apart, inv.once, inv.live, set_handle inv hj _, inv.asked⟩
  | checkFree j h p sid hj _ => exact ⟨inv.lt, inv.apart, inv.once, inv.live, set_handle inv hj _, inv.asked⟩
  | sendOne j h p sid f hj _ => exact ⟨inv.lt, inv.apart, inv.once, inv.live, set_handle inv hj _, inv.asked⟩
  | sendChunk j h p sid idx n chunks chunks' chunked f hj _ _ _ =>
    exact ⟨inv.lt, inv.apart, inv.once, inv.live, set_handle inv hj _, inv.asked⟩
  | sendChunkErr j h p sid idx n chunks chunks' chunked f e hj _ _ _ =>
    exact ⟨inv.lt, inv.apart, inv.once, inv.live, set_handle inv hj _, inv.asked⟩
  | finish j h p sid idx n chunks chunks' hj _ =>
    exact ⟨inv.lt, inv.apart, inv.once, inv.live, set_handle inv hj _, inv.asked⟩
  | push i h md hi =>
    have hm := inv.live h (List.mem_of_getElem? hi)
    exact ⟨inv.lt, inv.apart, inv.once, inv.live, inv.calls, snoc_handle inv.asked hm _⟩
  | env a R => exact ⟨inv.lt, inv.apart, inv.once, inv.live, inv.calls, inv.asked⟩

theorem worldInv {dbg : Bool} {trs : Nat → Transport} {w : World} (h : WorldReachable dbg trs w) :
    WorldInv w := by
  induction h with
  | init => exact ⟨nofun, nofun, List.nodup_nil, nofun, nofun, nofun⟩
  | step _ hs ih => exact worldInv_step ih hs

/-- What a step does to the sockets, and whose step it is. -/
def ActsBy (dbg : Bool) (trs : Nat → Transport) (w w' : World) : Prop :=
  (∃ g ∈ w.made, ConcStep dbg (trs g.connection) (socketOf w g) (socketOf w' g) ∧
    (∀ g' ∈ w.made, g' ≠ g → socketOf w' g' = socketOf w g') ∧
    (some g ∈ w.handles ∨ (∃ c, (g, c) ∈ w.calls ∧ System.busy c = true) ∨
      w'.memory.store g.receivers ≠ w.memory.store g.receivers)) ∨
  ∀ g ∈ w.made, socketOf w' g = socketOf w g

/-- What a step does to the sockets. -/
def Acts (dbg : Bool) (trs : Nat → Transport) (w w' : World) : Prop :=
  (∃ g ∈ w.made, ConcStep dbg (trs g.connection) (socketOf w g) (socketOf w' g) ∧
    ∀ g' ∈ w.made, g' ≠ g → socketOf w' g' = socketOf w g') ∨
  ∀ g ∈ w.made, socketOf w' g = socketOf w g

theorem conc_eq {a b : Conc} (h1 : a.machine = b.machine) (h2 : a.calls = b.calls)
    (h3 : a.draws = b.draws) (h4 : a.wire = b.wire) (h5 : a.asked = b.asked) : a = b := by
  obtain ⟨_, _, _, _, _⟩ := a
  obtain ⟨_, _, _, _, _⟩ := b
  subst h1 h2 h3 h4 h5
  rfl

theorem step_to {dbg : Bool} {tr : Transport} {s s' s'' : Conc} (h : ConcStep dbg tr s s')
    (e : s' = s'') : ConcStep dbg tr s s'' := e ▸ h

/-- A step of a call through handle `h` that changes the call, the ids drawn and the wire. -/
theorem acts_call {dbg : Bool} {trs : Nat → Transport} {w : World} (inv : WorldInv w) {j : Nat}
    {h : Handle} {c c' : Call} (hj : w.calls[j]? = some (h, c)) (q : StreamIdProvider) (n : Nat)
    (wire : List Frame) (hb : System.busy c = true)
    (step : ∀ i : Nat, (socketOf w h).calls[i]? = some c →
      ConcStep dbg (trs h.connection) (socketOf w h)
        { (socketOf w h) with
          calls := (socketOf w h).calls.set i c'
          machine := { (socketOf w h).machine with streamId := q }
          draws := n
          wire := wire }) :
    ActsBy dbg trs w { w with
      calls := w.calls.set j (h, c')
      memory := { w.memory with
        provider := put w.memory.provider h.streamId q
        draws := put w.memory.draws h.streamId n
        wire := put w.memory.wire h.connection wire } } := by
  have hm : h ∈ w.made := inv.calls _ (List.mem_of_getElem? hj)
  obtain ⟨i, h1, h2⟩ := pickOf_set_own (g := h) rfl hj
  refine .inl ⟨h, hm, ?_, fun g hg hne => ?_, .inr (.inl ⟨c, List.mem_of_getElem? hj, hb⟩)⟩
  · have e : socketOf { w with
        calls := w.calls.set j (h, c')
        memory := { w.memory with
          provider := put w.memory.provider h.streamId q
          draws := put w.memory.draws h.streamId n
          wire := put w.memory.wire h.connection wire } } h = { (socketOf w h) with
          calls := (socketOf w h).calls.set i c'
          machine := { (socketOf w h).machine with streamId := q }
          draws := n
          wire := wire } := by
      refine conc_eq ?_ (h2 c') (put_same _ _ _) (put_same _ _ _) rfl
      show RSocketMachine.mk _ (put w.memory.provider h.streamId q h.streamId) _ _ _ _ _ = _
      rw [put_same]
      rfl
    rw [e]
    exact step i h1
  · obtain ⟨a1, a2, a3⟩ := inv.apart g hg h hm hne
    refine conc_eq ?_ (pickOf_set_other (fun e => a2 e.symm) hj c') (put_other _ a1 _)
      (put_other _ a2 _) rfl
    show RSocketMachine.mk _ (put w.memory.provider h.streamId q g.streamId) _ _ _ _ _ = _
    rw [put_other _ a1]
    rfl

theorem put_id {α : Type} (f : Nat → α) (a : Nat) : put f a (f a) = f := by
  funext b
  by_cases h : b = a
  · rw [h, put_same]
  · rw [put_other _ h]

theorem world_acts_by {dbg : Bool} {trs : Nat → Transport} {w w' : World} (inv : WorldInv w)
    (h : WorldStep dbg trs w w') : ActsBy dbg trs w w' := by
  cases h with
  | new role chunk timeout now =>
    refine .inr fun g hg => ?_
    obtain ⟨h1, h2, h3, h4⟩ := inv.lt g hg
    refine conc_eq ?_ rfl (put_other _ (by omega) _) (put_other _ (by omega) _) rfl
    show RSocketMachine.mk _ (put w.memory.provider w.memory.next _ g.streamId)
      (put w.memory.store (w.memory.next + 2) _ g.receivers)
      (put w.memory.counter (w.memory.next + 3) _ g.requestN) _ _ _ = _
    rw [put_other _ (by omega), put_other _ (by omega), put_other _ (by omega)]
    rfl
  | clone i h hi => exact .inr fun _ _ => rfl
  | drop i h hi => exact .inr fun _ _ => rfl
  | call i h p hi =>
    have hm := inv.live h (List.mem_of_getElem? hi)
    refine .inl ⟨h, hm, ?_, fun g hg hne => ?_, .inl (List.mem_of_getElem? hi)⟩
    · have := ConcStep.call (dbg := dbg) (tr := trs h.connection) (socketOf w h) p
      refine step_to this (conc_eq rfl ?_ rfl rfl ?_)
      · exact ((pickOf_append h w.calls [(h, Call.probing p)]).trans
          (congrArg _ (pickOf_own rfl _ []))).symm
      · exact ((pickOf_append h w.asked [(h, Asked.fireAndForget p)]).trans
          (congrArg _ (pickOf_own rfl _ []))).symm
    · obtain ⟨a1, a2, a3⟩ := inv.apart g hg h hm hne
      refine conc_eq rfl ?_ rfl rfl ?_
      · exact (pickOf_append g w.calls [(h, Call.probing p)]).trans
          ((congrArg _ (pickOf_other (fun e => a2 e.symm) _ [])).trans (List.append_nil _))
      · exact (pickOf_append g w.asked [(h, Asked.fireAndForget p)]).trans
          ((congrArg _ (pickOf_other (fun e => a2 e.symm) _ [])).trans (List.append_nil _))
  | fetch j h p hj =>
    have := acts_call (dbg := dbg) (trs := trs) inv hj (w.memory.provider h.streamId).draw.2
      (w.memory.draws h.streamId + 1) (w.memory.wire h.connection)
      (c' := .checking p (w.memory.provider h.streamId).draw.1)
      rfl fun i hi => ConcStep.fetch (socketOf w h) i p hi
    rw [put_id] at this
    exact this
  | checkUsed j h p sid hj hu =>
    have := acts_call (dbg := dbg) (trs := trs) inv hj (w.memory.provider h.streamId)
      (w.memory.draws h.streamId) (w.memory.wire h.connection) (c' := .probing p)
      rfl fun i hi => ConcStep.checkUsed (socketOf w h) i p sid hi hu
    rw [put_id, put_id, put_id] at this
    exact this
  | checkFree j h p sid hj hu =>
    have := acts_call (dbg := dbg) (trs := trs) inv hj (w.memory.provider h.streamId)
      (w.memory.draws h.streamId) (w.memory.wire h.connection)
      (c' := afterId (w.memory.read h) p sid)
      rfl fun i hi => ConcStep.checkFree (socketOf w h) i p sid hi hu
    rw [put_id, put_id, put_id] at this
    exact this
  | sendOne j h p sid f hj hf =>
    have := acts_call (dbg := dbg) (trs := trs) inv hj (w.memory.provider h.streamId)
      (w.memory.draws h.streamId) (w.memory.wire h.connection ++ [Frame.requestFnf f])
      (c' := .done p sid (trs h.connection (w.memory.wire h.connection) (Frame.requestFnf f)))
      rfl fun i hi => ConcStep.sendOne (socketOf w h) i p sid f hi hf
    rw [put_id, put_id] at this
    exact this
  | sendChunk j h p sid idx n chunks chunks' chunked f hj h1 h2 h3 =>
    have := acts_call (dbg := dbg) (trs := trs) inv hj (w.memory.provider h.streamId)
      (w.memory.draws h.streamId) (w.memory.wire h.connection ++ [Frame.requestFnf f])
      (c' := .sending p sid (idx + 1) n chunks')
      rfl fun i hi => ConcStep.sendChunk (socketOf w h) i p sid idx n chunks chunks' chunked f hi h1 h2 h3
    rw [put_id, put_id] at this
    exact this
  | sendChunkErr j h p sid idx n chunks chunks' chunked f e hj h1 h2 h3 =>
    have := acts_call (dbg := dbg) (trs := trs) inv hj (w.memory.provider h.streamId)
      (w.memory.draws h.streamId) (w.memory.wire h.connection ++ [Frame.requestFnf f])
      (c' := .done p sid (.error e))
      rfl fun i hi => ConcStep.sendChunkErr (socketOf w h) i p sid idx n chunks chunks' chunked f e hi
        h1 h2 h3
    rw [put_id, put_id] at this
    exact this
  | finish j h p sid idx n chunks chunks' hj h1 =>
    have := acts_call (dbg := dbg) (trs := trs) inv hj (w.memory.provider h.streamId)
      (w.memory.draws h.streamId) (w.memory.wire h.connection) (c' := .done p sid (.ok ()))
      rfl fun i hi => ConcStep.finish (socketOf w h) i p sid idx n chunks chunks' hi h1
    rw [put_id, put_id, put_id] at this
    exact this
  | push i h md hi =>
    have hm := inv.live h (List.mem_of_getElem? hi)
    refine .inl ⟨h, hm, ?_, fun g hg hne => ?_, .inl (List.mem_of_getElem? hi)⟩
    · have := ConcStep.push (dbg := dbg) (tr := trs h.connection) (socketOf w h) md
      refine step_to this (conc_eq rfl rfl rfl ?_ ?_)
      · exact (put_same _ _ _).symm
      · exact ((pickOf_append h w.asked [(h, Asked.metadataPush md _)]).trans
          (congrArg _ (pickOf_own rfl _ []))).symm
    · obtain ⟨a1, a2, a3⟩ := inv.apart g hg h hm hne
      refine conc_eq rfl rfl rfl (put_other _ a2 _) ?_
      exact (pickOf_append g w.asked [(h, Asked.metadataPush md _)]).trans
        ((congrArg _ (pickOf_other (fun e => a2 e.symm) _ [])).trans (List.append_nil _))
  | env a R =>
    by_cases hex : ∃ g ∈ w.made, g.receivers = a
    · obtain ⟨g, hg, rfl⟩ := hex
      by_cases hR : R = w.memory.store g.receivers
      · subst hR
        refine .inr fun g' _ => ?_
        show socketOf { w with memory := { w.memory with
          store := put w.memory.store g.receivers (w.memory.store g.receivers) } } g' = _
        rw [put_id]
      refine .inl ⟨g, hg, ?_, fun g' hg' hne => ?_, .inr (.inr ?_)⟩
      · have := ConcStep.env (dbg := dbg) (tr := trs g.connection) (socketOf w g) R
        refine step_to this (conc_eq ?_ rfl rfl rfl rfl)
        show _ = RSocketMachine.mk _ _ (put w.memory.store g.receivers R g.receivers) _ _ _ _
        rw [put_same]
        rfl
      · obtain ⟨a1, a2, a3⟩ := inv.apart g' hg' g hg hne
        refine conc_eq ?_ rfl rfl rfl rfl
        show RSocketMachine.mk _ _ (put w.memory.store g.receivers R g'.receivers) _ _ _ _ = _
        rw [put_other _ a3]
        rfl
      · show put w.memory.store g.receivers R g.receivers ≠ _
        rw [put_same]
        exact hR
    · refine .inr fun g hg => conc_eq ?_ rfl rfl rfl rfl
      show RSocketMachine.mk _ _ (put w.memory.store a R g.receivers) _ _ _ _ = _
      rw [put_other _ fun e => hex ⟨g, hg, e⟩]
      rfl

theorem world_acts {dbg : Bool} {trs : Nat → Transport} {w w' : World} (inv : WorldInv w)
    (h : WorldStep dbg trs w w') : Acts dbg trs w w' := by
  rcases world_acts_by inv h with ⟨g, hg, h1, h2, -⟩ | h
  · exact .inl ⟨g, hg, h1, h2⟩
  · exact .inr h

theorem socketOf_new {w : World} (inv : WorldInv w) (role : Role) (chunk : Option Nat)
    (timeout now : Nat) (hs : List (Option Handle)) (gs : List Handle) :
    socketOf { w with memory := w.memory.alloc role, handles := hs, made := gs }
      (w.memory.handle role chunk timeout now) =
    Conc.init (asMade (w.memory.handle role chunk timeout now)) := by
  have hne : ∀ g ∈ w.made, g.connection ≠ w.memory.next + 1 := fun g hg => by
    have := (inv.lt g hg).2.1
    omega
  refine conc_eq ?_ ?_ (put_same _ _ _) (put_same _ _ _) ?_
  · show RSocketMachine.mk _ (put w.memory.provider w.memory.next _ w.memory.next)
      (put w.memory.store (w.memory.next + 2) _ (w.memory.next + 2))
      (put w.memory.counter (w.memory.next + 3) _ (w.memory.next + 3)) _ _ _ = _
    rw [put_same, put_same, put_same]
    rfl
  · exact pickOf_none fun c hc => hne _ (inv.calls c hc)
  · exact pickOf_none fun c hc => hne _ (inv.asked c hc)

theorem world_reachable {dbg : Bool} {trs : Nat → Transport} {w : World}
    (h : WorldReachable dbg trs w) :
    ∀ g ∈ w.made, ConcReachable dbg (trs g.connection) (asMade g) (socketOf w g) := by
  induction h with
  | init => exact nofun
  | @step w w' hw hs ih =>
    have inv := worldInv hw
    have old : ∀ g ∈ w.made, ConcReachable dbg (trs g.connection) (asMade g) (socketOf w' g) := by
      intro g hg
      rcases world_acts inv hs with ⟨g', hg', h1, h2⟩ | h
      · by_cases e : g = g'
        · subst e
          exact (ih g hg).step h1
        · rw [h2 g hg e]
          exact ih g hg
      · rw [h g hg]
        exact ih g hg
    intro g hg
    cases hs with
    | new role chunk timeout now =>
      rcases List.mem_append.1 hg with hg | hg
      · exact old g hg
      · rw [List.mem_singleton.1 hg, socketOf_new inv]
        exact .init
    | _ => exact old g hg

theorem pickOf_at {α : Type} {g h : Handle} (hg : h.connection = g.connection)
    {l : List (Handle × α)} {j : Nat} {x : α} (hj : l[j]? = some (h, x)) :
    (pickOf g l)[(pickOf g (l.take j)).length]? = some x := by
  induction l generalizing j with
  | nil => cases hj
  | cons a l ih =>
    cases j with
    | zero =>
      cases hj
      rw [pickOf_own hg]
      rfl
    | succ j =>
      have := ih (j := j) hj
      obtain ⟨k, z⟩ := a
      rw [List.take_succ_cons]
      by_cases hk : k.connection = g.connection
      · rw [pickOf_own hk, pickOf_own hk]
        exact this
      · rw [pickOf_other hk, pickOf_other hk]
        exact this

theorem pickOf_inj {α : Type} {g h h' : Handle} (hg : h.connection = g.connection)
    (hg' : h'.connection = g.connection) {l : List (Handle × α)} {j j' : Nat} {x x' : α}
    (hj : l[j]? = some (h, x)) (hj' : l[j']? = some (h', x'))
    (e : (pickOf g (l.take j)).length = (pickOf g (l.take j')).length) : j = j' := by
  induction l generalizing j j' with
  | nil => cases hj
  | cons a l ih =>
    cases j with
    | zero =>
      cases hj
      cases j' with
      | zero => rfl
      | succ j' =>
        rw [List.take_succ_cons, pickOf_own hg] at e
        cases e
    | succ j =>
      cases j' with
      | zero =>
        cases hj'
        rw [List.take_succ_cons, pickOf_own hg'] at e
        cases e
      | succ j' =>
        obtain ⟨k, z⟩ := a
        rw [List.take_succ_cons, List.take_succ_cons] at e
        refine congrArg _ (ih hj hj' ?_)
        by_cases hk : k.connection = g.connection
        · rw [pickOf_own hk, pickOf_own hk] at e
          exact Nat.succ.inj e
        · rw [pickOf_other hk, pickOf_other hk] at e
          exact e

/-- The handle with the connection of a socket is that of the socket. -/
theorem WorldInv.eq {w : World} (inv : WorldInv w) {g h : Handle} (hg : g ∈ w.made) (hh : h ∈ w.made)
    (e : h.connection = g.connection) : h = g :=
  Classical.byContradiction fun hne => (inv.apart h hh g hg hne).2.1 e

/-- Whatever one machine can do, each of the sockets can do, and the handles are kept. -/
theorem world_can_keep {dbg : Bool} {trs : Nat → Transport} {w : World} (inv : WorldInv w) {g : Handle}
    (hl : some g ∈ w.handles) {s : Conc} (h : ConcStep dbg (trs g.connection) (socketOf w g) s) :
    ∃ w', WorldStep dbg trs w w' ∧ socketOf w' g = s ∧ w'.handles = w.handles ∧ w'.made = w.made := by
  have hg := inv.live g hl
  obtain ⟨n, hn⟩ := List.mem_iff_getElem?.1 hl
  have find : ∀ {i : Nat} {c : Call}, (socketOf w g).calls[i]? = some c → ∃ j : Nat,
      w.calls[j]? = some (g, c) ∧
      ∀ y, pickOf g (w.calls.set j (g, y)) = (socketOf w g).calls.set i y := by
    intro i c hi
    obtain ⟨j, h, h1, h2, h3⟩ := pickOf_find hi
    have := inv.eq hg (inv.calls _ (List.mem_of_getElem? h2)) h1
    subst this
    exact ⟨j, h2, h3⟩
  cases h with
  | call p =>
    refine ⟨_, .call w n g p hn, conc_eq rfl ?_ rfl rfl ?_, rfl, rfl⟩
    · exact (pickOf_append g w.calls [(g, Call.probing p)]).trans
        (congrArg _ (pickOf_own rfl _ []))
    · exact (pickOf_append g w.asked [(g, Asked.fireAndForget p)]).trans
        (congrArg _ (pickOf_own rfl _ []))
  | fetch i p hi =>
    obtain ⟨j, hj, e⟩ := find hi
    refine ⟨_, .fetch w j g p hj, conc_eq ?_ (e _) (put_same _ _ _) rfl rfl, rfl, rfl⟩
    show RSocketMachine.mk _ (put w.memory.provider g.streamId _ g.streamId) _ _ _ _ _ = _
    rw [put_same]
    rfl
  | checkUsed i p sid hi hu =>
    obtain ⟨j, hj, e⟩ := find hi
    exact ⟨_, .checkUsed w j g p sid hj hu, conc_eq rfl (e _) rfl rfl rfl, rfl, rfl⟩
  | checkFree i p sid hi hu =>
    obtain ⟨j, hj, e⟩ := find hi
    exact ⟨_, .checkFree w j g p sid hj hu, conc_eq rfl (e _) rfl rfl rfl, rfl, rfl⟩
  | sendOne i p sid f hi hf =>
    obtain ⟨j, hj, e⟩ := find hi
    exact ⟨_, .sendOne w j g p sid f hj hf, conc_eq rfl (e _) rfl (put_same _ _ _) rfl, rfl, rfl⟩
  | sendChunk i p sid idx n chunks chunks' chunked f hi h1 h2 h3 =>
    obtain ⟨j, hj, e⟩ := find hi
    exact ⟨_, .sendChunk w j g p sid idx n chunks chunks' chunked f hj h1 h2 h3,
      conc_eq rfl (e _) rfl (put_same _ _ _) rfl, rfl, rfl⟩
  | sendChunkErr i p sid idx n chunks chunks' chunked f x hi h1 h2 h3 =>
    obtain ⟨j, hj, e⟩ := find hi
    exact ⟨_, .sendChunkErr w j g p sid idx n chunks chunks' chunked f x hj h1 h2 h3,
      conc_eq rfl (e _) rfl (put_same _ _ _) rfl, rfl, rfl⟩
  | finish i p sid idx n chunks chunks' hi h1 =>
    obtain ⟨j, hj, e⟩ := find hi
    exact ⟨_, .finish w j g p sid idx n chunks chunks' hj h1, conc_eq rfl (e _) rfl rfl rfl, rfl, rfl⟩
  | push md =>
    refine ⟨_, .push w n g md hn, conc_eq rfl rfl rfl (put_same _ _ _) ?_, rfl, rfl⟩
    exact (pickOf_append g w.asked [(g, Asked.metadataPush md _)]).trans
      (congrArg _ (pickOf_own rfl _ []))
  | env R =>
    refine ⟨_, .env w g.receivers R, conc_eq ?_ rfl rfl rfl rfl, rfl, rfl⟩
    show RSocketMachine.mk _ _ (put w.memory.store g.receivers R g.receivers) _ _ _ _ = _
    rw [put_same]
    rfl

/-- Whatever one machine can do, each of the sockets can do. -/
theorem world_can {dbg : Bool} {trs : Nat → Transport} {w : World} (inv : WorldInv w) {g : Handle}
    (hl : some g ∈ w.handles) {s : Conc} (h : ConcStep dbg (trs g.connection) (socketOf w g) s) :
    ∃ w', WorldStep dbg trs w w' ∧ socketOf w' g = s := by
  obtain ⟨w', h1, h2, -⟩ := world_can_keep inv hl h
  exact ⟨w', h1, h2⟩

end Binate
