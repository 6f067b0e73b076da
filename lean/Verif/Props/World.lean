import Verif.Lemmas.World
import Verif.Spec.Ascending

/-! # Clones are one socket, different sockets do not disturb each other

C111. -/

namespace Binate

open Spec RSocketMachine

/-- **C111**: however many sockets and clones there are, the calls that are made through the clones of one
socket, and what its connection is handed, are those of one machine with that connection alone: the state
of the socket is one that `RSocketMachine::new` and calls on this machine can lead to. So whatever holds of
all concurrent calls on one machine holds of calls through its clones. -/
theorem C111_one_machine {dbg : Bool} {trs : Nat → Transport} {w : World}
    (hw : WorldReachable dbg trs w) {h : Handle}
    (hh : some h ∈ w.handles ∨ ∃ c, (h, c) ∈ w.calls) :
    ConcReachable dbg (trs h.connection) (asMade h) (socketOf w h) := by
  refine world_reachable hw h ?_
  rcases hh with hh | ⟨c, hc⟩
  · exact (worldInv hw).live h hh
  · exact (worldInv hw).calls _ hc

/-- **C111**: through all handles with the same connection the same machine is seen. -/
theorem C111_clones {dbg : Bool} {trs : Nat → Transport} {w : World} (hw : WorldReachable dbg trs w)
    {h h' : Handle} (hh : some h ∈ w.handles) (hh' : some h' ∈ w.handles)
    (e : h.connection = h'.connection) :
    w.memory.read h = w.memory.read h' ∧ socketOf w h = socketOf w h' ∧ asMade h = asMade h' := by
  have inv := worldInv hw
  have := inv.eq (inv.live h' hh') (inv.live h hh) e
  subst this
  exact ⟨rfl, rfl, rfl⟩

/-- **C111**: any handle can be cloned; the clone has the same connection, and nothing changes for any
socket. -/
theorem C111_clone (dbg : Bool) (trs : Nat → Transport) {w : World} {h : Handle}
    (hh : some h ∈ w.handles) : ∃ w' h', WorldStep dbg trs w w' ∧ w'.handles = w.handles ++ [some h'] ∧
      h'.connection = h.connection ∧ ∀ g, socketOf w' g = socketOf w g := by
  obtain ⟨i, hi⟩ := List.mem_iff_getElem?.1 hh
  exact ⟨_, h, .clone w i h hi, rfl, rfl, fun _ => rfl⟩

/-- **C111**: any handle can be dropped, which changes nothing for any socket. -/
theorem C111_drop (dbg : Bool) (trs : Nat → Transport) {w : World} {i : Nat} {h : Handle}
    (hi : w.handles[i]? = some (some h)) : ∃ w', WorldStep dbg trs w w' ∧
      w'.handles = w.handles.set i none ∧ ∀ g, socketOf w' g = socketOf w g :=
  ⟨_, .drop w i h hi, rfl, fun _ => rfl⟩

/-- **C111**: of two sockets at least one does not notice a step: what is done through one handle changes
nothing for handles with another connection. -/
theorem C111_apart {dbg : Bool} {trs : Nat → Transport} {w w' : World} (hw : WorldReachable dbg trs w)
    (hs : WorldStep dbg trs w w') {h h' : Handle} (hh : some h ∈ w.handles) (hh' : some h' ∈ w.handles)
    (hne : h.connection ≠ h'.connection) :
    socketOf w' h = socketOf w h ∨ socketOf w' h' = socketOf w h' := by
  have inv := worldInv hw
  rcases world_acts inv hs with ⟨g, -, -, h2⟩ | h1
  · by_cases e : h = g
    · exact .inr (h2 h' (inv.live h' hh') fun e' => hne (by rw [e, e']))
    · exact .inl (h2 h (inv.live h hh) e)
  · exact .inl (h1 h (inv.live h hh))

/-- **C111**: a new socket begins from scratch, whatever the others have done, with a connection that no
other has, and does not disturb the others. -/
theorem C111_new {dbg : Bool} {trs : Nat → Transport} {w : World} (hw : WorldReachable dbg trs w)
    (role : Role) (timeout now : Nat) :
    ∃ w' h, WorldStep dbg trs w w' ∧ w'.handles = w.handles ++ [some h] ∧
      socketOf w' h = Conc.init (RSocketMachine.new role timeout now) ∧
      asMade h = RSocketMachine.new role timeout now ∧
      ∀ h', some h' ∈ w.handles → h'.connection ≠ h.connection ∧ socketOf w' h' = socketOf w h' := by
  have inv := worldInv hw
  refine ⟨_, w.memory.handle role none timeout now, .new w role none timeout now, rfl,
    socketOf_new inv role none timeout now _ _, rfl, fun h' hh' => ?_⟩
  have hm := inv.live h' hh'
  obtain ⟨h1, h2, h3, h4⟩ := inv.lt h' hm
  refine ⟨fun e => ?_, ?_⟩
  · have e : h'.connection = w.memory.next + 1 := e
    omega
  · refine conc_eq ?_ rfl (put_other _ (by omega) _) (put_other _ (by omega) _) rfl
    show RSocketMachine.mk _ (put w.memory.provider w.memory.next _ h'.streamId)
      (put w.memory.store (w.memory.next + 2) _ h'.receivers)
      (put w.memory.counter (w.memory.next + 3) _ h'.requestN) _ _ _ = _
    rw [put_other _ (by omega), put_other _ (by omega), put_other _ (by omega)]
    rfl

/-- **C111**: nothing keeps a socket with a handle from doing what a machine alone could do. -/
theorem C111_can {dbg : Bool} {trs : Nat → Transport} {w : World} (hw : WorldReachable dbg trs w)
    {h : Handle} (hh : some h ∈ w.handles) {s : Conc}
    (hs : ConcStep dbg (trs h.connection) (socketOf w h) s) :
    ∃ w', WorldStep dbg trs w w' ∧ socketOf w' h = s :=
  world_can (worldInv hw) hh hs

/-- **C111**: two calls through clones of one socket have different stream ids, as long as at most 2^30 ids
were drawn on the socket. -/
theorem C111_ids {dbg : Bool} {trs : Nat → Transport} {w : World} (hw : WorldReachable dbg trs w)
    {i j : Nat} {h h' : Handle} {c d : Call} {sid : U32} (hi : w.calls[i]? = some (h, c))
    (hj : w.calls[j]? = some (h', d)) (e : h.connection = h'.connection)
    (hd : (socketOf w h).draws ≤ 2 ^ 30) (hc : callId c = some sid) (hd' : callId d = some sid) :
    i = j := by
  have inv := concInv (C111_one_machine hw (.inr ⟨c, List.mem_of_getElem? hi⟩)) hd
  exact pickOf_inj (g := h) rfl e.symm hi hj
    (inv.uniq _ _ c d sid (pickOf_at rfl hi) (pickOf_at e.symm hj) hc hd')

/-- Two clients, one of them cloned: the calls through the clones have the ids 1 and 3, the call on the
other client has the id 1. -/
example : ∃ w h k c d e, WorldReachable false (fun _ => openTransport) w ∧
    w.handles = [some h, some k, some h] ∧ h.connection ≠ k.connection ∧
    w.calls = [(h, c), (k, d), (h, e)] ∧ callId c = some 1#32 ∧ callId d = some 1#32 ∧
    callId e = some 3#32 ∧ streamIds (socketOf w h).wire = [3, 1] ∧ streamIds (socketOf w k).wire = [1] ∧
    (socketOf w h).draws = 2 := by
  let a : Payload := ⟨none, some [1#8]⟩
  let h : Handle := ⟨.client, 0, 1, 2, 3, none, 60, 0⟩
  let k : Handle := ⟨.client, 4, 5, 6, 7, none, 30, 5⟩
  let tr := fun _ : Nat => openTransport
  have r0 : WorldReachable false tr _ := .init
  have r1 := r0.step (.new _ .client none 60 0)
  have r2 := r1.step (.new _ .client none 30 5)
  have r3 := r2.step (.clone _ 0 h rfl)
  have r4 := r3.step (.call _ 0 h a rfl)
  have r5 := r4.step (.call _ 1 k a rfl)
  have r6 := r5.step (.call _ 2 h a rfl)
  have r7 := r6.step (.fetch _ 0 h a rfl)
  have r8 := r7.step (.fetch _ 2 h a rfl)
  have r9 := r8.step (.checkFree _ 2 h a _ rfl (by decide +kernel))
  have r10 := r9.step (.sendOne _ 2 h a _ ⟨_, ⟨0#16⟩, a⟩ rfl rfl)
  have r11 := r10.step (.fetch _ 1 k a rfl)
  have r12 := r11.step (.checkFree _ 0 h a _ rfl (by decide +kernel))
  have r13 := r12.step (.checkFree _ 1 k a _ rfl (by decide +kernel))
  have r14 := r13.step (.sendOne _ 1 k a _ ⟨_, ⟨0#16⟩, a⟩ rfl rfl)
  have r15 := r14.step (.sendOne _ 0 h a _ ⟨_, ⟨0#16⟩, a⟩ rfl rfl)
  exact ⟨_, h, k, _, _, _, r15, rfl, by decide +kernel, rfl, by decide +kernel, by decide +kernel,
    by decide +kernel,
    by decide +kernel, by decide +kernel, by decide +kernel⟩

end Binate
