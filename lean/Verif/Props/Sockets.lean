import Verif.Lemmas.Sockets

/-! # Any number of sockets with their background tasks

C118. -/

namespace Binate

open Spec RSocketMachine

/-- **C118**: however many sockets, clones and tasks there are, a socket with its tasks goes through states
that one machine alone, with its listener and its watchdog, can go through. So whatever holds of all runs of
one machine holds of each of them. It is seen as made when `new` read the clock, and the watchdog began its
first sleep between then and now. -/
theorem C118_one_system {dbg : Bool} {trs : Nat → Transport} {t : Sockets}
    (ht : SocketsReachable dbg trs t) {g : Handle} (hg : g ∈ t.world.made) :
    ∃ spawned, g.keepaliveLastReceived ≤ spawned ∧ spawned ≤ t.clock ∧
      System.Reachable dbg (trs g.connection) g.role g.keepaliveTimeout g.keepaliveLastReceived spawned
        (systemOf t g) :=
  have inv := socketsInv ht
  ⟨_, (inv.times g hg).1, (inv.times g hg).2, inv.system g hg⟩

/-- **C118**: every handle that is held, and every handle that a call was made through, is a copy of what
some `new` has returned. -/
theorem C118_handles {dbg : Bool} {trs : Nat → Transport} {t : Sockets}
    (ht : SocketsReachable dbg trs t) {h : Handle}
    (hh : some h ∈ t.world.handles ∨ ∃ c, (h, c) ∈ t.world.calls) : h ∈ t.world.made := by
  have inv := (socketsInv ht).world
  rcases hh with hh | ⟨c, hc⟩
  · exact inv.live h hh
  · exact inv.calls _ hc

/-- **C118**: of two sockets at least one does not notice a step, except that time passes. -/
theorem C118_apart {dbg : Bool} {trs : Nat → Transport} {t t' : Sockets}
    (ht : SocketsReachable dbg trs t) (hs : SocketsStep dbg trs t t') {g g' : Handle}
    (hg : g ∈ t.world.made) (hg' : g' ∈ t.world.made) (hne : g ≠ g') :
    g.connection ≠ g'.connection ∧
    (systemOf t' g = { systemOf t g with clock := t'.clock } ∨
      systemOf t' g' = { systemOf t g' with clock := t'.clock }) := by
  have inv := socketsInv ht
  refine ⟨(inv.world.apart g hg g' hg' hne).2.1, ?_⟩
  have still : ∀ {k : Handle}, systemOf t' k = systemOf t k →
      systemOf t' k = { systemOf t k with clock := t'.clock } := by
    intro k e
    have hc : t.clock = t'.clock := (congrArg System.clock e).symm
    rw [e, ← hc]
    rfl
  rcases sockets_acts inv.world inv.quiet hs with ⟨now, hn, rfl⟩ | ⟨k, hk, -, h2⟩ | h1
  · exact .inl rfl
  · by_cases e : g = k
    · exact .inr (still (h2 g' hg' fun e' => hne (e.trans e'.symm)))
    · exact .inl (still (h2 g hg e))
  · exact .inl (still (h1 g hg))

/-- **C118**: of the sockets that there are, a step is time passing for all, or a step of one, or no change
for any, as when another is made. -/
theorem C118_steps {dbg : Bool} {trs : Nat → Transport} {t t' : Sockets}
    (ht : SocketsReachable dbg trs t) (hs : SocketsStep dbg trs t t') :
    (t'.world = t.world ∧ ∀ g ∈ t.world.made, systemOf t' g = { systemOf t g with clock := t'.clock }) ∨
    (∃ g ∈ t.world.made, System.Step dbg (trs g.connection) (systemOf t g) (systemOf t' g) ∧
      ∀ g' ∈ t.world.made, g' ≠ g → systemOf t' g' = systemOf t g') ∨
    ∀ g ∈ t.world.made, systemOf t' g = systemOf t g := by
  have inv := socketsInv ht
  rcases sockets_acts inv.world inv.quiet hs with ⟨now, hn, rfl⟩ | h | h
  · exact .inl ⟨rfl, fun _ _ => rfl⟩
  · exact .inr (.inl h)
  · exact .inr (.inr h)

/-- **C118**: at any time `new` can make another socket. It begins from scratch, with tasks of its own and a
connection that no other has, and the others do not notice. -/
theorem C118_new {dbg : Bool} {trs : Nat → Transport} {t : Sockets} (ht : SocketsReachable dbg trs t)
    (role : Role) (timeout : Nat) :
    ∃ t' g, SocketsStep dbg trs t t' ∧ t'.world.handles = t.world.handles ++ [some g] ∧
      systemOf t' g = System.new role timeout t.clock t.clock ∧
      ∀ g' ∈ t.world.made, g'.connection ≠ g.connection ∧ systemOf t' g' = systemOf t g' := by
  have inv := (socketsInv ht).world
  refine ⟨_, t.world.memory.handle role none timeout t.clock,
    .new t role timeout t.clock (Nat.le_refl _), rfl, ?_, fun g' hg' => ⟨fun e => ?_, ?_⟩⟩
  · rcases (sockets_world inv
      (.new (dbg := dbg) (trs := trs) t role timeout t.clock (Nat.le_refl _))).2 with
      ⟨h, -⟩ | ⟨role', timeout', created', -, h, h', -⟩
    · have h : t.world.made ++ [_] = t.world.made := h
      exact absurd h (by simp)
    · have h := List.append_cancel_left h
      have h := List.cons.inj h
      have e1 : role = role' := congrArg Handle.role h.1
      have e2 : timeout = timeout' := congrArg Handle.keepaliveTimeout h.1
      have e3 : t.clock = created' := congrArg Handle.keepaliveLastReceived h.1
      rw [← h.1] at h'
      rw [← e1, ← e2, ← e3] at h'
      exact h'
  · have := (inv.lt g' hg').2.1
    have e : g'.connection = t.world.memory.next + 1 := e
    omega
  · exact systemOf_new inv role timeout t.clock hg'

/-- **C118**: nothing keeps a socket or its tasks from doing what they could do alone. -/
theorem C118_can {dbg : Bool} {trs : Nat → Transport} {t : Sockets} (ht : SocketsReachable dbg trs t)
    {g : Handle} (hg : g ∈ t.world.made) {s : System}
    (hs : System.Step dbg (trs g.connection) (systemOf t g) s) :
    ∃ t', SocketsStep dbg trs t t' ∧ systemOf t' g = s :=
  sockets_can (socketsInv ht).world hg hs

/-- **C118**: the connection of a socket is dropped exactly when the user has dropped all of *its* handles
and *its* two tasks have ended, whatever there is of other sockets. -/
theorem C118_released_iff {dbg : Bool} {trs : Nat → Transport} {t : Sockets}
    (ht : SocketsReachable dbg trs t) {g : Handle} (hg : g ∈ t.world.made) :
    (t.keeper g.connection).released = true ↔
      (∀ h, some h ∈ t.world.handles → h.connection ≠ g.connection) ∧
      (t.keeper g.connection).listening = false ∧ (t.keeper g.connection).dog = .stopped := by
  obtain ⟨_, -, -, h⟩ := C118_one_system ht hg
  refine (C75_released_iff h).trans (and_congr_left fun _ => ⟨fun h0 k hk e => ?_, fun h0 => ?_⟩)
  · have := holders_pos hk
    rw [e] at this
    exact absurd h0 (Nat.pos_iff_ne_zero.1 this)
  · exact holders_none h0

/-- **C118**: a watchdog closes no other connection than its own: how often a connection is closed is the
number of `close()` calls on its handles, and one more when its own watchdog has ended, which it does not
before its own timeout. -/
theorem C118_closes {dbg : Bool} {trs : Nat → Transport} {t : Sockets}
    (ht : SocketsReachable dbg trs t) {g : Handle} (hg : g ∈ t.world.made) :
    closesOf (t.keeper g.connection).happened = (t.keeper g.connection).userCloses +
      (if (t.keeper g.connection).dog = .stopped then 1 else 0) ∧
    ((t.keeper g.connection).dog = .stopped →
      g.keepaliveLastReceived + g.keepaliveTimeout < t.clock) := by
  obtain ⟨_, -, -, h⟩ := C118_one_system ht hg
  refine ⟨(C73_closes h).trans (congrArg _ ?_), fun hd => (C73_watchdog h).1 ?_⟩
  · show taskCount ((t.keeper g.connection).dog == .stopped) = _
    cases (t.keeper g.connection).dog <;> rfl
  · show (t.keeper g.connection).dog ≠ _
    rw [hd]
    nofun

/-- Two clients; the first with a timeout of 60, the second, made later, with a timeout of 100. At 70 the
first has timed out and its connection, after its handle was dropped, is gone; the second has sent a frame
and knows nothing of this. -/
example : ∃ t g k f, SocketsReachable true (fun _ => openTransport) t ∧ t.world.made = [g, k] ∧
    t.world.handles = [none, some k] ∧
    (t.keeper g.connection).released = true ∧
    (t.keeper g.connection).happened =
      [.act (.logError "connection keepalive timed out"), .act .close] ∧
    (t.keeper k.connection).released = false ∧ (t.keeper k.connection).dog = .sleeping ∧
    (t.keeper k.connection).happened = [.frame (.metadataPush f)] ∧ (t.keeper k.connection).strong = 3 ∧
    (systemOf t k).handles = 1 ∧ t.clock = 70 := by
  let g : Handle := ⟨.client, 0, 1, 2, 3, none, 60, 0⟩
  let k : Handle := ⟨.client, 4, 5, 6, 7, none, 100, 5⟩
  let tr := fun _ : Nat => openTransport
  have r0 : SocketsReachable true tr _ := .init 0
  have r1 := r0.step (.new _ .client 60 0 (by decide))
  have r2 := r1.step (.time _ 5 (by decide))
  have r3 := r2.step (.new _ .client 100 5 (by decide))
  have r4 := r3.step (.time _ 70 (by decide))
  have r5 := r4.step (.wakeLate _ g (.head _) rfl (by decide) (by decide))
  have r6 := r5.step (.request _ _ (.push _ 1 k [7#8] rfl) rfl (by
    intro g' _ _
    rfl))
  have r7 := r6.step (.dogCloses _ g (.head _) rfl)
  have r8 := r7.step (.statusEnd _ g (.head _) rfl)
  have r9 := r8.step (.drop _ 0 g rfl (by
    intro _ c hc
    cases hc))
  exact ⟨_, g, k, _, r9, rfl, rfl, rfl, rfl, rfl, rfl, rfl, rfl, rfl, rfl⟩

/-- The hypotheses of `C118_can` and `C118_apart`: the watchdog of the first of two sockets logs. -/
example : ∃ t t' g k s, SocketsReachable true (fun _ => openTransport) t ∧ g ∈ t.world.made ∧
    k ∈ t.world.made ∧ g ≠ k ∧ System.Step true openTransport (systemOf t g) s ∧ s.dog = .timedOut ∧
    SocketsStep true (fun _ => openTransport) t t' ∧ systemOf t' g = s ∧ systemOf t' k = systemOf t k := by
  let g : Handle := ⟨.client, 0, 1, 2, 3, none, 60, 0⟩
  let k : Handle := ⟨.server, 4, 5, 6, 7, none, 60, 0⟩
  let tr := fun _ : Nat => openTransport
  have r0 : SocketsReachable true tr _ := .init 0
  have r1 := r0.step (.new _ .client 60 0 (by decide))
  have r2 := r1.step (.new _ .server 60 0 (by decide))
  have r3 := r2.step (.time _ 61 (by decide))
  exact ⟨_, _, g, k, _, r3, .head _, .tail _ (.head _), by decide,
    .wakeLate _ rfl (by decide) (by decide), rfl, .wakeLate _ g (.head _) rfl (by decide) (by decide), rfl,
    rfl⟩

end Binate
