import Verif.Lemmas.Storms

/-! # Any number of sockets, whatever goes wrong

C122. -/

namespace Binate

open Spec RSocketMachine

variable {dbg : Bool} {trs : Nat → WildTransport} {t t' : Storms}

/-- **C122**: however many sockets, clones, tasks and runtimes there are, and whatever panics and is shut
down, a socket with its tasks goes through states that one machine alone, over its own connection and on its
own runtime, can go through. So whatever holds of all runs of one machine (C120) holds of each of them. -/
theorem C122_one_machine (ht : Storms.Reachable dbg trs t) {g : Handle} (hg : g ∈ t.world.made) :
    ∃ spawned, g.keepaliveLastReceived ≤ spawned ∧ spawned ≤ t.clock ∧
      Storm.Reachable dbg (trs g.connection) g.role g.keepaliveTimeout g.keepaliveLastReceived spawned
        (stormOf t g) :=
  have inv := stormsInv ht
  ⟨_, (inv.times g hg).1, (inv.times g hg).2, inv.storm g hg⟩

/-- **C122**: and each of several sockets can get into every state that one machine alone can get into. -/
theorem C122_exact {tr : WildTransport} {role : Role} {timeout created spawned : Nat} {h : Storm}
    (hr : Storm.Reachable dbg tr role timeout created spawned h) (hc : created ≤ spawned) :
    ∃ t g, Storms.Reachable dbg (fun _ => tr) t ∧ g ∈ t.world.made ∧ stormOf t g = h := by
  induction hr with
  | init =>
    have h0 : Storms.Reachable dbg (fun _ => tr) (Storms.init spawned) := .init spawned
    exact ⟨_, _, h0.step (.new _ role timeout created 0 hc), List.mem_append_right _ List.mem_cons_self, rfl⟩
  | step _ hs ih =>
    obtain ⟨t, g, h1, h2, rfl⟩ := ih
    have inv := stormsInv h1
    obtain ⟨t', h3, h4⟩ := storms_can (trs := fun _ => tr) inv.world h2 hs
    exact ⟨t', g, h1.step h3, (storms_made (storms_acts inv.world inv.calm h3)).2 g h2, h4⟩

/-- **C122**: every handle that is held, and every handle that a call was made through, is a copy of what
some `new` has returned. -/
theorem C122_handles (ht : Storms.Reachable dbg trs t) {h : Handle}
    (hh : some h ∈ t.world.handles ∨ (∃ c, (h, c) ∈ t.world.calls) ∨ ∃ a, (h, a) ∈ t.world.asked) :
    h ∈ t.world.made := by
  have inv := (stormsInv ht).world
  rcases hh with hh | ⟨c, hc⟩ | ⟨a, ha⟩
  · exact inv.world.live h hh
  · exact inv.world.calls _ hc
  · exact inv.asked _ ha

/-- **C122**: whatever happens to one socket beyond time passing and its runtime being shut down, panics
included, no other socket changes in any way. -/
theorem C122_apart (ht : Storms.Reachable dbg trs t) (hs : Storms.Step dbg trs t t') {g g' : Handle}
    (hg : g ∈ t.world.made) (hg' : g' ∈ t.world.made) (hne : g ≠ g') :
    g.connection ≠ g'.connection ∧
    (stormOf t' g ≠ ⟨{ (stormOf t g).sys with clock := t'.clock }, (stormOf t' g).down,
        (stormOf t g).dogGone⟩ →
      stormOf t' g' = stormOf t g' ∧ t'.clock = t.clock ∧ t'.down = t.down) := by
  have inv := stormsInv ht
  refine ⟨(inv.world.world.apart g hg g' hg' hne).2.1, fun h => ?_⟩
  rcases storms_acts inv.world inv.calm hs with ⟨now, hn, rfl⟩ | ⟨r, rfl⟩ | ⟨k, hk, -, h2, -, h3, h4⟩ |
    ⟨role, timeout, created, r, -, -, -, -, -, -, h1, h3, h4⟩
  · exact absurd rfl h
  · exact absurd rfl h
  · by_cases e : g = k
    · subst e
      exact ⟨h2 g' hg' hne.symm, h3, h4⟩
    · refine absurd ?_ h
      rw [h2 g hg e, h3]
      rfl
  · refine absurd ?_ h
    rw [h1 g hg, h3]
    rfl

/-- **C122**: a step is time passing for all, or the beginning of the shutdown of a runtime, or a step of one
socket, or a new socket. -/
theorem C122_steps (ht : Storms.Reachable dbg trs t) (hs : Storms.Step dbg trs t t') :
    (t.clock ≤ t'.clock ∧ t' = { t with clock := t'.clock }) ∨
    (∃ r, t' = { t with down := put t.down r true }) ∨
    (∃ g ∈ t.world.made, Storm.Step dbg (trs g.connection) (stormOf t g) (stormOf t' g) ∧
      (∀ g' ∈ t.world.made, g' ≠ g → stormOf t' g' = stormOf t g') ∧ t'.world.made = t.world.made) ∨
    (∃ g role timeout created r, created ≤ t.clock ∧ t'.world.made = t.world.made ++ [g] ∧
      t'.world.handles = t.world.handles ++ [some g] ∧
      stormOf t' g = { Storm.new role timeout created t.clock with down := t.down r } ∧
      ∀ g' ∈ t.world.made, g'.connection ≠ g.connection ∧ stormOf t' g' = stormOf t g') := by
  have inv := stormsInv ht
  rcases storms_acts inv.world inv.calm hs with ⟨now, hn, rfl⟩ | h | ⟨k, hk, h1, h2, h3, -⟩ |
    ⟨role, timeout, created, r, h1, h2, h3, h4, -, -, h5, -⟩
  · exact .inl ⟨hn, rfl⟩
  · exact .inr (.inl h)
  · exact .inr (.inr (.inl ⟨k, hk, h1, h2, h3⟩))
  · refine .inr (.inr (.inr ⟨_, role, timeout, created, r, h1, h2, h3, h4, fun g' hg' => ⟨?_, h5 g' hg'⟩⟩))
    have : g'.connection < t.world.memory.next := (inv.world.world.lt g' hg').2.1
    show g'.connection ≠ t.world.memory.next + 1
    omega

/-- **C122**: another socket can be made at any time, on any runtime, and is as if it were the first; none of
those that there are changes. -/
theorem C122_new (ht : Storms.Reachable dbg trs t) (role : Role) (timeout : Nat) {r : Nat}
    (hr : t.down r = false) :
    ∃ t' g, Storms.Step dbg trs t t' ∧ t'.world.handles = t.world.handles ++ [some g] ∧
      stormOf t' g = Storm.new role timeout t.clock t.clock ∧ (t'.keeper g.connection).runtime = r ∧
      ∀ g' ∈ t.world.made, g'.connection ≠ g.connection ∧ stormOf t' g' = stormOf t g' := by
  have inv := stormsInv ht
  have hs : Storms.Step dbg trs t _ := .new t role timeout t.clock r (Nat.le_refl _)
  have hne : ∀ g' ∈ t.world.made,
      g'.connection ≠ (t.world.memory.handle role none timeout t.clock).connection := by
    intro g' hg'
    have : g'.connection < t.world.memory.next := (inv.world.world.lt g' hg').2.1
    show g'.connection ≠ t.world.memory.next + 1
    omega
  obtain ⟨h1, h2, h3⟩ := storms_new inv.world role timeout t.clock r
  refine ⟨_, t.world.memory.handle role none timeout t.clock, hs, rfl, ?_, h2,
    fun g' hg' => ⟨hne g' hg', h3 g' hg'⟩⟩
  rw [h1, hr]
  rfl

/-- **C122**: whatever one machine alone can do, panics included, each of the sockets can do, whatever the
others do. -/
theorem C122_can (ht : Storms.Reachable dbg trs t) {g : Handle} (hg : g ∈ t.world.made) {s : Storm}
    (hs : Storm.Step dbg (trs g.connection) (stormOf t g) s) :
    ∃ t', Storms.Step dbg trs t t' ∧ stormOf t' g = s :=
  storms_can (stormsInv ht).world hg hs

/-- **C122**, requests: what is handed to a connection are the frames of the requests on its socket and no
others, as if it were alone. -/
theorem C122_requests (ht : Storms.Reachable dbg trs t) {g : Handle} (hg : g ∈ t.world.made) :
    WildReachable dbg (trs g.connection)
      (RSocketMachine.new g.role g.keepaliveTimeout g.keepaliveLastReceived) (wildSocketOf t.world g) ∧
    framesOf (t.keeper g.connection).happened = t.world.memory.wire g.connection :=
  C120_requests ((stormsInv ht).storm g hg)

/-- **C122**, runtimes: the shutdown of a runtime begins for the sockets that were made on it and for no
others. -/
theorem C122_shutdown (t : Storms) (r : Nat) : ∃ t', Storms.Step dbg trs t t' ∧
    ∀ g, ((t.keeper g.connection).runtime = r → stormOf t' g = { stormOf t g with down := true }) ∧
      ((t.keeper g.connection).runtime ≠ r → stormOf t' g = stormOf t g) := by
  refine ⟨_, .shutdown t r, fun g => ⟨fun e => ?_, fun e => ?_⟩⟩
  · rw [stormOf_from, stormOf_from]
    show stormFrom _ _ _ _ (put t.down r true (t.keeper g.connection).runtime) = _
    rw [e, put_same]
    rfl
  · rw [stormOf_from, stormOf_from]
    show stormFrom _ _ _ _ (put t.down r true (t.keeper g.connection).runtime) = _
    rw [put_other _ e]
    rfl

/-- **C122**, watchdogs: a watchdog is gone only if its own runtime is shut down or after its own timeout; the
runtime of a socket is the one it was made on. -/
theorem C122_unwatched (ht : Storms.Reachable dbg trs t) {g : Handle} (hg : g ∈ t.world.made) :
    ((t.keeper g.connection).dogGone = true → t.down (t.keeper g.connection).runtime = true ∨
      g.keepaliveLastReceived + g.keepaliveTimeout < t.clock) ∧
    ∀ t', Storms.Step dbg trs t t' →
      (t'.keeper g.connection).runtime = (t.keeper g.connection).runtime :=
  ⟨fun h => (C120_unwatched ((stormsInv ht).storm g hg) h).1,
    fun _ hs => ((storms_world (stormsInv ht).world hs).2 g hg).2⟩

/-- **C122**, nothing leaks: a connection is dropped exactly when the user holds no handle of its socket any
more and both tasks of the socket are gone, whatever handles and tasks of others there are. -/
theorem C122_released_iff (ht : Storms.Reachable dbg trs t) {g : Handle} (hg : g ∈ t.world.made) :
    (t.keeper g.connection).released = true ↔
      (∀ h, some h ∈ t.world.handles → h.connection ≠ g.connection) ∧
      (t.keeper g.connection).listening = false ∧
      ((t.keeper g.connection).dog = .stopped ∨ (t.keeper g.connection).dogGone = true) := by
  have h := (C120_released ((stormsInv ht).storm g hg)).1
  have h0 : (stormOf t g).sys.handles = 0 ↔ ∀ h, some h ∈ t.world.handles → h.connection ≠ g.connection := by
    refine ⟨fun h0 h hh e => ?_, fun hn => holders_none (w := shade t.world) hn⟩
    have hp := holders_pos (w := shade t.world) hh
    rw [e] at hp
    exact absurd h0 (Nat.pos_iff_ne_zero.1 hp)
  rw [h0] at h
  exact h

/-- **C122**, closing: a connection is closed once per `close()` on a handle of its own and once more exactly
if its own watchdog has closed it, which is after its own timeout. -/
theorem C122_closes (ht : Storms.Reachable dbg trs t) {g : Handle} (hg : g ∈ t.world.made) :
    closesOf (t.keeper g.connection).happened = (t.keeper g.connection).userCloses +
      (if (t.keeper g.connection).dog = .stopped then 1 else 0) ∧
    ((t.keeper g.connection).dog = .stopped →
      g.keepaliveLastReceived + g.keepaliveTimeout < t.clock) := by
  have h := C120_closes ((stormsInv ht).storm g hg)
  refine ⟨h.1.trans (congrArg _ ?_), fun hd => h.2 ?_⟩
  · show taskCount ((t.keeper g.connection).dog == .stopped) = _
    cases (t.keeper g.connection).dog <;> rfl
  · show (t.keeper g.connection).dog ≠ .sleeping
    rw [hd]
    nofun

/-- The first connection panics whenever it is used, the second works. -/
example : ∃ t g k f f', Storms.Reachable true (fun a _ _ => if a = 1 then .panic "no" else .ok (.ok ())) t ∧
    t.world.made = [g, k] ∧ t.world.handles = [none, some k] ∧
    (t.keeper g.connection).happened = [.frame (.metadataPush f), .act .close] ∧
    (t.keeper g.connection).panics = 1 ∧ (t.keeper g.connection).dogGone = true ∧
    (t.keeper g.connection).released = true ∧
    t.world.asked = [(g, .metadataPush [9#8] none), (k, .metadataPush [7#8] (some (.ok ())))] ∧
    (t.keeper k.connection).happened = [.frame (.metadataPush f')] ∧
    (t.keeper k.connection).dogGone = false ∧ (t.keeper k.connection).listening = true ∧
    (stormOf t k).down = false ∧ (stormOf t k).sys.strong = 3 := by
  let g : Handle := ⟨.client, 0, 1, 2, 3, none, 60, 0⟩
  let k : Handle := ⟨.server, 4, 5, 6, 7, none, 60, 0⟩
  let tr : Nat → WildTransport := fun a _ _ => if a = 1 then .panic "no" else .ok (.ok ())
  have r0 : Storms.Reachable true tr _ := .init 0
  have r1 := r0.step (.new _ .client 60 0 0 (by decide))
  have r2 := r1.step (.new _ .server 60 0 1 (by decide))
  have r3 := r2.step (.request _ _ (.pushPanic _ 0 g [9#8] "no" rfl rfl))
  have r4 := r3.step (.closePanics _ 0 g rfl)
  have r5 := r4.step (.request _ _ (.push _ 1 k [7#8] (.ok ()) rfl rfl))
  have r6 := r5.step (.shutdown _ 0)
  have r7 := r6.step (.dropDog _ g (.head _) rfl rfl rfl)
  have r8 := r7.step (.dropListener _ g (.head _) rfl rfl)
  have r9 := r8.step (.drop _ 0 g rfl (by intro _ c hc; cases hc))
  exact ⟨_, g, k, _, _, r9, rfl, rfl, rfl, rfl, rfl, rfl, rfl, rfl, rfl, rfl, rfl, rfl⟩

/-- A watchdog panics at its log line; the other socket, which has the same timeout, is closed by its own. -/
example : ∃ t t' g k, Storms.Reachable true (fun _ _ _ => .panic "no") t ∧ g ∈ t.world.made ∧
    k ∈ t.world.made ∧ g ≠ k ∧ Storms.Step true (fun _ _ _ => .panic "no") t t' ∧
    stormOf t' g ≠ ⟨{ (stormOf t g).sys with clock := t'.clock }, (stormOf t' g).down,
      (stormOf t g).dogGone⟩ ∧
    (t'.keeper g.connection).dogGone = true ∧ t'.down = (fun _ => false) ∧
    (t'.keeper k.connection).dog = .stopped ∧ closesOf (t'.keeper k.connection).happened = 1 := by
  let g : Handle := ⟨.client, 0, 1, 2, 3, none, 60, 0⟩
  let k : Handle := ⟨.server, 4, 5, 6, 7, none, 60, 0⟩
  let tr : Nat → WildTransport := fun _ _ _ => .panic "no"
  have r0 : Storms.Reachable true tr _ := .init 0
  have r1 := r0.step (.new _ .client 60 0 0 (by decide))
  have r2 := r1.step (.new _ .server 60 0 0 (by decide))
  have r3 := r2.step (.time _ 61 (by decide))
  have r4 := r3.step (.wakeLate _ k (.tail _ (.head _)) rfl rfl (by decide) (by decide))
  have r5 := r4.step (.dogCloses _ k (.tail _ (.head _)) rfl rfl)
  refine ⟨_, _, g, k, r5, .head _, .tail _ (.head _), by decide,
    .dogLogPanics _ g (.head _) rfl rfl (by decide) (by decide), fun e => ?_, rfl, rfl, rfl, rfl⟩
  exact absurd (congrArg Storm.dogGone e) (by decide)

end Binate
