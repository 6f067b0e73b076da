import Verif.Lemmas.StormsLive

/-! # What happens in the end with any number of sockets, whatever goes wrong

C123. -/

namespace Binate

open Spec RSocketMachine

variable {dbg : Bool} {trs : Nat → WildTransport} {τ : Nat → Storms}

/-- **C123**: from when it was made, what is seen of a socket is an execution of one machine alone, to which
the scheduler is fair in whatever it is fair to the socket, and for which every time comes if it does for
all. So whatever happens in the end to one machine (C121) happens to each socket, whatever the others do. -/
theorem C123_one_machine (h : StormsForever dbg trs τ) {n : Nat} {g : Handle}
    (hg : g ∈ (τ n).world.made) :
    ∃ (σ : Nat → Storm) (m spawned : Nat),
      StormForever dbg (trs g.connection) g.role g.keepaliveTimeout g.keepaliveLastReceived spawned σ ∧
      m ≤ n ∧ (∀ k, σ (k + 1) = stormOf (τ (m + k)) g) ∧
      (∀ act, FairTo dbg trs τ g act → Fair (Storm.Step dbg (trs g.connection)) act σ) ∧
      (StormsEveryTime τ → StormTimeGoesOn σ) := by
  obtain ⟨m, sp, h1, h2, h3⟩ := storms_forever h hg
  exact ⟨_, m, sp, h3, h1 n hg, fun _ => rfl, fun act hf => fair_one h hf h2 _,
    fun ht => time_one h ht m g _⟩

/-- **C123**, watchdogs: in the end the watchdog of a socket has closed its connection or is gone. -/
theorem C123_watchdog (h : StormsForever dbg trs τ) (ht : StormsEveryTime τ) {n : Nat} {g : Handle}
    (hg : g ∈ (τ n).world.made) (hf : FairTo dbg trs τ g StormDogMoves) :
    (∃ n, ∀ k, n ≤ k → ((τ k).keeper g.connection).dog = .stopped ∧
      closesOf ((τ k).keeper g.connection).happened = ((τ k).keeper g.connection).userCloses + 1) ∨
    (∃ n, ∀ k, n ≤ k → ((τ k).keeper g.connection).dogGone = true ∧
      closesOf ((τ k).keeper g.connection).happened = ((τ k).keeper g.connection).userCloses) := by
  obtain ⟨m, sp, -, h2, h3⟩ := storms_forever h hg
  refine (C121_watchdog h3 (time_one h ht m g _) (fair_one h hf h2 _)).imp ?_ ?_
  · exact fun hp => fromNew_all (P := fun s => s.sys.dog = .stopped ∧
      closesOf s.sys.happened = s.sys.userCloses + 1) hp
  · exact fun hp => fromNew_all (P := fun s => s.dogGone = true ∧
      closesOf s.sys.happened = s.sys.userCloses) hp

/-- **C123**, closing: if the watchdog of a socket never panics at its log line and is not dropped with its
runtime, the connection is closed in the end, whatever happens to other sockets. -/
theorem C123_closes (h : StormsForever dbg trs τ) (ht : StormsEveryTime τ) {n : Nat} {g : Handle}
    (hg : g ∈ (τ n).world.made)
    (hf : FairTo dbg trs τ g fun s s' => s'.dogGone = s.dogGone ∧ StormDogMoves s s')
    (hn : ∀ n, g ∈ (τ n).world.made → ((τ n).keeper g.connection).dogGone = false) :
    ∃ n, ∀ k, n ≤ k →
      closesOf ((τ k).keeper g.connection).happened = ((τ k).keeper g.connection).userCloses + 1 := by
  obtain ⟨m, sp, -, h2, h3⟩ := storms_forever h hg
  refine fromNew_all (P := fun s => closesOf s.sys.happened = s.sys.userCloses + 1)
    (C121_closes h3 (time_one h ht m g _) (fair_one h hf h2 _) fun k => ?_)
  cases k with
  | zero => rfl
  | succ k => exact hn (m + k) (h2 k)

/-- **C123**, nothing leaks: if the user drops every handle of a socket and its listener ends, its connection
is dropped in the end, whatever handles of others are held. -/
theorem C123_released (h : StormsForever dbg trs τ) (ht : StormsEveryTime τ) {n : Nat} {g : Handle}
    (hg : g ∈ (τ n).world.made) (hf : FairTo dbg trs τ g StormDogMoves)
    (hd : ∃ n, g ∈ (τ n).world.made ∧ ∀ k, some k ∈ (τ n).world.handles → k.connection ≠ g.connection)
    (hl : ∃ n, g ∈ (τ n).world.made ∧ ((τ n).keeper g.connection).listening = false) :
    ∃ n, ∀ k, n ≤ k → ((τ k).keeper g.connection).released = true := by
  obtain ⟨m, sp, h1, h2, h3⟩ := storms_forever h hg
  obtain ⟨a, ha, ha'⟩ := hd
  obtain ⟨b, hb, hb'⟩ := hl
  exact fromNew_all (P := fun s => s.sys.released = true)
    (C121_released h3 (time_one h ht m g _) (fair_one h hf h2 _)
      ⟨_, fromNew_some (P := fun s => s.sys.handles = 0) (h1 a ha)
        (holders_none (w := shade (τ a).world) ha')⟩
      ⟨_, fromNew_some (P := fun s => s.sys.listening = false) (h1 b hb) hb'⟩)

/-- **C123**, shutdown: if the runtime of a socket is shut down, both its tasks are gone in the end; and if the
user drops every handle of it, its connection is dropped. -/
theorem C123_shutdown (h : StormsForever dbg trs τ) {n : Nat} {g : Handle} (hg : g ∈ (τ n).world.made)
    (hc : FairTo dbg trs τ g fun s s' =>
      s.down = true ∧ (s'.sys.dog ≠ s.sys.dog ∨ s'.dogGone ≠ s.dogGone))
    (hl : FairTo dbg trs τ g fun s s' => s.down = true ∧ s'.sys.listening ≠ s.sys.listening)
    (hd : ∃ n, g ∈ (τ n).world.made ∧ (τ n).down ((τ n).keeper g.connection).runtime = true) :
    (∃ n, ∀ k, n ≤ k → ((τ k).keeper g.connection).listening = false ∧
      (((τ k).keeper g.connection).dog = .stopped ∨ ((τ k).keeper g.connection).dogGone = true)) ∧
    ((∃ n, g ∈ (τ n).world.made ∧
        ∀ k, some k ∈ (τ n).world.handles → k.connection ≠ g.connection) →
      ∃ n, ∀ k, n ≤ k → ((τ k).keeper g.connection).released = true) := by
  obtain ⟨m, sp, h1, h2, h3⟩ := storms_forever h hg
  obtain ⟨a, ha, ha'⟩ := hd
  have key := C121_shutdown h3 (fair_one h hc h2 _) (fair_one h hl h2 _)
    ⟨_, fromNew_some (P := fun s => s.down = true) (h1 a ha) ha'⟩
  refine ⟨fromNew_all (P := fun s => s.sys.listening = false ∧ (s.sys.dog = .stopped ∨ s.dogGone = true))
    key.1, fun ⟨b, hb, hb'⟩ => fromNew_all (P := fun s => s.sys.released = true) (key.2 ⟨_,
      fromNew_some (P := fun s => s.sys.handles = 0) (h1 b hb)
        (holders_none (w := shade (τ b).world) hb')⟩)⟩

/-- **C123**, requests: a request on a socket whose own connection always returns or panics ends, and its frame
has been handed over; other connections may never return. No ids of that socket are in use, or there are few
of them and few requests on that socket. -/
theorem C123_request (h : StormsForever dbg trs τ) {n : Nat} {g : Handle} (hg : g ∈ (τ n).world.made)
    (hno : ∀ sent f, trs g.connection sent f ≠ .diverge)
    (hr : (∀ k x, g ∈ (τ k).world.made → (τ k).world.memory.store g.receivers x = false) ∨
      ∃ keys : List U32,
        (∀ k x, g ∈ (τ k).world.made → (τ k).world.memory.store g.receivers x = true → x ∈ keys) ∧
        ∀ k, g ∈ (τ k).world.made → (wildSocketOf (τ k).world g).calls.length + keys.length ≤ 2 ^ 30)
    {i : Nat}
    (hf : FairTo dbg trs τ g fun s s' => WildMoves s.sys.conc s'.sys.conc i) {c : Call}
    (hi : (wildSocketOf (τ n).world g).calls[i]? = some c) :
    ∃ k sid, n ≤ k ∧
      ((∃ r, (wildSocketOf (τ k).world g).calls[i]? = some (.done (callPayload c) sid r)) ∨
        (wildSocketOf (τ k).world g).calls[i]? = some (.panicked (callPayload c)) ∧
          PanickedOn (trs g.connection) ((τ k).world.memory.wire g.connection) sid) ∧
      fnfFrame sid false (callPayload c) ∈ framesOf ((τ k).keeper g.connection).happened := by
  obtain ⟨m, sp, h1, h2, h3⟩ := storms_forever h hg
  obtain ⟨k, sid, hk, hc, hw⟩ := C121_request hno h3 (hr.imp (fun hr k x => by
      cases k with
      | zero => rfl
      | succ k => exact hr (m + k) x (h2 k)) fun ⟨keys, hr, hl⟩ => ⟨keys, fun k x hx => by
      cases k with
      | zero => cases hx
      | succ k => exact hr (m + k) x (h2 k) hx, fun k => by
      cases k with
      | zero =>
        show 0 + keys.length ≤ 2 ^ 30
        have := hl m (h2 0)
        omega
      | succ k => exact hl (m + k) (h2 k)⟩) (fair_one h hf h2 _)
    (fromNew_some (P := fun s => s.sys.conc.calls[i]? = some c) (h1 n hg) hi)
  have hm := h1 n hg
  rw [fromNew_at (by omega)] at hc hw
  exact ⟨m + (k - 1), sid, by omega, hc, hw⟩

/-! ## Examples -/

/-- The first connection panics whenever it is handed a frame; the others never return. -/
def firstPanics : Nat → WildTransport := fun a _ _ => if a = 1 then .panic "no" else .diverge

/-- The hypotheses of `C123_watchdog`, `C123_closes` and `C123_released` for the first of two sockets, whose
connection panics in `close` and in its status stream. The second is in use and is not closed. -/
example : ∃ (τ : Nat → Storms) (g k : Handle) (N : Nat), StormsForever true firstPanics τ ∧
    StormsEveryTime τ ∧ g ∈ (τ N).world.made ∧ FairTo true firstPanics τ g StormDogMoves ∧
    (FairTo true firstPanics τ g fun s s' => s'.dogGone = s.dogGone ∧ StormDogMoves s s') ∧
    (∀ n, g ∈ (τ n).world.made → ((τ n).keeper g.connection).dogGone = false) ∧
    (∃ n, g ∈ (τ n).world.made ∧
      ∀ k, some k ∈ (τ n).world.handles → k.connection ≠ g.connection) ∧
    (∃ n, g ∈ (τ n).world.made ∧ ((τ n).keeper g.connection).listening = false) ∧
    ∀ n, N ≤ n → some k ∈ (τ n).world.handles ∧ ((τ n).keeper g.connection).panics = 2 ∧
      ((τ n).keeper k.connection).dog = .sleeping ∧ ((τ n).keeper k.connection).dogGone = false ∧
      ((τ n).keeper k.connection).happened = [] ∧ ((τ n).keeper k.connection).released = false := by
  let g : Handle := ⟨.client, 0, 1, 2, 3, none, 60, 0⟩
  let k : Handle := ⟨.server, 4, 5, 6, 7, none, 60, 0⟩
  let P : Storms → Prop := fun t => (t.keeper 1).dogGone = false
  have keep : ∀ s : Storms, True → True := fun _ h => h
  have r0 : ComesTo true firstPanics P (fun _ => True) (Storms.init 0) := comesTo_init rfl trivial
  have r1 := comesTo_step r0 (.new _ .client 60 0 0 (by decide)) rfl (.inl keep)
  have r2 := comesTo_step r1 (.new _ .server 60 0 0 (by decide)) rfl (.inl keep)
  have r3 := comesTo_step r2 (.statusPanics _ g (.head _) rfl) rfl (.inl keep)
  have r4 := comesTo_step r3 (.drop _ 0 g rfl (by intro _ c hc; cases hc)) rfl (.inl keep)
  have r5 := comesTo_step r4 (.time _ 61 (by decide)) rfl (.inl keep)
  have r6 := comesTo_step r5 (.wakeLate _ g (.head _) rfl rfl (by decide) (by decide)) rfl (.inl keep)
  have r7 := comesTo_step r6 (.dogPanics _ g (.head _) rfl rfl) rfl (.inl keep)
  obtain ⟨τ, N, h1, h2, h3, h4, -⟩ := comesTo_ticks r7 fun _ => rfl
  have made : ∀ n, N ≤ n → g ∈ (τ n).world.made := fun n hn => by
    obtain ⟨now, -, e⟩ := h3 n hn
    rw [e]
    exact .head _
  have still : ∀ n s', N ≤ n →
      Storm.Step true (firstPanics g.connection) (stormOf (τ n) g) s' ∨ s' = stormOf (τ n) g →
      ¬ StormDogMoves (stormOf (τ n) g) s' := by
    intro n s' hn hs
    obtain ⟨now, -, e⟩ := h3 n hn
    rw [e] at hs ⊢
    rcases hs with hs | rfl
    · exact storm_dog_still hs (.inl ⟨rfl, rfl⟩)
    · rintro (hm | hm | ⟨hm, -⟩)
      · exact hm rfl
      · exact hm rfl
      · exact nomatch (show Dog.stopped = Dog.sleeping from hm)
  obtain ⟨now, -, e⟩ := h3 N (Nat.le_refl _)
  refine ⟨τ, g, k, N, h1, h2, made N (Nat.le_refl _), fairTo_rest h1 made still,
    fairTo_rest h1 made fun n s' hn hs ha => still n s' hn hs ha.2, fun n _ => h4 n,
    ⟨N, made N (Nat.le_refl _), ?_⟩, ⟨N, made N (Nat.le_refl _), ?_⟩, fun n hn => ?_⟩
  · rw [e]
    intro h hh
    rcases List.mem_cons.1 hh with hh | hh
    · cases hh
    · cases List.mem_singleton.1 hh
      decide
  · rw [e]
    rfl
  · obtain ⟨now, -, e⟩ := h3 n hn
    rw [e]
    exact ⟨.tail _ (.head _), rfl, rfl, rfl, rfl, rfl⟩

/-- The hypotheses of `C123_shutdown` for the first of two sockets on different runtimes. The tasks of the
second go on. -/
example : ∃ (τ : Nat → Storms) (g k : Handle) (N : Nat), StormsForever true firstPanics τ ∧
    g ∈ (τ N).world.made ∧
    (FairTo true firstPanics τ g fun s s' =>
      s.down = true ∧ (s'.sys.dog ≠ s.sys.dog ∨ s'.dogGone ≠ s.dogGone)) ∧
    (FairTo true firstPanics τ g fun s s' =>
      s.down = true ∧ s'.sys.listening ≠ s.sys.listening) ∧
    (∃ n, g ∈ (τ n).world.made ∧ (τ n).down ((τ n).keeper g.connection).runtime = true) ∧
    (∃ n, g ∈ (τ n).world.made ∧
      ∀ k, some k ∈ (τ n).world.handles → k.connection ≠ g.connection) ∧
    ∀ n, N ≤ n → some k ∈ (τ n).world.handles ∧
      ((τ n).keeper k.connection).listening = true ∧ ((τ n).keeper k.connection).dogGone = false := by
  let g : Handle := ⟨.client, 0, 1, 2, 3, none, 60, 0⟩
  let k : Handle := ⟨.server, 4, 5, 6, 7, none, 60, 0⟩
  have keep : ∀ s : Storms, True → True := fun _ h => h
  have r0 : ComesTo true firstPanics (fun _ => True) (fun _ => True) (Storms.init 0) :=
    comesTo_init trivial trivial
  have r1 := comesTo_step r0 (.new _ .client 60 0 0 (by decide)) trivial (.inl keep)
  have r2 := comesTo_step r1 (.new _ .server 60 0 1 (by decide)) trivial (.inl keep)
  have r3 := comesTo_step r2 (.shutdown _ 0) trivial (.inl keep)
  have r4 := comesTo_step r3 (.dropDog _ g (.head _) rfl rfl rfl) trivial (.inl keep)
  have r5 := comesTo_step r4 (.dropListener _ g (.head _) rfl rfl) trivial (.inl keep)
  obtain ⟨τ, N, h1, h3, -, -⟩ :=
    comesTo_step r5 (.drop _ 0 g rfl (by intro _ c hc; cases hc)) trivial (.inl keep)
  have made : ∀ n, N ≤ n → g ∈ (τ n).world.made := fun n hn => by
    rw [h3 n hn]
    exact .head _
  refine ⟨τ, g, k, N, h1, made N (Nat.le_refl _), fairTo_rest h1 made fun n s' hn hs ha => ?_,
    fairTo_rest h1 made fun n s' hn hs ha => ?_, ⟨N, made N (Nat.le_refl _), ?_⟩,
    ⟨N, made N (Nat.le_refl _), ?_⟩, fun n hn => ?_⟩
  · rw [h3 n hn] at hs ha
    rcases hs with hs | rfl
    · rcases ha.2 with ha | ha
      · cases hs with
        | run s hs hg => exact absurd (hg rfl).1 ha
        | _ => exact absurd rfl ha
      · exact absurd ((storm_keeps hs).1 rfl) ha
    · exact ha.2.elim (absurd rfl) (absurd rfl)
  · rw [h3 n hn] at hs ha
    rcases hs with hs | rfl
    · exact absurd ((storm_keeps hs).2.1 rfl) ha.2
    · exact absurd rfl ha.2
  · rw [h3 N (Nat.le_refl _)]
    rfl
  · rw [h3 N (Nat.le_refl _)]
    intro h hh
    rcases List.mem_cons.1 hh with hh | hh
    · cases hh
    · cases List.mem_singleton.1 hh
      decide
  · rw [h3 n hn]
    exact ⟨.tail _ (.head _), rfl, rfl⟩

/-- The hypotheses of `C123_request` for a call on the first of two sockets. A call on the second is stuck in
its connection. -/
example : ∃ (τ : Nat → Storms) (g k : Handle) (p : Payload) (n N : Nat), StormsForever false firstPanics τ ∧
    g ∈ (τ n).world.made ∧ (∀ sent f, firstPanics g.connection sent f ≠ .diverge) ∧
    (∀ k x, g ∈ (τ k).world.made → (τ k).world.memory.store g.receivers x = false) ∧
    (FairTo false firstPanics τ g fun s s' => WildMoves s.sys.conc s'.sys.conc 0) ∧
    (wildSocketOf (τ n).world g).calls[0]? = some (.probing p) ∧
    ∀ n, N ≤ n → ∃ sid, (wildSocketOf (τ n).world k).calls = [.sendingOne p sid] := by
  let p : Payload := ⟨none, some [1#8]⟩
  let g : Handle := ⟨.client, 0, 1, 2, 3, none, 60, 0⟩
  let k : Handle := ⟨.server, 4, 5, 6, 7, none, 60, 0⟩
  let P : Storms → Prop := fun t => ∀ x, t.world.memory.store g.receivers x = false
  let Q : Storms → Prop := fun t =>
    g ∈ t.world.made ∧ (wildSocketOf t.world g).calls[0]? = some (.probing p)
  have keep : ∀ s : Storms, Q s → Q s := fun _ h => h
  have none : ∀ s : Storms, True → True := fun _ h => h
  have r0 : ComesTo false firstPanics P (fun _ => True) (Storms.init 0) :=
    comesTo_init (fun _ => rfl) trivial
  have r1 := comesTo_step r0 (.new _ .client 60 0 0 (by decide)) (fun _ => rfl) (.inl none)
  have r2 := comesTo_step r1 (.new _ .server 60 0 0 (by decide)) (fun _ => rfl) (.inl none)
  have r3 := comesTo_step r2 (.request _ _ (.call _ 1 k p rfl)) (fun _ => rfl) (.inl none)
  have r4 := comesTo_step r3 (.request _ _ (.fetch _ 0 k p rfl)) (fun _ => rfl) (.inl none)
  have r5 := comesTo_step r4 (.request _ _ (.checkFree _ 0 k p _ rfl (by decide +kernel)))
    (fun _ => rfl) (.inl none)
  have r6 := comesTo_step (Q' := Q) r5 (.request _ _ (.call _ 0 g p rfl)) (fun _ => rfl)
    (.inr ⟨.head _, rfl⟩)
  have r7 := comesTo_step r6 (.request _ _ (.fetch _ 1 g p rfl)) (fun _ => rfl) (.inl keep)
  have r8 := comesTo_step r7 (.request _ _ (.checkFree _ 1 g p _ rfl (by decide +kernel)))
    (fun _ => rfl) (.inl keep)
  obtain ⟨τ, N, h1, h3, h4, n, h5, h6⟩ := comesTo_step r8
    (.request _ _ (.sendOnePanic _ 1 g p _ ⟨_, ⟨0#16⟩, p⟩ "no" rfl rfl rfl)) (fun _ => rfl) (.inl keep)
  have made : ∀ n, N ≤ n → g ∈ (τ n).world.made := fun n hn => by
    rw [h3 n hn]
    exact .head _
  refine ⟨τ, g, k, p, n, N, h1, h5, nofun, fun n x _ => h4 n x,
    fairTo_rest h1 made fun n s' hn hs ha => ?_, h6, fun n hn => ?_⟩
  · rw [h3 n hn] at hs ha
    rcases hs with hs | rfl
    · exact storm_ended_still hs (c := .panicked p) rfl rfl ha
    · obtain ⟨c, h1, h2⟩ := ha
      exact h2 h1
  · rw [h3 n hn]
    exact ⟨_, rfl⟩

end Binate
