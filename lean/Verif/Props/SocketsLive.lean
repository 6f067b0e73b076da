import Verif.Lemmas.SocketsLive

/-! # Each of any number of sockets is served in the end

C119. -/

namespace Binate

open Spec RSocketMachine

variable {dbg : Bool} {trs : Nat → Transport} {τ : Nat → Sockets}

/-- **C119**: whatever other sockets do and however many are made, a socket whose watchdog is not kept from
running for ever is closed by it, once, in the end. -/
theorem C119_closes (h : AllForever dbg trs τ) (ht : EveryTime τ) {n : Nat} {g : Handle}
    (hg : g ∈ (τ n).world.made) (hf : ItsDogScheduled dbg trs τ g) :
    ∃ n, ∀ k, n ≤ k → ((τ k).keeper g.connection).dog = .stopped ∧
      closesOf ((τ k).keeper g.connection).happened = ((τ k).keeper g.connection).userCloses + 1 := by
  obtain ⟨m, sp, -, h2, h3⟩ := one_forever h hg
  obtain ⟨j, hj⟩ := goesOn_closes h3 (shift_time ht m g h) (shift_dog h hf h2)
  exact ⟨m + j, shift_all hj⟩

/-- **C119**: if in addition all handles of the socket are dropped at some time and its listener has ended,
its connection is dropped in the end, whatever other sockets are still in use. -/
theorem C119_released (h : AllForever dbg trs τ) (ht : EveryTime τ) {n : Nat} {g : Handle}
    (hg : g ∈ (τ n).world.made) (hf : ItsDogScheduled dbg trs τ g)
    (hd : ∃ n, g ∈ (τ n).world.made ∧ ∀ k, some k ∈ (τ n).world.handles → k.connection ≠ g.connection)
    (hl : ∃ n, g ∈ (τ n).world.made ∧ ((τ n).keeper g.connection).listening = false) :
    ∃ n, ∀ k, n ≤ k → ((τ k).keeper g.connection).released = true := by
  obtain ⟨m, sp, h1, h2, h3⟩ := one_forever h hg
  obtain ⟨a, ha, hd⟩ := hd
  obtain ⟨b, hb, hl⟩ := hl
  obtain ⟨j, hj⟩ := goesOn_released h3 (shift_time ht m g h) (shift_dog h hf h2)
    ⟨a - m, by
      show (systemOf (τ (m + (a - m))) g).handles = 0
      rw [Nat.add_sub_cancel' (h1 a ha)]
      exact holders_none hd⟩
    ⟨b - m, by
      show (systemOf (τ (m + (b - m))) g).listening = false
      rw [Nat.add_sub_cancel' (h1 b hb)]
      exact hl⟩
  exact ⟨m + j, shift_all hj⟩

/-- **C119**: a request on a free machine, whose thread is not kept from running for ever, returns in the end
and has handed its frame to its own connection. No ids of that socket are in use, or there are few of them and
few requests on that socket. -/
theorem C119_request (h : AllForever dbg trs τ) {n : Nat} {g : Handle} (hg : g ∈ (τ n).world.made)
    (hr : (∀ k x, g ∈ (τ k).world.made → (τ k).world.memory.store g.receivers x = false) ∨
      ∃ keys : List U32,
        (∀ k x, g ∈ (τ k).world.made → (τ k).world.memory.store g.receivers x = true → x ∈ keys) ∧
        ∀ k, g ∈ (τ k).world.made → (systemOf (τ k) g).conc.calls.length + keys.length ≤ 2 ^ 30)
    {i : Nat}
    (hf : ItsCallScheduled dbg trs τ g i) {c : Call}
    (hi : (systemOf (τ n) g).conc.calls[i]? = some c) :
    ∃ k sid r, n ≤ k ∧ (systemOf (τ k) g).conc.calls[i]? = some (.done (callPayload c) sid r) ∧
      fnfFrame sid false (callPayload c) ∈ framesOf ((τ k).keeper g.connection).happened := by
  obtain ⟨m, sp, h1, h2, h3⟩ := one_forever h hg
  have hi' : (systemOf (τ (m + (n - m))) g).conc.calls[i]? = some c := by
    rw [Nat.add_sub_cancel' (h1 n hg)]
    exact hi
  obtain ⟨k, sid, r, h4, h5, h6⟩ := goesOn_request h3
    (hr.imp (fun hr k x => hr _ x (h2 k)) fun ⟨keys, hr, hl⟩ =>
      ⟨keys, fun k x => hr _ x (h2 k), fun k => hl _ (h2 k)⟩) (shift_call h hf h2) hi'
  exact ⟨m + k, sid, r, by have := h1 n hg; omega, h5, h6⟩

/-! ## Examples -/

/-- Two sockets of the same age that have timed out. -/
def pairLate : Sockets :=
  { world := { World.init with
      memory := (World.init.memory.alloc .client).alloc .server
      handles := [none, some ⟨.server, 4, 5, 6, 7, none, 60, 0⟩]
      made := [⟨.client, 0, 1, 2, 3, none, 60, 0⟩, ⟨.server, 4, 5, 6, 7, none, 60, 0⟩] }
    keeper := put (put (put (put (fun _ => Keeper.new 0) 1 (Keeper.new 0)) 5 (Keeper.new 0)) 1
      (Keeper.new 0).release) 1 { (Keeper.new 0).release.release with listening := false }
    clock := 61 }

/-- The watchdog of the first has logged. -/
def pairLogged : Sockets :=
  { pairLate with
    keeper := put pairLate.keeper 1
      { (pairLate.keeper 1).emit ((handleError timeoutDisplay).map .act) with dog := .timedOut } }

/-- The watchdog of the first has closed its connection. -/
def pairClosed : Sockets :=
  { pairLogged with
    keeper := put pairLogged.keeper 1
      { ((pairLogged.keeper 1).emit [.act .close]).release with dog := .stopped } }

/-- Two sockets; the handle of the first is dropped, its listener ends, and it is closed by its watchdog. The
watchdog of the second never runs. -/
def pairRun : Nat → Sockets
  | 0 => Sockets.init 0
  | 1 => { Sockets.init 0 with
      world := { World.init with
        memory := World.init.memory.alloc .client
        handles := [some ⟨.client, 0, 1, 2, 3, none, 60, 0⟩]
        made := [⟨.client, 0, 1, 2, 3, none, 60, 0⟩] }
      keeper := put (fun _ => Keeper.new 0) 1 (Keeper.new 0) }
  | 2 => { pairLate with
      world := { pairLate.world with
        handles := [some ⟨.client, 0, 1, 2, 3, none, 60, 0⟩, some ⟨.server, 4, 5, 6, 7, none, 60, 0⟩] }
      keeper := put (put (fun _ => Keeper.new 0) 1 (Keeper.new 0)) 5 (Keeper.new 0)
      clock := 0 }
  | 3 => { pairLate with
      keeper := put (put (put (fun _ => Keeper.new 0) 1 (Keeper.new 0)) 5 (Keeper.new 0)) 1
        (Keeper.new 0).release
      clock := 0 }
  | 4 => { pairLate with clock := 0 }
  | 5 => pairLate
  | 6 => pairLogged
  | 7 => pairClosed
  | n + 8 => { pairClosed with clock := 61 + n }

/-- The hypotheses of `C119_closes` and `C119_released` for the first of two sockets: the second is in use and
is not closed. -/
example : ∃ (τ : Nat → Sockets) (g k : Handle), AllForever true (fun _ => openTransport) τ ∧ EveryTime τ ∧
    g ∈ (τ 1).world.made ∧ ItsDogScheduled true (fun _ => openTransport) τ g ∧
    (∃ n, g ∈ (τ n).world.made ∧
      ∀ k, some k ∈ (τ n).world.handles → k.connection ≠ g.connection) ∧
    (∃ n, g ∈ (τ n).world.made ∧ ((τ n).keeper g.connection).listening = false) ∧
    ∀ n, 2 ≤ n → some k ∈ (τ n).world.handles ∧ ((τ n).keeper k.connection).dog = .sleeping ∧
      ((τ n).keeper k.connection).happened = [] ∧ ((τ n).keeper k.connection).released = false := by
  let g : Handle := ⟨.client, 0, 1, 2, 3, none, 60, 0⟩
  let k : Handle := ⟨.server, 4, 5, 6, 7, none, 60, 0⟩
  have tr := fun _ : Nat => openTransport
  have run : AllForever true (fun _ => openTransport) pairRun := by
    refine ⟨⟨0, rfl⟩, fun n => ?_⟩
    match n with
    | 0 => exact .inl (.new _ .client 60 0 (by decide))
    | 1 => exact .inl (.new _ .server 60 0 (by decide))
    | 2 => exact .inl (.drop _ 0 g rfl (by intro _ c hc; cases hc))
    | 3 => exact .inl (.statusEnd _ g (.head _) rfl)
    | 4 => exact .inl (.time _ 61 (by decide))
    | 5 => exact .inl (.wakeLate _ g (.head _) rfl (by decide) (by decide))
    | 6 => exact .inl (.dogCloses _ g (.head _) rfl)
    | 7 => exact .inr rfl
    | n + 8 => exact .inl (.time _ (61 + (n + 1)) (by show 61 + n ≤ 61 + (n + 1); omega))
  refine ⟨pairRun, g, k, run, fun t => ⟨t + 8, ?_⟩, .head _, fun n hn => ?_,
    ⟨3, .head _, ?_⟩, ⟨4, .head _, rfl⟩, fun n hn => ?_⟩
  · show t ≤ 61 + t
    omega
  · obtain ⟨t', ht, hd⟩ := hn (n + 8) (by omega)
    exact absurd hd (stopped_rests (always_reachable run (n + 8)) ht (.head _) rfl)
  · intro h hh
    rcases List.mem_cons.1 hh with hh | hh
    · cases hh
    · cases List.mem_singleton.1 hh
      decide
  · match n, hn with
    | 2, _ => exact ⟨.tail _ (.head _), rfl, rfl, rfl⟩
    | 3, _ => exact ⟨.tail _ (.head _), rfl, rfl, rfl⟩
    | 4, _ => exact ⟨.tail _ (.head _), rfl, rfl, rfl⟩
    | 5, _ => exact ⟨.tail _ (.head _), rfl, rfl, rfl⟩
    | 6, _ => exact ⟨.tail _ (.head _), rfl, rfl, rfl⟩
    | 7, _ => exact ⟨.tail _ (.head _), rfl, rfl, rfl⟩
    | n + 8, _ => exact ⟨.tail _ (.head _), rfl, rfl, rfl⟩

/-- The hypotheses of `C119_request`: a call on the second of two sockets, which begins and is not kept
waiting. -/
example : ∃ (τ : Nat → Sockets) (g : Handle) (p : Payload), AllForever false (fun _ => openTransport) τ ∧
    g ∈ (τ 3).world.made ∧
    (∀ k x, g ∈ (τ k).world.made → (τ k).world.memory.store g.receivers x = false) ∧
    ItsCallScheduled false (fun _ => openTransport) τ g 0 ∧
    (systemOf (τ 3) g).conc.calls[0]? = some (.probing p) := by
  let p : Payload := ⟨none, some [1#8]⟩
  let g : Handle := ⟨.client, 4, 5, 6, 7, none, 60, 0⟩
  have h0 : AllForever false (fun _ => openTransport) fun _ => Sockets.init 0 :=
    ⟨⟨0, rfl⟩, fun _ => .inr rfl⟩
  obtain ⟨τ1, h1, e1, r1⟩ := extend_rest h0 (N := 0) (fun _ _ => rfl) (.new _ .server 60 0 (by decide))
  obtain ⟨τ2, h2, e2, r2⟩ := extend_rest h1 r1 (.new _ .client 60 0 (by decide))
  obtain ⟨τ3, h3, e3, r3⟩ := extend_rest h2 r2 (.request _ _ (.call _ 1 g p rfl) rfl (fun _ _ _ => rfl))
  obtain ⟨τ4, h4, e4, r4⟩ := extend_rest h3 r3 (.request _ _ (.fetch _ 0 g p rfl) rfl (fun _ _ _ => rfl))
  obtain ⟨τ5, h5, e5, r5⟩ := extend_rest h4 r4
    (.request _ _ (.checkFree _ 0 g p _ rfl (by decide +kernel)) rfl (fun _ _ _ => rfl))
  obtain ⟨τ6, h6, e6, r6⟩ := extend_rest h5 r5
    (.request _ _ (.sendOne _ 0 g p _ ⟨_, ⟨0#16⟩, p⟩ rfl rfl) rfl (fun _ _ _ => rfl))
  have a0 : τ6 0 = Sockets.init 0 := by
    rw [e6 0 (by decide), e5 0 (by decide), e4 0 (by decide), e3 0 (by decide), e2 0 (by decide),
      e1 0 (by decide)]
  have a1 := ((e6 1 (by decide)).trans ((e5 1 (by decide)).trans ((e4 1 (by decide)).trans
    ((e3 1 (by decide)).trans (e2 1 (by decide)))))).trans (r1 1 (by decide))
  have a2 := ((e6 2 (by decide)).trans ((e5 2 (by decide)).trans ((e4 2 (by decide)).trans
    (e3 2 (by decide))))).trans (r2 2 (by decide))
  have a3 := ((e6 3 (by decide)).trans ((e5 3 (by decide)).trans (e4 3 (by decide)))).trans
    (r3 3 (by decide))
  have a4 := ((e6 4 (by decide)).trans (e5 4 (by decide))).trans (r4 4 (by decide))
  have a5 := (e6 5 (by decide)).trans (r5 5 (by decide))
  refine ⟨τ6, g, p, h6, ?_, fun k x hk => ?_, fun n hn => ?_, ?_⟩
  · rw [a3]
    exact .tail _ (.head _)
  · match k with
    | 0 => rw [a0]; rfl
    | 1 => rw [a1] at hk; exact absurd hk (by decide)
    | 2 => rw [a2]; rfl
    | 3 => rw [a3]; rfl
    | 4 => rw [a4]; rfl
    | 5 => rw [a5]; rfl
    | k + 6 => rw [r6 (k + 6) (by omega)]; rfl
  · obtain ⟨t', ht, hm⟩ := hn (n + 6) (by omega)
    have reach := always_reachable h6 (n + 6)
    rw [r6 (n + 6) (by omega)] at ht hm reach
    exact absurd hm (ended_rests reach ht (.tail _ (.head _)) (c := .done p _ (.ok ())) rfl rfl)
  · rw [a3]
    rfl

end Binate
