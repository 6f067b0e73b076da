import Verif.Lemmas.StreamId

/-! # Properties of stream id allocation

C39–C43. `Reachable p s` ranges over all interleavings of any number of threads calling
`next_stream_id`, and of arbitrary changes of the store by the environment. -/

namespace Binate

open Spec StreamIdProvider

/-! ## C39 -/

/-- **C39**, general form: every returned id is below 2^31 and has the parity of the initial
counter. -/
theorem C39_range_parity {p : StreamIdProvider} {s : Sys} (h : Reachable p s) {x : U32}
    (hx : x ∈ returnedIds s) : x.toNat < 2 ^ 31 ∧ x.toNat % 2 = p.word.toNat % 2 := by
  obtain ⟨e, he, rfl⟩ := List.mem_map.1 hx
  have di := drawInv h
  obtain ⟨n, -, hn⟩ := di.drawn _ (di.returned e he).1
  rw [hn]
  exact ⟨idAt_lt _ _, idAt_parity _ _⟩

/-- **C39**, client ids are odd. -/
theorem C39_client_odd {s : Sys} (h : Reachable newForClient s) {x : U32}
    (hx : x ∈ returnedIds s) : x.toNat < 2 ^ 31 ∧ x.toNat % 2 = 1 := C39_range_parity h hx

/-- **C39**, server ids are even. -/
theorem C39_server_even {s : Sys} (h : Reachable newForServer s) {x : U32}
    (hx : x ∈ returnedIds s) : x.toNat < 2 ^ 31 ∧ x.toNat % 2 = 0 := C39_range_parity h hx

example : ∃ s, Reachable newForClient s ∧ (returnedIds s).map BitVec.toNat = [5, 3, 1] := by
  obtain ⟨s, h1, -, -, -, h5⟩ := solo_run newForClient 3
  exact ⟨s, h1, h5⟩

/-! ## C40 -/

/-- **C40.** Whenever a step makes a call return an id, that id is not in the store of that very
moment, it is the id the caller last drew, and nothing else changes in the store. -/
theorem C40_free_at_check {s s' : Sys} (hs : Step s s') (hne : s'.returned ≠ s.returned) :
    ∃ t x, s'.returned = (t, x, s.store) :: s.returned ∧ s.pc t = .checking x ∧
      s.store x = false ∧ s'.store = s.store ∧ s'.pc t = .idle := by
  cases hs with
  | call => exact absurd rfl hne
  | fetch => exact absurd rfl hne
  | checkFree t sid h1 h2 =>
    exact ⟨t, sid, rfl, h1, h2, rfl, by show (s.setPc t .idle).pc t = _; rw [setPc_pc, if_pos rfl]⟩
  | checkUsed => exact absurd rfl hne
  | env => exact absurd rfl hne

/-- **C40**, over whole executions: every id that was ever returned was absent from the store that
its check saw. -/
theorem C40_all_returned {p : StreamIdProvider} {s : Sys} (h : Reachable p s) :
    ∀ e ∈ s.returned, e.2.2 e.2.1 = false := fun e he => ((drawInv h).returned e he).2

/-- Thread 7 is about to return id 1, while id 3 is in use. -/
example : ∃ s s', Reachable newForClient s ∧ Step s s' ∧ s'.returned ≠ s.returned ∧ s.store 3#32 = true := by
  have h1 := Reachable.step (.init (fun x => x == 3#32)) (.call (Sys.init newForClient _) 7 rfl)
  have h2 := h1.step (.fetch _ 7 rfl)
  exact ⟨_, _, h2, .checkFree _ 7 1#32 rfl rfl, nofun, rfl⟩

/-! ## C41 -/

/-- **C41.** While at most 2^30 ids have been drawn from the counter, no id has been returned
twice, and no id that some thread is still checking has been returned to another one. -/
theorem C41_unique {p : StreamIdProvider} {s : Sys} (h : Reachable p s)
    (hn : s.drawn.length ≤ 2 ^ 30) :
    (returnedIds s).Nodup ∧ ∀ t x, s.pc t = .checking x → x ∉ returnedIds s :=
  ⟨(uniqueInv h hn).returned, (uniqueInv h hn).checking⟩

/-- **C41**, the bound is sharp: with one more draw an id is returned twice. -/
theorem C41_sharp (p : StreamIdProvider) :
    ∃ s, Reachable p s ∧ s.drawn.length = 2 ^ 30 + 1 ∧ ¬ (returnedIds s).Nodup := by
  have key : ∀ n, n = 2 ^ 30 → ∃ s, Reachable p s ∧ s.drawn.length = n + 1 ∧
      ¬ (returnedIds s).Nodup := by
    intro n hn
    obtain ⟨s, h1, h2, -, -, h5⟩ := solo_run p (n + 1)
    refine ⟨s, h1, h2, fun hd => ?_⟩
    have hd' : ((returnedIds s).map BitVec.toNat).Nodup := by
      rw [List.nodup_iff_pairwise_ne, List.pairwise_map]
      exact (List.nodup_iff_pairwise_ne.1 hd).imp fun hab he => hab (BitVec.eq_of_toNat_eq he)
    rw [h5, List.nodup_iff_pairwise_ne, List.pairwise_reverse, List.pairwise_map] at hd'
    have := List.pairwise_iff_getElem.1 hd' 0 n (by rw [List.length_range]; omega)
      (by rw [List.length_range]; omega) (by omega)
    rw [List.getElem_range, List.getElem_range] at this
    apply this
    have hp := idAt_period p.word.toNat 0
    rw [Nat.zero_add] at hp
    rw [hn, hp]
  exact key _ rfl

/-- Two threads hold different ids at the same time, one returned and one not yet. -/
example : ∃ s, Reachable newForServer s ∧ s.drawn.length ≤ 2 ^ 30 ∧ s.pc 0 = .checking 2#32 ∧
    returnedIds s = [4#32] := by
  have h1 := Reachable.step (.init (fun _ => false)) (.call (Sys.init newForServer _) 0 rfl)
  have h2 := (h1.step (.fetch _ 0 rfl)).step (.call _ 1 rfl)
  have h3 := h2.step (.fetch _ 1 rfl)
  exact ⟨_, h3.step (.checkFree _ 1 4#32 rfl rfl), by decide, rfl, rfl⟩

/-! ## C42 -/

/-- **C42**, termination: if all keys of the right parity are among fewer than 2^30 listed ones, a
call that runs alone returns within (number of listed keys) + 1 probes. -/
theorem C42_terminates (p : StreamIdProvider) (store : Store) (keys : List U32)
    (hk : keys.length < 2 ^ 30)
    (hs : ∀ x, store x = true → x.toNat % 2 = p.word.toNat % 2 → x ∈ keys) :
    ∃ r, nextStreamId store (keys.length + 1) p = .ok r := by
  obtain ⟨k, h1, h2⟩ := exists_free (w := p.word.toNat) hk
  rcases nextStreamId_cases store p (keys.length + 1) with h | h
  · exact h
  · exfalso
    have e : (BitVec.ofNat 32 (idAt p.word.toNat k)).toNat = idAt p.word.toNat k := by
      rw [BitVec.toNat_ofNat, Nat.mod_eq_of_lt]
      exact Nat.lt_trans (idAt_lt _ _) (by omega)
    have hfree : inUse store (idAt p.word.toNat k) = false := by
      cases hu : inUse store (idAt p.word.toNat k) with
      | false => rfl
      | true => exact absurd (hs _ hu (by rw [e]; exact idAt_parity _ _)) h2
    -- the first free index
    have : ∃ m, m ≤ k ∧ inUse store (idAt p.word.toNat m) = false ∧
        ∀ j, j < m → inUse store (idAt p.word.toNat j) = true := by
      clear h h1 h2 e
      induction k using Nat.strongRecOn with
      | ind k ih =>
        by_cases hall : ∀ j, j < k → inUse store (idAt p.word.toNat j) = true
        · exact ⟨k, Nat.le_refl _, hfree, hall⟩
        · obtain ⟨j, hj⟩ := Classical.not_forall.1 hall
          obtain ⟨hj1, hj2⟩ := Classical.not_imp.1 hj
          obtain ⟨m, m1, m2, m3⟩ := ih j hj1 (Bool.not_eq_true _ ▸ hj2)
          exact ⟨m, by omega, m2, m3⟩
    obtain ⟨m, m1, m2, m3⟩ := this
    have em : (BitVec.ofNat 32 (idAt p.word.toNat m)).toNat = idAt p.word.toNat m := by
      rw [BitVec.toNat_ofNat, Nat.mod_eq_of_lt]
      exact Nat.lt_trans (idAt_lt _ _) (by omega)
    have := (nextStreamId_iff store p (keys.length + 1) 0 (BitVec.ofNat 32 (idAt p.word.toNat m))
      (after p (m + 1))).2 ⟨m, by omega, by omega, em, m2, fun j _ => m3 j, rfl⟩
    rw [after_zero, h] at this
    cases this

/-- **C42**, the result: the returned id is the first free one in counter order, and the counter
moves just past it. -/
theorem C42_first_free (p : StreamIdProvider) (store : Store) (fuel : Nat) (x : U32)
    (q : StreamIdProvider) :
    nextStreamId store fuel p = .ok (x, q) ↔
      ∃ k, k < fuel ∧ x.toNat = idAt p.word.toNat k ∧ store x = false ∧
        (∀ j, j < k → inUse store (idAt p.word.toNat j) = true) ∧
        q.word.toNat = (p.word.toNat + 2 * (k + 1)) % 2 ^ 32 := by
  have h := nextStreamId_iff store p fuel 0 x q
  rw [after_zero] at h
  rw [h]
  constructor
  · rintro ⟨k, -, h2, h3, h4, h5, rfl⟩
    exact ⟨k, by omega, h3, h4, fun j hj => h5 j (Nat.zero_le _) hj, BitVec.toNat_ofNat ..⟩
  · rintro ⟨k, h2, h3, h4, h5, h6⟩
    refine ⟨k, by omega, by omega, h3, h4, fun j _ hj => h5 j hj, ?_⟩
    rcases q with ⟨w⟩
    rw [after, StreamIdProvider.mk.injEq]
    exact BitVec.eq_of_toNat_eq (h6.trans (BitVec.toNat_ofNat ..).symm)

/-- **C42**, non-termination: if every id of the parity is in use, no number of probes is
enough. -/
theorem C42_exhausted (p : StreamIdProvider) (store : Store)
    (hs : ∀ x : U32, x.toNat < 2 ^ 31 → x.toNat % 2 = p.word.toNat % 2 → store x = true)
    (fuel : Nat) : nextStreamId store fuel p = .diverge := by
  rcases nextStreamId_cases store p fuel with ⟨⟨x, q⟩, h⟩ | h
  · obtain ⟨k, -, h2, h3, -⟩ := (C42_first_free p store fuel x q).1 h
    rw [hs x (by rw [h2]; exact idAt_lt _ _) (by rw [h2]; exact idAt_parity _ _)] at h3
    cases h3
  · exact h

example : nextStreamId (fun x => x == 1#32 || x == 3#32) 3 newForClient = .ok (5#32, ⟨7#32⟩) := by
  decide
example : nextStreamId (fun x => x == 1#32 || x == 3#32) 2 newForClient = .diverge := by
  decide

/-! ## C43 -/

/-- **C43**, client side: id 0 is never returned, no matter how long the connection lives. -/
theorem C43_client_nonzero {s : Sys} (h : Reachable newForClient s) : 0#32 ∉ returnedIds s :=
  fun hx => absurd (C39_client_odd h hx).2 (by decide)

/-- **C43** is false for servers: after 2^30 − 1 earlier calls, id 0 is returned. -/
theorem C43_server_zero_false :
    ∃ s, Reachable newForServer s ∧ s.drawn.length = 2 ^ 30 ∧ 0#32 ∈ returnedIds s := by
  have key : ∀ n, n + 1 = 2 ^ 30 → ∃ s, Reachable newForServer s ∧ s.drawn.length = n + 1 ∧
      0#32 ∈ returnedIds s := by
    intro n hn
    obtain ⟨s, h1, h2, -, -, h5⟩ := solo_run newForServer (n + 1)
    refine ⟨s, h1, h2, ?_⟩
    have hm : (0 : Nat) ∈ (returnedIds s).map BitVec.toNat := by
      rw [h5, List.mem_reverse]
      refine List.mem_map.2 ⟨n, List.mem_range.2 (by omega), ?_⟩
      show (2 + 2 * n) % 2 ^ 31 = 0
      omega
    obtain ⟨x, hx, e⟩ := List.mem_map.1 hm
    have : x = 0#32 := BitVec.eq_of_toNat_eq e
    exact this ▸ hx
  exact key (2 ^ 30 - 1) (by omega)

/-- **C43**, server side, as long as fewer than 2^30 ids have been drawn: 0 is not returned. -/
theorem C43_server_nonzero_partial {s : Sys} (h : Reachable newForServer s)
    (hn : s.drawn.length < 2 ^ 30) : 0#32 ∉ returnedIds s := by
  intro hx
  obtain ⟨e, he, e0⟩ := List.mem_map.1 hx
  have di := drawInv h
  obtain ⟨n, h1, h2⟩ := di.drawn _ (di.returned e he).1
  rw [e0] at h2
  have : (0 : Nat) = (2 + 2 * n) % 2 ^ 31 := h2
  omega

example : ∃ s, Reachable newForServer s ∧ s.drawn.length < 2 ^ 30 ∧
    (returnedIds s).map BitVec.toNat = [6, 4, 2] := by
  obtain ⟨s, h1, h2, -, -, h5⟩ := solo_run newForServer 3
  exact ⟨s, h1, by omega, h5⟩

/-! ## C62 -/

/-- **C62**, accounting: in every execution, every id drawn from the counter has been returned by
some call, has failed its check, or is being checked by a thread (`ts` lists at least the threads
that are checking). No bound on the number of draws. -/
theorem C62_accounting {p : StreamIdProvider} {P : Store → Prop} {s : Sys}
    {rej : List (Nat × U32)} (h : Exec p P s rej) {ts : List Nat} (hn : ts.Nodup)
    (hts : ∀ t, isChecking (s.pc t) = true → t ∈ ts) :
    s.drawn.length = s.returned.length + rej.length + ts.countP (fun t => isChecking (s.pc t)) :=
  accounting h ts hn hts

/-- **C62**, wait-freedom: whatever the schedule, if only the listed keys are ever in the store,
then during the first 2^30 draws there are at most as many failed checks as listed keys, by all
threads together. So no call makes more than (number of keys) + 1 probes. -/
theorem C62_failed_checks {p : StreamIdProvider} {P : Store → Prop} {s : Sys}
    {rej : List (Nat × U32)} (h : Exec p P s rej) (hd : s.drawn.length ≤ 2 ^ 30) {keys : List U32}
    (hk : ∀ store, P store → ∀ x, store x = true → x ∈ keys) :
    rej.length ≤ keys.length ∧ (rej.map (·.2)).Nodup ∧ ∀ e ∈ rej, e.2 ∈ keys := by
  have inv := rejInv h hd
  have hm : ∀ e ∈ rej, e.2 ∈ keys := by
    intro e he
    obtain ⟨store, h1, h2⟩ := inv.key e he
    exact hk store h1 _ h2
  refine ⟨?_, inv.nodup, hm⟩
  have hsub : rej.map (·.2) ⊆ keys := by
    intro x hx
    obtain ⟨e, he, rfl⟩ := List.mem_map.1 hx
    exact hm e he
  have := List.Nodup.length_le_of_subset inv.nodup hsub
  rwa [List.length_map] at this

/-- **C62**, system-wide progress: with `n` threads and only the listed keys ever in use, all but
`n` + (number of keys) of the first 2^30 draws end in a returned id. -/
theorem C62_progress {p : StreamIdProvider} {P : Store → Prop} {s : Sys}
    {rej : List (Nat × U32)} (h : Exec p P s rej) (hd : s.drawn.length ≤ 2 ^ 30) {keys : List U32}
    (hk : ∀ store, P store → ∀ x, store x = true → x ∈ keys) {ts : List Nat} (hn : ts.Nodup)
    (hts : ∀ t, isChecking (s.pc t) = true → t ∈ ts) :
    s.drawn.length ≤ s.returned.length + keys.length + ts.length := by
  have h1 := accounting h ts hn hts
  have h2 := (C62_failed_checks h hd hk).1
  have h3 := List.countP_le_length (p := fun t => isChecking (s.pc t)) (l := ts)
  omega

/-- **C62**, the condition on the keys is needed: if keys come and go, then even with never more
than one key in the store a call can be kept from returning for any number of probes. -/
theorem C62_starvation (p : StreamIdProvider) (n : Nat) :
    ∃ s rej, Exec p AtMostOneKey s rej ∧ rej.length = n ∧ s.drawn.length = n ∧ s.returned = [] ∧
      s.pc 0 = .probing := by
  have one : ∀ x : U32, AtMostOneKey (fun y => y == x) := by
    intro x a b ha hb
    rw [beq_iff_eq] at ha hb
    rw [ha, hb]
  induction n with
  | zero =>
    refine ⟨_, [], .step (.init (fun _ => false) (fun _ _ h => (nomatch h)))
      (.call _ 0 rfl) (fun _ _ h => (nomatch h)) (fun t x h => (nomatch h)), rfl, rfl, rfl, rfl⟩
  | succ n ih =>
    obtain ⟨s, rej, h1, h2, h3, h4, h5⟩ := ih
    let x := s.provider.draw.1
    have e1 : Exec p AtMostOneKey { (s.setPc 0 (.checking x)) with
        provider := s.provider.draw.2, drawn := x :: s.drawn } rej := by
      have hp := exec_store h1
      refine .step h1 (.fetch s 0 h5) hp (fun t y h => ?_)
      change (s.setPc 0 _).pc t ≠ _
      rw [setPc_pc]
      split
      · nofun
      · rw [h]; nofun
    have e2 := Exec.step e1 (.env _ (fun y => y == x)) (one x) (fun t y h => by
      change (s.setPc 0 _).pc t = _ at h
      change (s.setPc 0 _).pc t ≠ _
      rw [h]; nofun)
    have e3 := Exec.reject (t := 0) (sid := x) e2 (.checkUsed _ 0 x rfl (beq_self_eq_true x))
      (one x) rfl rfl
    exact ⟨_, _, e3, congrArg (· + 1) h2, congrArg (· + 1) h3, h4, rfl⟩

/-- One key in use, two threads: the hypotheses of C62 are satisfiable with a failed check. -/
example : ∃ s rej, Exec newForClient (fun st => ∀ x, st x = true → x ∈ [1#32]) s rej ∧
    rej = [(7, 1#32)] ∧ s.drawn.length = 1 := by
  have h0 := Exec.init (p := newForClient) (P := fun st => ∀ x, st x = true → x ∈ [1#32])
    (fun y => y == 1#32) (fun x hx => by rw [beq_iff_eq] at hx; rw [hx]; decide)
  have h1 := h0.step (.call _ 7 rfl) (exec_store h0) (fun t x h => (nomatch h))
  have h2 := h1.step (.fetch _ 7 rfl) (exec_store h1) (fun t x h => by
    change (if t = 7 then PC.probing else PC.idle) = _ at h
    split at h <;> cases h)
  exact ⟨_, _, h2.reject (t := 7) (sid := 1#32) (.checkUsed _ 7 1#32 rfl rfl) (exec_store h2) rfl rfl,
    rfl, rfl⟩

/-! ## C72 -/

/-- **C72.** Any number of threads take ids while the store does not change. Whenever no call is
under way, the ids returned so far are those that one caller alone would have got with the same
number of calls, and the provider is in the same state. No bound on the number of draws. -/
theorem C72_as_if_alone {p : StreamIdProvider} {store : Store} {s : Sys}
    {rej : List (Nat × U32)} (h : Exec p (· = store) s rej) (hq : ∀ t, s.pc t = .idle) :
    ∃ ids, Alone store p ids s.provider ∧ (returnedIds s).Perm ids := by
  have hr := exec_reachable h
  obtain ⟨k, h1, h2, h3⟩ := alone_prefix p store s.drawn.length
  rw [← drawn_eq hr] at h2
  refine ⟨_, ?_, quiescent_perm h hq⟩
  rw [(drawInv hr).word]
  by_cases e : k = s.drawn.length
  · rw [← e]; exact h2
  · exfalso
    have hu := h3 (s.drawn.length - 1) (by omega) (by omega)
    have hd := drawn_eq hr
    obtain ⟨n, hn⟩ : ∃ n, s.drawn.length = n + 1 := ⟨s.drawn.length - 1, by omega⟩
    rw [hn, List.range_succ, List.map_append, List.reverse_append] at hd
    rw [hn] at hu
    obtain ⟨t, ht⟩ := head_used h (by rw [hd]; rfl) hu
    rw [hq t] at ht
    rcases ht with e | e <;> cases e

/-- **C72**, so the outcome depends only on how many calls have returned: not on the number of
threads and not on the schedule. -/
theorem C72_schedule_independent {p : StreamIdProvider} {store : Store} {s s' : Sys}
    {rej rej' : List (Nat × U32)} (h : Exec p (· = store) s rej)
    (h' : Exec p (· = store) s' rej') (hq : ∀ t, s.pc t = .idle) (hq' : ∀ t, s'.pc t = .idle)
    (hn : s.returned.length = s'.returned.length) :
    (returnedIds s).Perm (returnedIds s') ∧ s.provider = s'.provider := by
  obtain ⟨as, a1, a2⟩ := C72_as_if_alone h hq
  obtain ⟨bs, b1, b2⟩ := C72_as_if_alone h' hq'
  have hl : as.length = bs.length := by
    rw [← a2.length_eq, ← b2.length_eq]
    show (s.returned.map _).length = (s'.returned.map _).length
    rw [List.length_map, List.length_map, hn]
  obtain ⟨rfl, e⟩ := alone_unique a1 b1 hl
  exact ⟨a2.trans b2.symm, e⟩

/-- The crate's own loom test (stream_id.rs:104-131), for every schedule and any number of
threads: a server with ids 4 and 8 in use; after four calls have returned, the next id is 14. -/
example {s : Sys} {rej : List (Nat × U32)}
    (h : Exec newForServer (· = fun x => x == 4#32 || x == 8#32) s rej)
    (hq : ∀ t, s.pc t = .idle) (hn : s.returned.length = 4) :
    (returnedIds s).Perm [12#32, 10#32, 6#32, 2#32] ∧
    ∃ r, nextStreamId (fun x => x == 4#32 || x == 8#32) 1 s.provider = .ok (14#32, r) := by
  obtain ⟨as, a1, a2⟩ := C72_as_if_alone h hq
  have b1 : Alone (fun x => x == 4#32 || x == 8#32) newForServer [12#32, 10#32, 6#32, 2#32]
      ⟨14#32⟩ :=
    .next (fuel := 1) (.next (fuel := 2) (.next (fuel := 2) (.next (fuel := 1) .none rfl) rfl) rfl)
      rfl
  have hl : as.length = 4 := by
    rw [← a2.length_eq]
    show (s.returned.map _).length = 4
    rw [List.length_map, hn]
  obtain ⟨rfl, e⟩ := alone_unique a1 b1 hl
  exact ⟨a2, by rw [e]; exact ⟨_, rfl⟩⟩

end Binate
