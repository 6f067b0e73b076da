import Verif.Lemmas.Atomic

/-! # Properties of the atomics under the memory model

C91 and C92. The executions are those that the memory model of Rust (C++20) allows. Nothing is
assumed about which memory orderings are used, that is, about which operations happen before
others. -/

namespace Binate

open Spec Atomic

/-! ## C91 -/

section

open RequestCounter

variable {ι : Type}

/-- **C91.** Every execution of calls on a counter is as if the calls had been made one after the
other, in an order that agrees with happens-before: each call returned what it returns there. -/
theorem C91_linearizable (c : RequestCounter) (x : Execution ι) (h : x.Consistent c.word) :
    ∃ order, Schedule x.hb order ∧
      (c.exec (order.map x.op)).1 = order.map fun e => (x.op e, (x.op e).result (x.read e)) := by
  obtain ⟨order, h1, h2, -⟩ := exists_order h
  exact ⟨order, h1, exec_schedule h h2⟩

/-- **C91**, the order may be any that agrees with coherence, so it may be the single total order of
all `SeqCst` operations of the program. -/
theorem C91_seqcst (c : RequestCounter) (x : Execution ι) (h : x.Consistent c.word)
    {order : List ι} (hs : Schedule (CoherenceOrdered x.toGraph) order) :
    (c.exec (order.map x.op)).1 = order.map fun e => (x.op e, (x.op e).result (x.read e)) :=
  exec_schedule h hs

/-- **C91**, a call that happens after all others finds exactly initial + added − taken. -/
theorem C91_final (c : RequestCounter) (x : Execution ι) (h : x.Consistent c.word) {e : ι}
    {others : List ι} (hp : x.events.Perm (e :: others)) (hl : ∀ e' ∈ others, x.hb e' e) :
    (x.read e).toInt = wrap32 (c.load + net (others.map x.op)) := by
  obtain ⟨order, h1, h2, h3⟩ := exists_order h
  obtain ⟨pre, post, rfl⟩ := List.append_of_mem (h1.complete e)
  have hn : post = [] := by
    cases post with
    | nil => rfl
    | cons b post =>
      exfalso
      have hb : b ∈ e :: others := hp.mem_iff.1 (h.complete b)
      have hpw := (List.pairwise_cons.1 (List.pairwise_append.1 h1.agrees).2.1).1 b List.mem_cons_self
      rcases List.mem_cons.1 hb with rfl | hb
      · have := (List.nodup_append.1 h1.nodup).2.1
        exact (List.nodup_cons.1 this).1 List.mem_cons_self
      · exact hpw (hl b hb)
  subst hn
  have hr := read_eq h h2
  have hpre : pre.Perm others :=
    (List.perm_cons e).1 ((List.perm_append_comm (l₁ := [e]) (l₂ := pre)).trans (h3.trans hp))
  have hw : x.read e = (c.exec (pre.map x.op)).2.word := by rw [exec_word]; exact hr
  rw [hw]
  show (c.exec (pre.map x.op)).2.load = _
  rw [exec_load]
  have : net (pre.map x.op) = net (others.map x.op) := by
    unfold net totalAdded decs
    rw [((hpre.map x.op).map added).sum_nat, (hpre.map x.op).countP_eq]
  rw [this]

/-- **C91**, no over-granting (C45) in every execution: the number of `dec` calls that were told
there was a permit does not exceed the permits. -/
theorem C91_no_over_grant (n : U32) (x : Execution ι)
    (h : x.Consistent (RequestCounter.new n).word)
    (h1 : n.toNat % 2 ^ 31 + totalAdded (x.events.map x.op) < 2 ^ 31)
    (h2 : decs (x.events.map x.op) ≤ n.toNat % 2 ^ 31 + 2 ^ 31 + 1) :
    (x.events.countP fun e => granted (x.op e, (x.op e).result (x.read e))) ≤
      n.toNat % 2 ^ 31 + totalAdded (x.events.map x.op) := by
  obtain ⟨order, -, h3, h4⟩ := exists_order h
  have he := exec_schedule h h3
  have hm := h4.map x.op
  have ht : totalAdded (order.map x.op) = totalAdded (x.events.map x.op) := (hm.map added).sum_nat
  have hd : decs (order.map x.op) = decs (x.events.map x.op) := hm.countP_eq _
  have e := load_new n
  have hg := granted_le' (RequestCounter.new n) (order.map x.op) (by rw [e, ht]; omega)
    (by rw [e, hd]; omega)
  rw [show (RequestCounter.new n).exec (order.map x.op) =
    (⟨(RequestCounter.new n).word⟩ : RequestCounter).exec (order.map x.op) from rfl, he,
    List.countP_map, h4.countP_eq, ht] at hg
  rw [show (RequestCounter.new n).load = _ from e] at hg
  have : (x.events.countP fun e => granted (x.op e, (x.op e).result (x.read e))) =
    x.events.countP (granted ∘ fun e => (x.op e, (x.op e).result (x.read e))) := rfl
  omega

/-- Two threads: one adds a permit, the other loads at the same time and does not see it. -/
example : ∃ x : Execution Bool, x.Consistent (RequestCounter.new 0#32).word ∧
    x.op false = .add 1#32 ∧ x.op true = .load ∧ x.read true = 0#32 := by
  refine ⟨{ events := [false, true]
            access := fun b => some (if b then .load else .fetchAdd 1#32)
            read := fun _ => 0#32
            rf := fun _ => none
            mo := [false]
            hb := fun _ _ => False
            op := fun b => if b then .load else .add 1#32
            access_eq := by decide }, ?_, rfl, rfl, rfl⟩
  exact {
    nodup := by decide
    complete := by decide
    hb_irrefl := fun _ h => h
    hb_trans := fun _ _ _ h => h.elim
    mo_nodup := by decide
    mo_mem := fun e => by
      cases e with
      | false => exact ⟨fun _ => ⟨_, rfl, rfl⟩, fun _ => List.mem_cons_self⟩
      | true => exact ⟨fun h => (nomatch (List.mem_singleton.1 h)), fun ⟨_, h, h'⟩ => by cases h; cases h'⟩
    rf_mem := fun _ _ _ h => (nomatch h)
    value := fun _ _ => rfl
    atomic := fun k e h => by
      cases k with
      | zero => rfl
      | succ k => cases k <;> cases h
    coWW := fun _ _ h => h.elim
    coRW := fun _ _ h => h.elim
    coWR := fun _ _ h => h.elim
    coRR := fun _ _ h => h.elim }

end

/-! ## C92 -/

section

open StreamIdProvider

variable {ι : Type}

/-- **C92.** Every execution of callers of `next_stream_id` is one of the step by step executions
that C39–C43, C62 and C72 speak about: there is an order of all events, in agreement with
happens-before, in which they can happen one after the other with the same ids and answers. -/
theorem C92_interleaving (p : StreamIdProvider) (x : Execution ι) (h : x.Consistent p.word) :
    ∃ order s, Schedule x.hb order ∧ Interleaving p x.store (order.map x.event) s ∧
      Reachable p s := by
  obtain ⟨order, hs, -⟩ := exists_schedule h (both_irrefl h) (both_trans h)
  obtain ⟨s, hI, -⟩ := interleaving_of_schedule h hs order [] (List.append_nil _)
  exact ⟨order, s, hs.mono fun _ _ => .inl, hI, (interleaving_reachable hI).1⟩

/-- **C92**, uniqueness (C41) in every execution: while at most 2^30 ids are drawn, no two calls are
handed the same id. -/
theorem C92_unique (p : StreamIdProvider) (x : Execution ι) (h : x.Consistent p.word)
    (hn : (x.events.countP fun e => isDraw (x.event e)) ≤ 2 ^ 30) {a b : ι} {sid : U32}
    (ha : handedOut (x.event a) = some sid) (hb : handedOut (x.event b) = some sid) : a = b := by
  obtain ⟨order, hs, hp⟩ := exists_schedule h (both_irrefl h) (both_trans h)
  obtain ⟨s, hI, -⟩ := interleaving_of_schedule h hs order [] (List.append_nil _)
  obtain ⟨h1, h2, h3⟩ := interleaving_reachable hI
  rw [List.countP_map] at h2
  have hd : s.drawn.length ≤ 2 ^ 30 := by
    rw [h2, hp.countP_eq]
    exact hn
  have hu := (uniqueInv h1 hd).returned
  have hu' : (returnedIds s).reverse.Nodup := (List.reverse_perm _).nodup_iff.2 hu
  rw [h3, List.filterMap_map] at hu'
  by_cases hab : a = b
  · exact hab
  · exfalso
    have key : ∀ {u v : ι} {l1 l2 l3 : List ι}, order = l1 ++ u :: (l2 ++ v :: l3) →
        handedOut (x.event u) = some sid → handedOut (x.event v) = some sid → False := by
      intro u v l1 l2 l3 e hu1 hv1
      rw [e, List.filterMap_append, List.filterMap_cons, List.filterMap_append,
        List.filterMap_cons] at hu'
      simp only [Function.comp_apply, hu1, hv1] at hu'
      have := (List.nodup_append.1 hu').2.1
      exact (List.nodup_cons.1 this).1 (List.mem_append_right _ List.mem_cons_self)
    obtain ⟨l1, l2, e⟩ := List.append_of_mem (hs.complete a)
    have hmb := hs.complete b
    rw [e] at hmb
    rcases List.mem_append.1 hmb with hm | hm
    · obtain ⟨l3, l4, e'⟩ := List.append_of_mem hm
      exact key (l1 := l3) (l2 := l4) (l3 := l2) (by rw [e, e', List.append_assoc]; rfl) hb ha
    · rcases List.mem_cons.1 hm with hm | hm
      · exact hab hm.symm
      · obtain ⟨l3, l4, e'⟩ := List.append_of_mem hm
        exact key (by rw [e, e']) ha hb

/-- **C92**, range and parity (C39) in every execution. -/
theorem C92_range_parity (p : StreamIdProvider) (x : Execution ι) (h : x.Consistent p.word) {e : ι}
    {sid : U32} (he : handedOut (x.event e) = some sid) :
    sid.toNat < 2 ^ 31 ∧ sid.toNat % 2 = p.word.toNat % 2 := by
  obtain ⟨order, hs, -⟩ := exists_schedule h (both_irrefl h) (both_trans h)
  obtain ⟨s, hI, -⟩ := interleaving_of_schedule h hs order [] (List.append_nil _)
  obtain ⟨h1, -, h3⟩ := interleaving_reachable hI
  have hm : sid ∈ (returnedIds s).reverse := by
    rw [h3]
    exact List.mem_filterMap.2 ⟨_, List.mem_map.2 ⟨e, hs.complete e, rfl⟩, he⟩
  obtain ⟨y, hy, rfl⟩ := List.mem_map.1 (List.mem_reverse.1 hm)
  have di := drawInv h1
  obtain ⟨n, -, hn⟩ := di.drawn _ (di.returned y hy).1
  rw [hn]
  exact ⟨idAt_lt _ _, idAt_parity _ _⟩

/-- **C92**, the draws have positions 0, 1, 2, … without gaps or repetitions, each draw gives the id of
its position, and a draw that happens after another has a later position. -/
theorem C92_positions (p : StreamIdProvider) (x : Execution ι) (h : x.Consistent p.word) :
    ∃ draws : List ι, draws.Nodup ∧ (∀ e, e ∈ draws ↔ isDraw (x.event e) = true) ∧
      draws.Pairwise (fun a b => ¬ x.hb b a) ∧
      ∀ (n : Nat) (e : ι), draws[n]? = some e →
        ∃ t sid, x.event e = .draw t sid ∧ sid.toNat = idAt p.word.toNat n := by
  refine ⟨x.mo, h.mo_nodup, fun e => ?_, ?_, fun n e hn => ?_⟩
  · rw [h.mo_mem, modifies_draw]
    cases x.event e <;> simp [isDraw]
  · rw [List.pairwise_iff_getElem]
    intro i j hi hj hij hb
    have hi' := List.getElem?_eq_getElem hi
    have hj' := List.getElem?_eq_getElem hj
    have hm : ∀ {k : Nat} (hk : k < x.mo.length), x.Modifies x.mo[k] := fun hk =>
      (h.mo_mem _).1 (List.getElem_mem hk)
    have := (Graph.before_iff h (Graph.full_succ.2 hj') (Graph.full_succ.2 hi')).1
      (h.coWW _ _ hb (hm hj) (hm hi))
    omega
  · have hm := (h.mo_mem e).1 (List.mem_of_getElem? hn)
    obtain ⟨t, sid, he⟩ := modifies_draw.1 hm
    refine ⟨t, sid, he, ?_⟩
    have hr : x.read e = (after p n).word := by
      rw [Graph.read_pos h hm.reads (h.atomic n e hn)]
      have hl : n ≤ x.mo.length := Nat.le_of_lt (List.getElem?_eq_some_iff.1 hn).1
      have : ∀ k : Nat, k ≤ x.mo.length →
          p.word + total ((x.mo.take k).filterMap x.access) = (after p k).word := by
        intro k
        induction k with
        | zero =>
          intro _
          show p.word + 0#32 = BitVec.ofNat 32 (p.word.toNat + 2 * 0)
          rw [BitVec.add_zero, Nat.mul_zero, Nat.add_zero, BitVec.ofNat_toNat, BitVec.setWidth_eq]
        | succ k ih =>
          intro hk
          have hk' : k < x.mo.length := hk
          obtain ⟨t', sid', he'⟩ := modifies_draw.1 ((h.mo_mem _).1 (List.getElem_mem hk'))
          have ha : x.access x.mo[k] = some (.fetchAdd 2#32) := by
            rw [x.access_eq, he']
          rw [List.take_succ_eq_append_getElem hk', List.filterMap_append, total_append,
            ← BitVec.add_assoc, ih (Nat.le_of_lt hk')]
          simp only [List.filterMap_cons, List.filterMap_nil, ha]
          show BitVec.ofNat 32 (p.word.toNat + 2 * k) + (2#32 + 0#32) =
            BitVec.ofNat 32 (p.word.toNat + 2 * (k + 1))
          apply BitVec.eq_of_toNat_eq
          simp only [BitVec.toNat_add, BitVec.toNat_ofNat]
          omega
      exact this n hl
    rw [x.draw_eq e t sid he, hr]
    exact (draw_after p n).1

/-- The events of the example below. -/
inductive Four where
  | draw0
  | check0
  | draw1
  | check1
deriving DecidableEq

/-- Two threads take an id each; nothing orders one with respect to the other. The second in the
modification order is thread 0. -/
example : ∃ x : Execution Four, x.Consistent newForClient.word ∧
    handedOut (x.event .check0) = some 3#32 ∧ handedOut (x.event .check1) = some 1#32 := by
  refine ⟨{ events := [.draw0, .check0, .draw1, .check1]
            access := fun | .draw0 | .draw1 => some (.fetchAdd 2#32) | _ => none
            read := fun | .draw0 => 3#32 | _ => 1#32
            rf := fun | .draw0 => some .draw1 | _ => none
            mo := [.draw1, .draw0]
            hb := fun a b => (a = .draw0 ∧ b = .check0) ∨ (a = .draw1 ∧ b = .check1)
            event := fun
              | .draw0 => .draw 0 3#32
              | .check0 => .check 0 3#32 false
              | .draw1 => .draw 1 1#32
              | .check1 => .check 1 1#32 false
            store := fun _ => false
            access_eq := fun e => by cases e <;> rfl
            draw_eq := fun e t sid h => by cases e <;> cases h <;> rfl
            program := fun | 0 => [.draw0, .check0] | 1 => [.draw1, .check1] | _ => []
            program_mem := fun t e => by
              rcases t with _ | _ | t <;> cases e <;> simp [Event.thread]
            program_hb := fun t => by
              rcases t with _ | _ | t <;> simp
            program_follows := fun t => by
              rcases t with _ | _ | t <;> simp [Follows]
            locked := fun a b k _ h => by cases a <;> cases h
            found_last := fun c t k found m _ h => by cases m <;> cases h
            found_first := fun c t k found h _ => by cases c <;> cases h <;> rfl }, ?_, rfl, rfl⟩
  exact {
    nodup := by decide
    complete := fun e => by cases e <;> simp
    hb_irrefl := fun a h => by rcases h with ⟨rfl, h⟩ | ⟨rfl, h⟩ <;> cases h
    hb_trans := fun a b c h h' => by
      rcases h with ⟨rfl, rfl⟩ | ⟨rfl, rfl⟩ <;> rcases h' with ⟨h, -⟩ | ⟨h, -⟩ <;> cases h
    mo_nodup := by decide
    mo_mem := fun e => by
      cases e with
      | draw0 => exact ⟨fun _ => ⟨_, rfl, rfl⟩, fun _ => by decide⟩
      | draw1 => exact ⟨fun _ => ⟨_, rfl, rfl⟩, fun _ => by decide⟩
      | check0 => exact ⟨fun h => absurd h (by decide), fun ⟨_, h, _⟩ => (nomatch h)⟩
      | check1 => exact ⟨fun h => absurd h (by decide), fun ⟨_, h, _⟩ => (nomatch h)⟩
    rf_mem := fun e w _ h => by cases e <;> cases h <;> decide
    value := fun e h => by
      cases e with
      | draw0 => rfl
      | draw1 => rfl
      | check0 => obtain ⟨_, h⟩ := h; cases h
      | check1 => obtain ⟨_, h⟩ := h; cases h
    atomic := fun k e h => by
      rcases k with _ | _ | k
      · cases h; rfl
      · cases h; rfl
      · cases h
    coWW := fun a b h _ hb => by
      rcases h with ⟨rfl, rfl⟩ | ⟨rfl, rfl⟩ <;> obtain ⟨_, h, -⟩ := hb <;> cases h
    coRW := fun a b h _ hb => by
      rcases h with ⟨rfl, rfl⟩ | ⟨rfl, rfl⟩ <;> obtain ⟨_, h, -⟩ := hb <;> cases h
    coWR := fun a b h _ hb => by
      rcases h with ⟨rfl, rfl⟩ | ⟨rfl, rfl⟩ <;> obtain ⟨_, h⟩ := hb <;> cases h
    coRR := fun a b h _ hb => by
      rcases h with ⟨rfl, rfl⟩ | ⟨rfl, rfl⟩ <;> obtain ⟨_, h⟩ := hb <;> cases h }

end

end Binate
