import Verif.Lemmas.Progress
import Verif.Lemmas.Starving
import Verif.Props.StormsLive
import Verif.Props.Wait

/-! # Requests as a whole

C125. The bound of C87 and C108 needs a limit on the number of requests. Without it one request can be kept
from an id for ever, but never all of them while one id stays free. -/

namespace Binate

open Spec RSocketMachine StreamIdProvider

/-- **C125.** As long as a request is under way, requests end: this one or another. There may be any number
of them; of the ids of the machine it is only asked that one is not in use from some time on. -/
theorem C125_some_end {dbg : Bool} {tr : Transport} {m : RSocketMachine} {σ : Nat → Conc}
    (h0 : σ 0 = Conc.init m) (h : Follows (ConcStep dbg tr) σ) {free : U32}
    (hl : OwnId m.streamId.word free) (hr : ∃ N, ∀ n, N ≤ n → (σ n).machine.receivers free = false)
    (hf : ∀ i, Scheduled dbg tr σ i) {n i : Nat} {c : Call} (hi : (σ n).calls[i]? = some c)
    (hc : ¬ Spec.Ended c) : ∃ j k, n ≤ k ∧ Ends (σ k).calls (σ (k + 1)).calls j := by
  obtain ⟨j, k, hk, c, c', h1, h2, h3, h4⟩ := someone_ends_later h0 h hl
    (fun i n hn => hf i n fun k hk => call_enabled (follows_reachable h0 h k) (hn k hk)) hr
    ⟨c, hi, running_of hc⟩
  exact ⟨j, k, hk, ends_of h1 h2 h3 h4⟩

/-- **C125** when the connection panics at will, but always comes back. -/
theorem C125_panics {dbg : Bool} {tr : WildTransport} (hno : ∀ sent f, tr sent f ≠ .diverge)
    {m : RSocketMachine} {τ : Nat → WildConc} (h0 : τ 0 = WildConc.init m)
    (h : Follows (WildStep dbg tr) τ) {free : U32}
    (hl : OwnId m.streamId.word free) (hr : ∃ N, ∀ n, N ≤ n → (τ n).machine.receivers free = false)
    (hf : ∀ i, WildScheduled dbg tr τ i) {n i : Nat} {c : Call} (hi : (τ n).calls[i]? = some c)
    (hc : ¬ Spec.Ended c) : ∃ j k, n ≤ k ∧ Ends (τ k).calls (τ (k + 1)).calls j :=
  wild_someone h0 h hl hr (fun i => wild_goesOn hno h0 h (hf i)) hi hc

/-- **C125** on a socket among any number of others, whatever becomes of its tasks, its runtime and the
other sockets; their connections may never return. -/
theorem C125_sockets {dbg : Bool} {trs : Nat → WildTransport} {τ : Nat → Storms}
    (h : StormsForever dbg trs τ) {n : Nat} {g : Handle} (hg : g ∈ (τ n).world.made)
    (hno : ∀ sent f, trs g.connection sent f ≠ .diverge) {free : U32}
    (hl : OwnId (if g.role = .client then 1#32 else 2#32) free)
    (hr : ∃ N, ∀ k, N ≤ k → (τ k).world.memory.store g.receivers free = false)
    (hf : ∀ i, FairTo dbg trs τ g fun s s' => WildMoves s.sys.conc s'.sys.conc i) {i : Nat} {c : Call}
    (hi : (wildSocketOf (τ n).world g).calls[i]? = some c) (hc : ¬ Spec.Ended c) :
    ∃ j k, n ≤ k ∧
      Ends (wildSocketOf (τ k).world g).calls (wildSocketOf (τ (k + 1)).world g).calls j := by
  obtain ⟨m, sp, h1, h2, h3⟩ := storms_forever h hg
  have hm := h1 n hg
  obtain ⟨j, k, hk, he⟩ := wild_someone (m := RSocketMachine.new g.role g.keepaliveTimeout
      g.keepaliveLastReceived) (by rw [h3.start]; rfl) (stormForever_conc h3) (free := free)
    (by cases hg' : g.role <;> rw [hg'] at hl <;> exact hl)
    (by
      obtain ⟨N, hN⟩ := hr
      refine ⟨N + 1, fun k hk => ?_⟩
      obtain ⟨k, rfl⟩ : ∃ k', k = k' + 1 := ⟨k - 1, by omega⟩
      exact hN (m + k) (by omega))
    (fun i => storm_goesOn hno h3 (fair_one h (hf i) h2 _))
    (fromNew_some (P := fun s => s.sys.conc.calls[i]? = some c) hm hi) hc
  refine ⟨j, m + (k - 1), by omega, ?_⟩
  obtain ⟨k, rfl⟩ : ∃ k', k = k' + 1 := ⟨k - 1, by omega⟩
  exact he

/-- **C125**: this is all that can be said. With a single id in use, which never changes, there is an execution
that is fair to every request in which the first one is under way for ever, while any number of others end. -/
theorem C125_one_may_starve (dbg : Bool) : ∃ σ : Nat → Conc, σ 0 = Conc.init (firstUsed 1#32) ∧
    Follows (ConcStep dbg openTransport) σ ∧
    (∀ n x, (σ n).machine.receivers x = true → x ∈ [1#32]) ∧
    (∀ i, Scheduled dbg openTransport σ i) ∧
    (∀ n, ∃ c, (σ (n + 1)).calls[0]? = some c ∧ ¬ Spec.Ended c) ∧
    ∀ n, ∃ j k, n ≤ k ∧ Ends (σ k).calls (σ (k + 1)).calls j := by
  have steps : Follows (ConcStep dbg openTransport) Starving.whole := fun n => by
    cases n with
    | zero => exact .inl (.call _ _)
    | succ n => exact .inl (Starving.step_next (Starving.inv_run n))
  have keys : ∀ n x, (Starving.whole n).machine.receivers x = true → x ∈ [1#32] := fun n x hx => by
    cases n with
    | zero => exact List.mem_singleton.2 (eq_of_beq hx)
    | succ n => exact List.mem_singleton.2 (eq_of_beq hx)
  have kept : ∀ n, ∃ c, (Starving.whole (n + 1)).calls[0]? = some c ∧ ¬ Spec.Ended c := fun n => by
    show ∃ c, (Starving.run n).conc.calls[0]? = some c ∧ ¬ Spec.Ended c
    unfold Starving.conc
    split <;> exact ⟨_, rfl, nofun⟩
  refine ⟨Starving.whole, rfl, steps, keys, Starving.whole_fair, kept, fun n => ?_⟩
  obtain ⟨c, h1, h2⟩ := kept n
  obtain ⟨j, k, h3, h4⟩ := C125_some_end (free := 3#32) rfl steps (by unfold OwnId; decide)
    ⟨0, fun n _ => Bool.eq_false_iff.2 fun e => absurd (keys n _ e) (by decide)⟩ Starving.whole_fair h1 h2
  exact ⟨j, k, by omega, h4⟩

/-- **C125**: it has to be the same id that is never in use. On any machine there is an execution, fair to every
request, in which there is never more than one id in use, but no request ever ends. -/
theorem C125_changing (dbg : Bool) (tr : Transport) {m : RSocketMachine} (hm : ∀ x, m.receivers x = false)
    (p : Payload) : ∃ σ : Nat → Conc, σ 0 = Conc.init m ∧ Follows (ConcStep dbg tr) σ ∧
    (∀ n x y, (σ n).machine.receivers x = true → (σ n).machine.receivers y = true → x = y) ∧
    (∀ i, Scheduled dbg tr σ i) ∧
    ∀ n, ∃ c, (σ (n + 1)).calls = [c] ∧ callPayload c = p ∧ ¬ Spec.Ended c := by
  refine ⟨Chased.whole m p, rfl, fun n => .inl (Chased.whole_step n), fun n x y => Chased.whole_keys hm n,
    Chased.whole_fair, Chased.whole_calls⟩
example : ∃ m : RSocketMachine, ∀ x, m.receivers x = false := ⟨RSocketMachine.new .client 5 0, fun _ => rfl⟩

/-- **C125**: the condition on the ids in use is needed. While all ids of the machine are in use, no
request ends, however the scheduler runs them. -/
theorem C125_all_in_use {dbg : Bool} {tr : Transport} {m : RSocketMachine} {σ : Nat → Conc}
    (h0 : σ 0 = Conc.init m) (h : Follows (ConcStep dbg tr) σ)
    (hr : ∀ n x, OwnId m.streamId.word x → (σ n).machine.receivers x = true) {n i : Nat} {c : Call}
    (hi : (σ n).calls[i]? = some c) : ¬ Spec.Ended c := by
  have seek : ∀ n (i : Nat) c, (σ n).calls[i]? = some c →
      ∃ p, c = .probing p ∨ ∃ sid, c = .checking p sid ∧ OwnId m.streamId.word sid := by
    intro n
    induction n with
    | zero => intro i c hi; rw [h0] at hi; simp [Conc.init] at hi
    | succ n ih =>
      rcases h n with hs | e
      · have hw := conc_word (follows_reachable h0 h n)
        generalize σ (n + 1) = s' at hs ⊢
        have no : ∀ {j : Nat} {d : Call} {P : Prop}, (σ n).calls[j]? = some d →
            (∀ p, d ≠ .probing p) → (∀ p x, d ≠ .checking p x) → P := by
          intro j d P hj h1 h2
          obtain ⟨p, rfl | ⟨x, rfl, -⟩⟩ := ih j d hj
          · exact absurd rfl (h1 _)
          · exact absurd rfl (h2 _ _)
        intro i c hi
        cases hs with
        | call p =>
          by_cases hl : i < (σ n).calls.length
          · have hi : ((σ n).calls ++ [.probing p])[i]? = some c := hi
            rw [List.getElem?_append_left hl] at hi
            exact ih i c hi
          · have hi : ((σ n).calls ++ [.probing p])[i]? = some c := hi
            rw [List.getElem?_append_right (by omega)] at hi
            exact ⟨p, .inl (List.mem_singleton.1 (List.mem_of_getElem? hi))⟩
        | fetch j p hj =>
          rcases getElem?_set_cases hi with ⟨-, rfl⟩ | ⟨-, hi⟩
          · refine ⟨p, .inr ⟨_, rfl, ?_⟩⟩
            have hid : (σ n).machine.streamId.draw.1 =
                BitVec.ofNat 32 (idAt m.streamId.word.toNat (σ n).draws) := by
              apply BitVec.eq_of_toNat_eq
              rw [hw, (draw_after _ _).1, BitVec.toNat_ofNat,
                Nat.mod_eq_of_lt (Nat.lt_trans (idAt_lt _ _) (by omega))]
            rw [hid]
            exact own_idAt _ _
          · exact ih i c hi
        | checkUsed j p sid hj hu =>
          rcases getElem?_set_cases hi with ⟨-, rfl⟩ | ⟨-, hi⟩
          · exact ⟨p, .inl rfl⟩
          · exact ih i c hi
        | checkFree j p sid hj hu =>
          obtain ⟨q, e | ⟨x, e, ho⟩⟩ := ih j _ hj <;> cases e
          have := hr n sid ho
          rw [hu] at this
          cases this
        | sendOne j p sid f hj hf => exact no hj nofun nofun
        | sendChunk j p sid idx n chunks chunks' ch f hj hn hf ha => exact no hj nofun nofun
        | sendChunkErr j p sid idx n chunks chunks' ch f e hj hn hf ha => exact no hj nofun nofun
        | finish j p sid idx n chunks chunks' hj hn => exact no hj nofun nofun
        | push md => exact ih i c hi
        | env r => exact ih i c hi
      · rw [e]; exact ih
  obtain ⟨p, rfl | ⟨x, rfl, -⟩⟩ := seek n i c hi <;> exact nofun

/-- Such an execution, with a request: it draws the first id, looks it up, and rests. -/
example : ∃ (m : RSocketMachine) (σ : Nat → Conc), σ 0 = Conc.init m ∧
    Follows (ConcStep true openTransport) σ ∧
    (∀ n x, OwnId m.streamId.word x → (σ n).machine.receivers x = true) ∧
    ∃ n, (σ n).calls[0]? = some (.probing ⟨none, none⟩) ∧ (σ n).draws = 1 := by
  let m : RSocketMachine := { fragmenting 1 with receivers := fun _ => true }
  let s1 : Conc := { Conc.init m with calls := [.probing ⟨none, none⟩], asked := [.fireAndForget ⟨none, none⟩] }
  let s2 : Conc := { (s1.set 0 (.checking ⟨none, none⟩ s1.machine.streamId.draw.1)) with
    machine := { s1.machine with streamId := s1.machine.streamId.draw.2 }, draws := 1 }
  refine ⟨m, fun | 0 => Conc.init m | 1 => s1 | 2 => s2 | _ => s2.set 0 (.probing ⟨none, none⟩), rfl,
    fun n => ?_, fun n x _ => ?_, 3, rfl, rfl⟩
  · match n with
    | 0 => exact .inl (.call _ _)
    | 1 => exact .inl (.fetch s1 0 ⟨none, none⟩ rfl)
    | 2 => exact .inl (.checkUsed s2 0 ⟨none, none⟩ _ rfl rfl)
    | n + 3 => exact .inr rfl
  · match n with
    | 0 => rfl
    | 1 => rfl
    | 2 => rfl
    | n + 3 => rfl

/-- The hypotheses of `C125_sockets` for a request on the first of two sockets, whose connection panics. -/
example : ∃ (τ : Nat → Storms) (g : Handle) (p : Payload) (n : Nat), StormsForever false firstPanics τ ∧
    g ∈ (τ n).world.made ∧ (∀ sent f, firstPanics g.connection sent f ≠ .diverge) ∧
    OwnId (if g.role = .client then 1#32 else 2#32) 7#32 ∧
    (∃ N, ∀ k, N ≤ k → (τ k).world.memory.store g.receivers 7#32 = false) ∧
    (∀ i, FairTo false firstPanics τ g fun s s' => WildMoves s.sys.conc s'.sys.conc i) ∧
    (wildSocketOf (τ n).world g).calls[0]? = some (.probing p) := by
  let p : Payload := ⟨none, some [1#8]⟩
  let g : Handle := ⟨.client, 0, 1, 2, 3, none, 60, 0⟩
  let P : Storms → Prop := fun t => ∀ x, t.world.memory.store g.receivers x = false
  let Q : Storms → Prop := fun t =>
    g ∈ t.world.made ∧ (wildSocketOf t.world g).calls[0]? = some (.probing p)
  have keep : ∀ s : Storms, Q s → Q s := fun _ h => h
  have none : ∀ s : Storms, True → True := fun _ h => h
  have r0 : ComesTo false firstPanics P (fun _ => True) (Storms.init 0) :=
    comesTo_init (fun _ => rfl) trivial
  have r1 := comesTo_step r0 (.new _ .client 60 0 0 (by decide)) (fun _ => rfl) (.inl none)
  have r2 := comesTo_step r1 (.new _ .server 60 0 0 (by decide)) (fun _ => rfl) (.inl none)
  have r3 := comesTo_step (Q' := Q) r2 (.request _ _ (.call _ 0 g p rfl)) (fun _ => rfl)
    (.inr ⟨.head _, rfl⟩)
  have r4 := comesTo_step r3 (.request _ _ (.fetch _ 0 g p rfl)) (fun _ => rfl) (.inl keep)
  have r5 := comesTo_step r4 (.request _ _ (.checkFree _ 0 g p _ rfl (by decide +kernel)))
    (fun _ => rfl) (.inl keep)
  obtain ⟨τ, N, h1, h3, h4, n, h5, h6⟩ := comesTo_step r5
    (.request _ _ (.sendOnePanic _ 0 g p _ ⟨_, ⟨0#16⟩, p⟩ "no" rfl rfl rfl)) (fun _ => rfl) (.inl keep)
  have made : ∀ n, N ≤ n → g ∈ (τ n).world.made := fun n hn => by
    rw [h3 n hn]
    exact .head _
  refine ⟨τ, g, p, n, h1, h5, nofun, by unfold OwnId; decide, ⟨0, fun n _ => h4 n _⟩, fun i =>
    fairTo_rest h1 made fun n s' hn hs ha => ?_, h6⟩
  rw [h3 n hn] at hs ha
  rcases hs with hs | rfl
  · cases i with
    | zero => exact storm_ended_still hs (c := .panicked p) rfl rfl ha
    | succ i => obtain ⟨c, h1, -⟩ := ha; cases h1
  · obtain ⟨c, h1, h2⟩ := ha
    exact h2 h1

end Binate
