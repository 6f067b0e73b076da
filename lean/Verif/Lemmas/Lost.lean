import Verif.Spec.Lost
import Verif.Lemmas.WildPeer
import Verif.Lemmas.Ascending
import Verif.Lemmas.Closing
import Verif.Lemmas.Long
import Verif.Lemmas.StormsLive

/-! # What is lost when a connection is closed -/

namespace Binate

open Spec RSocketMachine

theorem reached_head {S : Type} {step : S → S → Prop} {a b c : S} (hs : step a b) (h : Reached step b c) :
    Reached step a c := by
  induction h with
  | here => exact .next .here hs
  | next _ hs' ih => exact .next ih hs'

theorem closedSince_reached {S : Type} {step : S → S → Prop} {happened : S → List Happening} {k h : S}
    (hc : ClosedSince step happened k h) : Reached step k h :=
  have ⟨_, h1, _, h2⟩ := hc.close
  reached_head h1 h2

/-! ## Requests -/

section
variable {dbg dbg' : Bool} {m : RSocketMachine}

theorem concSteps_ended {tr : Transport} {s s' : Conc} (h : ConcSteps dbg tr s s') {i : Nat} {c : Call}
    (hi : s.calls[i]? = some c) (hr : running c = false) : s'.calls[i]? = some c := by
  induction h with
  | refl => exact hi
  | step _ hs ih => exact step_ended hs ih hr

theorem concSteps_draws {tr : Transport} {s s' : Conc} (h : ConcSteps dbg tr s s') : s.draws ≤ s'.draws := by
  induction h with
  | refl => exact Nat.le_refl _
  | step _ hs ih =>
    refine Nat.le_trans ih ?_
    cases hs with
    | fetch => exact Nat.le_succ _
    | _ => exact Nat.le_refl _

/-- Of what was sent up to `s`, the peer gets the payloads of the calls that had ended by then and nothing of
those that had not. -/
theorem conc_since {tr : Transport} {s s' : Conc} (h : ConcReachable dbg tr m s) (h' : ConcSteps dbg tr s s')
    (hd : s'.draws ≤ 2 ^ 30) (h0 : m.chunkPayload = none) {bs : List Bytes} (hb : encodeAll s.wire = .ok bs)
    {i : Nat} {c : Call} (hi : s'.calls[i]? = some c) {sid : U32} (hs : callId c = some sid) :
    GotIff dbg' bs sid (callPayload c) (HadEnded s.calls i) := by
  have hd' : s.draws ≤ 2 ^ 30 := Nat.le_trans (concSteps_draws h') hd
  have inv := concInv h hd'
  have inv' := concInv (concSteps_reachable h h') hd
  refine ⟨?_, fun hn => ?_⟩
  · rintro ⟨d, hj, he⟩
    have hr : running d = false := by
      cases hr : running d with
      | false => rfl
      | true => exact absurd he (running_iff.1 hr)
    rw [concSteps_ended h' hj hr] at hi
    cases hi
    rcases whole_or_nothing (dbg' := dbg') h hd' h0 hb hj hs with ⟨-, hn⟩ | hw
    · cases he with
      | returned => cases hn
      | panicked => cases hs
    · exact hw
  · have hsent := wire_sent h
    rw [encodeAll_eq hsent hb, filter_layout hsent]
    by_cases hw : onWire sid s.wire = []
    · rw [hw]; rfl
    · exfalso
      obtain ⟨j, d, hj, hds⟩ := inv.owner sid hw
      cases hr : running d with
      | false =>
        have := inv'.uniq _ _ _ _ _ hi (concSteps_ended h' hj hr) hs hds
        subst this
        refine hn ⟨d, hj, ?_⟩
        by_cases he : Spec.Ended d
        · exact he
        · rw [running_iff.2 he] at hr
          cases hr
      | true =>
        have hc := inv.call j d hj
        rw [h0] at hc
        cases d with
        | probing => cases hds
        | panicked => cases hds
        | checking => cases hds; exact hw hc
        | sendingOne => cases hds; exact hw hc.2
        | sending =>
          obtain ⟨_, e, -⟩ := hc
          cases e
        | done => cases hr

variable {tr : WildTransport}

theorem wild_moves_on {e : Error} {w w' : WildConc} {s : Conc} (ha : Alike tr e w s)
    (hr : ConcReachable dbg (refusing e tr) m s) (h : Reached (WildStep dbg tr) w w') :
    ∃ s', ConcSteps dbg (refusing e tr) s s' ∧ Alike tr e w' s' := by
  induction h with
  | here => exact ⟨s, .refl s, ha⟩
  | next _ hs ih =>
    obtain ⟨s₁, h1, ha1⟩ := ih
    obtain ⟨s₂, h2, ha2⟩ := wild_forward ha1 (concSteps_reachable hr h1) hs
    exact ⟨s₂, .step h1 h2, ha2⟩

theorem hadEnded_alike {e : Error} {w : WildConc} {s : Conc} (ha : Alike tr e w s) (i : Nat) :
    HadEnded w.calls i ↔ HadEnded s.calls i := by
  constructor
  · rintro ⟨c, hc, he⟩
    obtain ⟨d, hd, hs⟩ := alike_some ha hc
    refine ⟨d, hd, ?_⟩
    rcases hs with rfl | ⟨p, sid, rfl, rfl, -⟩
    · exact he
    · exact .returned _ _ _
  · rintro ⟨d, hd, he⟩
    obtain ⟨c, hc, hs⟩ := alike_some_back ha hd
    exact ⟨c, hc, sameCall_ended hs he⟩

theorem wild_since {w w' : WildConc} (h : WildReachable dbg tr m w) (h' : Reached (WildStep dbg tr) w w')
    (hd : w'.draws ≤ 2 ^ 30) (h0 : m.chunkPayload = none) {bs : List Bytes} (hb : encodeAll w.wire = .ok bs)
    {i : Nat} {c : Call} (hi : w'.calls[i]? = some c) :
    (∀ sid, callId c = some sid → GotIff dbg' bs sid (callPayload c) (HadEnded w.calls i)) ∧
    (∀ p, c = .panicked p → ∃ sid, PanickedOn tr w'.wire sid ∧
      GotIff dbg' bs sid p (HadEnded w.calls i)) := by
  obtain ⟨s, hr, ha⟩ := wild_reaches (e := ⟨.io, none⟩) h
  obtain ⟨s', hs, ha'⟩ := wild_moves_on ha hr h'
  have key : ∀ {d : Call} {sid : U32}, s'.calls[i]? = some d → callId d = some sid →
      GotIff dbg' bs sid (callPayload d) (HadEnded w.calls i) := by
    intro d sid h1 h2
    rw [hadEnded_alike ha]
    exact conc_since hr hs (by rw [← ha'.draws]; exact hd) h0 (by rw [← ha.wire]; exact hb) h1 h2
  obtain ⟨d, hj, same⟩ := alike_some ha' hi
  rcases same with rfl | ⟨p, sid, rfl, rfl, hon⟩
  · refine ⟨fun sid hsid => key hj hsid, ?_⟩
    rintro p rfl
    have := (concInv (concSteps_reachable hr hs) (by rw [← ha'.draws]; exact hd)).call i _ hj
    exact absurd this (by rw [h0]; nofun)
  · refine ⟨nofun, ?_⟩
    rintro _ ⟨⟩
    exact ⟨sid, by rw [ha'.wire]; exact hon, key hj rfl⟩

end

section
variable {dbg : Bool} {tr : WildTransport} {w w' : WildConc}

theorem reached_draws (h : Reached (WildStep dbg tr) w w') : w.draws ≤ w'.draws := by
  induction h with
  | here => exact Nat.le_refl _
  | next _ hs ih =>
    refine Nat.le_trans ih ?_
    cases hs with
    | fetch => exact Nat.le_succ _
    | _ => exact Nat.le_refl _

theorem reached_ended (h : Reached (WildStep dbg tr) w w') {i : Nat} {c : Call} (hi : w.calls[i]? = some c)
    (he : Spec.Ended c) : w'.calls[i]? = some c := by
  induction h with
  | here => exact hi
  | next _ hs ih =>
    have hr : running c = false := by cases he <;> rfl
    exact Classical.byContradiction fun e => wild_ended_still hs ih hr ⟨c, ih, e⟩

end

/-! ## The machine -/

section
variable {dbg : Bool} {tr : WildTransport} {role : Role} {timeout created spawned : Nat}

theorem stormStep_conc {h h' : Storm} (hs : Storm.Step dbg tr h h') :
    WildStep dbg tr h.sys.conc h'.sys.conc ∨ h'.sys.conc = h.sys.conc := by
  cases hs with
  | run s hs _ =>
    cases hs with
    | request w new hh hs hw => exact .inl hs
    | _ => exact .inr rfl
  | _ => exact .inr rfl

/-- What a step does to the connection: one frame or none, or one close or none. -/
theorem stormStep_happened {h h' : Storm} (hs : Storm.Step dbg tr h h') :
    ∃ added, h'.sys.happened = h.sys.happened ++ added ∧ (closesOf added = 0 ∨ added = [.act .close]) := by
  cases hs with
  | run s hs _ =>
    cases hs with
    | request w new hh hs hw => exact ⟨_, rfl, .inl (of_frames new).2.2⟩
    | close => exact ⟨_, rfl, .inr rfl⟩
    | closePanics => exact ⟨_, rfl, .inr rfl⟩
    | dogCloses => exact ⟨_, rfl, .inr rfl⟩
    | dogPanics => exact ⟨_, rfl, .inr rfl⟩
    | wakeLate => exact ⟨_, rfl, .inl rfl⟩
    | status st => exact ⟨_, rfl, .inl (of_status st).2.2⟩
    | _ => exact ⟨[], (List.append_nil _).symm, .inl rfl⟩
  | _ => exact ⟨[], (List.append_nil _).symm, .inl rfl⟩

theorem reached_storm_conc {h h' : Storm} (hs : Reached (Storm.Step dbg tr) h h') :
    Reached (WildStep dbg tr) h.sys.conc h'.sys.conc := by
  induction hs with
  | here => exact .here
  | next _ hs ih =>
    rcases stormStep_conc hs with h1 | h1
    · exact ih.next h1
    · rw [h1]; exact ih

theorem reached_storm_happened {h h' : Storm} (hs : Reached (Storm.Step dbg tr) h h') :
    ∃ added, h'.sys.happened = h.sys.happened ++ added := by
  induction hs with
  | here => exact ⟨[], (List.append_nil _).symm⟩
  | next _ hs ih =>
    obtain ⟨a, ha⟩ := ih
    obtain ⟨b, hb, -⟩ := stormStep_happened hs
    exact ⟨a ++ b, by rw [hb, ha, List.append_assoc]⟩

theorem no_close {hs : List Happening} (h : closesOf hs = 0) :
    ∀ x ∈ hs, (x != .act .close) = true := by
  intro x hx
  have := List.countP_eq_zero.1 h x hx
  simpa using this

theorem delivered_all {hs : List Happening} (h : closesOf hs = 0) : delivered hs = framesOf hs := by
  have := List.takeWhile_append_of_pos (l₂ := []) (no_close h)
  rw [List.append_nil, List.takeWhile_nil, List.append_nil] at this
  rw [delivered, this]

theorem delivered_before {hs : List Happening} (h : closesOf hs = 0) (more : List Happening) :
    delivered (hs ++ [.act .close] ++ more) = framesOf hs := by
  rw [delivered, List.append_assoc, List.takeWhile_append_of_pos (no_close h), List.singleton_append,
    List.takeWhile_cons_of_neg (by decide), List.append_nil]

end

/-! ## Any number of sockets -/

section
variable {dbg : Bool} {trs : Nat → WildTransport}

theorem reached_storms {u t : Storms} (hu : Storms.Reachable dbg trs u)
    (h : Reached (Storms.Step dbg trs) u t) : Storms.Reachable dbg trs t := by
  induction h with
  | here => exact hu
  | next _ hs ih => exact ih.step hs

theorem reached_one {u t : Storms} (hu : Storms.Reachable dbg trs u) {g : Handle} (hg : g ∈ u.world.made)
    (h : Reached (Storms.Step dbg trs) u t) : g ∈ t.world.made ∧
    Reached (Storm.Step dbg (trs g.connection)) (stormOf u g) (stormOf t g) := by
  induction h with
  | here => exact ⟨hg, .here⟩
  | next h hs ih =>
    have inv := stormsInv (reached_storms hu h)
    have acts := storms_acts inv.world inv.calm hs
    refine ⟨(storms_made acts).2 g ih.1, ?_⟩
    rcases storms_one acts ih.1 with h1 | h1
    · exact ih.2.next h1
    · rw [h1]; exact ih.2

theorem closedSince_one {u t : Storms} (hu : Storms.Reachable dbg trs u) {g : Handle}
    (hg : g ∈ u.world.made)
    (h : ClosedSince (Storms.Step dbg trs) (fun t => (t.keeper g.connection).happened) u t) :
    ClosedSince (Storm.Step dbg (trs g.connection)) (fun s => s.sys.happened) (stormOf u g)
      (stormOf t g) := by
  obtain ⟨h0, k, hs, hk, ht⟩ := h
  have inv := stormsInv hu
  have acts := storms_acts inv.world inv.calm hs
  refine ⟨h0, stormOf k g, ?_, hk, (reached_one (hu.step hs) ((storms_made acts).2 g hg) ht).2⟩
  rcases storms_one acts hg with h1 | h1
  · exact h1
  · have h2 : (k.keeper g.connection).happened = (u.keeper g.connection).happened :=
      congrArg (·.sys.happened) h1
    rw [h2] at hk
    exact absurd (congrArg List.length hk) (by simp)

end

end Binate
