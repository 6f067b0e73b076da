import Verif.Lemmas.Conc
import Verif.Lemmas.Long
import Verif.Spec.Wait

/-! # Helper lemmas on the number of steps of concurrent requests -/

namespace Binate

open Spec RSocketMachine

/-- The call has drawn an id. -/
def started : Call → Bool
  | .probing _ => false
  | _ => true

/-- How many steps a call has taken, where it is now, after `r` failed checks. -/
def StepsOk (fragment : Option Nat) (r k : Nat) : Call → Prop
  | .probing _ => k = 2 * r
  | .checking _ _ => k = 2 * r + 1
  | .sendingOne _ _ => k = 2 * r + 2
  | .sending _ _ idx _ _ => k = 2 * r + 2 + idx
  | .done p _ _ => k ≤ 2 * r + maxSteps [] fragment p
  | .panicked p => k ≤ 2 * r + maxSteps [] fragment p

/-- Invariant: `rej` are the failed checks so far, with the call and the id. -/
structure WaitInv (m0 : RSocketMachine) (keys : List U32) (s : Conc) (k : Nat → Nat)
    (rej : List (Nat × U32)) : Prop where
  nodup : (rej.map (·.2)).Nodup
  mem : ∀ e ∈ rej, e.2 ∈ keys
  old : ∀ e ∈ rej, ∃ n, n < s.draws ∧ e.2.toNat = idAt m0.streamId.word.toNat n
  apart : ∀ (i : Nat) (c : Call) (sid : U32), s.calls[i]? = some c → callId c = some sid →
    ∀ e ∈ rej, e.2 ≠ sid
  count : s.draws = s.calls.countP started + rej.length
  steps : ∀ (i : Nat) c, s.calls[i]? = some c →
    StepsOk m0.chunkPayload (rej.countP (·.1 == i)) (k i) c
  later : ∀ i, s.calls.length ≤ i → k i = 0 ∧ rej.countP (·.1 == i) = 0

theorem countP_set_add {α : Type} (p : α → Bool) {l : List α} {i : Nat} {a : α} (b : α)
    (h : l[i]? = some a) :
    (l.set i b).countP p + (p a).toNat = l.countP p + (p b).toNat := by
  have ite : ∀ x : Bool, (if x = true then 1 else 0) = x.toNat := fun x => by cases x <;> rfl
  induction l generalizing i with
  | nil => cases h
  | cons x l ih =>
    cases i with
    | zero =>
      cases h
      rw [List.set_cons_zero, List.countP_cons, List.countP_cons, ite, ite]
      omega
    | succ i =>
      rw [List.set_cons_succ, List.countP_cons, List.countP_cons]
      have := ih (i := i) h
      omega

theorem lt_length_of_some {α : Type} {l : List α} {i : Nat} {a : α} (h : l[i]? = some a) :
    i < l.length := by
  apply Nat.lt_of_not_le
  intro hle
  rw [List.getElem?_eq_none hle] at h
  cases h

/-- Steps of one call, when that call moves from `c` to `c'`. -/
theorem moved {s s' : Conc} {k k' : Nat → Nat} {i : Nat} {c c' : Call}
    (hm : ∀ i, Moves s s' i → k' i = k i + 1) (hr : ∀ i, ¬ Moves s s' i → k' i = k i)
    (hi : s.calls[i]? = some c) (hs : s'.calls = s.calls.set i c') (hne : c' ≠ c) :
    k' i = k i + 1 ∧ ∀ j, j ≠ i → k' j = k j := by
  constructor
  · refine hm i ⟨c, hi, ?_⟩
    rw [hs, List.getElem?_set_self (lt_length_of_some hi)]
    exact fun h => hne (Option.some.inj h)
  · intro j hj
    refine hr j ?_
    rintro ⟨d, h1, h2⟩
    rw [hs, List.getElem?_set_ne (Ne.symm hj)] at h2
    exact h2 h1

/-- A step after which every call is where it was. -/
theorem unmoved {s s' : Conc} {k k' : Nat → Nat} (hr : ∀ i, ¬ Moves s s' i → k' i = k i)
    (hs : ∀ (i : Nat) c, s.calls[i]? = some c → s'.calls[i]? = some c) : k' = k :=
  funext fun i => hr i fun ⟨c, h1, h2⟩ => h2 (hs i c h1)

theorem run_reachable {dbg : Bool} {tr : Transport} {m : RSocketMachine} {keys : List U32}
    {s : Conc} {k : Nat → Nat} (h : ConcRun dbg tr m keys s k) :
    ConcReachable dbg tr m s ∧ ∀ x, s.machine.receivers x = true → x ∈ keys := by
  induction h with
  | init h => exact ⟨.init, h⟩
  | step _ hs hk _ _ ih => exact ⟨.step ih.1 hs, hk⟩

/-- A step of call `i` that neither draws nor rejects an id. -/
theorem waitInv_update {m0 : RSocketMachine} {keys : List U32} {s s' : Conc} {k k' : Nat → Nat}
    {rej : List (Nat × U32)} (inv : WaitInv m0 keys s k rej) {i : Nat} {c c' : Call}
    (hi : s.calls[i]? = some c) (hc : s'.calls = s.calls.set i c') (hd : s'.draws = s.draws)
    (hk : k' i = k i + 1 ∧ ∀ j, j ≠ i → k' j = k j)
    (hsid : ∀ sid, callId c' = some sid → callId c = some sid)
    (hst : started c = true) (hst' : started c' = true)
    (hsteps : StepsOk m0.chunkPayload (rej.countP (·.1 == i)) (k i + 1) c') :
    WaitInv m0 keys s' k' rej := by
  have hlt := lt_length_of_some hi
  refine ⟨inv.nodup, inv.mem, ?_, ?_, ?_, ?_, ?_⟩
  · rw [hd]
    exact inv.old
  · intro j d sid hj hsid'
    rw [hc] at hj
    rcases getElem?_set_cases hj with ⟨rfl, rfl⟩ | ⟨-, hj⟩
    · exact inv.apart j c sid hi (hsid sid hsid')
    · exact inv.apart j d sid hj hsid'
  · have := countP_set_add started c' hi
    rw [hst, hst'] at this
    rw [hd, hc, inv.count]
    omega
  · intro j d hj
    rw [hc] at hj
    rcases getElem?_set_cases hj with ⟨rfl, rfl⟩ | ⟨hne, hj⟩
    · rw [hk.1]
      exact hsteps
    · rw [hk.2 j hne]
      exact inv.steps j d hj
  · intro j hj
    rw [hc, List.length_set] at hj
    rw [hk.2 j (by omega)]
    exact inv.later j hj

theorem waitInv {dbg : Bool} {tr : Transport} {m0 : RSocketMachine} {keys : List U32} {s : Conc}
    {k : Nat → Nat} (h : ConcRun dbg tr m0 keys s k) (hd : s.draws ≤ 2 ^ 30) :
    ∃ rej, WaitInv m0 keys s k rej := by
  induction h with
  | init h =>
    refine ⟨[], List.nodup_nil, nofun, nofun, nofun, rfl, ?_, fun i _ => ⟨rfl, rfl⟩⟩
    intro i c hi
    simp [Conc.init] at hi
  | @step s s' k k' hrun hs _ hm hr ih =>
    obtain ⟨hreach, hkeys⟩ := run_reachable hrun
    cases hs with
    | call payload =>
      obtain ⟨rej, inv⟩ := ih hd
      have key : ∀ {j : Nat} {d : Call}, (s.calls ++ [Call.probing payload])[j]? = some d →
          s.calls[j]? = some d ∨ (j = s.calls.length ∧ d = .probing payload) := by
        intro j d hj
        by_cases hl : j < s.calls.length
        · rw [List.getElem?_append_left hl] at hj
          exact .inl hj
        · rw [List.getElem?_append_right (by omega)] at hj
          cases hk : j - s.calls.length with
          | zero => rw [hk] at hj; cases hj; exact .inr ⟨by omega, rfl⟩
          | succ k => rw [hk] at hj; cases hj
      have hk := unmoved hr (fun i c hi => by
        show (s.calls ++ [Call.probing payload])[i]? = some c
        rw [List.getElem?_append_left (lt_length_of_some hi)]
        exact hi)
      subst hk
      refine ⟨rej, inv.nodup, inv.mem, inv.old, ?_, ?_, ?_, ?_⟩
      · intro j d sid hj hsid
        rcases key hj with hj | ⟨-, rfl⟩
        · exact inv.apart j d sid hj hsid
        · cases hsid
      · show s.draws = (s.calls ++ [Call.probing payload]).countP started + rej.length
        rw [List.countP_append, inv.count]
        rfl
      · intro j d hj
        rcases key hj with hj | ⟨rfl, rfl⟩
        · exact inv.steps j d hj
        · obtain ⟨h1, h2⟩ := inv.later _ (Nat.le_refl _)
          rw [h1, h2]
          rfl
      · intro j hj
        have hj' : (s.calls ++ [Call.probing payload]).length ≤ j := hj
        rw [List.length_append] at hj'
        exact inv.later j (by omega)
    | fetch i payload hi =>
      have hd1 : s.draws + 1 ≤ 2 ^ 30 := hd
      obtain ⟨rej, inv⟩ := ih (by omega)
      have cinv := concInv hreach (by omega)
      have hk := moved (c' := .checking payload s.machine.streamId.draw.1) hm hr hi rfl nofun
      have dr := draw_after m0.streamId s.draws
      rw [← cinv.word] at dr
      refine ⟨rej, inv.nodup, inv.mem, ?_, ?_, ?_, ?_, ?_⟩
      · intro e he
        obtain ⟨n, h1, h2⟩ := inv.old e he
        exact ⟨n, Nat.lt_succ_of_lt h1, h2⟩
      · intro j d sid hj hsid e he
        rcases getElem?_set_cases hj with ⟨rfl, rfl⟩ | ⟨-, hj⟩
        · cases hsid
          obtain ⟨n, h1, h2⟩ := inv.old e he
          intro h
          rw [h, dr.1] at h2
          have := idAt_inj h2 (by omega) (by omega)
          omega
        · exact inv.apart j d sid hj hsid e he
      · show s.draws + 1 = (s.calls.set i _).countP started + rej.length
        have : (s.calls.set i (.checking payload s.machine.streamId.draw.1)).countP started + 0 =
            s.calls.countP started + 1 := countP_set_add _ _ hi
        rw [inv.count]
        omega
      · intro j d hj
        rcases getElem?_set_cases hj with ⟨rfl, rfl⟩ | ⟨hne, hj⟩
        · rw [hk.1]
          have := inv.steps _ _ hi
          simp only [StepsOk] at this ⊢
          omega
        · rw [hk.2 j hne]
          exact inv.steps j d hj
      · intro j hj
        have hj' : (s.calls.set i (.checking payload s.machine.streamId.draw.1)).length ≤ j := hj
        rw [List.length_set] at hj'
        have := lt_length_of_some hi
        rw [hk.2 j (by omega)]
        exact inv.later j hj'
    | checkUsed i payload sid hi hu =>
      obtain ⟨rej, inv⟩ := ih hd
      have cinv := concInv hreach hd
      have hk := moved (c' := .probing payload) hm hr hi rfl nofun
      refine ⟨(i, sid) :: rej, ?_, ?_, ?_, ?_, ?_, ?_, ?_⟩
      · rw [List.map_cons, List.nodup_cons]
        refine ⟨fun hmem => ?_, inv.nodup⟩
        obtain ⟨e, he, h⟩ := List.mem_map.1 hmem
        exact inv.apart i _ sid hi rfl e he h
      · exact List.forall_mem_cons.2 ⟨hkeys sid hu, inv.mem⟩
      · exact List.forall_mem_cons.2 ⟨cinv.ids i _ sid hi rfl, inv.old⟩
      · intro j d x hj hx
        rcases getElem?_set_cases hj with ⟨rfl, rfl⟩ | ⟨hne, hj⟩
        · cases hx
        · refine List.forall_mem_cons.2 ⟨fun h => hne ?_, inv.apart j d x hj hx⟩
          exact cinv.uniq j i d _ x hj hi hx (by rw [← h]; rfl)
      · show s.draws = (s.calls.set i _).countP started + (rej.length + 1)
        have : (s.calls.set i (.probing payload)).countP started + 1 =
            s.calls.countP started + 0 := countP_set_add _ _ hi
        rw [inv.count]
        omega
      · intro j d hj
        rw [List.countP_cons]
        rcases getElem?_set_cases hj with ⟨rfl, rfl⟩ | ⟨hne, hj⟩
        · rw [hk.1, if_pos (beq_self_eq_true _)]
          have := inv.steps _ _ hi
          simp only [StepsOk] at this ⊢
          omega
        · rw [hk.2 j hne, if_neg (by simpa using Ne.symm hne)]
          exact inv.steps j d hj
      · intro j hj
        have hj' : (s.calls.set i (.probing payload)).length ≤ j := hj
        rw [List.length_set] at hj'
        have := lt_length_of_some hi
        rw [hk.2 j (by omega), List.countP_cons, if_neg (by simp; omega)]
        exact inv.later j hj'
    | checkFree i payload sid hi hu =>
      obtain ⟨rej, inv⟩ := ih hd
      have cinv := concInv hreach hd
      have hst := inv.steps _ _ hi
      simp only [StepsOk] at hst
      have hne : afterId s.machine payload sid ≠ .checking payload sid := by
        unfold afterId
        split
        · split <;> exact nofun
        · exact nofun
      have hk := moved (c' := afterId s.machine payload sid) hm hr hi rfl hne
      refine ⟨rej, waitInv_update inv hi (c' := afterId s.machine payload sid) rfl rfl hk
        ?_ rfl ?_ ?_⟩
      · intro x hx
        unfold afterId at hx
        split at hx
        · split at hx
          · exact hx
          · cases hx
        · exact hx
      · unfold afterId
        split
        · split <;> rfl
        · rfl
      · unfold afterId
        split
        · split
          · show _ = _
            omega
          · show _ ≤ _
            simp only [maxSteps, List.length_nil]
            omega
        · show _ = _
          omega
    | sendOne i payload sid f hi hf =>
      obtain ⟨rej, inv⟩ := ih hd
      have hst := inv.steps _ _ hi
      simp only [StepsOk] at hst
      have hk := moved (c' := .done payload sid (tr s.wire (Frame.requestFnf f))) hm hr hi rfl nofun
      refine ⟨rej, waitInv_update inv hi rfl rfl hk (fun x h => h) rfl rfl ?_⟩
      show _ ≤ _
      simp only [maxSteps, List.length_nil]
      omega
    | sendChunk i payload sid idx n chunks chunks' chunked f hi hn hf ha =>
      obtain ⟨rej, inv⟩ := ih hd
      have hst := inv.steps _ _ hi
      simp only [StepsOk] at hst
      have hk := moved (c' := .sending payload sid (idx + 1) n chunks') hm hr hi rfl (fun h => by
        injection h with _ _ h
        omega)
      refine ⟨rej, waitInv_update inv hi rfl rfl hk (fun x h => h) rfl rfl ?_⟩
      show _ = _
      omega
    | sendChunkErr i payload sid idx n chunks chunks' chunked f er hi hn hf ha =>
      obtain ⟨rej, inv⟩ := ih hd
      obtain ⟨size, h1, -, -, -, h5, -⟩ := (concInv hreach hd).call i _ hi
      have hst := inv.steps _ _ hi
      simp only [StepsOk] at hst
      have hk := moved (c' := .done payload sid (.error er)) hm hr hi rfl nofun
      refine ⟨rej, waitInv_update inv hi rfl rfl hk (fun x h => h) rfl rfl ?_⟩
      show _ ≤ _
      simp only [maxSteps, List.length_nil, h1]
      omega
    | finish i payload sid idx n chunks chunks' hi hn =>
      obtain ⟨rej, inv⟩ := ih hd
      obtain ⟨size, h1, -, -, -, h5, -⟩ := (concInv hreach hd).call i _ hi
      have hst := inv.steps _ _ hi
      simp only [StepsOk] at hst
      have hk := moved (c' := .done payload sid (.ok ())) hm hr hi rfl nofun
      refine ⟨rej, waitInv_update inv hi rfl rfl hk (fun x h => h) rfl rfl ?_⟩
      show _ ≤ _
      simp only [maxSteps, List.length_nil, h1]
      omega
    | push md =>
      obtain ⟨rej, inv⟩ := ih hd
      have hk := unmoved hr (fun i c hi => hi)
      subst hk
      exact ⟨rej, inv.nodup, inv.mem, inv.old, inv.apart, inv.count, inv.steps, inv.later⟩
    | env receivers =>
      obtain ⟨rej, inv⟩ := ih hd
      have hk := unmoved hr (fun i c hi => hi)
      subst hk
      exact ⟨rej, inv.nodup, inv.mem, inv.old, inv.apart, inv.count, inv.steps, inv.later⟩

theorem rej_le {m0 : RSocketMachine} {keys : List U32} {s : Conc} {k : Nat → Nat}
    {rej : List (Nat × U32)} (inv : WaitInv m0 keys s k rej) : rej.length ≤ keys.length := by
  have h : (rej.map (·.2)).Subperm keys := by
    refine List.subperm_of_subset inv.nodup fun x hx => ?_
    obtain ⟨e, he, rfl⟩ := List.mem_map.1 hx
    exact inv.mem e he
  simpa using h.length_le

theorem draws_le {dbg : Bool} {tr : Transport} {m0 : RSocketMachine} {keys : List U32} {s : Conc}
    {k : Nat → Nat} (h : ConcRun dbg tr m0 keys s k) (hl : s.calls.length + keys.length ≤ 2 ^ 30) :
    s.draws ≤ s.calls.length + keys.length := by
  have fin : ∀ {s : Conc} {k : Nat → Nat}, ConcRun dbg tr m0 keys s k → s.draws ≤ 2 ^ 30 →
      s.draws ≤ s.calls.countP started + keys.length := by
    intro s k h hd
    obtain ⟨rej, inv⟩ := waitInv h hd
    have := rej_le inv
    have := inv.count
    omega
  induction h with
  | init => exact Nat.zero_le _
  | @step s s' k k' hrun hs _ hm hr ih =>
    cases hs with
    | call payload =>
      have hl' : (s.calls ++ [Call.probing payload]).length + keys.length ≤ 2 ^ 30 := hl
      show s.draws ≤ (s.calls ++ [Call.probing payload]).length + keys.length
      rw [List.length_append] at hl' ⊢
      have := ih (by omega)
      omega
    | fetch i payload hi =>
      have hl' : (s.calls.set i (.checking payload s.machine.streamId.draw.1)).length +
        keys.length ≤ 2 ^ 30 := hl
      show s.draws + 1 ≤ (s.calls.set i (.checking payload s.machine.streamId.draw.1)).length +
        keys.length
      rw [List.length_set] at hl' ⊢
      have h1 := fin hrun (by have := ih (by omega); omega)
      have h2 : (s.calls.set i (.checking payload s.machine.streamId.draw.1)).countP started + 0 =
          s.calls.countP started + 1 := countP_set_add _ _ hi
      have h3 := List.countP_le_length (p := started)
        (l := s.calls.set i (.checking payload s.machine.streamId.draw.1))
      rw [List.length_set] at h3
      omega
    | checkUsed i payload sid hi hu =>
      simp only [Conc.set, List.length_set] at hl ⊢
      exact ih hl
    | checkFree i payload sid hi hu =>
      simp only [Conc.set, List.length_set] at hl ⊢
      exact ih hl
    | sendOne i payload sid f hi hf =>
      simp only [Conc.set, List.length_set] at hl ⊢
      exact ih hl
    | sendChunk i payload sid idx n chunks chunks' chunked f hi hn hf ha =>
      simp only [Conc.set, List.length_set] at hl ⊢
      exact ih hl
    | sendChunkErr i payload sid idx n chunks chunks' chunked f er hi hn hf ha =>
      simp only [Conc.set, List.length_set] at hl ⊢
      exact ih hl
    | finish i payload sid idx n chunks chunks' hi hn =>
      simp only [Conc.set, List.length_set] at hl ⊢
      exact ih hl
    | push md => exact ih hl
    | env receivers => exact ih hl

/-- One more step for call `i`. -/
def bump (k : Nat → Nat) (i j : Nat) : Nat := if j = i then k j + 1 else k j

theorem run_move {dbg : Bool} {tr : Transport} {m : RSocketMachine} {keys : List U32} {s s' : Conc}
    {k : Nat → Nat} {i : Nat} {c : Call} (c' : Call) (h : ConcRun dbg tr m keys s k)
    (hs : ConcStep dbg tr s s') (hr : s'.machine.receivers = s.machine.receivers)
    (hi : s.calls[i]? = some c) (hc : s'.calls = s.calls.set i c') (hne : c' ≠ c) :
    ConcRun dbg tr m keys s' (bump k i) := by
  refine .step h hs (by rw [hr]; exact (run_reachable h).2) ?_ ?_
  · rintro j ⟨d, h1, h2⟩
    have : j = i := by
      apply Classical.byContradiction
      intro hj
      rw [hc, List.getElem?_set_ne (Ne.symm hj)] at h2
      exact h2 h1
    rw [bump, if_pos this]
  · intro j hj
    rw [bump, if_neg]
    rintro rfl
    refine hj ⟨c, hi, ?_⟩
    rw [hc, List.getElem?_set_self (lt_length_of_some hi)]
    exact fun h => hne (Option.some.inj h)

theorem run_stay {dbg : Bool} {tr : Transport} {m : RSocketMachine} {keys : List U32} {s s' : Conc}
    {k : Nat → Nat} (h : ConcRun dbg tr m keys s k) (hs : ConcStep dbg tr s s')
    (hr : s'.machine.receivers = s.machine.receivers)
    (hc : ∀ (i : Nat) c, s.calls[i]? = some c → s'.calls[i]? = some c) :
    ConcRun dbg tr m keys s' k :=
  .step h hs (by rw [hr]; exact (run_reachable h).2) (fun i ⟨c, h1, h2⟩ => absurd (hc i c h1) h2)
    fun _ _ => rfl

/-- How many steps a call that has its id still takes. -/
def rank (fragment : Option Nat) : Call → Nat
  | .sendingOne .. => 1
  | .sending p _ idx _ _ => chunkCount (fragment.getD 0) p - idx + 1
  | _ => 0

/-- The call has passed the loop for a free id. -/
def hasId : Call → Bool
  | .probing _ => false
  | .checking .. => false
  | _ => true

theorem send_step {dbg : Bool} {tr : Transport} {m : RSocketMachine} {s : Conc}
    (h : ConcReachable dbg tr m s) {i : Nat} {c : Call}
    (hi : s.calls[i]? = some c) (hr : running c = true) (hid : hasId c = true) :
    ∃ s' c', ConcStep dbg tr s s' ∧ s'.calls = s.calls.set i c' ∧ c' ≠ c ∧
      s'.machine.receivers = s.machine.receivers ∧ callPayload c' = callPayload c ∧
      hasId c' = true ∧ rank m.chunkPayload c' < rank m.chunkPayload c := by
  have inv := freeInv h
  cases c with
  | done => cases hr
  | panicked => cases hr
  | probing p => cases hid
  | checking p sid => cases hid
  | sendingOne p sid =>
    obtain ⟨v, h1, -⟩ := fnf_new (dbg := dbg) (inv.ids _ _ sid hi rfl) false p
    exact ⟨_, _, .sendOne s i p sid v hi h1, rfl, nofun, rfl, rfl, rfl, Nat.one_pos⟩
  | sending p sid idx n chunks =>
    rcases hn : chunks.next with ⟨_ | ch, chunks'⟩
    · exact ⟨_, _, .finish s i p sid idx n chunks chunks' hi hn, rfl, nofun, rfl, rfl, rfl,
        Nat.succ_pos _⟩
    · obtain ⟨v, h1, -⟩ := fnf_new (dbg := dbg) (inv.ids _ _ sid hi rfl) (idx + 1 != n) ch
      cases ha : tr s.wire (.requestFnf v) with
      | ok u =>
        refine ⟨_, _, .sendChunk s i p sid idx n chunks chunks' ch v hi hn h1 ha, rfl, ?_, rfl, rfl,
          rfl, ?_⟩
        · intro e
          injection e with _ _ e
          omega
        · obtain ⟨w, size, g1, g2, g3, -⟩ := inv.call i _ hi
          have nn : (afterNext idx ⟨size, p.metadata, p.data⟩).next.1 =
              if idx < chunkCount size p then some (chunkAt size p idx) else none :=
            nth_next (c := ⟨size, p.metadata, p.data⟩) g2 idx
          rw [← g3, hn] at nn
          have hlt : idx < chunkCount size p := by
            apply Nat.lt_of_not_le
            intro hle
            rw [if_neg (Nat.not_lt.2 hle)] at nn
            cases nn
          rw [g1]
          show chunkCount size p - (idx + 1) + 1 < chunkCount size p - idx + 1
          omega
      | error er =>
        exact ⟨_, _, .sendChunkErr s i p sid idx n chunks chunks' ch v er hi hn h1 ha, rfl, nofun,
          rfl, rfl, rfl, Nat.succ_pos _⟩

/-- The call can run to its end alone, in at most `n` steps. -/
def CanEnd (dbg : Bool) (tr : Transport) (m : RSocketMachine) (keys : List U32) (s : Conc)
    (k : Nat → Nat) (i : Nat) (p : Payload) (n : Nat) : Prop :=
  ∃ s' k' c', ConcRun dbg tr m keys s' k' ∧ s'.calls = s.calls.set i c' ∧ running c' = false ∧
    callPayload c' = p ∧ k' i ≤ k i + n ∧ ∀ j, j ≠ i → k' j = k j

theorem canEnd_step {dbg : Bool} {tr : Transport} {m : RSocketMachine} {keys : List U32}
    {s s1 : Conc} {k : Nat → Nat} {i : Nat} {p : Payload} {c1 : Call} {n n' : Nat}
    (hc : s1.calls = s.calls.set i c1) (h : CanEnd dbg tr m keys s1 (bump k i) i p n)
    (hn : n + 1 ≤ n') : CanEnd dbg tr m keys s k i p n' := by
  obtain ⟨s', k', c', r1, r2, r3, r4, r6, r5⟩ := h
  refine ⟨s', k', c', r1, by rw [r2, hc, List.set_set], r3, r4, ?_, fun j hj => ?_⟩
  · rw [bump, if_pos rfl] at r6
    omega
  · rw [r5 j hj, bump, if_neg hj]

theorem canEnd_ended {dbg : Bool} {tr : Transport} {m : RSocketMachine} {keys : List U32} {s : Conc}
    {k : Nat → Nat} (h : ConcRun dbg tr m keys s k) {i : Nat} {c : Call} (hi : s.calls[i]? = some c)
    (hr : running c = false) (n : Nat) : CanEnd dbg tr m keys s k i (callPayload c) n := by
  refine ⟨s, k, c, h, ?_, hr, rfl, Nat.le_add_right _ _, fun _ _ => rfl⟩
  refine List.ext_getElem? fun j => ?_
  by_cases hj : j = i
  · rw [hj, hi, List.getElem?_set_self (lt_length_of_some hi)]
  · rw [List.getElem?_set_ne (Ne.symm hj)]

theorem canEnd_sending {dbg : Bool} {tr : Transport} {m : RSocketMachine} {keys : List U32}
    {s : Conc} {k : Nat → Nat} (h : ConcRun dbg tr m keys s k) {i : Nat} {c : Call}
    (hi : s.calls[i]? = some c) (hid : hasId c = true) :
    CanEnd dbg tr m keys s k i (callPayload c) (rank m.chunkPayload c) := by
  generalize hn : rank m.chunkPayload c = n
  induction n using Nat.strongRecOn generalizing s k c with
  | ind n ih =>
    cases hr : running c with
    | false => exact canEnd_ended h hi hr _
    | true =>
      obtain ⟨s1, c1, h1, h2, h3, h4, h5, h6, h7⟩ := send_step (run_reachable h).1 hi hr hid
      have hi1 : s1.calls[i]? = some c1 := by
        rw [h2, List.getElem?_set_self (lt_length_of_some hi)]
      have := ih _ (hn ▸ h7) (run_move c1 h h1 h4 hi h2 h3) hi1 h6 rfl
      rw [h5] at this
      exact canEnd_step h2 this (hn ▸ h7)

theorem afterId_facts (m : RSocketMachine) (p : Payload) (sid : U32) :
    hasId (afterId m p sid) = true ∧ callPayload (afterId m p sid) = p ∧
      ∀ keys, 2 * keys.length + 2 + rank m.chunkPayload (afterId m p sid) ≤
        maxSteps keys m.chunkPayload p := by
  unfold afterId maxSteps
  cases m.chunkPayload with
  | none => exact ⟨rfl, rfl, fun _ => Nat.le_refl _⟩
  | some size =>
    simp only
    cases p.chunks size with
    | ok ch =>
      refine ⟨rfl, rfl, fun keys => ?_⟩
      show _ + (chunkCount size p - 0 + 1) ≤ _
      omega
    | panic _ => exact ⟨rfl, rfl, fun keys => by show _ + 0 ≤ _; omega⟩
    | diverge => exact ⟨rfl, rfl, fun keys => by show _ + 0 ≤ _; omega⟩

theorem canEnd_free {dbg : Bool} {tr : Transport} {m : RSocketMachine} {keys : List U32}
    {s : Conc} {k : Nat → Nat} (h : ConcRun dbg tr m keys s k) {i : Nat} {p : Payload} {sid : U32}
    (hi : s.calls[i]? = some (.checking p sid)) (hf : s.machine.receivers sid = false) {n : Nat}
    (hn : ∀ c : Call, 2 * keys.length + 2 + rank m.chunkPayload c ≤ maxSteps keys m.chunkPayload p →
      rank m.chunkPayload c + 1 ≤ n) : CanEnd dbg tr m keys s k i p n := by
  have hs : ConcStep dbg tr s _ := .checkFree s i p sid hi hf
  obtain ⟨f1, f2, f3⟩ := afterId_facts s.machine p sid
  have hne : afterId s.machine p sid ≠ .checking p sid := fun e => by rw [e] at f1; cases f1
  have run := run_move (afterId s.machine p sid) h hs rfl hi rfl hne
  have ce := canEnd_sending (i := i) (c := afterId s.machine p sid) run
    (List.getElem?_set_self (lt_length_of_some hi)) f1
  rw [f2] at ce
  refine canEnd_step (c1 := afterId s.machine p sid) rfl ce (hn _ ?_)
  have := f3 keys
  rw [(freeInv (run_reachable h).1).chunk] at this
  exact this

theorem after_draw (p : StreamIdProvider) (d : Nat) : after p.draw.2 d = after p (d + 1) := by
  have h : p.draw.2 = after p 1 := by
    have := (draw_after p 0).2
    rwa [after_zero] at this
  rw [h, after, after, after, StreamIdProvider.mk.injEq]
  apply BitVec.eq_of_toNat_eq
  simp only [BitVec.toNat_ofNat]
  omega

theorem canEnd_probing {dbg : Bool} {tr : Transport} {m : RSocketMachine} {keys : List U32}
    {s : Conc} {k : Nat → Nat} (h : ConcRun dbg tr m keys s k) {i : Nat} {p : Payload}
    (hi : s.calls[i]? = some (.probing p)) {d : Nat} (hd : d ≤ keys.length)
    (hf : s.machine.receivers ((after s.machine.streamId d).draw.1) = false) :
    CanEnd dbg tr m keys s k i p
      (maxSteps keys m.chunkPayload p - 2 * (keys.length - d)) := by
  have hm : 2 * keys.length + 3 ≤ maxSteps keys m.chunkPayload p := Nat.le_add_right _ _
  induction d generalizing s k with
  | zero =>
    rw [after_zero] at hf
    have hs : ConcStep dbg tr s _ := .fetch s i p hi
    have run := run_move (.checking p s.machine.streamId.draw.1) h hs rfl hi rfl nofun
    have ce := canEnd_free (n := maxSteps keys m.chunkPayload p - 2 * (keys.length - 0) - 1) run
      (List.getElem?_set_self (lt_length_of_some hi)) hf fun c hc => by omega
    exact canEnd_step (c1 := .checking p s.machine.streamId.draw.1) rfl ce (by omega)
  | succ d ih =>
    obtain ⟨s1, hs, hc, hr, hid⟩ : ∃ s1, ConcStep dbg tr s s1 ∧
        s1.calls = s.calls.set i (.checking p s.machine.streamId.draw.1) ∧
        s1.machine.receivers = s.machine.receivers ∧
        s1.machine.streamId = s.machine.streamId.draw.2 := ⟨_, .fetch s i p hi, rfl, rfl, rfl⟩
    have run := run_move (.checking p s.machine.streamId.draw.1) h hs hr hi hc nofun
    have hi1 : s1.calls[i]? = some (.checking p s.machine.streamId.draw.1) := by
      rw [hc]
      exact List.getElem?_set_self (lt_length_of_some hi)
    cases hu : s1.machine.receivers s.machine.streamId.draw.1 with
    | false =>
      have ce := canEnd_free (n := maxSteps keys m.chunkPayload p - 2 * (keys.length - (d + 1)) - 1)
        run hi1 hu fun c hc => by omega
      exact canEnd_step hc ce (by omega)
    | true =>
      have hs2 : ConcStep dbg tr s1 _ := .checkUsed _ i p s.machine.streamId.draw.1 hi1 hu
      have run2 := run_move (.probing p) run hs2 rfl hi1 rfl nofun
      have ce := ih run2 (List.getElem?_set_self (lt_length_of_some hi1)) (Nat.le_of_succ_le hd) (by
        show s1.machine.receivers (after s1.machine.streamId d).draw.1 = false
        rw [hr, hid, after_draw]
        exact hf)
      have ce1 := canEnd_step (c1 := .probing p)
        (n' := maxSteps keys m.chunkPayload p - 2 * (keys.length - (d + 1)) - 1) rfl ce (by omega)
      exact canEnd_step hc ce1 (by omega)

theorem canEnd_keys {dbg : Bool} {tr : Transport} {m : RSocketMachine} {keys : List U32}
    {s : Conc} {k : Nat → Nat} (h : ConcRun dbg tr m keys s k) (hk : keys.length < 2 ^ 30) {i : Nat}
    {p : Payload} (hi : s.calls[i]? = some (.probing p)) :
    CanEnd dbg tr m keys s k i p (maxSteps keys m.chunkPayload p) := by
  obtain ⟨d, h1, h2⟩ := exists_free (w := s.machine.streamId.word.toNat) hk
  have hf : s.machine.receivers ((after s.machine.streamId d).draw.1) = false := by
    rw [← (draw_after s.machine.streamId d).1, BitVec.ofNat_toNat, BitVec.setWidth_eq] at h2
    cases hx : s.machine.receivers ((after s.machine.streamId d).draw.1) with
    | false => rfl
    | true => exact absurd ((run_reachable h).2 _ hx) h2
  obtain ⟨s', k', c', r1, r2, r3, r4, r6, r5⟩ := canEnd_probing h hi h1 hf
  exact ⟨s', k', c', r1, r2, r3, r4, by omega, r5⟩

theorem canEnd {dbg : Bool} {tr : Transport} {m : RSocketMachine} {keys : List U32}
    {s : Conc} {k : Nat → Nat} (h : ConcRun dbg tr m keys s k) (hk : keys.length < 2 ^ 30) {i : Nat}
    {c : Call} (hi : s.calls[i]? = some c) :
    CanEnd dbg tr m keys s k i (callPayload c)
      (maxSteps keys m.chunkPayload (callPayload c) + 1) := by
  have grow : ∀ {n n' p}, CanEnd dbg tr m keys s k i p n → n ≤ n' →
      CanEnd dbg tr m keys s k i p n' := by
    rintro n n' p ⟨s', k', c', r1, r2, r3, r4, r6, r5⟩ hn
    exact ⟨s', k', c', r1, r2, r3, r4, by omega, r5⟩
  have hm : ∀ p, 2 * keys.length + 3 ≤ maxSteps keys m.chunkPayload p :=
    fun p => Nat.le_add_right _ _
  cases c with
  | probing p => exact grow (canEnd_keys h hk hi) (Nat.le_succ _)
  | checking p sid =>
    cases hu : s.machine.receivers sid with
    | false =>
      exact canEnd_free h hi hu fun c hc => by
        show _ ≤ maxSteps keys m.chunkPayload p + 1
        omega
    | true =>
      have hs : ConcStep dbg tr _ _ := .checkUsed _ i p sid hi hu
      have run := run_move (.probing p) h hs rfl hi rfl nofun
      have ce := canEnd_keys run hk (List.getElem?_set_self (lt_length_of_some hi))
      exact canEnd_step (c1 := .probing p) rfl ce (Nat.le_refl _)
  | sendingOne p sid =>
    exact grow (canEnd_sending h hi rfl) (Nat.succ_le_succ (Nat.zero_le _))
  | sending p sid idx n chunks =>
    refine grow (canEnd_sending h hi rfl) ?_
    obtain ⟨w, size, g1, -⟩ := (freeInv (run_reachable h).1).call i _ hi
    rw [g1]
    show chunkCount size p - idx + 1 ≤ 2 * keys.length + 3 + chunkCount size p + 1
    omega
  | done p sid r => exact canEnd_ended h hi rfl _
  | panicked p => exact canEnd_ended h hi rfl _

end Binate
