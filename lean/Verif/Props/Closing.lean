import Verif.Lemmas.Closing

/-! # What comes after `close()`

C102. The machine does not stop sending when the connection is closed (C73_silent_false). What it
sends then belongs to calls that overlap with the closing or come after it. -/

namespace Binate

open Spec RSocketMachine System

variable {dbg : Bool} {tr : Transport} {role : Role} {timeout created spawned : Nat}

/-- **C102.** From any moment on: what is done to the connection is appended to what was done; every
frame in it belongs to a call of `fire_and_forget` that had not ended at that moment or was made
later, or to a later `metadata_push`, in the order of those. -/
theorem C102_after {s s' : System} (h : Reachable dbg tr role timeout created spawned s)
    (h' : SystemSteps dbg tr s s') :
    ∃ log more added, Explains dbg tr (RSocketMachine.new role timeout created) s.conc log ∧
      Explains dbg tr (RSocketMachine.new role timeout created) s'.conc (log ++ more) ∧
      s'.happened = s.happened ++ added ∧ framesOf added = more.map Sent.frame ∧
      (∀ x ∈ more, ∀ i, x.owner = some i →
        s.conc.calls.length ≤ i ∨ ∃ c, s.conc.calls[i]? = some c ∧ ¬ Ended c) ∧
      pushedBy more = ((askedPushes s'.conc.asked).drop (askedPushes s.conc.asked).length).map
        (fun p => (.metadataPush ⟨p.1⟩, p.2)) := by
  obtain ⟨log, more, e, e', h1, h2, -, h4⟩ :=
    C100_push (sysInv h).conc (systemSteps_conc h') (by nofun)
  obtain ⟨added, a1, a2⟩ := systemSteps_happened h'
  refine ⟨log, more, added, e, e', a1, ?_, ?_, h4⟩
  · have h5 := e'.accounts.frames
    rw [List.map_append, e.accounts.frames, a2] at h5
    exact (List.append_cancel_left h5).symm
  · intro x hx i hi
    by_cases hl : s.conc.calls.length ≤ i
    · exact .inl hl
    · refine .inr ⟨_, List.getElem?_eq_getElem (by omega), fun he => ?_⟩
      have hr : running (s.conc.calls[i]'(by omega)) = false := by
        cases hr : running (s.conc.calls[i]'(by omega)) with
        | false => rfl
        | true => exact absurd he (running_iff.1 hr)
      have := h1 i _ (List.getElem?_eq_getElem (by omega)) hr
      exact List.not_mem_nil (this ▸ List.mem_filter.2 ⟨hx, beq_iff_eq.2 hi⟩ : x ∈ ([] : List Sent))

/-- **C102.** If every call had ended at that moment and none is made afterwards, no frame follows. -/
theorem C102_quiet {s s' : System} (h' : SystemSteps dbg tr s s')
    (hc : ∀ c ∈ s.conc.calls, Ended c) (ha : s'.conc.asked = s.conc.asked) :
    ∃ added, s'.happened = s.happened ++ added ∧ framesOf added = [] := by
  have hs := concSteps_idle (systemSteps_conc h') (fun c hm => by
    cases hr : running c with
    | false => rfl
    | true => exact absurd (hc c hm) (running_iff.1 hr)) ha
  obtain ⟨added, a1, a2⟩ := systemSteps_happened h'
  refine ⟨added, a1, ?_⟩
  rw [hs.2] at a2
  exact List.append_right_eq_self.1 a2.symm

/-- **C102.** Nor after the last handle was dropped, whatever the background tasks do. -/
theorem C102_dropped {s s' : System} (h' : SystemSteps dbg tr s s') (h0 : s.handles = 0) :
    ∃ added, s'.happened = s.happened ++ added ∧ framesOf added = [] := by
  obtain ⟨added, a1, a2⟩ := systemSteps_happened h'
  refine ⟨added, a1, ?_⟩
  rw [(systemSteps_unowned h' h0).2] at a2
  exact List.append_right_eq_self.1 a2.symm

/-- **C102.** So everything that a call handed over which had returned before `close()` was called
comes before the close: at the close the history is complete as far as such calls are concerned. -/
theorem C102_close {s s₁ s' : System} (h : Reachable dbg tr role timeout created spawned s)
    (hs : Step dbg tr s s₁) (hh : s₁.happened = s.happened ++ [.act .close])
    (h' : SystemSteps dbg tr s₁ s') :
    ∃ log more added, s'.happened = s.happened ++ .act .close :: added ∧
      Explains dbg tr (RSocketMachine.new role timeout created) s'.conc (log ++ more) ∧
      framesOf s.happened = log.map Sent.frame ∧ framesOf added = more.map Sent.frame ∧
      ∀ (i : Nat) c, s.conc.calls[i]? = some c → Ended c → sentBy i more = [] := by
  have hc : s₁.conc = s.conc := by
    cases hs with
    | request c new _ hc hn =>
      exfalso
      have : s.happened ++ new.map .frame = s.happened ++ [.act .close] := hh
      have := List.append_cancel_left this
      cases new <;> cases this
    | _ => rfl
  obtain ⟨log, more, added, e, e', h1, h2, h3, -⟩ := C102_after (h.step hs) h'
  refine ⟨log, more, added, ?_, e', ?_, h2, ?_⟩
  · rw [h1, hh, List.append_assoc]
    rfl
  · rw [(sysInv h).frames, e.accounts.frames, hc]
  · intro i c hi he
    refine List.filter_eq_nil_iff.2 fun x hx ho => ?_
    rw [hc] at h3
    rcases h3 x hx i (beq_iff_eq.1 ho) with hl | ⟨c', h4, h5⟩
    · rw [List.getElem?_eq_none hl] at hi
      cases hi
    · rw [hi] at h4
      cases h4
      exact h5 he

/-- **C102.** Over a connection that drops what it is handed after a close, the peer gets what was handed
over before the first one, all frames of the calls that had returned `Ok` by then included, and
nothing else, whatever happens later. -/
theorem C102_delivered {s s₁ s' : System} (h : Reachable dbg tr role timeout created spawned s)
    (h0 : closesOf s.happened = 0) (hs : Step dbg tr s s₁)
    (hh : s₁.happened = s.happened ++ [.act .close]) (h' : SystemSteps dbg tr s₁ s') :
    ∃ log, delivered s'.happened = log.map Sent.frame ∧
      Explains dbg tr (RSocketMachine.new role timeout created) s.conc log ∧
      ∀ (i : Nat) p sid, s.conc.calls[i]? = some (.done p sid (.ok ())) →
        (sentBy i log).map Sent.frame = [fnfFrame sid false p] := by
  obtain ⟨log, inv⟩ := ownInv (sysInv h).conc
  have e := ownInv_explains (dbg := dbg) inv (by nofun)
  obtain ⟨-, -, added, h1, -⟩ := C102_close h hs hh h'
  refine ⟨log, ?_, e, ?_⟩
  · have ht : ∀ x ∈ s.happened, (x != .act .close) = true := by
      intro x hx
      have := List.countP_eq_zero.1 h0 x hx
      simpa using this
    rw [delivered, h1, List.takeWhile_append_of_pos ht, List.takeWhile_cons_of_neg (by decide),
      List.append_nil, e.accounts.frames, (sysInv h).frames]
  · intro i p sid hi
    obtain ⟨frames, f1, -, f3⟩ := e.own i _ hi sid rfl
    rw [f3 rfl]
    have f2 := fnfSend_spec (dbg := dbg) (tr := openTransport) (fragment := none) (p := p) (sent := [])
      (inv.ids i _ sid hi rfl).1 (by nofun)
    rw [deliver_open, List.nil_append] at f2
    have f4 : Outcome.ok (Except.ok (), frames) = .ok (Except.ok (), callFrames sid none p) :=
      f1.symm.trans f2
    cases f4
    rfl

/-- `close()`, then a frame of a later call. -/
example : ∃ s s₁ s', Reachable true openTransport .client 60 0 0 s ∧ Step true openTransport s s₁ ∧
    s₁.happened = s.happened ++ [.act .close] ∧ SystemSteps true openTransport s₁ s' ∧
    s'.happened = [.act .close, .frame (.metadataPush ⟨[]⟩)] ∧ ∀ c ∈ s.conc.calls, Ended c :=
  ⟨_, _, _, .init, .close _ (by decide), rfl,
    .step (.refl _) (.request _ _ [.metadataPush ⟨[]⟩] (by decide) (.push _ []) rfl), rfl,
    fun c hc => (nomatch hc)⟩

/-- The user closes and drops the only handle, then the watchdog closes again: no frame. -/
example : ∃ s s', Reachable true openTransport .client 60 0 0 s ∧ s.handles = 0 ∧
    SystemSteps true openTransport s s' ∧ (∀ c ∈ s.conc.calls, Ended c) ∧
    s'.conc.asked = s.conc.asked ∧ s.happened = [.act .close] ∧
    s'.happened = [.act .close, .act (.logError "connection keepalive timed out"), .act .close] :=
  ⟨_, _, .step (.step .init (.close _ (by decide)))
      (.drop _ (by decide) (fun _ c hc => (nomatch hc))), rfl,
    .step (.step (.step (.refl _) (.time _ 61 (by decide))) (.wakeLate _ rfl (by decide) (by decide)))
      (.dogCloses _ rfl), (fun c hc => (nomatch hc)), rfl, rfl, rfl⟩

end Binate
