import Verif.Lemmas.Live
import Verif.Props.System

/-! # What happens in the end

C108. Executions that go on for ever, in which every time comes and nothing that could go on is kept
from doing so for ever. -/

namespace Binate

open Spec RSocketMachine System

variable {dbg : Bool} {tr : Transport} {role : Role} {timeout created spawned : Nat}
  {σ : Nat → System}

/-- **C108.** The watchdog closes the connection in the end, once, whatever is sent, whatever arrives
and whatever the user does. -/
theorem C108_closes (h : Forever dbg tr role timeout created spawned σ) (ht : TimeGoesOn σ)
    (hf : DogScheduled dbg tr σ) :
    ∃ n, ∀ k, n ≤ k → (σ k).dog = .stopped ∧ closesOf (σ k).happened = (σ k).userCloses + 1 :=
  goesOn_closes h ht (dog_goesOn hf)

/-- **C108.** Every call of `fire_and_forget` returns in the end, on any machine and with any number of
other calls, if no id is registered as in use. (None ever is: no code adds a receiver.) -/
theorem C108_returns {m : RSocketMachine} {τ : Nat → Conc} (h0 : τ 0 = Conc.init m)
    (h : Follows (ConcStep dbg tr) τ) (hr : ∀ n x, (τ n).machine.receivers x = false) {i : Nat}
    (hf : Scheduled dbg tr τ i) {n : Nat} {c : Call} (hi : (τ n).calls[i]? = some c) :
    ∃ k c', n ≤ k ∧ (τ k).calls[i]? = some c' ∧ Ended c' :=
  goesOn_ended h0 h hr (call_goesOn h0 h hf) hi

/-- **C108.** With ids in use it returns as well, if there are no more than 2^30 calls and ids that are
ever in use (C87 shows that some limit is needed). -/
theorem C108_returns_keys {m : RSocketMachine} {τ : Nat → Conc} (h0 : τ 0 = Conc.init m)
    (h : Follows (ConcStep dbg tr) τ) {keys : List U32}
    (hr : ∀ n x, (τ n).machine.receivers x = true → x ∈ keys)
    (hl : ∀ n, (τ n).calls.length + keys.length ≤ 2 ^ 30) {i : Nat} (hf : Scheduled dbg tr τ i) {n : Nat}
    {c : Call} (hi : (τ n).calls[i]? = some c) :
    ∃ k c', n ≤ k ∧ (τ k).calls[i]? = some c' ∧ Ended c' :=
  goesOn_ended_keys h0 h hr hl (call_goesOn h0 h hf) hi

/-- **C108.** On a new machine every call of `fire_and_forget` returns in the end without a panic, and
its payload was handed to the connection in one frame by then, whatever the tasks, the user and the
connection do. No ids are in use, or there are few of them and few requests. -/
theorem C108_request (h : Forever dbg tr role timeout created spawned σ)
    (hr : (∀ n x, (σ n).conc.machine.receivers x = false) ∨ ∃ keys : List U32,
      (∀ n x, (σ n).conc.machine.receivers x = true → x ∈ keys) ∧
      ∀ n, (σ n).conc.calls.length + keys.length ≤ 2 ^ 30) {i : Nat}
    (hf : CallScheduled dbg tr σ i) {n : Nat} {c : Call}
    (hi : (σ n).conc.calls[i]? = some c) :
    ∃ k sid r, n ≤ k ∧ (σ k).conc.calls[i]? = some (.done (callPayload c) sid r) ∧
      fnfFrame sid false (callPayload c) ∈ framesOf (σ k).happened :=
  goesOn_request h hr (request_goesOn h hf) hi

/-- **C108.** If the user drops all handles and the status stream ends, the connection is dropped in the
end. -/
theorem C108_released (h : Forever dbg tr role timeout created spawned σ) (ht : TimeGoesOn σ)
    (hf : DogScheduled dbg tr σ) (hd : ∃ n, (σ n).handles = 0) (hl : ∃ n, (σ n).listening = false) :
    ∃ n, ∀ k, n ≤ k → (σ k).released = true :=
  goesOn_released h ht (dog_goesOn hf) hd hl

/-! ## Such an execution -/

/-- The user has dropped the only handle of a new machine. -/
def quietDropped : System :=
  { (System.new .client 60 0 0).release with handles := 0 }

/-- Then the keepalive timeout has passed, and the watchdog has seen it. -/
def quietLate : System :=
  { ({ quietDropped with clock := 61 } : System).emit ((handleError timeoutDisplay).map .act) with
    dog := .timedOut }

/-- Then it has closed the connection. -/
def quietClosed : System :=
  { (quietLate.emit [.act .close]).release with dog := .stopped }

/-- The user drops the only handle, the watchdog closes the connection, and then time passes. -/
def quietRun : Nat → System
  | 0 => System.new .client 60 0 0
  | 1 => quietDropped
  | 2 => { quietDropped with clock := 61 }
  | 3 => quietLate
  | 4 => quietClosed
  | n + 5 => { quietClosed with clock := 61 + n }

theorem quietRun_forever : Forever true openTransport .client 60 0 0 quietRun := by
  refine ⟨rfl, fun n => .inl ?_⟩
  match n with
  | 0 => exact .drop _ (by decide) (fun _ c hc => nomatch hc)
  | 1 => exact .time _ 61 (by decide)
  | 2 => exact .wakeLate _ rfl (by decide) (by decide)
  | 3 => exact .dogCloses _ rfl
  | 4 => exact .time _ 61 (by decide)
  | n + 5 => exact .time _ (61 + (n + 1)) (Nat.le_succ _)

theorem quietRun_time : TimeGoesOn quietRun :=
  fun t => ⟨t + 5, Nat.le_add_left t 61⟩

theorem quietRun_dog : DogScheduled true openTransport quietRun := by
  intro n hn
  obtain ⟨s, hs, hm⟩ := hn (n + 5) (by omega)
  exact absurd hm (stopped_still hs rfl)

/-- **C108**: the condition about the status stream is needed. In this execution the user has dropped all
handles, the watchdog has ended, and the connection is never dropped. -/
theorem C108_kept : ∃ σ, Forever true openTransport .client 60 0 0 σ ∧ TimeGoesOn σ ∧
    DogScheduled true openTransport σ ∧
    (∃ n, (σ n).handles = 0) ∧ ∀ n, (σ n).released = false := by
  refine ⟨quietRun, quietRun_forever, quietRun_time, quietRun_dog, ⟨1, rfl⟩, fun n => ?_⟩
  match n with
  | 0 | 1 | 2 | 3 | 4 => rfl
  | n + 5 => rfl

/-- An execution with a call that is scheduled and returns. -/
example : ∃ τ : Nat → Conc, τ 0 = Conc.init (RSocketMachine.new .client 60 0) ∧
    Follows (ConcStep true openTransport) τ ∧ (∀ n x, (τ n).machine.receivers x = false) ∧
    Scheduled true openTransport τ 0 ∧ (τ 1).calls[0]? = some (.probing ⟨none, none⟩) := by
  let p : Payload := ⟨none, none⟩
  let m (w : U32) : RSocketMachine := { RSocketMachine.new .client 60 0 with streamId := ⟨w⟩ }
  let τ : Nat → Conc
    | 0 => Conc.init (RSocketMachine.new .client 60 0)
    | 1 => ⟨m 1#32, [.probing p], 0, [], [.fireAndForget p]⟩
    | 2 => ⟨m 3#32, [.checking p 1#32], 1, [], [.fireAndForget p]⟩
    | 3 => ⟨m 3#32, [.sendingOne p 1#32], 1, [], [.fireAndForget p]⟩
    | _ + 4 => ⟨m 3#32, [.done p 1#32 (.ok ())], 1, [fnfFrame 1#32 false p], [.fireAndForget p]⟩
  refine ⟨τ, rfl, fun n => ?_, fun n x => ?_, fun n hn => ?_, rfl⟩
  · match n with
    | 0 => exact .inl (.call _ p)
    | 1 =>
      have alike : ∀ {s s' s'' : Conc}, ConcStep true openTransport s s' → s' = s'' →
          ConcStep true openTransport s s'' := fun h e => e ▸ h
      refine .inl (alike (ConcStep.fetch (τ 1) 0 p rfl) ?_)
      show _ = (⟨m 3#32, [.checking p 1#32], 1, [], [.fireAndForget p]⟩ : Conc)
      simp only [Conc.set, τ, m]
      rfl
    | 2 => exact .inl (.checkFree _ 0 p 1#32 rfl rfl)
    | 3 => exact .inl (.sendOne _ 0 p 1#32 ⟨1#32, ⟨0#16⟩, p⟩ rfl rfl)
    | n + 4 => exact .inr rfl
  · match n with
    | 0 | 1 | 2 | 3 => rfl
    | n + 4 => rfl
  · obtain ⟨s, hs, hm⟩ := hn (n + 4) (by omega)
    exact absurd hm (ended_still hs (c := .done p 1#32 (.ok ())) rfl rfl)

end Binate
