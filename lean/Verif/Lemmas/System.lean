import Verif.Model.System
import Verif.Spec.System

/-! # Invariant of the whole system -/

namespace Binate

open Spec RSocketMachine System

/-- What holds in every reachable state. -/
structure SysInv (dbg : Bool) (tr : Transport) (role : Role) (timeout created spawned : Nat)
    (s : System) : Prop where
  conc : ConcReachable dbg tr (RSocketMachine.new role timeout created) s.conc
  frames : framesOf s.happened = s.conc.wire
  closes : closesOf s.happened = s.userCloses + taskCount (s.dog == .stopped)
  late : s.dog ≠ .sleeping → created + timeout < s.clock
  due : s.dog = .sleeping → s.slept ≤ max spawned (created + timeout)
  log : ∃ a b, linesOf s.happened =
      a ++ (if s.dog = .sleeping then [] else ["connection keepalive timed out"]) ++ b ∧
    a ++ b = s.seen.flatMap statusReport
  strong : s.strong = s.handles + taskCount s.listening + taskCount (s.dog != .stopped)
  released : s.released = (s.strong == 0)
  timeout : s.conc.machine.keepaliveTimeout = timeout
  last : s.conc.machine.keepaliveLastReceived = created

theorem conc_machine {dbg : Bool} {tr : Transport} {c c' : Conc} (h : ConcStep dbg tr c c') :
    c'.machine.keepaliveTimeout = c.machine.keepaliveTimeout ∧
    c'.machine.keepaliveLastReceived = c.machine.keepaliveLastReceived := by
  cases h <;> exact ⟨rfl, rfl⟩

theorem framesOf_append (a b : List Happening) : framesOf (a ++ b) = framesOf a ++ framesOf b :=
  List.filterMap_append

theorem linesOf_append (a b : List Happening) : linesOf (a ++ b) = linesOf a ++ linesOf b :=
  List.filterMap_append

theorem closesOf_append (a b : List Happening) : closesOf (a ++ b) = closesOf a + closesOf b :=
  List.countP_append

theorem of_frames (new : List Frame) : framesOf (new.map .frame) = new ∧
    linesOf (new.map .frame) = [] ∧ closesOf (new.map .frame) = 0 := by
  induction new with
  | nil => exact ⟨rfl, rfl, rfl⟩
  | cons f new ih => exact ⟨congrArg (f :: ·) ih.1, ih.2.1, ih.2.2⟩

theorem of_status (st : ConnectionStatus) : framesOf ((onStatus st).map .act) = [] ∧
    linesOf ((onStatus st).map .act) = statusReport st ∧
    closesOf ((onStatus st).map .act) = 0 := by
  cases st <;> exact ⟨rfl, rfl, rfl⟩

theorem release_released {s : System} (h : s.released = (s.strong == 0)) :
    s.release.released = (s.release.strong == 0) := by
  show (s.released || s.strong == 1) = (s.strong - 1 == 0)
  rw [h]
  rcases hs : s.strong with _ | _ | n
  · rfl
  · rfl
  · rfl

theorem sysInv {dbg : Bool} {tr : Transport} {role : Role} {timeout created spawned : Nat}
    {s : System} (h : Reachable dbg tr role timeout created spawned s) :
    SysInv dbg tr role timeout created spawned s := by
  induction h with
  | init =>
    exact {
      conc := .init
      frames := rfl
      closes := rfl
      late := fun h => absurd rfl h
      due := fun _ => Nat.le_max_left _ _
      log := ⟨[], [], rfl, rfl⟩
      strong := rfl
      released := rfl
      timeout := rfl
      last := rfl }
  | step _ hs inv =>
    obtain ⟨i1, i2, i3, i4, i5, i6, i7, i8, i9, i10⟩ := inv
    cases hs with
    | time now hn =>
      exact ⟨i1, i2, i3, fun h => Nat.lt_of_lt_of_le (i4 h) hn, i5, i6, i7, i8, i9, i10⟩
    | request c new hh hc hw =>
      obtain ⟨f1, f2, f3⟩ := of_frames new
      have m := conc_machine hc
      refine ⟨.step i1 hc, ?_, ?_, i4, i5, ?_, i7, i8, m.1.trans i9, m.2.trans i10⟩
      · show framesOf (_ ++ _) = c.wire
        rw [framesOf_append, f1, i2, hw]
      · show closesOf (_ ++ _) = _
        rw [closesOf_append, f3]
        exact i3
      · show ∃ a b, linesOf (_ ++ _) = _ ∧ _
        rw [linesOf_append, f2, List.append_nil]
        exact i6
    | close hh =>
      refine ⟨i1, ?_, ?_, i4, i5, ?_, i7, i8, i9, i10⟩
      · show framesOf (_ ++ _) = _
        rw [framesOf_append, i2]
        exact List.append_nil _
      · show closesOf (_ ++ _) = _
        rw [closesOf_append, i3]
        show _ + 1 = _ + 1 + taskCount _
        dsimp only [emit]
        omega
      · show ∃ a b, linesOf (_ ++ _) = _ ∧ _
        rw [linesOf_append, show linesOf [Happening.act .close] = [] from rfl, List.append_nil]
        exact i6
    | wakeEarly hd hw he =>
      refine ⟨i1, i2, i3, i4, fun _ => ?_, i6, i7, i8, i9, i10⟩
      rw [i9, i10] at he
      simp only
      omega
    | wakeLate hd hw he =>
      rw [i9, i10] at he
      refine ⟨i1, ?_, ?_, fun _ => ?_, fun h => (nomatch h), ?_, ?_, i8, i9, i10⟩
      · show framesOf (_ ++ _) = _
        rw [framesOf_append, i2]
        exact List.append_nil _
      · show closesOf (_ ++ _) = _
        rw [closesOf_append, i3, hd]
        rfl
      · show created + timeout < _
        simp only [emit]
        omega
      · show ∃ a b, linesOf (_ ++ _) = _ ∧ _
        obtain ⟨a, b, h1, h2⟩ := i6
        rw [hd, if_pos rfl, List.append_nil] at h1
        rw [linesOf_append, h1]
        exact ⟨a ++ b, [], by simp [handleError, timeoutDisplay, linesOf], by
          rw [List.append_nil]; exact h2⟩
      · rw [hd] at i7
        exact i7
    | dogCloses hd =>
      refine ⟨i1, ?_, ?_, fun _ => i4 (by rw [hd]; nofun), fun h => (nomatch h), ?_, ?_,
        release_released i8, i9, i10⟩
      · show framesOf (_ ++ _) = _
        rw [framesOf_append, i2]
        exact List.append_nil _
      · show closesOf (_ ++ _) = _
        rw [closesOf_append, i3, hd]
        rfl
      · show ∃ a b, linesOf (_ ++ _) = _ ∧ _
        rw [linesOf_append, show linesOf [Happening.act .close] = [] from rfl, List.append_nil]
        rw [hd] at i6
        exact i6
      · show _ - 1 = _ + _ + taskCount (Dog.stopped != .stopped)
        have : (emit _ [Happening.act .close]).strong = _ := i7
        rw [this, hd]
        rfl
    | status st hl =>
      obtain ⟨f1, f2, f3⟩ := of_status st
      refine ⟨i1, ?_, ?_, i4, i5, ?_, i7, i8, i9, i10⟩
      · show framesOf (_ ++ _) = _
        rw [framesOf_append, i2, f1, List.append_nil]
        rfl
      · show closesOf (_ ++ _) = _
        rw [closesOf_append, f3]
        exact i3
      · show ∃ a b, linesOf (_ ++ _) = _ ∧ _ = List.flatMap statusReport (_ ++ [st])
        obtain ⟨a, b, h1, h2⟩ := i6
        rw [linesOf_append, f2, h1]
        refine ⟨a, b ++ statusReport st, List.append_assoc .., ?_⟩
        rw [← List.append_assoc, h2, List.flatMap_append]
        simp
    | statusEnd hl =>
      refine ⟨i1, i2, i3, i4, i5, i6, ?_, release_released i8, i9, i10⟩
      show _ - 1 = _ + taskCount false + _
      rw [i7, hl]
      dsimp only [release, taskCount]
      rw [if_pos rfl, if_neg Bool.false_ne_true]
      omega
    | clone hh =>
      refine ⟨i1, i2, i3, i4, i5, i6, ?_, ?_, i9, i10⟩
      · show _ + 1 = _ + 1 + _ + _
        dsimp only
        omega
      · show _ = (_ + 1 == 0)
        rw [i8, beq_eq_false_iff_ne.2 (by omega), beq_eq_false_iff_ne.2 (by omega)]
    | drop hh hb =>
      refine ⟨i1, i2, i3, i4, i5, i6, ?_, release_released i8, i9, i10⟩
      show _ - 1 = _ - 1 + _ + _
      simp only [release]
      omega

end Binate
