import Verif.Spec.Handler
import Mathlib.Data.List.Perm.Basic
import Mathlib.Data.List.Range

/-! # Invariants of the shared request handler -/

namespace Binate

open RequestHanlder Spec

variable {H : Type}

/-- What holds after the events `es`. -/
structure HandlerInv (dummy : H) (es : List (Event H)) (s : State H) : Prop where
  current : s.current = (assigned es).getLast?.getD dummy
  calls : s.calls = (passed es).length
  mine : ∀ c ∈ pending s, (passed es)[c.number]? = some c.handler
  theirs : ∀ n h, Event.done n h ∈ es → (passed es)[n]? = some h
  fifo : (returned es ++ (pending s).map Call.number).Pairwise (· < ·)
  once : (returned es ++ cancelled es ++ (pending s).map Call.number).Perm
    (List.range (passed es).length)
  kept : (s.dropped ++ s.current :: (pending s).map Call.handler).Perm (dummy :: passed es)

theorem pending_call (s : State H) (h : H) :
    pending { s with queue := s.queue ++ [⟨s.calls, h⟩], calls := s.calls + 1 } =
      pending s ++ [⟨s.calls, h⟩] := by
  simp [pending]

theorem handlerInv {dummy : H} {es : List (Event H)} {s : State H}
    (hr : Run (State.new dummy) es s) : HandlerInv dummy es s := by
  induction hr with
  | nil =>
    exact ⟨rfl, rfl, by simp [pending, State.new], by simp, by simp [returned, pending, State.new],
      by simp [returned, cancelled, passed, pending, State.new],
      by simp [passed, pending, State.new]⟩
  | @snoc t u es e _ st ih =>
    obtain ⟨i1, i2, i3, i4, i5, i6, i7⟩ := ih
    cases st with
    | call h =>
      have lt : ∀ n ∈ returned es ++ cancelled es ++ (pending t).map Call.number, n < t.calls := by
        intro n hn
        rw [i2]
        exact List.mem_range.1 (i6.mem_iff.1 hn)
      have p1 : passed (es ++ [.call h]) = passed es ++ [h] := by simp [passed]
      have p2 : returned (es ++ [.call h]) = returned es := by simp [returned]
      have p3 : cancelled (es ++ [.call h]) = cancelled es := by simp [cancelled]
      have p4 : assigned (es ++ [.call h]) = assigned es := by simp [assigned]
      refine ⟨by rw [p4]; exact i1, by simp [p1, i2], ?_, ?_, ?_, ?_, ?_⟩
      · intro c hc
        rw [pending_call] at hc
        rcases List.mem_append.1 hc with hc | hc
        · have := i3 c hc
          rw [p1, List.getElem?_append_left]
          · exact this
          · exact (List.getElem?_eq_some_iff.1 this).1
        · rw [List.mem_singleton.1 hc, p1]
          simp [i2]
      · intro n h' hn
        have hn : Event.done n h' ∈ es := by simpa using hn
        have := i4 n h' hn
        rw [p1, List.getElem?_append_left]
        · exact this
        · exact (List.getElem?_eq_some_iff.1 this).1
      · rw [pending_call, p2, List.map_append, ← List.append_assoc]
        refine List.pairwise_append.2 ⟨i5, by simp, ?_⟩
        intro a ha b hb
        have : b = t.calls := by simpa using hb
        subst this
        refine lt a ?_
        simp only [List.mem_append] at ha ⊢
        tauto
      · rw [pending_call, p1, p2, p3, List.map_append, ← List.append_assoc, List.length_append,
          List.length_singleton, List.range_succ, ← i2]
        rw [← i2] at i6
        exact i6.append_right _
      · rw [pending_call, p1]
        show (t.dropped ++ t.current :: _).Perm _
        have : t.dropped ++ t.current :: (pending t ++ [(⟨t.calls, h⟩ : Call H)]).map Call.handler =
            (t.dropped ++ t.current :: (pending t).map Call.handler) ++ [h] := by simp
        rw [this]
        exact i7.append_right _
    | grant c rest hh hq =>
      have p0 : pending { t with holder := some c, queue := rest } = pending t := by
        simp [pending, hh, hq]
      have p1 : passed (es ++ [.grant]) = passed es := by simp [passed]
      have p2 : returned (es ++ [.grant]) = returned es := by simp [returned]
      have p3 : cancelled (es ++ [.grant]) = cancelled es := by simp [cancelled]
      have p4 : assigned (es ++ [.grant]) = assigned es := by simp [assigned]
      exact ⟨by rw [p4]; exact i1, by rw [p1]; exact i2, by rw [p0, p1]; exact i3,
        fun n h hn => by rw [p1]; exact i4 n h (by simpa using hn),
        by rw [p0, p2]; exact i5, by rw [p0, p1, p2, p3]; exact i6,
        by rw [p0, p1]; exact i7⟩
    | done c hh =>
      have p0 : pending t = c :: t.queue := by simp [pending, hh]
      have p1 : passed (es ++ [.done c.number c.handler]) = passed es := by simp [passed]
      have p2 : returned (es ++ [.done c.number c.handler]) = returned es ++ [c.number] := by
        simp [returned]
      have p3 : cancelled (es ++ [.done c.number c.handler]) = cancelled es := by simp [cancelled]
      have p4 : assigned (es ++ [.done c.number c.handler]) = assigned es ++ [c.handler] := by
        simp [assigned]
      rw [p0] at i3 i5 i6 i7
      refine ⟨by rw [p4]; simp, by rw [p1]; exact i2, ?_, ?_, ?_, ?_, ?_⟩
      · intro d hd
        rw [p1]
        exact i3 d (List.mem_cons_of_mem _ (by simpa [pending] using hd))
      · intro n h hn
        rw [p1]
        rcases List.mem_append.1 hn with hn | hn
        · exact i4 n h hn
        · have : n = c.number ∧ h = c.handler := by simpa using hn
          rw [this.1, this.2]
          exact i3 c (List.mem_cons_self ..)
      · rw [p2]
        simpa [pending] using i5
      · rw [p1, p2, p3]
        refine List.Perm.trans ?_ i6
        simp only [pending, Option.toList_none, List.nil_append, List.map_cons, List.append_assoc]
        refine List.Perm.append_left _ ?_
        simpa using (List.perm_middle (a := c.number) (l₁ := cancelled es)
          (l₂ := t.queue.map Call.number)).symm
      · rw [p1]
        simpa [pending] using i7
    | cancelWaiting front c back hq =>
      have p1 : passed (es ++ [.cancel c.number]) = passed es := by simp [passed]
      have p2 : returned (es ++ [.cancel c.number]) = returned es := by simp [returned]
      have p3 : cancelled (es ++ [.cancel c.number]) = cancelled es ++ [c.number] := by
        simp [cancelled]
      have p4 : assigned (es ++ [.cancel c.number]) = assigned es := by simp [assigned]
      have p0 : pending t = (t.holder.toList ++ front) ++ c :: back := by simp [pending, hq]
      have p5 : pending { t with queue := front ++ back, dropped := t.dropped ++ [c.handler] } =
          (t.holder.toList ++ front) ++ back := by simp [pending]
      generalize t.holder.toList ++ front = fr at p0 p5
      rw [p0] at i3 i5 i6 i7
      refine ⟨by rw [p4]; exact i1, by rw [p1]; exact i2, ?_, ?_, ?_, ?_, ?_⟩
      · intro d hd
        rw [p5] at hd
        rw [p1]
        refine i3 d ?_
        simp only [List.mem_append, List.mem_cons] at hd ⊢
        tauto
      · intro n h hn
        rw [p1]
        exact i4 n h (by simpa using hn)
      · rw [p2, p5]
        refine i5.sublist ?_
        refine List.Sublist.append_left ?_ _
        simp only [List.map_append, List.map_cons]
        exact List.Sublist.append_left (List.sublist_cons_self ..) _
      · rw [p1, p2, p3, p5]
        refine List.Perm.trans ?_ i6
        simp only [List.map_append, List.map_cons, List.append_assoc]
        refine List.Perm.append_left _ (List.Perm.append_left _ ?_)
        exact (List.perm_middle (a := c.number) (l₁ := fr.map Call.number)
          (l₂ := back.map Call.number)).symm
      · rw [p1, p5]
        refine List.Perm.trans ?_ i7
        simp only [List.map_append, List.map_cons, List.append_assoc]
        refine List.Perm.append_left _ ?_
        refine (List.Perm.swap ..).trans (List.Perm.cons _ ?_)
        exact (List.perm_middle (a := c.handler) (l₁ := fr.map Call.handler)
          (l₂ := back.map Call.handler)).symm
    | cancelHolding c hh =>
      have p1 : passed (es ++ [.cancel c.number]) = passed es := by simp [passed]
      have p2 : returned (es ++ [.cancel c.number]) = returned es := by simp [returned]
      have p3 : cancelled (es ++ [.cancel c.number]) = cancelled es ++ [c.number] := by
        simp [cancelled]
      have p4 : assigned (es ++ [.cancel c.number]) = assigned es := by simp [assigned]
      have p0 : pending t = c :: t.queue := by simp [pending, hh]
      have p5 : pending { t with holder := none, dropped := t.dropped ++ [c.handler] } =
          t.queue := by simp [pending]
      rw [p0] at i3 i5 i6 i7
      refine ⟨by rw [p4]; exact i1, by rw [p1]; exact i2, ?_, ?_, ?_, ?_, ?_⟩
      · intro d hd
        rw [p5] at hd
        rw [p1]
        exact i3 d (List.mem_cons_of_mem _ hd)
      · intro n h hn
        rw [p1]
        exact i4 n h (by simpa using hn)
      · rw [p2, p5]
        refine i5.sublist (List.Sublist.append_left ?_ _)
        exact List.sublist_cons_self ..
      · rw [p1, p2, p3, p5]
        refine List.Perm.trans ?_ i6
        simp
      · rw [p1, p5]
        refine List.Perm.trans ?_ i7
        simp only [List.map_cons, List.append_assoc]
        exact List.Perm.append_left _ (List.Perm.swap ..)

/-- A pending call with `front` before it is served or dropped, or it moves up. -/
theorem served_inv {s t : State H} {es : List (Event H)} (hr : Run s es t)
    {front back : List (Call H)} {c : Call H} (hp : pending s = front ++ c :: back) :
    c.number ∈ returned es ∨ c.number ∈ cancelled es ∨
      ∃ front' back', pending t = front' ++ c :: back' ∧
        front'.length + (returned es).length ≤ front.length := by
  induction hr with
  | nil => exact .inr (.inr ⟨front, back, hp, by simp [returned]⟩)
  | @snoc t u es e _ st ih =>
    rcases ih with h | h | ⟨f, b, h1, h2⟩
    · exact .inl (by simp only [returned, List.filterMap_append, List.mem_append] at h ⊢; exact .inl h)
    · exact .inr (.inl (by
        simp only [cancelled, List.filterMap_append, List.mem_append] at h ⊢; exact .inl h))
    · cases st with
      | call h =>
        exact .inr (.inr ⟨f, b ++ [⟨t.calls, h⟩], by rw [pending_call, h1]; simp,
          by simpa [returned] using h2⟩)
      | grant d rest hh hq =>
        exact .inr (.inr ⟨f, b, by rw [← h1]; simp [pending, hh, hq],
          by simpa [returned] using h2⟩)
      | done d hh =>
        have p0 : pending t = d :: t.queue := by simp [pending, hh]
        rw [p0] at h1
        cases f with
        | nil =>
          simp only [List.nil_append, List.cons.injEq] at h1
          rw [h1.1]
          exact .inl (by simp [returned])
        | cons x f =>
          simp only [List.cons_append, List.cons.injEq] at h1
          refine .inr (.inr ⟨f, b, by simp [pending, h1.2], ?_⟩)
          have hr' : returned (es ++ [.done d.number d.handler]) = returned es ++ [d.number] := by
            simp [returned]
          rw [hr']
          simp only [List.length_append, List.length_cons, List.length_nil] at h2 ⊢
          omega
      | cancelWaiting fr d bk hq =>
        by_cases hd : d.number = c.number
        · exact .inr (.inl (by simp [cancelled, hd]))
        · have p0 : pending t = (t.holder.toList ++ fr) ++ d :: bk := by simp [pending, hq]
          have p5 : pending { t with queue := fr ++ bk, dropped := t.dropped ++ [d.handler] } =
            (t.holder.toList ++ fr) ++ bk := by simp [pending]
          rw [p5]
          have hr' : returned (es ++ [.cancel d.number]) = returned es := by simp [returned]
          rw [hr']
          rw [p0] at h1
          rcases List.append_eq_append_iff.1 h1 with ⟨m, hm1, hm2⟩ | ⟨m, hm1, hm2⟩
          · cases m with
            | nil =>
              simp only [List.nil_append, List.cons.injEq] at hm2
              exact absurd (by rw [hm2.1]) hd
            | cons x m =>
              simp only [List.cons_append, List.cons.injEq] at hm2
              refine .inr (.inr ⟨(t.holder.toList ++ fr) ++ m, b, by simp [hm2.2], ?_⟩)
              rw [hm1] at h2
              simp only [List.length_append, List.length_cons] at h2 ⊢
              omega
          · cases m with
            | nil =>
              simp only [List.nil_append, List.cons.injEq] at hm2
              exact absurd (by rw [hm2.1]) hd
            | cons x m =>
              simp only [List.cons_append, List.cons.injEq] at hm2
              refine .inr (.inr ⟨f, m ++ bk, ?_, h2⟩)
              rw [hm1, hm2.1]
              simp
      | cancelHolding d hh =>
        have p0 : pending t = d :: t.queue := by simp [pending, hh]
        rw [p0] at h1
        cases f with
        | nil =>
          simp only [List.nil_append, List.cons.injEq] at h1
          rw [h1.1]
          exact .inr (.inl (by simp [cancelled]))
        | cons x f =>
          simp only [List.cons_append, List.cons.injEq] at h1
          refine .inr (.inr ⟨f, b, by simp [pending, h1.2], ?_⟩)
          have hr' : returned (es ++ [.cancel d.number]) = returned es := by simp [returned]
          rw [hr']
          simp only [List.length_cons] at h2
          omega

end Binate
