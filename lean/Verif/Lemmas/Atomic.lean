import Verif.Spec.Atomic
import Verif.Spec.Counter
import Verif.Lemmas.Counter
import Verif.Lemmas.StreamId

/-! # Lemmas about executions under the memory model -/

namespace Binate

open Spec Atomic

/-! ## Sorting by a partial order -/

theorem exists_minimal_mem {α : Type} {R : α → α → Prop} (hi : ∀ a, ¬ R a a)
    (ht : ∀ a b c, R a b → R b c → R a c) :
    ∀ (a : α) (l : List α), ∃ m ∈ a :: l, ∀ x ∈ a :: l, ¬ R x m := by
  intro a l
  induction l generalizing a with
  | nil =>
    refine ⟨a, List.mem_cons_self, fun x hx => ?_⟩
    rw [List.mem_singleton] at hx
    rw [hx]
    exact hi a
  | cons b l ih =>
    obtain ⟨m, h1, h2⟩ := ih b
    by_cases h : R a m
    · refine ⟨a, List.mem_cons_self, fun x hx => ?_⟩
      rcases List.mem_cons.1 hx with rfl | hx
      · exact hi _
      · exact fun hxa => h2 x hx (ht _ _ _ hxa h)
    · refine ⟨m, List.mem_cons_of_mem _ h1, fun x hx => ?_⟩
      rcases List.mem_cons.1 hx with rfl | hx
      · exact h
      · exact h2 x hx

theorem exists_sorted {α : Type} {R : α → α → Prop} (hi : ∀ a, ¬ R a a)
    (ht : ∀ a b c, R a b → R b c → R a c) :
    ∀ (n : Nat) (l : List α), l.length = n →
      ∃ l' : List α, l'.Perm l ∧ l'.Pairwise fun a b => ¬ R b a := by
  intro n
  induction n with
  | zero =>
    intro l hl
    rw [List.length_eq_zero_iff.1 hl]
    exact ⟨[], .nil, .nil⟩
  | succ n ih =>
    intro l hl
    obtain ⟨a, l, rfl⟩ : ∃ a l', l = a :: l' := by
      cases l with
      | nil => cases hl
      | cons a l => exact ⟨a, l, rfl⟩
    obtain ⟨m, h1, h2⟩ := exists_minimal_mem hi ht a l
    obtain ⟨s, t, e⟩ := List.append_of_mem h1
    have hp : (m :: (s ++ t)).Perm (a :: l) := by rw [e]; exact List.perm_middle.symm
    obtain ⟨l', p1, p2⟩ := ih (s ++ t) (by
      have := hp.length_eq
      rw [hl, List.length_cons] at this
      omega)
    refine ⟨m :: l', (p1.cons m).trans hp, List.pairwise_cons.2 ⟨fun x hx => ?_, p2⟩⟩
    exact h2 x (hp.mem_iff.1 (List.mem_cons_of_mem _ (p1.mem_iff.1 hx)))

/-- Every strict partial order on the events has a schedule. -/
theorem exists_schedule {ι : Type} {g : Graph ι} {init : U32} (h : g.Consistent init)
    {R : ι → ι → Prop} (hi : ∀ a, ¬ R a a) (ht : ∀ a b c, R a b → R b c → R a c) :
    ∃ order, Schedule R order ∧ order.Perm g.events := by
  obtain ⟨l, h1, h2⟩ := exists_sorted hi ht _ g.events rfl
  exact ⟨l, ⟨h1.nodup_iff.2 h.nodup, fun e => h1.mem_iff.2 (h.complete e), h2⟩, h1⟩

theorem Spec.Schedule.mono {ι : Type} {R S : ι → ι → Prop} {order : List ι} (h : Schedule R order)
    (hs : ∀ a b, S a b → R a b) : Schedule S order :=
  ⟨h.nodup, h.complete, h.agrees.imp fun hab hba => hab (hs _ _ hba)⟩

/-- In a schedule, what comes before an event by `R` is in the part before it. -/
theorem Spec.Schedule.mem_before {ι : Type} {R : ι → ι → Prop} {pre post : List ι} {e x : ι}
    (h : Schedule R (pre ++ e :: post)) (hx : R x e) (hne : x ≠ e) : x ∈ pre := by
  rcases List.mem_append.1 (h.complete x) with hm | hm
  · exact hm
  · exfalso
    rcases List.mem_cons.1 hm with rfl | hm
    · exact hne rfl
    · have := (List.pairwise_append.1 h.agrees).2.1
      exact (List.pairwise_cons.1 this).1 x hm hx

/-- In a schedule, what comes after an event by `R` is not in the part before it. -/
theorem Spec.Schedule.not_mem_before {ι : Type} {R : ι → ι → Prop} {pre post : List ι} {e x : ι}
    (h : Schedule R (pre ++ e :: post)) (hx : R e x) : x ∉ pre := fun hm =>
  (List.pairwise_append.1 h.agrees).2.2 x hm e List.mem_cons_self hx

/-! ## Positions in the modification order -/

namespace Atomic.Graph

variable {ι : Type} {g : Graph ι} {init : U32}

/-- The modification order with the initialisation. -/
def full (g : Graph ι) : List (Option ι) := none :: g.mo.map some

theorem full_nodup (h : g.Consistent init) : g.full.Nodup := by
  refine List.nodup_cons.2 ⟨fun hm => ?_, ?_⟩
  · obtain ⟨x, -, hx⟩ := List.mem_map.1 hm
    cases hx
  · rw [List.nodup_iff_pairwise_ne, List.pairwise_map]
    exact (List.nodup_iff_pairwise_ne.1 h.mo_nodup).imp fun hab he => hab (Option.some.inj he)

theorem full_inj (h : g.Consistent init) {i j : Nat} {x : Option ι} (hi : g.full[i]? = some x)
    (hj : g.full[j]? = some x) : i = j := by
  obtain ⟨hi', ei⟩ := List.getElem?_eq_some_iff.1 hi
  obtain ⟨hj', ej⟩ := List.getElem?_eq_some_iff.1 hj
  have hn := List.pairwise_iff_getElem.1 (List.nodup_iff_pairwise_ne.1 (full_nodup h))
  rcases Nat.lt_trichotomy i j with hlt | he | hlt
  · exact absurd (ei.trans ej.symm) (hn i j hi' hj' hlt)
  · exact he
  · exact absurd (ej.trans ei.symm) (hn j i hj' hi' hlt)

theorem before_iff (h : g.Consistent init) {i j : Nat} {x y : Option ι}
    (hi : g.full[i]? = some x) (hj : g.full[j]? = some y) : g.Before x y ↔ i < j := by
  constructor
  · rintro ⟨i', j', hlt, h1, h2⟩
    rw [full_inj h hi h1, full_inj h hj h2]
    exact hlt
  · exact fun hlt => ⟨i, j, hlt, hi, hj⟩

theorem full_succ {k : Nat} {e : ι} : g.full[k + 1]? = some (some e) ↔ g.mo[k]? = some e := by
  rw [full, List.getElem?_cons_succ, List.getElem?_map]
  cases g.mo[k]? with
  | none => simp
  | some x => simp

theorem mem_mo_of_full {k : Nat} {e : ι} (h : g.full[k]? = some (some e)) : e ∈ g.mo := by
  cases k with
  | zero => cases h
  | succ k => exact List.mem_of_getElem? (full_succ.1 h)

/-- Where an event stands: the place of the modification that it read from. -/
theorem exists_pos (h : g.Consistent init) {e : ι} (he : g.Reads e) :
    ∃ k : Nat, g.full[k]? = some (g.rf e) := by
  cases hr : g.rf e with
  | none => exact ⟨0, rfl⟩
  | some w =>
    obtain ⟨k, hk⟩ := List.mem_iff_getElem?.1 (h.rf_mem e w he hr)
    exact ⟨k + 1, full_succ.2 hk⟩

theorem Modifies.reads {e : ι} (h : g.Modifies e) : g.Reads e := h.imp fun _ h => h.1

/-- The place of a modification is just after the one that it read from. -/
theorem pos_succ (h : g.Consistent init) {e : ι} (he : g.Modifies e) {k : Nat}
    (hk : g.full[k]? = some (g.rf e)) : g.mo[k]? = some e := by
  obtain ⟨j, hj⟩ := List.mem_iff_getElem?.1 ((h.mo_mem e).2 he)
  rw [full_inj h hk (h.atomic j e hj)]
  exact hj

end Atomic.Graph

namespace Atomic

/-- What the operation adds. -/
def Access.delta : Access → U32
  | .load => 0#32
  | .fetchAdd n => n
  | .fetchSub n => -n

theorem Access.apply_eq (a : Access) (v : U32) : a.apply v = v + a.delta := by
  cases a with
  | load => exact (BitVec.add_zero v).symm
  | fetchAdd n => rfl
  | fetchSub n => exact BitVec.sub_eq_add_neg v n

/-- What all operations of a list add. -/
def total : List Access → U32
  | [] => 0#32
  | a :: l => a.delta + total l

theorem total_append (xs ys : List Access) : total (xs ++ ys) = total xs + total ys := by
  induction xs with
  | nil => exact (BitVec.zero_add _).symm
  | cons a xs ih =>
    show a.delta + total (xs ++ ys) = a.delta + total xs + total ys
    rw [ih, BitVec.add_assoc]

theorem total_perm {xs ys : List Access} (h : xs.Perm ys) : total xs = total ys := by
  induction h with
  | nil => rfl
  | cons a _ ih => exact congrArg (a.delta + ·) ih
  | swap a b l =>
    show b.delta + (a.delta + total l) = a.delta + (b.delta + total l)
    rw [← BitVec.add_assoc, ← BitVec.add_assoc, BitVec.add_comm b.delta]
  | trans _ _ h1 h2 => exact h1.trans h2

theorem total_filter (l : List Access) : total (l.filter Access.modifies) = total l := by
  induction l with
  | nil => rfl
  | cons a l ih =>
    cases a with
    | load =>
      show total (l.filter Access.modifies) = 0#32 + total l
      rw [ih, BitVec.zero_add]
    | fetchAdd n => exact congrArg (n + ·) ih
    | fetchSub n => exact congrArg (-n + ·) ih

namespace Graph

variable {ι : Type} {g : Graph ι} {init : U32}

/-- The value after the first `k` modifications. -/
theorem written_full (h : g.Consistent init) :
    ∀ (k : Nat) (x : Option ι), g.full[k]? = some x →
      g.written init x = init + total ((g.mo.take k).filterMap g.access) := by
  intro k
  induction k with
  | zero =>
    intro x hx
    cases hx
    exact (BitVec.add_zero init).symm
  | succ k ih =>
    intro x hx
    cases x with
    | none => exact absurd (full_inj h hx (j := 0) rfl) (by omega)
    | some e =>
      have hk := full_succ.1 hx
      obtain ⟨a, ha, -⟩ := (h.mo_mem e).1 (List.mem_of_getElem? hk)
      have hr := ih _ (h.atomic k e hk)
      rw [List.take_add_one, hk, List.filterMap_append, total_append, ← BitVec.add_assoc, ← hr]
      show (match g.access e with | some a => a.apply (g.read e) | none => g.read e) = _
      rw [ha]
      show a.apply (g.read e) = _
      rw [Access.apply_eq, h.value e ⟨a, ha⟩]
      congr 1
      show a.delta = total (List.filterMap g.access [e])
      rw [List.filterMap_cons, ha]
      exact (BitVec.add_zero _).symm

theorem read_pos (h : g.Consistent init) {e : ι} (he : g.Reads e) {k : Nat}
    (hk : g.full[k]? = some (g.rf e)) :
    g.read e = init + total ((g.mo.take k).filterMap g.access) := by
  rw [h.value e he]
  exact written_full h k _ hk

end Graph

end Atomic

/-! ## The request counter -/

namespace RequestCounter

theorem step_word (c : RequestCounter) (op : Op) :
    c.step op = (op.result c.word, ⟨op.access.apply c.word⟩) := by
  cases op <;> rfl

theorem exec_word (c : RequestCounter) (ops : List Op) :
    (c.exec ops).2 = ⟨c.word + total (ops.map Op.access)⟩ := by
  induction ops generalizing c with
  | nil =>
    show c = ⟨c.word + 0#32⟩
    rw [BitVec.add_zero]
  | cons op ops ih =>
    show (exec (c.step op).2 ops).2 = _
    rw [ih, step_word]
    show (⟨op.access.apply c.word + _⟩ : RequestCounter) = ⟨c.word + (op.access.delta + _)⟩
    rw [Access.apply_eq, BitVec.add_assoc]

variable {ι : Type} {x : Execution ι} {init : U32}

theorem all_read (x : Execution ι) (e : ι) : x.Reads e := ⟨_, x.access_eq e⟩

theorem modifies_iff (x : Execution ι) (e : ι) :
    x.Modifies e ↔ (x.op e).access.modifies = true := by
  constructor
  · rintro ⟨a, h1, h2⟩
    rw [x.access_eq e] at h1
    cases h1
    exact h2
  · exact fun h => ⟨_, x.access_eq e, h⟩

/-- The modifications before an event, in any order that agrees with coherence. -/
theorem filter_perm (h : x.Consistent init) {pre post : List ι} {e : ι}
    (hs : Schedule (CoherenceOrdered x.toGraph) (pre ++ e :: post)) {k : Nat}
    (hk : x.full[k]? = some (x.rf e)) :
    (pre.filter fun w => (x.op w).access.modifies).Perm (x.mo.take k) := by
  have hn : pre.Nodup := (List.nodup_append.1 hs.nodup).1
  refine (List.perm_ext_iff_of_nodup (hn.filter _)
    (h.mo_nodup.sublist (List.take_sublist _ _))).2 fun w => ?_
  rw [List.mem_filter]
  have heq : e ∉ pre := fun hm =>
    (List.nodup_append.1 hs.nodup).2.2 e hm e List.mem_cons_self rfl
  constructor
  · rintro ⟨h1, h2⟩
    have hw := (modifies_iff x w).2 h2
    obtain ⟨j, hj⟩ := List.mem_iff_getElem?.1 ((h.mo_mem w).2 hw)
    by_cases hlt : j < k
    · exact List.mem_of_getElem? (l := x.mo.take k) (i := j) (by
        rw [List.getElem?_take_of_lt hlt]; exact hj)
    · exfalso
      refine hs.not_mem_before (x := w) (.inr (.inr ⟨?_, ?_⟩)) h1
      · exact (Graph.before_iff h hk (Graph.full_succ.2 hj)).2 (by omega)
      · rintro rfl
        exact heq h1
  · intro hw
    obtain ⟨j, hj⟩ := List.mem_iff_getElem?.1 hw
    have hlt : j < k := by
      have := (List.getElem?_eq_some_iff.1 hj).1
      rw [List.length_take] at this
      omega
    rw [List.getElem?_take_of_lt hlt] at hj
    have hm := (h.mo_mem w).1 (List.mem_of_getElem? hj)
    refine ⟨?_, (modifies_iff x w).1 hm⟩
    have hne : w ≠ e := by
      rintro rfl
      have := Graph.pos_succ h hm hk
      have := Graph.full_inj h (Graph.full_succ.2 hj) (Graph.full_succ.2 this)
      omega
    cases hr : x.rf e with
    | none =>
      rw [hr] at hk
      have := Graph.full_inj h hk (j := 0) rfl
      omega
    | some v =>
      rw [hr] at hk
      have hv : v ∈ pre := by
        refine hs.mem_before (.inr (.inl hr)) ?_
        rintro rfl
        have hvm := (h.mo_mem v).1 (Graph.mem_mo_of_full hk)
        obtain ⟨i, hi⟩ := Graph.exists_pos h hvm.reads
        have h1 := Graph.full_succ.2 (Graph.pos_succ h hvm hi)
        rw [hr] at hi
        have := Graph.full_inj h hi h1
        omega
      by_cases hwv : w = v
      · rw [hwv]; exact hv
      · obtain ⟨a, b, rfl⟩ := List.append_of_mem hv
        rw [List.append_assoc] at hs
        have := Schedule.mem_before (x := w) (e := v) (pre := a) hs (.inl
          ((Graph.before_iff h (Graph.full_succ.2 hj) hk).2 (by
            have h1 : j + 1 ≠ k := by
              rintro rfl
              exact hwv (Option.some.inj ((Graph.full_succ.1 hk).symm.trans hj).symm)
            omega))) hwv
        exact List.mem_append_left _ this

/-- In any order that agrees with coherence, the value that an event found is the one that the
operations before it leave. -/
theorem read_eq (h : x.Consistent init) {pre post : List ι} {e : ι}
    (hs : Schedule (CoherenceOrdered x.toGraph) (pre ++ e :: post)) :
    x.read e = init + total ((pre.map x.op).map Op.access) := by
  obtain ⟨k, hk⟩ := Graph.exists_pos h (all_read x e)
  rw [Graph.read_pos h (all_read x e) hk]
  congr 1
  have ha : x.access = fun e => some (x.op e).access := funext x.access_eq
  rw [ha, List.filterMap_eq_map', ← total_perm ((filter_perm h hs hk).map _), List.map_map]
  rw [← total_filter (List.map _ pre), List.filter_map]
  rfl

theorem exec_schedule (h : x.Consistent init) {order : List ι}
    (hs : Schedule (CoherenceOrdered x.toGraph) order) :
    ((⟨init⟩ : RequestCounter).exec (order.map x.op)).1 =
      order.map fun e => (x.op e, (x.op e).result (x.read e)) := by
  have key : ∀ pre post : List ι, pre ++ post = order →
      ((⟨init + total ((pre.map x.op).map Op.access)⟩ : RequestCounter).exec (post.map x.op)).1 =
        post.map fun e => (x.op e, (x.op e).result (x.read e)) := by
    intro pre post
    induction post generalizing pre with
    | nil => intro _; rfl
    | cons e post ih =>
      intro he
      have ih := ih (pre ++ [e]) (by rw [List.append_assoc]; exact he)
      have hr := read_eq (x := x) h (pre := pre) (e := e) (post := post) (he ▸ hs)
      rw [List.map_append, List.map_append, total_append, ← BitVec.add_assoc, ← hr] at ih
      rw [← hr]
      show ((x.op e), (step ⟨x.read e⟩ (x.op e)).1) ::
        (exec (step ⟨x.read e⟩ (x.op e)).2 (post.map x.op)).1 = _
      rw [step_word]
      show _ :: (exec ⟨(x.op e).access.apply (x.read e)⟩ (post.map x.op)).1 = _
      rw [Access.apply_eq]
      have hd : total (List.map Op.access (List.map x.op [e])) = (x.op e).access.delta :=
        BitVec.add_zero _
      rw [hd] at ih
      rw [ih]
      rfl
  have := key [] order rfl
  rw [show total (List.map Op.access (List.map x.op [])) = 0#32 from rfl, BitVec.add_zero] at this
  exact this

/-- Happens-before and coherence together have a schedule. -/
theorem exists_order (h : x.Consistent init) :
    ∃ order, Schedule x.hb order ∧ Schedule (CoherenceOrdered x.toGraph) order ∧
      order.Perm x.events := by
  obtain ⟨key, hkey⟩ := Classical.axiomOfChoice fun e => Graph.exists_pos h (all_read x e)
  let w : ι → Nat := fun e => if (x.op e).access.modifies then 1 else 0
  have hw : ∀ e, (x.Modifies e ∧ w e = 1 ∧ x.mo[key e]? = some e) ∨ (¬ x.Modifies e ∧ w e = 0) := by
    intro e
    by_cases hm : x.Modifies e
    · exact .inl ⟨hm, if_pos ((modifies_iff x e).1 hm), Graph.pos_succ h hm (hkey e)⟩
    · exact .inr ⟨hm, if_neg fun hc => hm ((modifies_iff x e).2 hc)⟩
  have co : ∀ a b, CoherenceOrdered x.toGraph a b → 2 * key a + w a < 2 * key b + w b := by
    rintro a b (hab | hab | ⟨hab, hne⟩)
    · have hab' := hab
      obtain ⟨i, j, hlt, hi, hj⟩ := hab
      have ha := (h.mo_mem a).1 (Graph.mem_mo_of_full hi)
      have hb := (h.mo_mem b).1 (Graph.mem_mo_of_full hj)
      have := (Graph.before_iff h (Graph.full_succ.2 (Graph.pos_succ h ha (hkey a)))
        (Graph.full_succ.2 (Graph.pos_succ h hb (hkey b)))).1 hab'
      rcases hw a with ⟨-, e1, -⟩ | ⟨e1, -⟩
      · rcases hw b with ⟨-, e2, -⟩ | ⟨e2, -⟩
        · omega
        · exact absurd hb e2
      · exact absurd ha e1
    · have ha := (h.mo_mem a).1 (h.rf_mem b a (all_read x b) hab)
      have hb := hkey b
      rw [hab] at hb
      have := Graph.full_inj h hb (Graph.full_succ.2 (Graph.pos_succ h ha (hkey a)))
      rcases hw a with ⟨-, e1, -⟩ | ⟨e1, -⟩
      · omega
      · exact absurd ha e1
    · have hab' := hab
      obtain ⟨i, j, hlt, hi, hj⟩ := hab
      have hb := (h.mo_mem b).1 (Graph.mem_mo_of_full hj)
      have := (Graph.before_iff h (hkey a)
        (Graph.full_succ.2 (Graph.pos_succ h hb (hkey b)))).1 hab'
      rcases hw b with ⟨-, e2, hpb⟩ | ⟨e2, -⟩
      · rcases hw a with ⟨-, e1, hpa⟩ | ⟨-, e1⟩
        · have : key a ≠ key b := by
            intro he
            rw [he, hpb] at hpa
            exact hne (Option.some.inj hpa).symm
          omega
        · omega
      · exact absurd hb e2
  have hh : ∀ a b, x.hb a b → 2 * key a + w a ≤ 2 * key b + w b := by
    intro a b hab
    rcases hw a with ⟨ha, e1, pa⟩ | ⟨ha, e1⟩ <;> rcases hw b with ⟨hb, e2, pb⟩ | ⟨hb, e2⟩
    · have := (Graph.before_iff h (Graph.full_succ.2 pa) (Graph.full_succ.2 pb)).1
        (h.coWW a b hab ha hb)
      omega
    · rcases h.coWR a b hab ha (all_read x b) with hr | hr
      · have hb := hkey b
        rw [hr] at hb
        have := Graph.full_inj h hb (Graph.full_succ.2 pa)
        omega
      · have := (Graph.before_iff h (Graph.full_succ.2 pa) (hkey b)).1 hr
        omega
    · have := (Graph.before_iff h (hkey a) (Graph.full_succ.2 pb)).1
        (h.coRW a b hab (all_read x a) hb)
      omega
    · rcases h.coRR a b hab (all_read x a) (all_read x b) with hr | hr
      · have hb := hkey b
        rw [hr] at hb
        have := Graph.full_inj h hb (hkey a)
        omega
      · have := (Graph.before_iff h (hkey a) (hkey b)).1 hr
        omega
  obtain ⟨order, h1, h2⟩ := exists_schedule (R := fun a b =>
      2 * key a + w a < 2 * key b + w b ∨ (2 * key a + w a = 2 * key b + w b ∧ x.hb a b)) h
    (by
      rintro a (ha | ⟨-, ha⟩)
      · omega
      · exact h.hb_irrefl a ha)
    (by
      rintro a b c (hab | ⟨e1, hab⟩) (hbc | ⟨e2, hbc⟩)
      · exact .inl (by omega)
      · exact .inl (by omega)
      · exact .inl (by omega)
      · exact .inr ⟨by omega, h.hb_trans _ _ _ hab hbc⟩)
  refine ⟨order, h1.mono fun a b hab => ?_, h1.mono fun a b hab => .inl (co a b hab), h2⟩
  have := hh a b hab
  by_cases hlt : 2 * key a + w a < 2 * key b + w b
  · exact .inl hlt
  · exact .inr ⟨by omega, hab⟩

end RequestCounter

/-! ## Stream ids -/

theorem eq_of_pairwise {α : Type} {R : α → α → Prop} (hi : ∀ a, ¬ R a a)
    (ht : ∀ a b c, R a b → R b c → R a c) :
    ∀ {l l' : List α}, l.Pairwise R → l'.Pairwise R → (∀ a, a ∈ l ↔ a ∈ l') → l = l' := by
  intro l
  induction l with
  | nil =>
    intro l' _ _ h
    cases l' with
    | nil => rfl
    | cons b l' => exact absurd ((h b).2 List.mem_cons_self) List.not_mem_nil
  | cons a l ih =>
    intro l' hl hl' h
    cases l' with
    | nil => exact absurd ((h a).1 List.mem_cons_self) List.not_mem_nil
    | cons b l' =>
      obtain ⟨h1, h2⟩ := List.pairwise_cons.1 hl
      obtain ⟨h3, h4⟩ := List.pairwise_cons.1 hl'
      have hab : a = b := by
        rcases List.mem_cons.1 ((h a).1 List.mem_cons_self) with e | e
        · exact e
        · rcases List.mem_cons.1 ((h b).2 List.mem_cons_self) with e' | e'
          · exact e'.symm
          · exact absurd (ht _ _ _ (h1 b e') (h3 a e)) (hi a)
      subst hab
      congr 1
      refine ih h2 h4 fun c => ⟨fun hc => ?_, fun hc => ?_⟩
      · rcases List.mem_cons.1 ((h c).1 (List.mem_cons_of_mem _ hc)) with e | e
        · rw [e] at hc
          exact absurd (h1 a hc) (hi a)
        · exact e
      · rcases List.mem_cons.1 ((h c).2 (List.mem_cons_of_mem _ hc)) with e | e
        · rw [e] at hc
          exact absurd (h3 a hc) (hi a)
        · exact e

theorem pairwise_total {α : Type} {R : α → α → Prop} {l : List α} (h : l.Pairwise R) {a b : α}
    (ha : a ∈ l) (hb : b ∈ l) : a = b ∨ R a b ∨ R b a := by
  induction h with
  | nil => cases ha
  | cons h1 _ ih =>
    rcases List.mem_cons.1 ha with ea | ha <;> rcases List.mem_cons.1 hb with eb | hb
    · exact .inl (ea.trans eb.symm)
    · exact .inr (.inl (ea ▸ h1 _ hb))
    · exact .inr (.inr (eb ▸ h1 _ ha))
    · exact ih ha hb

namespace StreamIdProvider

/-- Where a thread is after an event of its own. -/
def pcNext : PC → Event → PC
  | _, .draw _ sid => .checking sid
  | _, .check _ _ found => if found then .probing else .idle
  | pc, _ => pc

theorem follows_append : ∀ (es rest : List Event) (pc : PC), Follows pc (es ++ rest) →
    Follows (es.foldl pcNext pc) rest := by
  intro es
  induction es with
  | nil => exact fun _ _ h => h
  | cons e es ih =>
    intro rest pc h
    refine ih rest _ ?_
    cases pc with
    | idle =>
      cases e with
      | draw t sid => exact h
      | check => exact h.elim
      | insert => exact h.elim
      | remove => exact h.elim
    | probing =>
      cases e with
      | draw t sid => exact h
      | check => exact h.elim
      | insert => exact h.elim
      | remove => exact h.elim
    | checking s =>
      cases e with
      | draw t sid => exact h.elim
      | check => exact h.2
      | insert => exact h.elim
      | remove => exact h.elim

/-- The store after an event. -/
def storeNext (store : Store) : Event → Store
  | .insert k => fun x => if x = k then true else store x
  | .remove k => fun x => if x = k then false else store x
  | _ => store

theorem storeNext_other {store : Store} {e : Event} {k : U32} (h : e.changes ≠ some k) :
    storeNext store e k = store k := by
  cases e with
  | draw => rfl
  | check => rfl
  | insert k' => exact if_neg fun he => h (congrArg some he.symm)
  | remove k' => exact if_neg fun he => h (congrArg some he.symm)

theorem storeNext_same {store : Store} {e : Event} {k : U32} (h : e.changes = some k) :
    storeNext store e k = true ↔ e = .insert k := by
  cases e with
  | draw => cases h
  | check => cases h
  | insert k' => cases h; exact ⟨fun _ => rfl, fun _ => if_pos rfl⟩
  | remove k' =>
    cases h
    refine ⟨fun hc => ?_, fun hc => nomatch hc⟩
    rw [show storeNext store (.remove k) k = false from if_pos rfl] at hc
    cases hc

/-- What is known of a key after some events: the last change decides. -/
theorem store_after {ι : Type} (ev : ι → Event) (store : Store) (k : U32) (l : List ι) :
    (∀ m ∈ l, (ev m).changes ≠ some k) ∧
        l.foldl (fun st e => storeNext st (ev e)) store k = store k ∨
      ∃ a m b, l = a ++ m :: b ∧ (ev m).changes = some k ∧ (∀ m' ∈ b, (ev m').changes ≠ some k) ∧
        (l.foldl (fun st e => storeNext st (ev e)) store k = true ↔ ev m = .insert k) := by
  induction l generalizing store with
  | nil => exact .inl ⟨fun _ h => (nomatch h), rfl⟩
  | cons e l ih =>
    rcases ih (storeNext store (ev e)) with ⟨h1, h2⟩ | ⟨a, m, b, h1, h2, h3, h4⟩
    · by_cases he : (ev e).changes = some k
      · refine .inr ⟨[], e, l, rfl, he, h1, ?_⟩
        rw [List.foldl_cons, h2]
        exact storeNext_same he
      · refine .inl ⟨fun m hm => ?_, ?_⟩
        · rcases List.mem_cons.1 hm with rfl | hm
          · exact he
          · exact h1 m hm
        · rw [List.foldl_cons, h2]
          exact storeNext_other he
    · exact .inr ⟨e :: a, m, b, by rw [h1]; rfl, h2, h3, h4⟩

variable {ι : Type} {x : Execution ι} {p : StreamIdProvider}

/-- Happens-before together with the modification order of the counter. -/
def Both (x : Execution ι) (a b : ι) : Prop :=
  x.hb a b ∨ ∃ u v, (a = u ∨ x.hb a u) ∧ x.Before (some u) (some v) ∧ (v = b ∨ x.hb v b)

theorem before_trans (h : x.Consistent p.word) {a b c : Option ι} (h1 : x.Before a b)
    (h2 : x.Before b c) : x.Before a c := by
  obtain ⟨i, j, hij, hi, hj⟩ := h1
  obtain ⟨j', k, hjk, hj', hk⟩ := h2
  have : j = j' := Graph.full_inj h hj hj'
  exact ⟨i, k, by omega, hi, hk⟩

theorem before_irrefl (h : x.Consistent p.word) {a : Option ι} : ¬ x.Before a a := by
  rintro ⟨i, j, hij, hi, hj⟩
  have := Graph.full_inj h hi hj
  omega

theorem before_mem (h : x.Consistent p.word) {a b : ι} (hb : x.Before (some a) (some b)) :
    x.Modifies a ∧ x.Modifies b := by
  obtain ⟨i, j, -, hi, hj⟩ := hb
  exact ⟨(h.mo_mem a).1 (Graph.mem_mo_of_full hi), (h.mo_mem b).1 (Graph.mem_mo_of_full hj)⟩

/-- From one modification to an earlier or the same one, happens-before does not lead back. -/
theorem bridge (h : x.Consistent p.word) {u v w y : ι} (h1 : x.Before (some u) (some v))
    (h2 : v = w ∨ x.hb v w) (h3 : x.Before (some w) (some y)) : x.Before (some u) (some y) := by
  rcases h2 with rfl | h2
  · exact before_trans h h1 h3
  · exact before_trans h (before_trans h h1
      (h.coWW v w h2 (before_mem h h1).2 (before_mem h h3).1)) h3

theorem or_trans (h : x.Consistent p.word) {a b c : ι} (h1 : a = b ∨ x.hb a b)
    (h2 : b = c ∨ x.hb b c) : a = c ∨ x.hb a c := by
  rcases h1 with rfl | h1
  · exact h2
  · rcases h2 with rfl | h2
    · exact .inr h1
    · exact .inr (h.hb_trans _ _ _ h1 h2)

theorem both_irrefl (h : x.Consistent p.word) (a : ι) : ¬ Both x a a := by
  rintro (ha | ⟨u, v, h1, h2, h3⟩)
  · exact h.hb_irrefl a ha
  · rcases or_trans h h3 h1 with e | hvu
    · rw [e] at h2
      exact before_irrefl h h2
    · exact before_irrefl h
        (before_trans h h2 (h.coWW v u hvu (before_mem h h2).2 (before_mem h h2).1))

theorem both_trans (h : x.Consistent p.word) (a b c : ι) (h1 : Both x a b) (h2 : Both x b c) :
    Both x a c := by
  rcases h1 with h1 | ⟨u, v, h1, h3, h4⟩ <;> rcases h2 with h2 | ⟨u', v', h5, h6, h7⟩
  · exact .inl (h.hb_trans _ _ _ h1 h2)
  · exact .inr ⟨u', v', or_trans h (.inr h1) h5, h6, h7⟩
  · exact .inr ⟨u, v, h1, h3, or_trans h h4 (.inr h2)⟩
  · exact .inr ⟨u, v', h1, bridge h h3 (or_trans h h4 h5) h6, h7⟩

theorem modifies_draw {e : ι} : x.Modifies e ↔ ∃ t sid, x.event e = .draw t sid := by
  unfold Graph.Modifies
  rw [x.access_eq]
  cases hev : x.event e with
  | draw t sid => exact ⟨fun _ => ⟨t, sid, rfl⟩, fun _ => ⟨_, rfl, rfl⟩⟩
  | check => exact ⟨fun ⟨_, h, _⟩ => (nomatch h), fun ⟨_, _, h⟩ => (nomatch h)⟩
  | insert => exact ⟨fun ⟨_, h, _⟩ => (nomatch h), fun ⟨_, _, h⟩ => (nomatch h)⟩
  | remove => exact ⟨fun ⟨_, h, _⟩ => (nomatch h), fun ⟨_, _, h⟩ => (nomatch h)⟩

/-- The value that a draw finds is what the draws before it in the schedule leave. -/
theorem draw_read (h : x.Consistent p.word) {pre post : List ι} {e : ι}
    (hs : Schedule (Both x) (pre ++ e :: post)) (he : x.Modifies e) :
    x.read e = p.word + total (pre.filterMap x.access) := by
  obtain ⟨k, hk⟩ := Graph.exists_pos h he.reads
  have hp := Graph.pos_succ h he hk
  rw [Graph.read_pos h he.reads hk]
  congr 1
  have hn : pre.Nodup := (List.nodup_append.1 hs.nodup).1
  have hperm : (pre.filter fun w => (x.access w).isSome).Perm (x.mo.take k) := by
    refine (List.perm_ext_iff_of_nodup (hn.filter _)
      (h.mo_nodup.sublist (List.take_sublist _ _))).2 fun w => ?_
    rw [List.mem_filter]
    constructor
    · rintro ⟨h1, h2⟩
      have hw : x.Modifies w := by
        obtain ⟨a, ha⟩ := Option.isSome_iff_exists.1 h2
        refine ⟨a, ha, ?_⟩
        rw [x.access_eq] at ha
        split at ha
        · cases ha; rfl
        · cases ha
      obtain ⟨j, hj⟩ := List.mem_iff_getElem?.1 ((h.mo_mem w).2 hw)
      by_cases hlt : j < k
      · exact List.mem_of_getElem? (l := x.mo.take k) (i := j) (by
          rw [List.getElem?_take_of_lt hlt]; exact hj)
      · exfalso
        by_cases hjk : j = k
        · rw [hjk, hp] at hj
          cases hj
          exact (List.nodup_append.1 hs.nodup).2.2 e h1 e List.mem_cons_self rfl
        · exact hs.not_mem_before (x := w) (.inr ⟨e, w, .inl rfl,
            (Graph.before_iff h (Graph.full_succ.2 hp) (Graph.full_succ.2 hj)).2 (by omega),
            .inl rfl⟩) h1
    · intro hw
      obtain ⟨j, hj⟩ := List.mem_iff_getElem?.1 hw
      have hlt : j < k := by
        have := (List.getElem?_eq_some_iff.1 hj).1
        rw [List.length_take] at this
        omega
      rw [List.getElem?_take_of_lt hlt] at hj
      obtain ⟨a, ha, -⟩ := (h.mo_mem w).1 (List.mem_of_getElem? hj)
      refine ⟨hs.mem_before (.inr ⟨w, e, .inl rfl,
        (Graph.before_iff h (Graph.full_succ.2 hj) (Graph.full_succ.2 hp)).2 (by omega),
        .inl rfl⟩) ?_, by rw [ha]; rfl⟩
      rintro rfl
      have := Graph.full_inj h (Graph.full_succ.2 hj) (Graph.full_succ.2 hp)
      omega
  rw [← total_perm (hperm.filterMap x.access), List.filterMap_filter]
  congr 2
  funext w
  cases x.access w <;> rfl

/-- The events of a thread come in program order. -/
theorem thread_prefix (h : x.Consistent p.word) {pre post : List ι} {e : ι} {t : Nat}
    (hs : Schedule (Both x) (pre ++ e :: post)) (he : (x.event e).thread = some t) :
    Follows ((((pre.filter fun e => (x.event e).thread == some t)).map x.event).foldl pcNext .idle)
      (x.event e :: ((post.filter fun e => (x.event e).thread == some t)).map x.event) := by
  have hp : (pre ++ e :: post).filter (fun e => (x.event e).thread == some t) = x.program t := by
    refine eq_of_pairwise h.hb_irrefl h.hb_trans ?_ (x.program_hb t) fun a => ?_
    · refine ((hs.agrees.filter _).and (hs.nodup.filter _)).imp_of_mem ?_
      intro a b ha hb hab
      have ha' := (x.program_mem t a).2 (by simpa using (List.mem_filter.1 ha).2)
      have hb' := (x.program_mem t b).2 (by simpa using (List.mem_filter.1 hb).2)
      rcases pairwise_total (x.program_hb t) ha' hb' with e | hh | hh
      · exact absurd e hab.2
      · exact hh
      · exact absurd (.inl hh) hab.1
    · rw [List.mem_filter, x.program_mem]
      simp [hs.complete a]
  have := x.program_follows t
  rw [← hp, List.filter_append, List.map_append] at this
  have := follows_append _ _ _ this
  rwa [List.filter_cons_of_pos (by simp [he])] at this

/-- A look-up answers what the changes before it in the schedule leave. -/
theorem check_found (_h : x.Consistent p.word) {pre post : List ι} {c : ι} {t : Nat} {k : U32}
    {found : Bool} (hs : Schedule (Both x) (pre ++ c :: post)) (hc : x.event c = .check t k found) :
    found = pre.foldl (fun st e => storeNext st (x.event e)) x.store k := by
  have hcn : ∀ m, (x.event m).changes = some k → m ≠ c := by
    rintro m hm rfl
    rw [hc] at hm
    cases hm
  have hpre : ∀ m, (x.event m).changes = some k → x.hb m c → m ∈ pre := fun m hm hh =>
    hs.mem_before (.inl hh) (hcn m hm)
  rcases store_after x.event x.store k pre with ⟨h1, h2⟩ | ⟨a, m, b, h1, h2, h3, h4⟩
  · rw [h2]
    exact x.found_first c t k found hc fun m hm hh => h1 m (hpre m hm hh) hm
  · rw [Bool.eq_iff_iff, h4]
    have hm : m ∈ pre := by rw [h1]; exact List.mem_append_right _ List.mem_cons_self
    have hmc : x.hb m c := by
      rcases x.locked m c k (hcn m h2) h2 (.inr ⟨t, found, hc⟩) with hh | hh
      · exact hh
      · exact absurd hm (hs.not_mem_before (.inl hh))
    refine x.found_last c t k found m hc h2 hmc fun m' h5 h6 => ?_
    by_cases e : m' = m
    · exact .inl e
    · refine .inr ?_
      rcases x.locked m' m k e h5 (.inl h2) with hh | hh
      · exact hh
      · exfalso
        have hm' := hpre m' h5 h6
        rw [h1, List.append_assoc] at hs
        rw [h1] at hm'
        rcases List.mem_append.1 hm' with hm' | hm'
        · exact (Schedule.not_mem_before (e := m) (x := m') hs (.inl hh)) hm'
        · rcases List.mem_cons.1 hm' with hm' | hm'
          · exact e hm'
          · exact h3 m' hm' h5

theorem filter_snoc (x : Execution ι) (pre : List ι) (e : ι) (t : Nat) :
    (((pre ++ [e]).filter fun e => (x.event e).thread == some t).map x.event).foldl pcNext .idle =
      if (x.event e).thread = some t then
        pcNext (((pre.filter fun e => (x.event e).thread == some t).map x.event).foldl pcNext .idle)
          (x.event e)
      else (((pre.filter fun e => (x.event e).thread == some t)).map x.event).foldl pcNext .idle := by
  rw [List.filter_append, List.map_append, List.foldl_append]
  split
  · rw [List.filter_cons_of_pos (by simpa)]
    rfl
  · rw [List.filter_cons_of_neg (by simpa)]
    rfl

/-- Every schedule of happens-before and the modification order is an interleaving. -/
theorem interleaving_of_schedule (h : x.Consistent p.word) {order : List ι}
    (hs : Schedule (Both x) order) :
    ∀ (pre post : List ι), pre ++ post = order →
      ∃ s, Interleaving p x.store (pre.map x.event) s ∧
        s.provider.word = p.word + total (pre.filterMap x.access) ∧
        s.store = pre.foldl (fun st e => storeNext st (x.event e)) x.store ∧
        ∀ t, s.pc t = ((pre.filter fun e => (x.event e).thread == some t).map x.event).foldl
          pcNext .idle := by
  intro pre
  generalize hn : pre.length = n
  induction n generalizing pre with
  | zero =>
    intro post _
    rw [List.length_eq_zero_iff.1 hn]
    exact ⟨_, .nil, (BitVec.add_zero _).symm, rfl, fun _ => rfl⟩
  | succ n ih =>
    intro post hpo
    obtain ⟨pre, e, rfl⟩ : ∃ l a, pre = l ++ [a] := by
      rcases List.eq_nil_or_concat pre with rfl | ⟨l, a, ha⟩
      · cases hn
      · exact ⟨l, a, by rw [ha, List.concat_eq_append]⟩
    rw [List.append_assoc] at hpo
    obtain ⟨s, i1, i2, i3, i4⟩ := ih pre (by
      rw [List.length_append] at hn
      exact Nat.succ.inj hn) _ hpo
    have hs' : Schedule (Both x) (pre ++ e :: post) := hpo ▸ hs
    have hst : (pre ++ [e]).foldl (fun st e => storeNext st (x.event e)) x.store =
        storeNext (pre.foldl (fun st e => storeNext st (x.event e)) x.store) (x.event e) := by
      rw [List.foldl_append]; rfl
    have hac : total ((pre ++ [e]).filterMap x.access) = total (pre.filterMap x.access) +
        total ([e].filterMap x.access) := by
      rw [List.filterMap_append, total_append]
    have hmap : (pre ++ [e]).map x.event = pre.map x.event ++ [x.event e] := by
      rw [List.map_append]; rfl
    have ha := x.access_eq e
    cases hev : x.event e with
    | draw t sid =>
      rw [hev] at ha hst
      have hf := thread_prefix (t := t) h hs' (by rw [hev]; rfl)
      rw [← i4 t, hev] at hf
      have hr := draw_read h hs' (modifies_draw.2 ⟨t, sid, hev⟩)
      rw [← i2] at hr
      have hsid : s.provider.draw.1 = sid := by
        rw [x.draw_eq e t sid hev, hr]; rfl
      -- enter the call if need be
      obtain ⟨s', j1, j2, j3, j4, j5⟩ : ∃ s', Interleaving p x.store (pre.map x.event) s' ∧
          s'.provider = s.provider ∧ s'.store = s.store ∧ s'.pc t = .probing ∧
          ∀ t', t' ≠ t → s'.pc t' = s.pc t' := by
        cases hpc : s.pc t with
        | idle =>
          exact ⟨_, .call t i1 hpc, rfl, rfl, by rw [setPc_pc, if_pos rfl],
            fun t' ht' => by rw [setPc_pc, if_neg ht']⟩
        | probing => exact ⟨s, i1, rfl, rfl, hpc, fun _ _ => rfl⟩
        | checking y =>
          rw [hpc] at hf
          exact hf.elim
      have hI := Interleaving.draw t j1 j4
      rw [j2, hsid, ← hev, ← hmap] at hI
      refine ⟨_, hI, ?_, ?_, ?_⟩
      · show s.provider.word + 2#32 = _
        rw [hac, i2, ← BitVec.add_assoc, List.filterMap_cons, ha]
        exact congrArg _ (BitVec.add_zero _).symm
      · show s'.store = _
        rw [hst, j3, i3]
        rfl
      · intro t'
        rw [filter_snoc, hev]
        show (s'.setPc t (.checking sid)).pc t' = _
        rw [setPc_pc]
        by_cases htt : t' = t
        · rw [if_pos htt, if_pos (by rw [htt]; rfl)]
          rfl
        · rw [if_neg htt, if_neg (show ¬ (Event.draw t sid).thread = some t' from
            fun hc => htt (Option.some.inj hc).symm), j5 t' htt]
          exact i4 t'
    | check t sid found =>
      rw [hev] at ha hst
      have hf := thread_prefix (t := t) h hs' (by rw [hev]; rfl)
      rw [← i4 t, hev] at hf
      have hfound := check_found h hs' hev
      rw [← i3] at hfound
      have hpc : s.pc t = .checking sid := by
        cases hpc : s.pc t with
        | idle => rw [hpc] at hf; exact hf.elim
        | probing => rw [hpc] at hf; exact hf.elim
        | checking y => rw [hpc] at hf; rw [hf.1]
      have hw : p.word + total ((pre ++ [e]).filterMap x.access) = s.provider.word := by
        rw [hac, i2, List.filterMap_cons, ha]
        exact congrArg _ (BitVec.add_zero _)
      cases found with
      | false =>
        have hI := Interleaving.free t sid i1 hpc hfound.symm
        rw [← hev, ← hmap] at hI
        refine ⟨_, hI, hw.symm, ?_, ?_⟩
        · rw [hst, ← i3]
          rfl
        · intro t'
          rw [filter_snoc, hev]
          show (s.setPc t .idle).pc t' = _
          rw [setPc_pc]
          by_cases htt : t' = t
          · rw [if_pos htt, if_pos (by rw [htt]; rfl)]
            rfl
          · rw [if_neg htt, if_neg (show ¬ (Event.check t sid false).thread = some t' from
            fun hc => htt (Option.some.inj hc).symm)]
            exact i4 t'
      | true =>
        have hI := Interleaving.used t sid i1 hpc hfound.symm
        rw [← hev, ← hmap] at hI
        refine ⟨_, hI, hw.symm, ?_, ?_⟩
        · rw [hst, ← i3]
          rfl
        · intro t'
          rw [filter_snoc, hev]
          rw [setPc_pc]
          by_cases htt : t' = t
          · rw [if_pos htt, if_pos (by rw [htt]; rfl)]
            rfl
          · rw [if_neg htt, if_neg (show ¬ (Event.check t sid true).thread = some t' from
            fun hc => htt (Option.some.inj hc).symm)]
            exact i4 t'
    | insert k =>
      rw [hev] at ha hst
      have hI := Interleaving.insert k i1
      rw [← hev, ← hmap] at hI
      refine ⟨_, hI, ?_, ?_, ?_⟩
      · rw [hac, List.filterMap_cons, ha]
        exact i2.trans (congrArg _ (BitVec.add_zero _).symm)
      · rw [hst, ← i3]
        rfl
      · intro t'
        rw [filter_snoc, hev, if_neg (fun hc => nomatch hc)]
        exact i4 t'
    | remove k =>
      rw [hev] at ha hst
      have hI := Interleaving.remove k i1
      rw [← hev, ← hmap] at hI
      refine ⟨_, hI, ?_, ?_, ?_⟩
      · rw [hac, List.filterMap_cons, ha]
        exact i2.trans (congrArg _ (BitVec.add_zero _).symm)
      · rw [hst, ← i3]
        rfl
      · intro t'
        rw [filter_snoc, hev, if_neg (fun hc => nomatch hc)]
        exact i4 t'

/-- An interleaving is an execution of the step system, with the same draws and results. -/
theorem interleaving_reachable {store : Store} {es : List Event} {s : Sys}
    (hI : Interleaving p store es s) : Reachable p s ∧
      s.drawn.length = es.countP isDraw ∧ (returnedIds s).reverse = es.filterMap handedOut := by
  induction hI with
  | nil => exact ⟨.init store, rfl, rfl⟩
  | call t _ hpc ih => exact ⟨.step ih.1 (.call _ t hpc), ih.2⟩
  | draw t _ hpc ih =>
    refine ⟨.step ih.1 (.fetch _ t hpc), ?_, ?_⟩
    · rw [List.countP_append, ← ih.2.1]; rfl
    · rw [List.filterMap_append, ← ih.2.2]
      exact (List.append_nil _).symm
  | free t sid _ hpc hst ih =>
    refine ⟨.step ih.1 (.checkFree _ t sid hpc hst), ?_, ?_⟩
    · rw [List.countP_append, ← ih.2.1]; rfl
    · rw [List.filterMap_append, ← ih.2.2]
      exact List.reverse_cons
  | used t sid _ hpc hst ih =>
    refine ⟨.step ih.1 (.checkUsed _ t sid hpc hst), ?_, ?_⟩
    · rw [List.countP_append, ← ih.2.1]; rfl
    · rw [List.filterMap_append, ← ih.2.2]
      exact (List.append_nil _).symm
  | insert k _ ih =>
    refine ⟨.step ih.1 (.env _ _), ?_, ?_⟩
    · rw [List.countP_append, ← ih.2.1]; rfl
    · rw [List.filterMap_append, ← ih.2.2]
      exact (List.append_nil _).symm
  | remove k _ ih =>
    refine ⟨.step ih.1 (.env _ _), ?_, ?_⟩
    · rw [List.countP_append, ← ih.2.1]; rfl
    · rw [List.filterMap_append, ← ih.2.2]
      exact (List.append_nil _).symm

end StreamIdProvider

end Binate
