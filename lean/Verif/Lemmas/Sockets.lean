import Verif.Lemmas.World
import Verif.Lemmas.System
import Verif.Spec.Sockets
import Verif.Props.System

/-! # Each of several sockets with its tasks is a system of its own -/

namespace Binate

open Spec RSocketMachine

theorem system_eq {a b : System} (h1 : a.conc = b.conc) (h2 : a.dog = b.dog) (h3 : a.slept = b.slept)
    (h4 : a.listening = b.listening) (h5 : a.handles = b.handles) (h6 : a.strong = b.strong)
    (h7 : a.released = b.released) (h8 : a.clock = b.clock) (h9 : a.happened = b.happened)
    (h10 : a.userCloses = b.userCloses) (h11 : a.seen = b.seen) : a = b := by
  obtain ⟨_, _, _, _, _, _, _, _, _, _, _⟩ := a
  obtain ⟨_, _, _, _, _, _, _, _, _, _, _⟩ := b
  subst h1 h2 h3 h4 h5 h6 h7 h8 h9 h10 h11
  rfl

/-- The system of a socket from its parts. -/
def systemFrom (c : Conc) (k : Keeper) (handles clock : Nat) : System :=
  { conc := c
    dog := k.dog
    slept := k.slept
    listening := k.listening
    handles := handles
    strong := k.strong
    released := k.released
    clock := clock
    happened := k.happened
    userCloses := k.userCloses
    seen := k.seen }

theorem systemOf_from (t : Sockets) (g : Handle) : systemOf t g =
    systemFrom (socketOf t.world g) (t.keeper g.connection) (t.world.holders g.connection) t.clock := rfl

theorem system_to {dbg : Bool} {tr : Transport} {s s' s'' : System} (h : System.Step dbg tr s s')
    (e : s' = s'') : System.Step dbg tr s s'' := e ▸ h

/-- What a request hands to the connection comes after what the connection has. -/
theorem conc_wire {dbg : Bool} {tr : Transport} {c c' : Conc} (h : ConcStep dbg tr c c') :
    c'.wire = c.wire ++ c'.wire.drop c.wire.length := by
  have key : ∀ l, c'.wire = c.wire ++ l → c'.wire = c.wire ++ c'.wire.drop c.wire.length := by
    intro l hl
    rw [hl, List.drop_left]
  cases h with
  | sendOne i p sid f => exact key [Frame.requestFnf f] rfl
  | sendChunk i p sid idx n chunks chunks' chunked f => exact key [Frame.requestFnf f] rfl
  | sendChunkErr i p sid idx n chunks chunks' chunked f => exact key [Frame.requestFnf f] rfl
  | push md => exact key [Frame.metadataPush (MetadataPushFrame.new md)] rfl
  | call => exact key [] (List.append_nil _).symm
  | fetch => exact key [] (List.append_nil _).symm
  | checkUsed => exact key [] (List.append_nil _).symm
  | checkFree => exact key [] (List.append_nil _).symm
  | finish => exact key [] (List.append_nil _).symm
  | env => exact key [] (List.append_nil _).symm

/-- Without `new`, `clone` and `drop` no socket is made. -/
theorem world_made {dbg : Bool} {trs : Nat → Transport} {w w' : World} (h : WorldStep dbg trs w w')
    (e : w'.handles = w.handles) : w'.made = w.made := by
  cases h with
  | new role chunk timeout now =>
    have e : w.handles ++ [_] = w.handles := e
    exact absurd e (by simp)
  | _ => rfl

theorem holders_append (w : World) (h : Handle) (a : Nat) :
    (w.handles ++ [some h]).countP (fun o => o.any fun h => h.connection == a) =
    w.holders a + if h.connection = a then 1 else 0 := by
  rw [List.countP_append]
  by_cases e : h.connection = a
  · rw [if_pos e]
    exact congrArg _ (List.countP_cons_of_pos (beq_iff_eq.2 e))
  · rw [if_neg e]
    exact congrArg _ (List.countP_cons_of_neg fun e' => e (beq_iff_eq.1 e'))

theorem countP_drop {l : List (Option Handle)} {i : Nat} {h : Handle} (hi : l[i]? = some (some h))
    (a : Nat) : (l.set i none).countP (fun o => o.any fun h => h.connection == a) +
      (if h.connection = a then 1 else 0) = l.countP (fun o => o.any fun h => h.connection == a) := by
  induction l generalizing i with
  | nil => cases hi
  | cons o l ih =>
    cases i with
    | zero =>
      cases hi
      rw [List.set_cons_zero, List.countP_cons_of_neg (by nofun)]
      by_cases e : h.connection = a
      · have : (some h).any (fun h => h.connection == a) = true := beq_iff_eq.2 e
        rw [if_pos e, List.countP_cons_of_pos this]
      · have : ¬ (some h).any (fun h => h.connection == a) = true := fun e' => e (beq_iff_eq.1 e')
        rw [if_neg e, List.countP_cons_of_neg this]
        rfl
    | succ i =>
      have := ih (i := i) hi
      rw [List.set_cons_succ, List.countP_cons, List.countP_cons]
      omega

theorem holders_pos {w : World} {h : Handle} (hh : some h ∈ w.handles) : 0 < w.holders h.connection :=
  List.countP_pos_iff.2 ⟨_, hh, beq_iff_eq.2 rfl⟩

theorem holders_none {w : World} {a : Nat} (h : ∀ g, some g ∈ w.handles → g.connection ≠ a) :
    w.holders a = 0 := by
  refine List.countP_eq_zero.2 fun o ho e => ?_
  cases o with
  | none => cases e
  | some g => exact h g ho (beq_iff_eq.1 e)

/-- When the user holds no handle of a socket, none of its calls is going on. -/
def Quiet (t : Sockets) : Prop :=
  ∀ g ∈ t.world.made, t.world.holders g.connection = 0 → ∀ c, (g, c) ∈ t.world.calls →
    System.busy c = false

/-- What a step does. -/
def SocketsActs (dbg : Bool) (trs : Nat → Transport) (t t' : Sockets) : Prop :=
  (∃ now, t.clock ≤ now ∧ t' = { t with clock := now }) ∨
  (∃ g ∈ t.world.made, System.Step dbg (trs g.connection) (systemOf t g) (systemOf t' g) ∧
    ∀ g' ∈ t.world.made, g' ≠ g → systemOf t' g' = systemOf t g') ∨
  ∀ g ∈ t.world.made, systemOf t' g = systemOf t g

/-- A step of a task or of `close`. -/
theorem acts_keeper {dbg : Bool} {trs : Nat → Transport} {t : Sockets} (inv : WorldInv t.world)
    {g : Handle} (hg : g ∈ t.world.made) {k : Keeper}
    (h : System.Step dbg (trs g.connection) (systemOf t g)
      (systemFrom (socketOf t.world g) k (t.world.holders g.connection) t.clock)) :
    SocketsActs dbg trs t { t with keeper := put t.keeper g.connection k } := by
  refine .inr (.inl ⟨g, hg, system_to h ?_, fun g' hg' hne => ?_⟩)
  · rw [systemOf_from]
    show _ = systemFrom _ (put t.keeper g.connection k g.connection) _ _
    rw [put_same]
  · rw [systemOf_from, systemOf_from]
    show systemFrom _ (put t.keeper g.connection k g'.connection) _ _ = _
    rw [put_other _ (inv.apart g' hg' g hg hne).2.1]

/-- What there was does not notice a new socket. -/
theorem systemOf_new {t : Sockets} (inv : WorldInv t.world) (role : Role) (timeout created : Nat)
    {g : Handle} (hg : g ∈ t.world.made) :
    systemOf { t with
      world := { t.world with
        memory := t.world.memory.alloc role
        handles := t.world.handles ++ [some (t.world.memory.handle role none timeout created)]
        made := t.world.made ++ [t.world.memory.handle role none timeout created] }
      keeper := put t.keeper (t.world.memory.handle role none timeout created).connection
        (Keeper.new t.clock) } g = systemOf t g := by
  obtain ⟨h1, h2, h3, h4⟩ := inv.lt g hg
  have e : socketOf { t.world with
      memory := t.world.memory.alloc role
      handles := t.world.handles ++ [some (t.world.memory.handle role none timeout created)]
      made := t.world.made ++ [t.world.memory.handle role none timeout created] } g =
      socketOf t.world g := by
    refine conc_eq ?_ rfl (put_other _ (by omega) _) (put_other _ (by omega) _) rfl
    show RSocketMachine.mk _ (put t.world.memory.provider t.world.memory.next _ g.streamId)
      (put t.world.memory.store (t.world.memory.next + 2) _ g.receivers)
      (put t.world.memory.counter (t.world.memory.next + 3) _ g.requestN) _ _ _ = _
    rw [put_other _ (by omega), put_other _ (by omega), put_other _ (by omega)]
    rfl
  have hne : (t.world.memory.handle role none timeout created).connection ≠ g.connection := by
    show t.world.memory.next + 1 ≠ g.connection
    omega
  have e2 : World.holders { t.world with
      memory := t.world.memory.alloc role
      handles := t.world.handles ++ [some (t.world.memory.handle role none timeout created)]
      made := t.world.made ++ [t.world.memory.handle role none timeout created] } g.connection =
      t.world.holders g.connection :=
    (holders_append t.world _ _).trans (by rw [if_neg hne]; rfl)
  rw [systemOf_from, systemOf_from]
  show systemFrom (socketOf { t.world with
      memory := t.world.memory.alloc role
      handles := t.world.handles ++ [some (t.world.memory.handle role none timeout created)]
      made := t.world.made ++ [t.world.memory.handle role none timeout created] } g)
    (put t.keeper _ _ g.connection) (World.holders { t.world with
      memory := t.world.memory.alloc role
      handles := t.world.handles ++ [some (t.world.memory.handle role none timeout created)]
      made := t.world.made ++ [t.world.memory.handle role none timeout created] } g.connection) _ = _
  rw [e, e2, put_other _ hne.symm]

theorem sockets_acts {dbg : Bool} {trs : Nat → Transport} {t t' : Sockets} (inv : WorldInv t.world)
    (quiet : Quiet t) (h : SocketsStep dbg trs t t') : SocketsActs dbg trs t t' := by
  cases h with
  | time now hn => exact .inl ⟨now, hn, rfl⟩
  | new role timeout created hc => exact .inr (.inr fun g hg => systemOf_new inv role timeout created hg)
  | clone i h hi =>
    have hm := inv.live h (List.mem_of_getElem? hi)
    refine .inr (.inl ⟨h, hm, ?_, fun g hg hne => ?_⟩)
    · refine system_to (.clone _ (holders_pos (List.mem_of_getElem? hi))) ?_
      rw [systemOf_from]
      show _ = systemFrom _ (put t.keeper h.connection _ h.connection)
        ((t.world.handles ++ [some h]).countP _) _
      rw [put_same, holders_append, if_pos rfl]
      rfl
    · have hne := (inv.apart g hg h hm hne).2.1
      rw [systemOf_from, systemOf_from]
      show systemFrom _ (put t.keeper h.connection _ g.connection)
        ((t.world.handles ++ [some h]).countP _) _ = _
      rw [put_other _ hne, holders_append, if_neg hne.symm]
      rfl
  | drop i h hi hb =>
    have hm := inv.live h (List.mem_of_getElem? hi)
    refine .inr (.inl ⟨h, hm, ?_, fun g hg hne => ?_⟩)
    · have hc := countP_drop hi h.connection
      rw [if_pos rfl] at hc
      refine system_to (.drop _ (holders_pos (List.mem_of_getElem? hi)) fun h1 c hc => ?_) ?_
      · obtain ⟨d, hd, e⟩ := List.mem_filterMap.1 hc
        by_cases hcon : d.1.connection = h.connection
        · rw [if_pos hcon] at e
          cases e
          exact hb h1 d hd hcon
        · rw [if_neg hcon] at e
          cases e
      · rw [systemOf_from]
        show _ = systemFrom _ (put t.keeper h.connection _ h.connection)
          ((t.world.handles.set i none).countP _) _
        rw [put_same]
        refine system_eq rfl rfl rfl rfl ?_ rfl rfl rfl rfl rfl rfl
        show t.world.holders h.connection - 1 = _
        show (t.world.handles.countP _) - 1 = _
        rw [← hc]
        rfl
    · have hne := (inv.apart g hg h hm hne).2.1
      have hc := countP_drop hi g.connection
      rw [if_neg hne.symm] at hc
      rw [systemOf_from, systemOf_from]
      show systemFrom _ (put t.keeper h.connection _ g.connection)
        ((t.world.handles.set i none).countP _) _ = _
      rw [put_other _ hne]
      exact congrArg (fun n => systemFrom _ _ n _) hc
  | request w hw hh hs =>
    have same : ∀ g, socketOf w g = socketOf t.world g →
        systemOf { t with
          world := w
          keeper := fun a => (t.keeper a).emit
            (((w.memory.wire a).drop (t.world.memory.wire a).length).map .frame) } g =
        systemOf t g := by
      intro g e
      have hwire : w.memory.wire g.connection = t.world.memory.wire g.connection :=
        congrArg Conc.wire e
      refine system_eq e rfl rfl rfl ?_ rfl rfl rfl ?_ rfl rfl
      · show w.handles.countP _ = _
        rw [hh]
        rfl
      · show (t.keeper g.connection).happened ++ ((w.memory.wire g.connection).drop
          (t.world.memory.wire g.connection).length).map Happening.frame = _
        rw [hwire, List.drop_length]
        exact List.append_nil _
    rcases world_acts_by inv hw with ⟨g, hg, h1, h2, h3⟩ | h
    · have hpos : 0 < t.world.holders g.connection := by
        refine Nat.pos_of_ne_zero fun h0 => ?_
        rcases h3 with h3 | ⟨c, h3, hb⟩ | h3
        · exact absurd h0 (Nat.pos_iff_ne_zero.1 (holders_pos h3))
        · rw [quiet g hg h0 c h3] at hb
          cases hb
        · exact h3 (hs g hg h0)
      refine .inr (.inl ⟨g, hg, ?_, fun g' hg' hne => same g' (h2 g' hg' hne)⟩)
      refine system_to (.request _ (socketOf w g) _ hpos h1 (conc_wire h1)) ?_
      refine system_eq rfl rfl rfl rfl ?_ rfl rfl rfl rfl rfl rfl
      show _ = w.handles.countP _
      rw [hh]
      rfl
    · exact .inr (.inr fun g hg => same g (h g hg))
  | close i h hi =>
    exact acts_keeper inv (inv.live h (List.mem_of_getElem? hi))
      (.close _ (holders_pos (List.mem_of_getElem? hi)))
  | wakeEarly g hg h1 h2 h3 => exact acts_keeper inv hg (.wakeEarly _ h1 h2 h3)
  | wakeLate g hg h1 h2 h3 => exact acts_keeper inv hg (.wakeLate _ h1 h2 h3)
  | dogCloses g hg h1 => exact acts_keeper inv hg (.dogCloses _ h1)
  | status g st hg h1 => exact acts_keeper inv hg (.status _ st h1)
  | statusEnd g hg h1 => exact acts_keeper inv hg (.statusEnd _ h1)

/-- What a step does to the handles made. -/
theorem sockets_world {dbg : Bool} {trs : Nat → Transport} {t t' : Sockets} (inv : WorldInv t.world)
    (h : SocketsStep dbg trs t t') : WorldInv t'.world ∧
    (t'.world.made = t.world.made ∧ (∀ a, (t'.keeper a).spawned = (t.keeper a).spawned) ∨
      ∃ role timeout created, let g := t.world.memory.handle role none timeout created
        created ≤ t.clock ∧ t'.world.made = t.world.made ++ [g] ∧
        systemOf t' g = System.new role timeout created t.clock ∧
        (t'.keeper g.connection).spawned = t.clock ∧
        ∀ g' ∈ t.world.made, (t'.keeper g'.connection).spawned = (t.keeper g'.connection).spawned) := by
  have stay : ∀ (a : Nat) (k : Keeper), k.spawned = (t.keeper a).spawned →
      ∀ b, (put t.keeper a k b).spawned = (t.keeper b).spawned := by
    intro a k hk b
    by_cases e : b = a
    · subst e
      rw [put_same]
      exact hk
    · rw [put_other _ e]
  cases h with
  | time now hn => exact ⟨inv, .inl ⟨rfl, fun _ => rfl⟩⟩
  | new role timeout created hc =>
    refine ⟨worldInv_step (dbg := dbg) (trs := trs) inv (.new _ role none timeout created),
      .inr ⟨role, timeout, created, hc, rfl, ?_, ?_, fun g' hg' => ?_⟩⟩
    · rw [systemOf_from]
      show systemFrom (socketOf { t.world with
          memory := t.world.memory.alloc role
          handles := t.world.handles ++ [some (t.world.memory.handle role none timeout created)]
          made := t.world.made ++ [t.world.memory.handle role none timeout created] }
          (t.world.memory.handle role none timeout created)) (put t.keeper _ _ _)
        ((t.world.handles ++ [some (t.world.memory.handle role none timeout created)]).countP _) _ = _
      rw [socketOf_new inv, put_same, holders_append, if_pos rfl, holders_none]
      · rfl
      · intro g hg e
        have := (inv.lt g (inv.live g hg)).2.1
        have e : g.connection = t.world.memory.next + 1 := e
        omega
    · show (put t.keeper _ _ _).spawned = _
      rw [put_same]
      rfl
    · have := (inv.lt g' hg').2.1
      show (put t.keeper _ _ _).spawned = _
      rw [put_other]
      show g'.connection ≠ t.world.memory.next + 1
      omega
  | clone i h hi =>
    exact ⟨worldInv_step (dbg := dbg) (trs := trs) inv (.clone _ i h hi),
      .inl ⟨rfl, stay _ _ rfl⟩⟩
  | drop i h hi hb =>
    exact ⟨worldInv_step (dbg := dbg) (trs := trs) inv (.drop _ i h hi),
      .inl ⟨rfl, stay _ _ rfl⟩⟩
  | request w hw hh hs => exact ⟨worldInv_step inv hw, .inl ⟨world_made hw hh, fun _ => rfl⟩⟩
  | close i h hi => exact ⟨inv, .inl ⟨rfl, stay _ _ rfl⟩⟩
  | wakeEarly g hg h1 h2 h3 => exact ⟨inv, .inl ⟨rfl, stay _ _ rfl⟩⟩
  | wakeLate g hg h1 h2 h3 => exact ⟨inv, .inl ⟨rfl, stay _ _ rfl⟩⟩
  | dogCloses g hg h1 => exact ⟨inv, .inl ⟨rfl, stay _ _ rfl⟩⟩
  | status g st hg h1 => exact ⟨inv, .inl ⟨rfl, stay _ _ rfl⟩⟩
  | statusEnd g hg h1 => exact ⟨inv, .inl ⟨rfl, stay _ _ rfl⟩⟩

/-- What holds in every reachable state. -/
structure SocketsInv (dbg : Bool) (trs : Nat → Transport) (t : Sockets) : Prop where
  world : WorldInv t.world
  system : ∀ g ∈ t.world.made, System.Reachable dbg (trs g.connection) g.role g.keepaliveTimeout
    g.keepaliveLastReceived (t.keeper g.connection).spawned (systemOf t g)
  times : ∀ g ∈ t.world.made, g.keepaliveLastReceived ≤ (t.keeper g.connection).spawned ∧
    (t.keeper g.connection).spawned ≤ t.clock

theorem SocketsInv.quiet {dbg : Bool} {trs : Nat → Transport} {t : Sockets}
    (inv : SocketsInv dbg trs t) : Quiet t := by
  intro g hg h0 c hc
  have := C75_calls_ended (inv.system g hg) (.inl h0) c
    (List.mem_filterMap.2 ⟨(g, c), hc, if_pos rfl⟩)
  cases this <;> rfl

theorem socketsInv {dbg : Bool} {trs : Nat → Transport} {t : Sockets}
    (h : SocketsReachable dbg trs t) : SocketsInv dbg trs t := by
  induction h with
  | init now => exact ⟨⟨nofun, nofun, List.nodup_nil, nofun, nofun, nofun⟩, nofun, nofun⟩
  | @step t t' hr hs ih =>
    have hclock : t.clock ≤ t'.clock := by
      cases hs with
      | time now hn => exact hn
      | _ => exact Nat.le_refl _
    obtain ⟨hw, hm⟩ := sockets_world ih.world hs
    have old : ∀ g ∈ t.world.made, System.Reachable dbg (trs g.connection) g.role g.keepaliveTimeout
        g.keepaliveLastReceived (t.keeper g.connection).spawned (systemOf t' g) := by
      intro g hg
      rcases sockets_acts ih.world ih.quiet hs with ⟨now, hn, rfl⟩ | ⟨g', hg', h1, h2⟩ | h1
      · exact (ih.system g hg).step (.time _ now hn)
      · by_cases e : g = g'
        · subst e
          exact (ih.system g hg).step h1
        · rw [h2 g hg e]
          exact ih.system g hg
      · rw [h1 g hg]
        exact ih.system g hg
    rcases hm with ⟨hm, hsp⟩ | ⟨role, timeout, created, hc, hm, hnew, hsp, hold⟩
    · refine ⟨hw, fun g hg => ?_, fun g hg => ?_⟩
      · rw [hsp]
        exact old g (hm ▸ hg)
      · have := ih.times g (hm ▸ hg)
        rw [hsp]
        exact ⟨this.1, Nat.le_trans this.2 hclock⟩
    · refine ⟨hw, fun g hg => ?_, fun g hg => ?_⟩
      · rcases List.mem_append.1 (hm ▸ hg) with hg | hg
        · rw [hold g hg]
          exact old g hg
        · rw [List.mem_singleton.1 hg, hnew, hsp]
          exact .init
      · rcases List.mem_append.1 (hm ▸ hg) with hg | hg
        · have := ih.times g hg
          rw [hold g hg]
          exact ⟨this.1, Nat.le_trans this.2 hclock⟩
        · rw [List.mem_singleton.1 hg, hsp]
          exact ⟨hc, hclock⟩

theorem world_stays (dbg : Bool) (trs : Nat → Transport) (w : World) : WorldStep dbg trs w w := by
  have := WorldStep.env (dbg := dbg) (trs := trs) w 0 (w.memory.store 0)
  rw [put_id] at this
  exact this

theorem holders_some {w : World} {g : Handle} (inv : WorldInv w) (hg : g ∈ w.made)
    (h : 0 < w.holders g.connection) : ∃ i : Nat, w.handles[i]? = some (some g) := by
  obtain ⟨o, ho, hp⟩ := List.countP_pos_iff.1 h
  cases o with
  | none => cases hp
  | some k =>
    have := inv.eq hg (inv.live k ho) (beq_iff_eq.1 hp)
    subst this
    exact List.mem_iff_getElem?.1 ho

theorem keeper_to {t : Sockets} {g : Handle} {k : Keeper} {s : System}
    (h : systemFrom (socketOf t.world g) k (t.world.holders g.connection) t.clock = s) :
    systemOf { t with keeper := put t.keeper g.connection k } g = s := by
  rw [systemOf_from]
  show systemFrom _ (put t.keeper g.connection k g.connection) _ _ = _
  rw [put_same]
  exact h

/-- Whatever one machine with its tasks can do, each of the sockets can do. -/
theorem sockets_can {dbg : Bool} {trs : Nat → Transport} {t : Sockets} (inv : WorldInv t.world)
    {g : Handle} (hg : g ∈ t.world.made) {s : System}
    (h : System.Step dbg (trs g.connection) (systemOf t g) s) :
    ∃ t', SocketsStep dbg trs t t' ∧ systemOf t' g = s := by
  cases h with
  | time now hn => exact ⟨_, .time t now hn, rfl⟩
  | request c new hpos hc hw =>
    obtain ⟨i, hi⟩ := holders_some inv hg hpos
    have hl := List.mem_of_getElem? hi
    by_cases hst : c = socketOf t.world g
    · subst hst
      have hnil : new = [] := by
        have := congrArg List.length hw
        rw [List.length_append] at this
        have : (systemOf t g).conc.wire.length = (systemOf t g).conc.wire.length + new.length := this
        exact List.eq_nil_of_length_eq_zero (by omega)
      subst hnil
      refine ⟨_, .request t t.world (world_stays dbg trs t.world) rfl (fun _ _ _ => rfl), ?_⟩
      refine system_eq rfl rfl rfl rfl rfl rfl rfl rfl ?_ rfl rfl
      show (t.keeper g.connection).happened ++ ((t.world.memory.wire g.connection).drop
        (t.world.memory.wire g.connection).length).map Happening.frame = _
      rw [List.drop_length]
      rfl
    · obtain ⟨w, h1, h2, h3, h4⟩ := world_can_keep inv hl hc
      refine ⟨_, .request t w h1 h3 fun g' hg' h0 => ?_, ?_⟩
      · rcases world_acts_by inv h1 with ⟨k, hk, -, h6, -⟩ | h6
        · by_cases e : g = k
          · subst e
            have hne : g' ≠ g := by
              rintro rfl
              exact absurd h0 (Nat.pos_iff_ne_zero.1 hpos)
            exact congrArg (fun c : Conc => c.machine.receivers) (h6 g' hg' hne)
          · exact absurd (h2.symm.trans (h6 g hg e)) hst
        · exact absurd (h2.symm.trans (h6 g hg)) hst
      · refine system_eq h2 rfl rfl rfl ?_ rfl rfl rfl ?_ rfl rfl
        · show w.handles.countP _ = _
          rw [h3]
          rfl
        · have e : w.memory.wire g.connection = t.world.memory.wire g.connection ++ new :=
            (congrArg Conc.wire h2).trans hw
          show (t.keeper g.connection).happened ++ ((w.memory.wire g.connection).drop
            (t.world.memory.wire g.connection).length).map Happening.frame = _
          rw [e, List.drop_left]
          rfl
  | close hpos =>
    obtain ⟨i, hi⟩ := holders_some inv hg hpos
    exact ⟨_, .close t i g hi, keeper_to rfl⟩
  | wakeEarly h1 h2 h3 => exact ⟨_, .wakeEarly t g hg h1 h2 h3, keeper_to rfl⟩
  | wakeLate h1 h2 h3 => exact ⟨_, .wakeLate t g hg h1 h2 h3, keeper_to rfl⟩
  | dogCloses h1 => exact ⟨_, .dogCloses t g hg h1, keeper_to rfl⟩
  | status st h1 => exact ⟨_, .status t g st hg h1, keeper_to rfl⟩
  | statusEnd h1 => exact ⟨_, .statusEnd t g hg h1, keeper_to rfl⟩
  | clone hpos =>
    obtain ⟨i, hi⟩ := holders_some inv hg hpos
    refine ⟨_, .clone t i g hi, ?_⟩
    rw [systemOf_from]
    show systemFrom _ (put t.keeper g.connection _ g.connection)
      ((t.world.handles ++ [some g]).countP _) _ = _
    rw [put_same, holders_append, if_pos rfl]
    rfl
  | drop hpos hb =>
    obtain ⟨i, hi⟩ := holders_some inv hg hpos
    refine ⟨_, .drop t i g hi fun h1 c hc e => ?_, ?_⟩
    · exact hb h1 c.2 (List.mem_filterMap.2 ⟨c, hc, if_pos e⟩)
    · have hc := countP_drop hi g.connection
      rw [if_pos rfl] at hc
      rw [systemOf_from]
      show systemFrom _ (put t.keeper g.connection _ g.connection)
        ((t.world.handles.set i none).countP _) _ = _
      rw [put_same]
      refine system_eq rfl rfl rfl rfl ?_ rfl rfl rfl rfl rfl rfl
      show _ = t.world.handles.countP _ - 1
      rw [← hc]
      rfl

end Binate
