import Verif.Lemmas.Sockets
import Verif.Spec.Storms
import Verif.Props.Storm

/-! # Each of several sockets is a machine of its own, whatever goes wrong -/

namespace Binate

open Spec RSocketMachine

/-- The same without what was asked for. -/
def shade (w : WildWorld) : World := ⟨w.memory, w.handles, w.calls, [], w.made⟩

/-- Invariant. -/
structure WildInv (w : WildWorld) : Prop where
  world : WorldInv (shade w)
  asked : ∀ a ∈ w.asked, a.1 ∈ w.made

theorem WildInv.live {w : WildWorld} (inv : WildInv w) {i : Nat} {h : Handle}
    (hi : w.handles[i]? = some (some h)) : h ∈ w.made :=
  inv.world.live h (List.mem_of_getElem? hi)

theorem WildInv.set {w : WildWorld} (inv : WildInv w) {j : Nat} {h : Handle} {c : Call}
    (hj : w.calls[j]? = some (h, c)) (c' : Call) : WildInv (w.set j h c') :=
  ⟨⟨inv.world.lt, inv.world.apart, inv.world.once, inv.world.live,
    set_handle (w := shade w) inv.world hj c', nofun⟩, inv.asked⟩

theorem WildInv.hand {w : WildWorld} (inv : WildInv w) (h : Handle) (f : Frame) : WildInv (w.hand h f) :=
  ⟨⟨inv.world.lt, inv.world.apart, inv.world.once, inv.world.live, inv.world.calls, nofun⟩, inv.asked⟩

theorem WildInv.ask {w : WildWorld} (inv : WildInv w) {h : Handle} (hh : h ∈ w.made) (a : WildAsked) :
    WildInv { w with asked := w.asked ++ [(h, a)] } :=
  ⟨inv.world, snoc_handle (w := shade w) inv.asked hh a⟩

theorem wildInv_step {dbg : Bool} {trs : Nat → WildTransport} {w w' : WildWorld} (inv : WildInv w)
    (h : WildWorldStep dbg trs w w') : WildInv w' := by
  cases h with
  | call i h p hi =>
    have hm := inv.live hi
    exact ⟨⟨inv.world.lt, inv.world.apart, inv.world.once, inv.world.live,
      snoc_handle (w := shade w) inv.world.calls hm _, nofun⟩, snoc_handle (w := shade w) inv.asked hm _⟩
  | fetch j h p hj =>
    have i := inv.set hj (.checking p (w.memory.provider h.streamId).draw.1)
    exact ⟨⟨i.world.lt, i.world.apart, i.world.once, i.world.live, i.world.calls, nofun⟩, inv.asked⟩
  | checkUsed j h p sid hj _ => exact inv.set hj _
  | checkFree j h p sid hj _ => exact inv.set hj _
  | sendOne j h p sid f r hj _ _ => exact (inv.set hj _).hand h _
  | sendOnePanic j h p sid f m hj _ _ => exact (inv.set hj _).hand h _
  | sendChunk j h p sid idx n chunks chunks' chunked f hj _ _ _ => exact (inv.set hj _).hand h _
  | sendChunkErr j h p sid idx n chunks chunks' chunked f e hj _ _ _ => exact (inv.set hj _).hand h _
  | sendChunkPanic j h p sid idx n chunks chunks' chunked f e hj _ _ _ => exact (inv.set hj _).hand h _
  | finish j h p sid idx n chunks chunks' hj _ => exact inv.set hj _
  | push i h md r hi _ => exact (inv.hand h _).ask (inv.live hi) _
  | pushPanic i h md r hi _ => exact (inv.hand h _).ask (inv.live hi) _
  | env i h R hi =>
    exact ⟨⟨inv.world.lt, inv.world.apart, inv.world.once, inv.world.live, inv.world.calls, nofun⟩,
      inv.asked⟩

theorem wildConc_eq {a b : WildConc} (h1 : a.machine = b.machine) (h2 : a.calls = b.calls)
    (h3 : a.draws = b.draws) (h4 : a.wire = b.wire) (h5 : a.asked = b.asked) : a = b := by
  obtain ⟨_, _, _, _, _⟩ := a
  obtain ⟨_, _, _, _, _⟩ := b
  subst h1 h2 h3 h4 h5
  rfl

theorem wild_to {dbg : Bool} {tr : WildTransport} {s s' s'' : WildConc} (h : WildStep dbg tr s s')
    (e : s' = s'') : WildStep dbg tr s s'' := e ▸ h

/-- A step of a request is one of the requests on one socket, which the user holds or on which a call is
going on. -/
def WildActs (dbg : Bool) (trs : Nat → WildTransport) (w w' : WildWorld) : Prop :=
  ∃ g ∈ w.made, WildStep dbg (trs g.connection) (wildSocketOf w g) (wildSocketOf w' g) ∧
    (∀ g' ∈ w.made, g' ≠ g → wildSocketOf w' g' = wildSocketOf w g') ∧
    (some g ∈ w.handles ∨ ∃ c, (g, c) ∈ w.calls ∧ System.busy c = true)

/-- A step of a call through handle `h` that changes the call, the ids drawn and the wire. -/
theorem wild_acts_call {dbg : Bool} {trs : Nat → WildTransport} {w : WildWorld} (inv : WildInv w) {j : Nat}
    {h : Handle} {c c' : Call} (hj : w.calls[j]? = some (h, c)) (q : StreamIdProvider) (n : Nat)
    (wire : List Frame) (hb : System.busy c = true)
    (step : ∀ i : Nat, (wildSocketOf w h).calls[i]? = some c →
      WildStep dbg (trs h.connection) (wildSocketOf w h)
        { (wildSocketOf w h) with
          calls := (wildSocketOf w h).calls.set i c'
          machine := { (wildSocketOf w h).machine with streamId := q }
          draws := n
          wire := wire }) :
    WildActs dbg trs w { w with
      calls := w.calls.set j (h, c')
      memory := { w.memory with
        provider := put w.memory.provider h.streamId q
        draws := put w.memory.draws h.streamId n
        wire := put w.memory.wire h.connection wire } } := by
  have hm : h ∈ w.made := inv.world.calls _ (List.mem_of_getElem? hj)
  obtain ⟨i, h1, h2⟩ := pickOf_set_own (g := h) rfl hj
  refine ⟨h, hm, ?_, fun g hg hne => ?_, .inr ⟨c, List.mem_of_getElem? hj, hb⟩⟩
  · refine wild_to (step i h1) (wildConc_eq ?_ (h2 c').symm (put_same _ _ _).symm (put_same _ _ _).symm rfl)
    show _ = RSocketMachine.mk _ (put w.memory.provider h.streamId q h.streamId) _ _ _ _ _
    rw [put_same]
    rfl
  · obtain ⟨a1, a2, a3⟩ := inv.world.apart g hg h hm hne
    refine wildConc_eq ?_ (pickOf_set_other (fun e => a2 e.symm) hj c') (put_other _ a1 _)
      (put_other _ a2 _) rfl
    show RSocketMachine.mk _ (put w.memory.provider h.streamId q g.streamId) _ _ _ _ _ = _
    rw [put_other _ a1]
    rfl

/-- A step of a call that hands over a frame. -/
theorem wild_acts_hand {dbg : Bool} {trs : Nat → WildTransport} {w : WildWorld} (inv : WildInv w) {j : Nat}
    {h : Handle} {c c' : Call} (hj : w.calls[j]? = some (h, c)) (f : Frame) (hb : System.busy c = true)
    (step : ∀ i : Nat, (wildSocketOf w h).calls[i]? = some c →
      WildStep dbg (trs h.connection) (wildSocketOf w h)
        { (wildSocketOf w h).set i c' with wire := (wildSocketOf w h).wire ++ [f] }) :
    WildActs dbg trs w ((w.set j h c').hand h f) := by
  have := wild_acts_call (dbg := dbg) (trs := trs) inv hj (w.memory.provider h.streamId)
    (w.memory.draws h.streamId) (w.memory.wire h.connection ++ [f]) hb step
  rw [put_id, put_id] at this
  exact this

/-- A step of a call that changes nothing else. -/
theorem wild_acts_set {dbg : Bool} {trs : Nat → WildTransport} {w : WildWorld} (inv : WildInv w) {j : Nat}
    {h : Handle} {c c' : Call} (hj : w.calls[j]? = some (h, c)) (hb : System.busy c = true)
    (step : ∀ i : Nat, (wildSocketOf w h).calls[i]? = some c →
      WildStep dbg (trs h.connection) (wildSocketOf w h) ((wildSocketOf w h).set i c')) :
    WildActs dbg trs w (w.set j h c') := by
  have := wild_acts_call (dbg := dbg) (trs := trs) inv hj (w.memory.provider h.streamId)
    (w.memory.draws h.streamId) (w.memory.wire h.connection) hb step
  rw [put_id, put_id, put_id] at this
  exact this

/-- A `metadata_push`. -/
theorem wild_acts_push {dbg : Bool} {trs : Nat → WildTransport} {w : WildWorld} (inv : WildInv w) {i : Nat}
    {h : Handle} (hi : w.handles[i]? = some (some h)) (f : Frame) (a : WildAsked)
    (step : WildStep dbg (trs h.connection) (wildSocketOf w h)
      { wildSocketOf w h with
        wire := (wildSocketOf w h).wire ++ [f], asked := (wildSocketOf w h).asked ++ [a] }) :
    WildActs dbg trs w { w.hand h f with asked := w.asked ++ [(h, a)] } := by
  have hm := inv.live hi
  refine ⟨h, hm, ?_, fun g hg hne => ?_, .inl (List.mem_of_getElem? hi)⟩
  · refine wild_to step (wildConc_eq rfl rfl rfl (put_same _ _ _).symm ?_)
    exact ((pickOf_append h w.asked [(h, a)]).trans (congrArg _ (pickOf_own rfl _ []))).symm
  · obtain ⟨a1, a2, a3⟩ := inv.world.apart g hg h hm hne
    refine wildConc_eq rfl rfl rfl (put_other _ a2 _) ?_
    exact (pickOf_append g w.asked [(h, a)]).trans
      ((congrArg _ (pickOf_other (fun e => a2 e.symm) _ [])).trans (List.append_nil _))

theorem wild_acts {dbg : Bool} {trs : Nat → WildTransport} {w w' : WildWorld} (inv : WildInv w)
    (h : WildWorldStep dbg trs w w') : WildActs dbg trs w w' := by
  cases h with
  | call i h p hi =>
    have hm := inv.live hi
    refine ⟨h, hm, ?_, fun g hg hne => ?_, .inl (List.mem_of_getElem? hi)⟩
    · refine wild_to (.call (wildSocketOf w h) p) (wildConc_eq rfl ?_ rfl rfl ?_)
      · exact ((pickOf_append h w.calls [(h, Call.probing p)]).trans
          (congrArg _ (pickOf_own rfl _ []))).symm
      · exact ((pickOf_append h w.asked [(h, WildAsked.fireAndForget p)]).trans
          (congrArg _ (pickOf_own rfl _ []))).symm
    · obtain ⟨a1, a2, a3⟩ := inv.world.apart g hg h hm hne
      refine wildConc_eq rfl ?_ rfl rfl ?_
      · exact (pickOf_append g w.calls [(h, Call.probing p)]).trans
          ((congrArg _ (pickOf_other (fun e => a2 e.symm) _ [])).trans (List.append_nil _))
      · exact (pickOf_append g w.asked [(h, WildAsked.fireAndForget p)]).trans
          ((congrArg _ (pickOf_other (fun e => a2 e.symm) _ [])).trans (List.append_nil _))
  | fetch j h p hj =>
    have := wild_acts_call (dbg := dbg) (trs := trs) inv hj (w.memory.provider h.streamId).draw.2
      (w.memory.draws h.streamId + 1) (w.memory.wire h.connection)
      (c' := .checking p (w.memory.provider h.streamId).draw.1)
      rfl fun i hi => .fetch (wildSocketOf w h) i p hi
    rw [put_id] at this
    exact this
  | checkUsed j h p sid hj hu => exact wild_acts_set inv hj rfl fun i hi => .checkUsed _ i p sid hi hu
  | checkFree j h p sid hj hu => exact wild_acts_set inv hj rfl fun i hi => .checkFree _ i p sid hi hu
  | sendOne j h p sid f r hj hf ht =>
    exact wild_acts_hand inv hj _ rfl fun i hi => .sendOne _ i p sid f r hi hf ht
  | sendOnePanic j h p sid f m hj hf ht =>
    exact wild_acts_hand inv hj _ rfl fun i hi => .sendOnePanic _ i p sid f m hi hf ht
  | sendChunk j h p sid idx n chunks chunks' chunked f hj h1 h2 h3 =>
    exact wild_acts_hand inv hj _ rfl fun i hi =>
      .sendChunk _ i p sid idx n chunks chunks' chunked f hi h1 h2 h3
  | sendChunkErr j h p sid idx n chunks chunks' chunked f e hj h1 h2 h3 =>
    exact wild_acts_hand inv hj _ rfl fun i hi =>
      .sendChunkErr _ i p sid idx n chunks chunks' chunked f e hi h1 h2 h3
  | sendChunkPanic j h p sid idx n chunks chunks' chunked f m hj h1 h2 h3 =>
    exact wild_acts_hand inv hj _ rfl fun i hi =>
      .sendChunkPanic _ i p sid idx n chunks chunks' chunked f m hi h1 h2 h3
  | finish j h p sid idx n chunks chunks' hj h1 =>
    exact wild_acts_set inv hj rfl fun i hi => .finish _ i p sid idx n chunks chunks' hi h1
  | push i h md r hi ht => exact wild_acts_push inv hi _ _ (.push _ md r ht)
  | pushPanic i h md m hi ht => exact wild_acts_push inv hi _ _ (.pushPanic _ md m ht)
  | env i h R hi =>
    have hm := inv.live hi
    refine ⟨h, hm, ?_, fun g hg hne => ?_, .inl (List.mem_of_getElem? hi)⟩
    · refine wild_to (.env (wildSocketOf w h) R) (wildConc_eq ?_ rfl rfl rfl rfl)
      show _ = RSocketMachine.mk _ _ (put w.memory.store h.receivers R h.receivers) _ _ _ _
      rw [put_same]
      rfl
    · obtain ⟨a1, a2, a3⟩ := inv.world.apart g hg h hm hne
      refine wildConc_eq ?_ rfl rfl rfl rfl
      show RSocketMachine.mk _ _ (put w.memory.store h.receivers R g.receivers) _ _ _ _ = _
      rw [put_other _ a3]
      rfl

theorem wild_stays_made {dbg : Bool} {trs : Nat → WildTransport} {w w' : WildWorld}
    (h : WildWorldStep dbg trs w w') : w'.made = w.made ∧ w'.handles = w.handles := by
  cases h <;> exact ⟨rfl, rfl⟩

/-- What a request hands to the connection comes after what the connection has. -/
theorem wild_wire {dbg : Bool} {tr : WildTransport} {c c' : WildConc} (h : WildStep dbg tr c c') :
    c'.wire = c.wire ++ c'.wire.drop c.wire.length := by
  have key : ∀ l, c'.wire = c.wire ++ l → c'.wire = c.wire ++ c'.wire.drop c.wire.length := by
    intro l hl
    rw [hl, List.drop_left]
  cases h with
  | sendOne i p sid f => exact key [Frame.requestFnf f] rfl
  | sendOnePanic i p sid f => exact key [Frame.requestFnf f] rfl
  | sendChunk i p sid idx n chunks chunks' chunked f => exact key [Frame.requestFnf f] rfl
  | sendChunkErr i p sid idx n chunks chunks' chunked f => exact key [Frame.requestFnf f] rfl
  | sendChunkPanic i p sid idx n chunks chunks' chunked f => exact key [Frame.requestFnf f] rfl
  | push md => exact key [Frame.metadataPush (MetadataPushFrame.new md)] rfl
  | pushPanic md => exact key [Frame.metadataPush (MetadataPushFrame.new md)] rfl
  | call => exact key [] (List.append_nil _).symm
  | fetch => exact key [] (List.append_nil _).symm
  | checkUsed => exact key [] (List.append_nil _).symm
  | checkFree => exact key [] (List.append_nil _).symm
  | finish => exact key [] (List.append_nil _).symm
  | env => exact key [] (List.append_nil _).symm

/-- What is seen of a socket from its parts. -/
def stormFrom (c : WildConc) (k : WildKeeper) (handles clock : Nat) (down : Bool) : Storm :=
  { sys :=
      { conc := c
        dog := k.dog
        slept := k.slept
        listening := k.listening
        handles := handles
        strong := k.strong
        released := k.released
        clock := clock
        happened := k.happened
        userCloses := k.userCloses
        panics := k.panics
        seen := k.seen }
    down := down
    dogGone := k.dogGone }

theorem stormOf_from (t : Storms) (g : Handle) : stormOf t g =
    stormFrom (wildSocketOf t.world g) (t.keeper g.connection) (t.holders g.connection) t.clock
      (t.down (t.keeper g.connection).runtime) := rfl

theorem storm_to {dbg : Bool} {tr : WildTransport} {s s' s'' : Storm} (h : Storm.Step dbg tr s s')
    (e : s' = s'') : Storm.Step dbg tr s s'' := e ▸ h

/-- What a step does. -/
def StormsActs (dbg : Bool) (trs : Nat → WildTransport) (t t' : Storms) : Prop :=
  (∃ now, t.clock ≤ now ∧ t' = { t with clock := now }) ∨
  (∃ r, t' = { t with down := put t.down r true }) ∨
  (∃ g ∈ t.world.made, Storm.Step dbg (trs g.connection) (stormOf t g) (stormOf t' g) ∧
    (∀ g' ∈ t.world.made, g' ≠ g → stormOf t' g' = stormOf t g') ∧
    t'.world.made = t.world.made ∧ t'.clock = t.clock ∧ t'.down = t.down) ∨
  (∃ role timeout created r, created ≤ t.clock ∧
    t'.world.made = t.world.made ++ [t.world.memory.handle role none timeout created] ∧
    t'.world.handles = t.world.handles ++ [some (t.world.memory.handle role none timeout created)] ∧
    stormOf t' (t.world.memory.handle role none timeout created) =
      { Storm.new role timeout created t.clock with down := t.down r } ∧
    (t'.keeper (t.world.memory.handle role none timeout created).connection).spawned = t.clock ∧
    (t'.keeper (t.world.memory.handle role none timeout created).connection).runtime = r ∧
    (∀ g ∈ t.world.made, stormOf t' g = stormOf t g) ∧ t'.clock = t.clock ∧ t'.down = t.down)

/-- A step of a task or of `close`. -/
theorem acts_keep {dbg : Bool} {trs : Nat → WildTransport} {t : Storms} (inv : WildInv t.world)
    {g : Handle} (hg : g ∈ t.world.made) {k : WildKeeper}
    (hk : k.runtime = (t.keeper g.connection).runtime)
    (h : Storm.Step dbg (trs g.connection) (stormOf t g)
      (stormFrom (wildSocketOf t.world g) k (t.holders g.connection) t.clock
        (t.down (t.keeper g.connection).runtime))) :
    StormsActs dbg trs t (t.keep g.connection k) := by
  refine .inr (.inr (.inl ⟨g, hg, storm_to h ?_, fun g' hg' hne => ?_, rfl, rfl, rfl⟩))
  · rw [stormOf_from]
    show _ = stormFrom _ (put t.keeper g.connection k g.connection) _ _
      (t.down (put t.keeper g.connection k g.connection).runtime)
    rw [put_same, hk]
    rfl
  · rw [stormOf_from, stormOf_from]
    show stormFrom _ (put t.keeper g.connection k g'.connection) _ _
      (t.down (put t.keeper g.connection k g'.connection).runtime) = _
    rw [put_other _ (inv.world.apart g' hg' g hg hne).2.1]
    rfl

theorem holders_snoc (t : Storms) (h : Handle) (a : Nat) :
    (t.world.handles ++ [some h]).countP (fun o => o.any fun h => h.connection == a) =
    t.holders a + if h.connection = a then 1 else 0 := holders_append (shade t.world) h a

theorem held {t : Storms} {i : Nat} {h : Handle} (hi : t.world.handles[i]? = some (some h)) :
    0 < t.holders h.connection := holders_pos (w := shade t.world) (List.mem_of_getElem? hi)

/-- When the user holds no handle of a socket, none of its calls is going on. -/
def Calm (t : Storms) : Prop :=
  ∀ g ∈ t.world.made, t.holders g.connection = 0 → ∀ c, (g, c) ∈ t.world.calls → System.busy c = false

theorem wildSocketOf_alloc {w : WildWorld} (inv : WildInv w) (role : Role) (hs : List (Option Handle))
    (gs : List Handle) {g : Handle} (hg : g ∈ w.made) :
    wildSocketOf { w with memory := w.memory.alloc role, handles := hs, made := gs } g =
      wildSocketOf w g := by
  obtain ⟨h1, h2, h3, h4⟩ : g.streamId < w.memory.next ∧ g.connection < w.memory.next ∧
    g.receivers < w.memory.next ∧ g.requestN < w.memory.next := inv.world.lt g hg
  refine wildConc_eq ?_ rfl (put_other _ (by omega) _) (put_other _ (by omega) _) rfl
  show RSocketMachine.mk _ (put w.memory.provider w.memory.next _ g.streamId)
    (put w.memory.store (w.memory.next + 2) _ g.receivers)
    (put w.memory.counter (w.memory.next + 3) _ g.requestN) _ _ _ = _
  rw [put_other _ (by omega), put_other _ (by omega), put_other _ (by omega)]
  rfl

theorem wildSocketOf_new {w : WildWorld} (inv : WildInv w) (role : Role) (timeout now : Nat)
    (hs : List (Option Handle)) (gs : List Handle) :
    wildSocketOf { w with memory := w.memory.alloc role, handles := hs, made := gs }
      (w.memory.handle role none timeout now) =
    WildConc.init (RSocketMachine.new role timeout now) := by
  have hne : ∀ g ∈ w.made, g.connection ≠ w.memory.next + 1 := fun g hg => by
    have : g.connection < w.memory.next := (inv.world.lt g hg).2.1
    omega
  refine wildConc_eq ?_ ?_ (put_same _ _ _) (put_same _ _ _) ?_
  · show RSocketMachine.mk _ (put w.memory.provider w.memory.next _ w.memory.next)
      (put w.memory.store (w.memory.next + 2) _ (w.memory.next + 2))
      (put w.memory.counter (w.memory.next + 3) _ (w.memory.next + 3)) _ _ _ = _
    rw [put_same, put_same, put_same]
    rfl
  · exact pickOf_none fun c hc => hne _ (inv.world.calls c hc)
  · exact pickOf_none fun c hc => hne _ (inv.asked c hc)

/-- A new socket, and those that there were. -/
theorem storms_new {t : Storms} (inv : WildInv t.world) (role : Role) (timeout created r : Nat) :
    stormOf { t with
        world := { t.world with
          memory := t.world.memory.alloc role
          handles := t.world.handles ++ [some (t.world.memory.handle role none timeout created)]
          made := t.world.made ++ [t.world.memory.handle role none timeout created] }
        keeper := put t.keeper (t.world.memory.handle role none timeout created).connection
          (WildKeeper.new t.clock r) } (t.world.memory.handle role none timeout created) =
      { Storm.new role timeout created t.clock with down := t.down r } ∧
    (put t.keeper (t.world.memory.handle role none timeout created).connection (WildKeeper.new t.clock r)
      (t.world.memory.handle role none timeout created).connection).runtime = r ∧
    ∀ g ∈ t.world.made, stormOf { t with
        world := { t.world with
          memory := t.world.memory.alloc role
          handles := t.world.handles ++ [some (t.world.memory.handle role none timeout created)]
          made := t.world.made ++ [t.world.memory.handle role none timeout created] }
        keeper := put t.keeper (t.world.memory.handle role none timeout created).connection
          (WildKeeper.new t.clock r) } g = stormOf t g := by
  refine ⟨?_, ?_, fun g hg => ?_⟩
  · rw [stormOf_from]
    show stormFrom (wildSocketOf { t.world with
        memory := t.world.memory.alloc role
        handles := t.world.handles ++ [some (t.world.memory.handle role none timeout created)]
        made := t.world.made ++ [t.world.memory.handle role none timeout created] }
        (t.world.memory.handle role none timeout created)) (put t.keeper _ _ _)
      ((t.world.handles ++ [some (t.world.memory.handle role none timeout created)]).countP _) _
      (t.down (put t.keeper _ _ _).runtime) = _
    rw [wildSocketOf_new inv, put_same, holders_snoc, if_pos rfl]
    have h0 : t.holders (t.world.memory.handle role none timeout created).connection = 0 := by
      refine holders_none (w := shade t.world) fun g hg e => ?_
      have : g.connection < t.world.memory.next := (inv.world.lt g (inv.world.live g hg)).2.1
      have e : g.connection = t.world.memory.next + 1 := e
      omega
    rw [h0]
    rfl
  · show (put t.keeper _ _ _).runtime = _
    rw [put_same]
    rfl
  · have hlt : g.connection < t.world.memory.next := (inv.world.lt g hg).2.1
    have hne : (t.world.memory.handle role none timeout created).connection ≠ g.connection := by
      show t.world.memory.next + 1 ≠ g.connection
      omega
    rw [stormOf_from, stormOf_from]
    show stormFrom (wildSocketOf { t.world with
        memory := t.world.memory.alloc role
        handles := t.world.handles ++ [some (t.world.memory.handle role none timeout created)]
        made := t.world.made ++ [t.world.memory.handle role none timeout created] } g)
      (put t.keeper _ _ g.connection)
      ((t.world.handles ++ [some (t.world.memory.handle role none timeout created)]).countP _) _
      (t.down (put t.keeper _ _ _).runtime) = _
    rw [wildSocketOf_alloc inv role _ _ hg, put_other _ hne.symm, holders_snoc, if_neg hne]
    rfl

theorem storms_acts {dbg : Bool} {trs : Nat → WildTransport} {t t' : Storms} (inv : WildInv t.world)
    (calm : Calm t) (h : Storms.Step dbg trs t t') : StormsActs dbg trs t t' := by
  cases h with
  | time now hn => exact .inl ⟨now, hn, rfl⟩
  | shutdown r => exact .inr (.inl ⟨r, rfl⟩)
  | new role timeout created r hc =>
    obtain ⟨h1, h2, h3⟩ := storms_new inv role timeout created r
    refine .inr (.inr (.inr ⟨role, timeout, created, r, hc, rfl, rfl, h1, ?_, h2, h3, rfl, rfl⟩))
    show (put t.keeper _ _ _).spawned = _
    rw [put_same]
    rfl
  | clone i h hi =>
    have hm := inv.live hi
    refine .inr (.inr (.inl ⟨h, hm, ?_, fun g hg hne => ?_, rfl, rfl, rfl⟩))
    · refine storm_to (.run _ _ (.clone _ (held hi)) fun _ => ⟨rfl, rfl⟩) ?_
      rw [stormOf_from]
      show _ = stormFrom _ (put t.keeper h.connection _ h.connection)
        ((t.world.handles ++ [some h]).countP _) _ (t.down (put t.keeper h.connection _ h.connection).runtime)
      rw [put_same, holders_snoc, if_pos rfl]
      rfl
    · have hne := (inv.world.apart g hg h hm hne).2.1
      rw [stormOf_from, stormOf_from]
      show stormFrom _ (put t.keeper h.connection _ g.connection)
        ((t.world.handles ++ [some h]).countP _) _
        (t.down (put t.keeper h.connection _ g.connection).runtime) = _
      rw [put_other _ hne, holders_snoc, if_neg hne.symm]
      rfl
  | drop i h hi hb =>
    have hm := inv.live hi
    refine .inr (.inr (.inl ⟨h, hm, ?_, fun g hg hne => ?_, rfl, rfl, rfl⟩))
    · have hc := countP_drop hi h.connection
      rw [if_pos rfl] at hc
      refine storm_to (.run _ _ (.drop _ (held hi) fun h1 c hc => ?_) fun _ => ⟨rfl, rfl⟩) ?_
      · obtain ⟨d, hd, e⟩ := List.mem_filterMap.1 hc
        by_cases hcon : d.1.connection = h.connection
        · rw [if_pos hcon] at e
          cases e
          exact hb h1 d hd hcon
        · rw [if_neg hcon] at e
          cases e
      · rw [stormOf_from, stormOf_from]
        show _ = stormFrom _ (put t.keeper h.connection _ h.connection)
          ((t.world.handles.set i none).countP _) _
          (t.down (put t.keeper h.connection _ h.connection).runtime)
        rw [put_same]
        have e : t.holders h.connection - 1 =
            (t.world.handles.set i none).countP (fun o => o.any fun k => k.connection == h.connection) := by
          show t.world.handles.countP _ - 1 = _
          rw [← hc]
          rfl
        rw [← e]
        rfl
    · have hne := (inv.world.apart g hg h hm hne).2.1
      have hc := countP_drop hi g.connection
      rw [if_neg hne.symm] at hc
      rw [stormOf_from, stormOf_from]
      show stormFrom _ (put t.keeper h.connection _ g.connection)
        ((t.world.handles.set i none).countP _) _
        (t.down (put t.keeper h.connection _ g.connection).runtime) = _
      rw [put_other _ hne]
      exact congrArg (fun n => stormFrom _ _ n _ _) hc
  | request w hw =>
    obtain ⟨g, hg, h1, h2, h3⟩ := wild_acts inv hw
    obtain ⟨hm, hh⟩ := wild_stays_made hw
    have hold : ∀ a, w.handles.countP (fun o => o.any fun h => h.connection == a) = t.holders a := by
      intro a
      rw [hh]
      rfl
    have hpos : 0 < t.holders g.connection := by
      refine Nat.pos_of_ne_zero fun h0 => ?_
      rcases h3 with h3 | ⟨c, h3, hb⟩
      · exact absurd h0 (Nat.pos_iff_ne_zero.1 (holders_pos (w := shade t.world) h3))
      · rw [calm g hg h0 c h3] at hb
        cases hb
    refine .inr (.inr (.inl ⟨g, hg, ?_, fun g' hg' hne => ?_, hm, rfl, rfl⟩))
    · refine storm_to (.run _ _ (.request _ (wildSocketOf w g) _ hpos h1 (wild_wire h1))
        fun _ => ⟨rfl, rfl⟩) ?_
      rw [stormOf_from]
      show _ = stormFrom _ _ (w.handles.countP _) _ _
      rw [hold]
      rfl
    · have e := h2 g' hg' hne
      have hwire : w.memory.wire g'.connection = t.world.memory.wire g'.connection :=
        congrArg WildConc.wire e
      rw [stormOf_from, stormOf_from]
      show stormFrom (wildSocketOf w g') ((t.keeper g'.connection).emit
        (((w.memory.wire g'.connection).drop (t.world.memory.wire g'.connection).length).map .frame))
        (w.handles.countP _) _ (t.down (t.keeper g'.connection).runtime) = _
      rw [e, hold, hwire, List.drop_length]
      show stormFrom _ { t.keeper g'.connection with
        happened := (t.keeper g'.connection).happened ++ [] } _ _ _ = _
      rw [List.append_nil]
  | close i h hi => exact acts_keep inv (inv.live hi) rfl (.run _ _ (.close _ (held hi)) fun _ => ⟨rfl, rfl⟩)
  | closePanics i h hi =>
    exact acts_keep inv (inv.live hi) rfl (.run _ _ (.closePanics _ (held hi)) fun _ => ⟨rfl, rfl⟩)
  | wakeEarly g hg h0 h1 h2 h3 =>
    exact acts_keep inv hg rfl (.run _ _ (.wakeEarly _ h1 h2 h3) fun h => absurd (h.symm.trans h0) nofun)
  | wakeLate g hg h0 h1 h2 h3 =>
    exact acts_keep inv hg rfl (.run _ _ (.wakeLate _ h1 h2 h3) fun h => absurd (h.symm.trans h0) nofun)
  | dogLogPanics g hg h0 h1 h2 h3 => exact acts_keep inv hg rfl (.dogPanics _ h0 h1 h2 h3)
  | dogCloses g hg h0 h1 =>
    exact acts_keep inv hg rfl (.run _ _ (.dogCloses _ h1) fun h => absurd (h.symm.trans h0) nofun)
  | dogPanics g hg h0 h1 =>
    exact acts_keep inv hg rfl (.run _ _ (.dogPanics _ h1) fun h => absurd (h.symm.trans h0) nofun)
  | dropDog g hg hd h0 h1 => exact acts_keep inv hg rfl (.dropDog _ hd h0 h1)
  | status g st hg h1 => exact acts_keep inv hg rfl (.run _ _ (.status _ st h1) fun _ => ⟨rfl, rfl⟩)
  | statusEnd g hg h1 => exact acts_keep inv hg rfl (.run _ _ (.statusEnd _ h1) fun _ => ⟨rfl, rfl⟩)
  | statusPanics g hg h1 => exact acts_keep inv hg rfl (.run _ _ (.statusPanics _ h1) fun _ => ⟨rfl, rfl⟩)
  | listenerLogPanics g st hg h1 h2 => exact acts_keep inv hg rfl (.listenerPanics _ st h1 h2)
  | dropListener g hg hd h1 => exact acts_keep inv hg rfl (.dropListener _ hd h1)

/-- When tasks were started, and on which runtime, does not change. -/
theorem storms_world {dbg : Bool} {trs : Nat → WildTransport} {t t' : Storms} (inv : WildInv t.world)
    (h : Storms.Step dbg trs t t') : WildInv t'.world ∧
    ∀ g ∈ t.world.made, (t'.keeper g.connection).spawned = (t.keeper g.connection).spawned ∧
      (t'.keeper g.connection).runtime = (t.keeper g.connection).runtime := by
  have stay : ∀ (a : Nat) (k : WildKeeper), k.spawned = (t.keeper a).spawned →
      k.runtime = (t.keeper a).runtime →
      ∀ b, (put t.keeper a k b).spawned = (t.keeper b).spawned ∧
        (put t.keeper a k b).runtime = (t.keeper b).runtime := by
    intro a k hk hr b
    by_cases e : b = a
    · subst e
      rw [put_same]
      exact ⟨hk, hr⟩
    · rw [put_other _ e]
      exact ⟨rfl, rfl⟩
  cases h with
  | time now hn => exact ⟨inv, fun _ _ => ⟨rfl, rfl⟩⟩
  | shutdown r => exact ⟨inv, fun _ _ => ⟨rfl, rfl⟩⟩
  | new role timeout created r hc =>
    refine ⟨⟨worldInv_step (dbg := true) (trs := fun _ _ _ => .ok ()) inv.world
      (.new _ role none timeout created), fun a ha => List.mem_append_left _ (inv.asked a ha)⟩,
      fun g hg => ?_⟩
    have : g.connection < t.world.memory.next := (inv.world.lt g hg).2.1
    show (put t.keeper _ _ _).spawned = _ ∧ (put t.keeper _ _ _).runtime = _
    rw [put_other]
    · exact ⟨rfl, rfl⟩
    · show g.connection ≠ t.world.memory.next + 1
      omega
  | clone i h hi =>
    exact ⟨⟨worldInv_step (dbg := true) (trs := fun _ _ _ => .ok ()) inv.world (.clone _ i h hi),
      inv.asked⟩, fun g _ => by refine stay _ _ ?_ ?_ g.connection <;> rfl⟩
  | drop i h hi hb =>
    exact ⟨⟨worldInv_step (dbg := true) (trs := fun _ _ _ => .ok ()) inv.world (.drop _ i h hi),
      inv.asked⟩, fun g _ => by refine stay _ _ ?_ ?_ g.connection <;> rfl⟩
  | request w hw => exact ⟨wildInv_step inv hw, fun _ _ => ⟨rfl, rfl⟩⟩
  | _ => exact ⟨inv, fun g _ => by refine stay _ _ ?_ ?_ g.connection <;> rfl⟩

/-- What holds in every reachable state. -/
structure StormsInv (dbg : Bool) (trs : Nat → WildTransport) (t : Storms) : Prop where
  world : WildInv t.world
  storm : ∀ g ∈ t.world.made, Storm.Reachable dbg (trs g.connection) g.role g.keepaliveTimeout
    g.keepaliveLastReceived (t.keeper g.connection).spawned (stormOf t g)
  times : ∀ g ∈ t.world.made, g.keepaliveLastReceived ≤ (t.keeper g.connection).spawned ∧
    (t.keeper g.connection).spawned ≤ t.clock

theorem storms_made {dbg : Bool} {trs : Nat → WildTransport} {t t' : Storms} (h : StormsActs dbg trs t t') :
    t.clock ≤ t'.clock ∧ ∀ g ∈ t.world.made, g ∈ t'.world.made := by
  rcases h with ⟨now, hn, rfl⟩ | ⟨r, rfl⟩ | ⟨g, -, -, -, hm, hc, -⟩ |
    ⟨role, timeout, created, r, -, hm, -, -, -, -, -, hc, -⟩
  · exact ⟨hn, fun _ h => h⟩
  · exact ⟨Nat.le_refl _, fun _ h => h⟩
  · exact ⟨Nat.le_of_eq hc.symm, fun g h => hm ▸ h⟩
  · exact ⟨Nat.le_of_eq hc.symm, fun g h => hm ▸ List.mem_append_left _ h⟩

/-- One step of all, seen from one socket. -/
theorem storms_one {dbg : Bool} {trs : Nat → WildTransport} {t t' : Storms} (h : StormsActs dbg trs t t')
    {g : Handle} (hg : g ∈ t.world.made) :
    Storm.Step dbg (trs g.connection) (stormOf t g) (stormOf t' g) ∨ stormOf t' g = stormOf t g := by
  rcases h with ⟨now, hn, rfl⟩ | ⟨r, rfl⟩ | ⟨g', hg', h1, h2, -⟩ |
    ⟨role, timeout, created, r, -, -, -, -, -, -, h1, -⟩
  · exact .inl (.run _ _ (.time _ now hn) fun _ => ⟨rfl, rfl⟩)
  · by_cases e : (t.keeper g.connection).runtime = r
    · refine .inl (storm_to (.shutdown _) ?_)
      rw [stormOf_from, stormOf_from]
      show _ = stormFrom _ _ _ _ (put t.down r true (t.keeper g.connection).runtime)
      rw [e, put_same]
      rfl
    · refine .inr ?_
      rw [stormOf_from, stormOf_from]
      show stormFrom _ _ _ _ (put t.down r true (t.keeper g.connection).runtime) = _
      rw [put_other _ e]
      rfl
  · by_cases e : g = g'
    · subst e
      exact .inl h1
    · exact .inr (h2 g hg e)
  · exact .inr (h1 g hg)

theorem storm_calls_ended {dbg : Bool} {tr : WildTransport} {role : Role} {timeout created spawned : Nat}
    {h : Storm} (hr : Storm.Reachable dbg tr role timeout created spawned h) (h0 : h.sys.handles = 0) :
    ∀ c ∈ h.sys.conc.calls, Spec.Ended c := by
  obtain ⟨g, hg, ha, -⟩ := storm_hosted ⟨.io, none⟩ hr
  obtain ⟨s, hs, hb⟩ := hosted_asleep hg
  have k : ∀ c ∈ g.sys.conc.calls, Spec.Ended c := by
    rw [hb.conc]
    exact C75_calls_ended hs (.inl (hb.handles ▸ ha.sys.handles ▸ h0))
  exact fun c hc => idle_ended ((alike_busy ha.sys.conc).2 (fun c hc => ended_idle (k c hc)) c hc)

theorem StormsInv.calm {dbg : Bool} {trs : Nat → WildTransport} {t : Storms}
    (inv : StormsInv dbg trs t) : Calm t := by
  intro g hg h0 c hc
  have := storm_calls_ended (inv.storm g hg) h0 c (List.mem_filterMap.2 ⟨(g, c), hc, if_pos rfl⟩)
  cases this <;> rfl

theorem stormsInv {dbg : Bool} {trs : Nat → WildTransport} {t : Storms}
    (h : Storms.Reachable dbg trs t) : StormsInv dbg trs t := by
  induction h with
  | init now => exact ⟨⟨⟨nofun, nofun, List.nodup_nil, nofun, nofun, nofun⟩, nofun⟩, nofun, nofun⟩
  | @step t t' hr hs ih =>
    obtain ⟨hw, hk⟩ := storms_world ih.world hs
    have acts := storms_acts ih.world ih.calm hs
    have hclock := (storms_made acts).1
    have old : ∀ g ∈ t.world.made, Storm.Reachable dbg (trs g.connection) g.role g.keepaliveTimeout
        g.keepaliveLastReceived (t'.keeper g.connection).spawned (stormOf t' g) ∧
        g.keepaliveLastReceived ≤ (t'.keeper g.connection).spawned ∧
        (t'.keeper g.connection).spawned ≤ t'.clock := by
      intro g hg
      have ⟨t1, t2⟩ := ih.times g hg
      rw [(hk g hg).1]
      refine ⟨?_, t1, Nat.le_trans t2 hclock⟩
      rcases storms_one acts hg with h1 | h1
      · exact (ih.storm g hg).step h1
      · rw [h1]
        exact ih.storm g hg
    have all : ∀ g ∈ t'.world.made, Storm.Reachable dbg (trs g.connection) g.role g.keepaliveTimeout
        g.keepaliveLastReceived (t'.keeper g.connection).spawned (stormOf t' g) ∧
        g.keepaliveLastReceived ≤ (t'.keeper g.connection).spawned ∧
        (t'.keeper g.connection).spawned ≤ t'.clock := by
      intro g hg
      rcases acts with ⟨now, hn, rfl⟩ | ⟨r, rfl⟩ | ⟨-, -, -, -, hm, -⟩ |
        ⟨role, timeout, created, r, hc, hm, -, hnew, hsp, -, -, hcl, -⟩
      · exact old g hg
      · exact old g hg
      · exact old g (hm ▸ hg)
      · rcases List.mem_append.1 (hm ▸ hg) with hg | hg
        · exact old g hg
        · rw [List.mem_singleton.1 hg, hnew, hsp, hcl]
          refine ⟨?_, hc, Nat.le_refl _⟩
          by_cases e : t.down r = true
          · rw [e]
            exact .step .init (.shutdown _)
          · rw [Bool.eq_false_iff.2 e]
            exact .init
    exact ⟨hw, fun g hg => (all g hg).1, fun g hg => (all g hg).2⟩

/-- Whatever requests on one machine can do, requests on each of the sockets can do. -/
theorem wild_can {dbg : Bool} {trs : Nat → WildTransport} {w : WildWorld} (inv : WildInv w) {n : Nat}
    {g : Handle} (hn : w.handles[n]? = some (some g)) {s : WildConc}
    (h : WildStep dbg (trs g.connection) (wildSocketOf w g) s) :
    ∃ w', WildWorldStep dbg trs w w' ∧ wildSocketOf w' g = s := by
  have hg := inv.live hn
  have find : ∀ {i : Nat} {c : Call}, (wildSocketOf w g).calls[i]? = some c → ∃ j : Nat,
      w.calls[j]? = some (g, c) ∧
      ∀ y, pickOf g (w.calls.set j (g, y)) = (wildSocketOf w g).calls.set i y := by
    intro i c hi
    obtain ⟨j, h, h1, h2, h3⟩ := pickOf_find hi
    have := inv.world.eq hg (inv.world.calls _ (List.mem_of_getElem? h2)) h1
    subst this
    exact ⟨j, h2, h3⟩
  cases h with
  | call p =>
    refine ⟨_, .call w n g p hn, wildConc_eq rfl ?_ rfl rfl ?_⟩
    · exact (pickOf_append g w.calls [(g, Call.probing p)]).trans
        (congrArg _ (pickOf_own rfl _ []))
    · exact (pickOf_append g w.asked [(g, WildAsked.fireAndForget p)]).trans
        (congrArg _ (pickOf_own rfl _ []))
  | fetch i p hi =>
    obtain ⟨j, hj, e⟩ := find hi
    refine ⟨_, .fetch w j g p hj, wildConc_eq ?_ (e _) (put_same _ _ _) rfl rfl⟩
    show RSocketMachine.mk _ (put w.memory.provider g.streamId _ g.streamId) _ _ _ _ _ = _
    rw [put_same]
    rfl
  | checkUsed i p sid hi hu =>
    obtain ⟨j, hj, e⟩ := find hi
    exact ⟨_, .checkUsed w j g p sid hj hu, wildConc_eq rfl (e _) rfl rfl rfl⟩
  | checkFree i p sid hi hu =>
    obtain ⟨j, hj, e⟩ := find hi
    exact ⟨_, .checkFree w j g p sid hj hu, wildConc_eq rfl (e _) rfl rfl rfl⟩
  | sendOne i p sid f r hi hf ht =>
    obtain ⟨j, hj, e⟩ := find hi
    exact ⟨_, .sendOne w j g p sid f r hj hf ht, wildConc_eq rfl (e _) rfl (put_same _ _ _) rfl⟩
  | sendOnePanic i p sid f m hi hf ht =>
    obtain ⟨j, hj, e⟩ := find hi
    exact ⟨_, .sendOnePanic w j g p sid f m hj hf ht, wildConc_eq rfl (e _) rfl (put_same _ _ _) rfl⟩
  | sendChunk i p sid idx n chunks chunks' chunked f hi h1 h2 h3 =>
    obtain ⟨j, hj, e⟩ := find hi
    exact ⟨_, .sendChunk w j g p sid idx n chunks chunks' chunked f hj h1 h2 h3,
      wildConc_eq rfl (e _) rfl (put_same _ _ _) rfl⟩
  | sendChunkErr i p sid idx n chunks chunks' chunked f x hi h1 h2 h3 =>
    obtain ⟨j, hj, e⟩ := find hi
    exact ⟨_, .sendChunkErr w j g p sid idx n chunks chunks' chunked f x hj h1 h2 h3,
      wildConc_eq rfl (e _) rfl (put_same _ _ _) rfl⟩
  | sendChunkPanic i p sid idx n chunks chunks' chunked f m hi h1 h2 h3 =>
    obtain ⟨j, hj, e⟩ := find hi
    exact ⟨_, .sendChunkPanic w j g p sid idx n chunks chunks' chunked f m hj h1 h2 h3,
      wildConc_eq rfl (e _) rfl (put_same _ _ _) rfl⟩
  | finish i p sid idx n chunks chunks' hi h1 =>
    obtain ⟨j, hj, e⟩ := find hi
    exact ⟨_, .finish w j g p sid idx n chunks chunks' hj h1, wildConc_eq rfl (e _) rfl rfl rfl⟩
  | push md r ht =>
    refine ⟨_, .push w n g md r hn ht, wildConc_eq rfl rfl rfl (put_same _ _ _) ?_⟩
    exact (pickOf_append g w.asked [(g, WildAsked.metadataPush md _)]).trans
      (congrArg _ (pickOf_own rfl _ []))
  | pushPanic md m ht =>
    refine ⟨_, .pushPanic w n g md m hn ht, wildConc_eq rfl rfl rfl (put_same _ _ _) ?_⟩
    exact (pickOf_append g w.asked [(g, WildAsked.metadataPush md _)]).trans
      (congrArg _ (pickOf_own rfl _ []))
  | env R =>
    refine ⟨_, .env w n g R hn, wildConc_eq ?_ rfl rfl rfl rfl⟩
    show RSocketMachine.mk _ _ (put w.memory.store g.receivers R g.receivers) _ _ _ _ = _
    rw [put_same]
    rfl

theorem keep_to {t : Storms} {g : Handle} {k : WildKeeper} {s : Storm}
    (hk : k.runtime = (t.keeper g.connection).runtime)
    (h : stormFrom (wildSocketOf t.world g) k (t.holders g.connection) t.clock
      (t.down (t.keeper g.connection).runtime) = s) : stormOf (t.keep g.connection k) g = s := by
  rw [stormOf_from]
  show stormFrom _ (put t.keeper g.connection k g.connection) _ _
    (t.down (put t.keeper g.connection k g.connection).runtime) = _
  rw [put_same, hk]
  exact h

/-- Whatever one machine can do, each of the sockets can do. -/
theorem storms_can {dbg : Bool} {trs : Nat → WildTransport} {t : Storms} (inv : WildInv t.world)
    {g : Handle} (hg : g ∈ t.world.made) {s : Storm}
    (h : Storm.Step dbg (trs g.connection) (stormOf t g) s) :
    ∃ t', Storms.Step dbg trs t t' ∧ stormOf t' g = s := by
  have held_some : 0 < (stormOf t g).sys.handles → ∃ i : Nat, t.world.handles[i]? = some (some g) :=
    fun hpos => holders_some (w := shade t.world) inv.world hg hpos
  cases h with
  | shutdown =>
    refine ⟨_, .shutdown t (t.keeper g.connection).runtime, ?_⟩
    rw [stormOf_from]
    show stormFrom _ _ _ _ (put t.down _ true _) = _
    rw [put_same]
    rfl
  | dropDog hd h0 h1 => exact ⟨_, .dropDog t g hg hd h0 h1, keep_to rfl rfl⟩
  | dropListener hd h1 => exact ⟨_, .dropListener t g hg hd h1, keep_to rfl rfl⟩
  | dogPanics h0 h1 h2 h3 => exact ⟨_, .dogLogPanics t g hg h0 h1 h2 h3, keep_to rfl rfl⟩
  | listenerPanics st h1 h2 => exact ⟨_, .listenerLogPanics t g st hg h1 h2, keep_to rfl rfl⟩
  | run s h hgone =>
    have there : (s.dog = (stormOf t g).sys.dog → False) → (t.keeper g.connection).dogGone = false :=
      fun hf => Bool.eq_false_iff.2 fun e => hf (hgone e).1
    cases h with
    | time now hn => exact ⟨_, .time t now hn, rfl⟩
    | request c new hpos hc hw =>
      obtain ⟨i, hi⟩ := held_some hpos
      obtain ⟨w, h1, h2⟩ := wild_can inv hi hc
      refine ⟨_, .request t w h1, ?_⟩
      have hh := (wild_stays_made h1).2
      have e : w.memory.wire g.connection = t.world.memory.wire g.connection ++ new :=
        (congrArg WildConc.wire h2).trans hw
      rw [stormOf_from]
      show stormFrom (wildSocketOf w g) ((t.keeper g.connection).emit
        (((w.memory.wire g.connection).drop (t.world.memory.wire g.connection).length).map .frame))
        (w.handles.countP _) _ (t.down (t.keeper g.connection).runtime) = _
      rw [h2, hh, e, List.drop_left]
      rfl
    | close hpos =>
      obtain ⟨i, hi⟩ := held_some hpos
      exact ⟨_, .close t i g hi, keep_to rfl rfl⟩
    | closePanics hpos =>
      obtain ⟨i, hi⟩ := held_some hpos
      exact ⟨_, .closePanics t i g hi, keep_to rfl rfl⟩
    | wakeEarly h1 h2 h3 =>
      by_cases e : (t.keeper g.connection).dogGone = true
      · refine ⟨_, .time t t.clock (Nat.le_refl _), ?_⟩
        have e2 : t.clock = (t.keeper g.connection).slept := (hgone e).2
        rw [stormOf_from]
        show stormFrom _ _ _ t.clock _ = ⟨{ (stormOf t g).sys with slept := t.clock }, _, _⟩
        rw [stormOf_from]
        show stormFrom _ { t.keeper g.connection with slept := (t.keeper g.connection).slept } _ _ _ =
          stormFrom _ { t.keeper g.connection with slept := t.clock } _ _ _
        rw [← e2]
        rfl
      · exact ⟨_, .wakeEarly t g hg (Bool.eq_false_iff.2 e) h1 h2 h3, keep_to rfl rfl⟩
    | wakeLate h1 h2 h3 =>
      refine ⟨_, .wakeLate t g hg (there fun e => ?_) h1 h2 h3, keep_to rfl rfl⟩
      rw [h1] at e
      cases e
    | dogCloses h1 =>
      refine ⟨_, .dogCloses t g hg (there fun e => ?_) h1, keep_to rfl rfl⟩
      rw [h1] at e
      cases e
    | dogPanics h1 =>
      refine ⟨_, .dogPanics t g hg (there fun e => ?_) h1, keep_to rfl rfl⟩
      rw [h1] at e
      cases e
    | status st h1 => exact ⟨_, .status t g st hg h1, keep_to rfl rfl⟩
    | statusEnd h1 => exact ⟨_, .statusEnd t g hg h1, keep_to rfl rfl⟩
    | statusPanics h1 => exact ⟨_, .statusPanics t g hg h1, keep_to rfl rfl⟩
    | clone hpos =>
      obtain ⟨i, hi⟩ := held_some hpos
      refine ⟨_, .clone t i g hi, ?_⟩
      rw [stormOf_from]
      show stormFrom _ (put t.keeper g.connection _ g.connection)
        ((t.world.handles ++ [some g]).countP _) _
        (t.down (put t.keeper g.connection _ g.connection).runtime) = _
      rw [put_same, holders_snoc, if_pos rfl]
      rfl
    | drop hpos hb =>
      obtain ⟨i, hi⟩ := held_some hpos
      refine ⟨_, .drop t i g hi fun h1 c hc e => ?_, ?_⟩
      · exact hb h1 c.2 (List.mem_filterMap.2 ⟨c, hc, if_pos e⟩)
      · have hc := countP_drop hi g.connection
        rw [if_pos rfl] at hc
        have e : t.holders g.connection - 1 =
            (t.world.handles.set i none).countP (fun o => o.any fun k => k.connection == g.connection) := by
          show t.world.handles.countP _ - 1 = _
          rw [← hc]
          rfl
        rw [stormOf_from]
        show stormFrom _ (put t.keeper g.connection _ g.connection)
          ((t.world.handles.set i none).countP _) _
          (t.down (put t.keeper g.connection _ g.connection).runtime) = _
        rw [put_same, ← e]
        rfl

end Binate
