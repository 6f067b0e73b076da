import Verif.Lemmas.Progress
import Verif.Spec.Wait

/-! # Executions in which requests are kept from an id -/

namespace Binate

open Spec RSocketMachine StreamIdProvider

/-! ## One request can be kept from an id for ever -/

/-- What happens next to the first request and to a second one that is made meanwhile. -/
inductive Turn where
  /-- the first request draws an id, or another request is made if the id would be free -/
  | start
  /-- the first request looks up the id that it has drawn -/
  | first
  /-- the other request draws an id -/
  | other
  /-- the other request looks up its id -/
  | looks (sid : U32)
  /-- the other request is sent -/
  | sends (sid : U32)

/-- An execution in which the first request always draws the id that is in use. -/
structure Starving where
  turn : Turn
  word : U32
  /-- the requests that have ended -/
  past : List Call
  draws : Nat
  wire : List Frame
  asked : List Asked

namespace Starving

/-- The state of the machine. -/
def conc (s : Starving) : Conc :=
  ⟨firstUsed s.word,
    match s.turn with
    | .start => .probing ⟨none, none⟩ :: s.past
    | .first => .checking ⟨none, none⟩ 1#32 :: s.past
    | .other => .probing ⟨none, none⟩ :: (s.past ++ [.probing ⟨none, none⟩])
    | .looks sid => .probing ⟨none, none⟩ :: (s.past ++ [.checking ⟨none, none⟩ sid])
    | .sends sid => .probing ⟨none, none⟩ :: (s.past ++ [.sendingOne ⟨none, none⟩ sid]),
    s.draws, s.wire, s.asked⟩

/-- One step. -/
def next (s : Starving) : Starving :=
  match s.turn with
  | .start =>
    if s.word &&& STREAM_ID_MASK = 1#32 then
      { s with turn := .first, word := s.word + 2#32, draws := s.draws + 1 }
    else { s with turn := .other, asked := s.asked ++ [.fireAndForget ⟨none, none⟩] }
  | .first => { s with turn := .start }
  | .other =>
    { s with turn := .looks (s.word &&& STREAM_ID_MASK), word := s.word + 2#32, draws := s.draws + 1 }
  | .looks sid => { s with turn := .sends sid }
  | .sends sid =>
    { s with
      turn := .start
      past := s.past ++ [.done ⟨none, none⟩ sid (.ok ())]
      wire := s.wire ++ [fnfFrame sid false ⟨none, none⟩] }

/-- The execution. -/
def run : Nat → Starving
  | 0 => ⟨.start, 1#32, [], 0, [], [.fireAndForget ⟨none, none⟩]⟩
  | n + 1 => next (run n)

structure Inv (s : Starving) : Prop where
  ended : ∀ c ∈ s.past, Spec.Ended c
  word : s.word = (after ⟨1#32⟩ s.draws).word
  other : s.turn = .other → s.word &&& STREAM_ID_MASK ≠ 1#32
  looks : ∀ sid, s.turn = .looks sid → sid ≠ 1#32 ∧ sid.toNat < 2 ^ 31
  sends : ∀ sid, s.turn = .sends sid → sid.toNat < 2 ^ 31

theorem inv_next {s : Starving} (h : Inv s) : Inv s.next := by
  have hw : s.word + 2#32 = (after ⟨1#32⟩ (s.draws + 1)).word := by
    rw [← (draw_after ⟨1#32⟩ s.draws).2, h.word]
    rfl
  unfold next
  split
  · split
    · exact ⟨h.ended, hw, nofun, nofun, nofun⟩
    · rename_i hne
      exact ⟨h.ended, h.word, fun _ => hne, nofun, nofun⟩
  · exact ⟨h.ended, h.word, nofun, nofun, nofun⟩
  · rename_i ht
    refine ⟨h.ended, hw, nofun, fun sid e => ?_, nofun⟩
    cases e
    exact ⟨h.other ht, draw_lt ⟨s.word⟩⟩
  · rename_i sid ht
    refine ⟨h.ended, h.word, nofun, nofun, fun sid' e => ?_⟩
    cases e
    exact (h.looks sid ht).2
  · refine ⟨fun c hc => ?_, h.word, nofun, nofun, nofun⟩
    rcases List.mem_append.1 hc with hc | hc
    · exact h.ended c hc
    · rw [List.mem_singleton.1 hc]
      exact .returned ..

theorem inv_run (n : Nat) : Inv (run n) := by
  induction n with
  | zero => exact ⟨nofun, by rw [show (run 0).draws = 0 from rfl, after_zero]; rfl, nofun, nofun, nofun⟩
  | succ n ih => exact inv_next ih

theorem step_next {dbg : Bool} {s : Starving} (h : Inv s) : ConcStep dbg openTransport s.conc s.next.conc := by
  have get : ∀ c : Call, (Call.probing ⟨none, none⟩ :: (s.past ++ [c]))[s.past.length + 1]? = some c := by
    simp
  have set : ∀ c c' : Call, (Call.probing ⟨none, none⟩ :: (s.past ++ [c])).set (s.past.length + 1) c' =
      Call.probing ⟨none, none⟩ :: (s.past ++ [c']) := by simp
  obtain ⟨turn, word, past, draws, wire, asked⟩ := s
  cases turn with
  | start =>
    unfold next
    by_cases hw : word &&& STREAM_ID_MASK = 1#32
    · rw [if_pos hw]
      have := ConcStep.fetch (dbg := dbg) (tr := openTransport)
        (conc ⟨.start, word, past, draws, wire, asked⟩) 0 ⟨none, none⟩ rfl
      simp only [conc, draw, Conc.set, List.set_cons_zero, hw] at this ⊢
      exact this
    · rw [if_neg hw]
      exact .call _ _
  | first => exact .checkUsed _ 0 ⟨none, none⟩ 1#32 rfl rfl
  | other =>
    have := ConcStep.fetch (dbg := dbg) (tr := openTransport)
      (conc ⟨.other, word, past, draws, wire, asked⟩) (past.length + 1) ⟨none, none⟩ (get _)
    simp only [conc, draw, Conc.set] at this ⊢
    rw [set] at this
    exact this
  | looks sid =>
    have := ConcStep.checkFree (dbg := dbg) (tr := openTransport)
      (conc ⟨.looks sid, word, past, draws, wire, asked⟩) (past.length + 1) ⟨none, none⟩ sid (get _)
      (beq_eq_false_iff_ne.2 (h.looks sid rfl).1)
    simp only [conc, Conc.set] at this ⊢
    rw [set] at this
    exact this
  | sends sid =>
    obtain ⟨v, hv, e⟩ := fnf_new (dbg := dbg) (h.sends sid rfl) false ⟨none, none⟩
    have := ConcStep.sendOne (dbg := dbg) (tr := openTransport)
      (conc ⟨.sends sid, word, past, draws, wire, asked⟩) (past.length + 1) ⟨none, none⟩ sid v (get _) hv
    simp only [conc, Conc.set] at this ⊢
    rw [set, e] at this
    exact this

theorem word_one {s : Starving} (h : Inv s) : s.word &&& STREAM_ID_MASK = 1#32 ↔ s.draws % 2 ^ 30 = 0 := by
  have e : (s.word &&& STREAM_ID_MASK).toNat = idAt 1 s.draws := by
    rw [h.word]
    exact (draw_after ⟨1#32⟩ s.draws).1
  constructor
  · intro hw
    rw [hw] at e
    have e : 1 = idAt 1 s.draws := e
    unfold idAt at e
    omega
  · intro hd
    apply BitVec.eq_of_toNat_eq
    rw [e]
    show idAt 1 s.draws = 1
    unfold idAt
    omega

theorem starts (n : Nat) : ∃ k, n ≤ k ∧ (run k).turn = .start := by
  have one : ∀ {k : Nat}, (∃ k', k + 1 ≤ k' ∧ (run k').turn = .start) →
      ∃ k', k ≤ k' ∧ (run k').turn = .start := fun ⟨k', h1, h2⟩ => ⟨k', by omega, h2⟩
  have next : ∀ k, run (k + 1) = next (run k) := fun _ => rfl
  have sends : ∀ k sid, (run k).turn = .sends sid → (run (k + 1)).turn = .start := by
    intro k sid e
    rw [next, Starving.next, e]
  have looks : ∀ k sid, (run k).turn = .looks sid → (run (k + 1)).turn = .sends sid := by
    intro k sid e
    rw [next, Starving.next, e]
  cases e : (run n).turn with
  | start => exact ⟨n, Nat.le_refl _, e⟩
  | first => exact ⟨n + 1, by omega, by rw [next, Starving.next, e]⟩
  | other =>
    have : ∃ sid, (run (n + 1)).turn = .looks sid := ⟨_, by rw [next, Starving.next, e]⟩
    obtain ⟨sid, this⟩ := this
    exact ⟨n + 3, by omega, sends _ _ (looks _ _ this)⟩
  | looks sid => exact ⟨n + 2, by omega, sends _ _ (looks _ _ e)⟩
  | sends sid => exact ⟨n + 1, by omega, sends _ _ e⟩

/-- If the id that comes next is free, the other request gets it. -/
theorem round {n : Nat} (h : (run n).turn = .start) (hw : (run n).word &&& STREAM_ID_MASK ≠ 1#32) :
    (run (n + 4)).turn = .start ∧ (run (n + 4)).draws = (run n).draws + 1 := by
  have e : ∀ s : Starving, s.turn = .start → s.word &&& STREAM_ID_MASK ≠ 1#32 →
      s.next.next.next.next.turn = .start ∧ s.next.next.next.next.draws = s.draws + 1 := by
    intro s hs hn
    obtain ⟨turn, word, past, draws, wire, asked⟩ := s
    cases hs
    have : next ⟨.start, word, past, draws, wire, asked⟩ =
        ⟨.other, word, past, draws, wire, asked ++ [.fireAndForget ⟨none, none⟩]⟩ := if_neg hn
    rw [this]
    exact ⟨rfl, rfl⟩
  exact e _ h hw

/-- The first request draws an id again and again. -/
theorem draws_again (n : Nat) : ∃ k, n ≤ k ∧ (run k).turn = .start ∧
    (run k).word &&& STREAM_ID_MASK = 1#32 := by
  have key : ∀ g n, (run n).turn = .start → ((run n).draws + g) % 2 ^ 30 = 0 → ∃ k, n ≤ k ∧
      (run k).turn = .start ∧ (run k).word &&& STREAM_ID_MASK = 1#32 := by
    intro g
    induction g with
    | zero => exact fun n h1 h2 => ⟨n, Nat.le_refl _, h1, (word_one (inv_run n)).2 h2⟩
    | succ g ih =>
      intro n h1 h2
      by_cases hw : (run n).word &&& STREAM_ID_MASK = 1#32
      · exact ⟨n, Nat.le_refl _, h1, hw⟩
      · obtain ⟨h3, h4⟩ := round h1 hw
        obtain ⟨k, h5, h6⟩ := ih (n + 4) h3 (by rw [h4, Nat.add_assoc, Nat.add_comm 1]; exact h2)
        exact ⟨k, by omega, h6⟩
  obtain ⟨k, hk, e⟩ := starts n
  obtain ⟨g, hg⟩ : ∃ g, ((run k).draws + g) % 2 ^ 30 = 0 :=
    ⟨2 ^ 30 - (run k).draws % 2 ^ 30, by omega⟩
  obtain ⟨k', h1, h2⟩ := key g k e hg
  exact ⟨k', by omega, h2⟩

/-- The whole execution, from a machine without requests. -/
def whole : Nat → Conc
  | 0 => Conc.init (firstUsed 1#32)
  | n + 1 => (run n).conc

theorem whole_fair {dbg : Bool} (i : Nat) : Scheduled dbg openTransport whole i := by
  intro n hn
  obtain ⟨k, hk, e, hw⟩ := draws_again n
  cases i with
  | zero =>
    refine ⟨k + 1, by omega, .probing ⟨none, none⟩, ?_, ?_⟩
    · show (run k).conc.calls[0]? = _
      unfold conc
      rw [e]
      rfl
    · show (next (run k)).conc.calls[0]? ≠ _
      have : (next (run k)).turn = .first := by
        unfold next
        rw [e]
        exact congrArg turn (if_pos hw)
      unfold conc
      rw [this]
      exact nofun
  | succ i =>
    obtain ⟨s', hs, hm⟩ := hn (k + 1) (by omega)
    obtain ⟨c, hc, hne⟩ := hm
    have hs : ConcStep dbg openTransport (run k).conc s' := hs
    have hc : (run k).conc.calls[i + 1]? = some c := hc
    have hp : (run k).past[i]? = some c := by
      unfold conc at hc
      rw [e] at hc
      exact hc
    have := ended_iff.1 ((inv_run k).ended c (List.mem_of_getElem? hp))
    exact absurd ⟨c, hc, hne⟩ (ended_still hs hc this)

end Starving

/-! ## All requests can be kept from an id if the ids in use change -/

namespace Chased

variable (m : RSocketMachine) (p : Payload)

/-- The id that is drawn in round `k`. -/
def drawn (k : Nat) : U32 := (after m.streamId k).draw.1

/-- The id in use in round `k`: that of the round before. -/
def store : Nat → Store
  | 0 => m.receivers
  | k + 1 => fun x => x == drawn m k

/-- The state after `d` draws with the ids of round `k` in use. -/
def state (d k : Nat) (c : Call) : Conc :=
  { machine := { m with streamId := after m.streamId d, receivers := store m k }
    calls := [c], draws := d, wire := [], asked := [.fireAndForget p] }

/-- A request draws an id, which comes into use, and looks it up. -/
def round (k : Nat) : Nat → Conc
  | 0 => state m p k k (.probing p)
  | 1 => state m p (k + 1) k (.checking p (drawn m k))
  | _ => state m p (k + 1) (k + 1) (.checking p (drawn m k))

def whole : Nat → Conc
  | 0 => Conc.init m
  | n + 1 => round m p (n / 3) (n % 3)

theorem whole_at (k r : Nat) (hr : r < 3) : whole m p (3 * k + r + 1) = round m p k r := by
  show round m p ((3 * k + r) / 3) ((3 * k + r) % 3) = _
  rw [show (3 * k + r) / 3 = k by omega, show (3 * k + r) % 3 = r by omega]

variable {m p}

theorem whole_step {dbg : Bool} {tr : Transport} (n : Nat) :
    ConcStep dbg tr (whole m p n) (whole m p (n + 1)) := by
  cases n with
  | zero =>
    have h := ConcStep.call (dbg := dbg) (tr := tr) (Conc.init m) p
    have e : whole m p 1 = { Conc.init m with
        calls := (Conc.init m).calls ++ [.probing p]
        asked := (Conc.init m).asked ++ [.fireAndForget p] } := by
      show state m p 0 0 (.probing p) = _
      unfold state
      rw [after_zero]
      rfl
    rw [e]
    exact h
  | succ n =>
    obtain ⟨k, r, hr, rfl⟩ : ∃ k r, r < 3 ∧ n = 3 * k + r := ⟨n / 3, n % 3, by omega, by omega⟩
    rw [whole_at m p k r hr]
    match r, hr with
    | 0, _ =>
      rw [whole_at m p k 1 (by omega)]
      have h := ConcStep.fetch (dbg := dbg) (tr := tr) (round m p k 0) 0 p rfl
      have e : (after m.streamId k).draw.2 = after m.streamId (k + 1) := (draw_after _ _).2
      have h' : ConcStep dbg tr (round m p k 0) { (state m p (k + 1) k (.checking p (drawn m k))) with
          machine := { m with streamId := (after m.streamId k).draw.2, receivers := store m k } } := h
      rw [e] at h'
      exact h'
    | 1, _ =>
      rw [whole_at m p k 2 (by omega)]
      exact .env (round m p k 1) (store m (k + 1))
    | 2, _ =>
      rw [show 3 * k + 2 + 1 + 1 = 3 * (k + 1) + 0 + 1 by omega, whole_at m p (k + 1) 0 (by omega)]
      exact .checkUsed (round m p k 2) 0 p (drawn m k) rfl (beq_self_eq_true _)

theorem whole_calls (n : Nat) : ∃ c, (whole m p (n + 1)).calls = [c] ∧ callPayload c = p ∧
    ¬ Spec.Ended c := by
  obtain ⟨k, r, hr, rfl⟩ : ∃ k r, r < 3 ∧ n = 3 * k + r := ⟨n / 3, n % 3, by omega, by omega⟩
  rw [whole_at m p k r hr]
  match r, hr with
  | 0, _ => exact ⟨_, rfl, rfl, nofun⟩
  | 1, _ => exact ⟨_, rfl, rfl, nofun⟩
  | 2, _ => exact ⟨_, rfl, rfl, nofun⟩

theorem whole_fair {dbg : Bool} {tr : Transport} (i : Nat) : Scheduled dbg tr (whole m p) i := by
  intro n hn
  cases i with
  | zero =>
    refine ⟨3 * n + 0 + 1, by omega, .probing p, ?_, ?_⟩
    · rw [whole_at m p n 0 (by omega)]
      rfl
    · rw [show 3 * n + 0 + 1 + 1 = 3 * n + 1 + 1 by omega, whole_at m p n 1 (by omega)]
      exact nofun
  | succ i =>
    obtain ⟨s, -, c, hc, -⟩ := hn (n + 1) (by omega)
    obtain ⟨d, hd, -⟩ := whole_calls (m := m) (p := p) n
    rw [hd] at hc
    cases hc

theorem whole_keys (hm : ∀ x, m.receivers x = false) (n : Nat) {x y : U32}
    (hx : (whole m p n).machine.receivers x = true) (hy : (whole m p n).machine.receivers y = true) : x = y := by
  have key : ∀ k, store m k x = true → store m k y = true → x = y := by
    intro k hx hy
    cases k with
    | zero => exact nomatch (hm x).symm.trans hx
    | succ k => exact (eq_of_beq hx).trans (eq_of_beq hy).symm
  cases n with
  | zero => exact nomatch (hm x).symm.trans hx
  | succ n =>
    obtain ⟨k, r, hr, rfl⟩ : ∃ k r, r < 3 ∧ n = 3 * k + r := ⟨n / 3, n % 3, by omega, by omega⟩
    rw [whole_at m p k r hr] at hx hy
    match r, hr with
    | 0, _ => exact key _ hx hy
    | 1, _ => exact key _ hx hy
    | 2, _ => exact key (k + 1) hx hy

end Chased

end Binate
