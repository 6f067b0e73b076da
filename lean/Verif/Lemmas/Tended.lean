import Verif.Spec.Tended
import Verif.Lemmas.WildHandler
import Verif.Lemmas.Storm
import Verif.Props.Storm
import Verif.Props.StormLive
import Verif.Props.WildHandler

/-! # Lemmas on a machine with its request handler -/

namespace Binate

open Spec RSocketMachine

variable {H : Type} {dbg : Bool} {tr : WildTransport} {dummy : H} {role : Role}
  {timeout created spawned : Nat}

theorem storm_strong {h : Storm} (hr : Storm.Reachable dbg tr role timeout created spawned h) :
    (h.sys.strong = 0 ↔ h.sys.released = true) ∧ h.sys.handles ≤ h.sys.strong := by
  obtain ⟨g, hg, ha, -⟩ := storm_hosted ⟨.io, none⟩ hr
  have inv := hostInv hg
  refine ⟨?_, ?_⟩
  · rw [ha.sys.strong, ha.sys.released, inv.released, beq_iff_eq]
  · rw [ha.sys.strong, ha.sys.handles, inv.strong]
    omega

/-- What holds in every reachable state. -/
structure TendedInv (dbg : Bool) (tr : WildTransport) (dummy : H) (role : Role)
    (timeout created spawned : Nat) (a : Tended H) : Prop where
  storm : Storm.Reachable dbg tr role timeout created spawned a.storm
  refs : a.refs = a.storm.sys.strong + a.falling
  gone : a.gone = true ↔ a.refs = 0
  idle : a.storm.sys.handles = 0 → a.idle
  lock : ∃ l, RequestHanlder.WildRun (.new dummy) a.events l ∧ (a.gone = false → a.lock = l) ∧
    (a.gone = true → a.lock = { l with dropped := l.dropped ++ [l.current] })

theorem tended_handles {a : Tended H} (inv : TendedInv dbg tr dummy role timeout created spawned a)
    (h : 0 < a.storm.sys.handles) : a.gone = false := by
  cases hg : a.gone with
  | false => rfl
  | true =>
    have h1 := inv.gone.1 hg
    have h2 := inv.refs
    have h3 := (storm_strong inv.storm).2
    omega

theorem tended_letGo {a : Tended H} (inv : TendedInv dbg tr dummy role timeout created spawned a)
    (hf : 0 < a.falling) : TendedInv dbg tr dummy role timeout created spawned a.letGo := by
  have hg : a.gone = false := by
    cases hg : a.gone with
    | false => rfl
    | true =>
      have h1 := inv.gone.1 hg
      have h2 := inv.refs
      omega
  have hr := inv.refs
  have hi : a.letGo.idle ↔ a.idle := by
    unfold Tended.idle Tended.letGo
    by_cases h1 : a.refs = 1 <;> simp only [h1, if_true, if_false]
  have hgo : a.letGo.gone = true ↔ a.refs = 1 := by
    show (a.gone || a.refs == 1) = true ↔ _
    rw [hg, Bool.false_or, beq_iff_eq]
  refine ⟨inv.storm, ?_, ?_, fun h => hi.2 (inv.idle h), ?_⟩
  · show a.refs - 1 = a.storm.sys.strong + (a.falling - 1)
    omega
  · rw [hgo]
    show _ ↔ a.refs - 1 = 0
    omega
  · obtain ⟨l, h1, h2, -⟩ := inv.lock
    have h2 := h2 hg
    refine ⟨l, h1, fun h => ?_, fun h => ?_⟩
    · have : a.refs ≠ 1 := fun h3 => by rw [hgo.2 h3] at h; cases h
      show (if a.refs = 1 then _ else _) = _
      rw [if_neg this, h2]
    · show (if a.refs = 1 then _ else _) = _
      rw [if_pos (hgo.1 h), h2]

theorem tendedInv {a : Tended H} (hr : Tended.Reachable dbg tr dummy role timeout created spawned a) :
    TendedInv dbg tr dummy role timeout created spawned a := by
  induction hr with
  | init => exact ⟨.init, rfl, ⟨nofun, nofun⟩, nofun, _, .nil _, fun _ => rfl, nofun⟩
  | @step a _ _ hs inv =>
    have machine : ∀ h, Storm.Step dbg tr a.storm h → (h.sys.handles = 0 → a.idle) →
        TendedInv dbg tr dummy role timeout created spawned { a with
          storm := h
          refs := a.refs + (h.sys.strong - a.storm.sys.strong)
          falling := a.falling + (a.storm.sys.strong - h.sys.strong) } := fun h hm hi => by
      have hr := inv.refs
      have hh : Storm.Reachable dbg tr role timeout created spawned h := .step inv.storm hm
      have s0 : a.storm.sys.strong = 0 → h.sys.strong = 0 := fun h0 =>
        (storm_strong hh).1.2
          (((C120_released inv.storm).2 ((storm_strong inv.storm).1.1 h0)).2 h hm).2
      refine ⟨hh, ?_, ?_, hi, inv.lock⟩
      · show a.refs + (h.sys.strong - a.storm.sys.strong) =
          h.sys.strong + (a.falling + (a.storm.sys.strong - h.sys.strong))
        omega
      · show a.gone = true ↔ a.refs + (h.sys.strong - a.storm.sys.strong) = 0
        rw [inv.gone]
        refine ⟨fun h0 => ?_, fun h0 => by omega⟩
        have := s0 (by omega)
        omega
    cases hs with
    | machine h hm hi => exact machine h hm hi
    | machinePanics h hm hi _ _ =>
      obtain ⟨i1, i2, i3, i4, i5⟩ := machine h hm hi
      exact ⟨i1, i2, i3, i4, i5⟩
    | letGo hf => exact tended_letGo inv hf
    | letGoPanics hf _ =>
      obtain ⟨i1, i2, i3, i4, i5⟩ := tended_letGo inv hf
      exact ⟨i1, i2, i3, i4, i5⟩
    | handler e l hh hs =>
      have hg := tended_handles inv hh
      obtain ⟨l', h1, h2, -⟩ := inv.lock
      refine ⟨inv.storm, inv.refs, inv.gone, fun h => absurd hh (by rw [h]; exact Nat.lt_irrefl 0), l,
        .snoc h1 (h2 hg ▸ hs), fun _ => rfl, fun h => ?_⟩
      rw [show a.gone = true from h] at hg
      cases hg

theorem idle_pending {a : Tended H} (h : a.idle) : pending a.lock = [] := by
  unfold pending
  rw [h.1, h.2]
  rfl

theorem pending_idle {a : Tended H} (h : pending a.lock = []) : a.idle := by
  obtain ⟨h1, h2⟩ := List.append_eq_nil_iff.1 h
  refine ⟨?_, h2⟩
  cases hh : a.lock.holder with
  | none => rfl
  | some c => rw [hh] at h1; cases h1

/-- A step that changes the lock, other than the last drop. -/
theorem tended_step_lock {a b : Tended H} (hs : Tended.Step dbg tr a b) :
    (b.events = a.events ∧ (b.lock = a.lock ∨ b.gone = true ∧
      b.lock = { a.lock with dropped := a.lock.dropped ++ [a.lock.current] })) ∨
    ∃ e, b.events = a.events ++ [e] ∧ 0 < a.storm.sys.handles ∧ b.gone = a.gone ∧
      RequestHanlder.WildStep a.lock e b.lock := by
  have go : a.letGo.events = a.events ∧ (a.letGo.lock = a.lock ∨ a.letGo.gone = true ∧
      a.letGo.lock = { a.lock with dropped := a.lock.dropped ++ [a.lock.current] }) := by
    refine ⟨rfl, ?_⟩
    by_cases h1 : a.refs = 1
    · refine .inr ⟨?_, if_pos h1⟩
      show (a.gone || a.refs == 1) = true
      rw [beq_iff_eq.2 h1, Bool.or_true]
    · exact .inl (if_neg h1)
  cases hs with
  | machine h hm hi => exact .inl ⟨rfl, .inl rfl⟩
  | machinePanics h hm hi _ _ => exact .inl ⟨rfl, .inl rfl⟩
  | letGo hf => exact .inl go
  | letGoPanics hf _ => exact .inl go
  | handler e l hh hs => exact .inr ⟨e, rfl, hh, rfl, hs⟩

theorem tended_storm {a b : Tended H} (hs : Tended.Step dbg tr a b) :
    Storm.Step dbg tr a.storm b.storm ∨ b.storm = a.storm := by
  cases hs with
  | machine h hm hi => exact .inl hm
  | machinePanics h hm hi _ _ => exact .inl hm
  | letGo hf => exact .inr rfl
  | letGoPanics hf _ => exact .inr rfl
  | handler e l hh hs => exact .inr rfl

section
variable {τ : Nat → Tended H}

theorem tendedForever_reachable (h : TendedForever dbg tr dummy role timeout created spawned τ) (n : Nat) :
    Tended.Reachable dbg tr dummy role timeout created spawned (τ n) := by
  induction n with
  | zero => rw [h.start]; exact .init
  | succ n ih =>
    rcases h.follows n with hs | he
    · exact .step ih hs
    · rw [he]; exact ih

theorem tendedForever_storm (h : TendedForever dbg tr dummy role timeout created spawned τ) :
    StormForever dbg tr role timeout created spawned fun n => (τ n).storm := by
  refine ⟨congrArg Tended.storm h.start, fun n => ?_⟩
  rcases h.follows n with hs | he
  · exact tended_storm hs
  · exact .inr (congrArg Tended.storm he)

/-- Once the connection is gone, clones that are being dropped only become fewer. -/
theorem falling_le {a b : Tended H} (inv : TendedInv dbg tr dummy role timeout created spawned a)
    (hr : a.storm.sys.released = true) (hs : Tended.Step dbg tr a b) : b.falling ≤ a.falling := by
  cases hs with
  | machine h hm hi =>
    have := (storm_strong inv.storm).1.2 hr
    show a.falling + (a.storm.sys.strong - h.sys.strong) ≤ a.falling
    rw [this, Nat.zero_sub]
    exact Nat.le_refl _
  | machinePanics h hm hi h1 _ => rw [hr] at h1; cases h1
  | letGo hf => exact Nat.sub_le ..
  | letGoPanics hf _ => exact Nat.sub_le ..
  | handler e l hh hs => exact Nat.le_refl _

theorem falling_ends (h : TendedForever dbg tr dummy role timeout created spawned τ) (hf : DropsEnd dbg tr τ)
    {n : Nat} (hr : ∀ k, n ≤ k → (τ k).storm.sys.released = true) :
    ∃ m, n ≤ m ∧ ∀ k, m ≤ k → (τ k).falling = 0 := by
  have inv := fun k => tendedInv (tendedForever_reachable h k)
  have le1 : ∀ k, n ≤ k → (τ (k + 1)).falling ≤ (τ k).falling := fun k hk => by
    rcases h.follows k with hs | he
    · exact falling_le (inv k) (hr k hk) hs
    · rw [he]
  have le : ∀ k, n ≤ k → ∀ d, (τ (k + d)).falling ≤ (τ k).falling := fun k hk d => by
    induction d with
    | zero => exact Nat.le_refl _
    | succ d ih => exact Nat.le_trans (le1 (k + d) (by omega)) ih
  suffices ∀ f m, n ≤ m → (τ m).falling = f → ∃ k, m ≤ k ∧ (τ k).falling = 0 by
    obtain ⟨m, hm, h0⟩ := this _ n (Nat.le_refl n) rfl
    refine ⟨m, hm, fun k hk => ?_⟩
    obtain ⟨d, rfl⟩ := Nat.exists_eq_add_of_le hk
    have := le m hm d
    omega
  intro f
  induction f using Nat.strongRecOn with
  | ind f ih =>
    intro m hm hfm
    by_cases h0 : f = 0
    · exact ⟨m, Nat.le_refl m, hfm.trans h0⟩
    · by_cases hs : ∃ k, m ≤ k ∧ (τ k).falling < f
      · obtain ⟨k, hk, hlt⟩ := hs
        obtain ⟨j, hj, hj0⟩ := ih _ hlt k (by omega) rfl
        exact ⟨j, by omega, hj0⟩
      · have ge : ∀ k, m ≤ k → f ≤ (τ k).falling := fun k hk =>
          Nat.not_lt.1 fun hlt => hs ⟨k, hk, hlt⟩
        obtain ⟨k, hk, hlt⟩ := hf m fun k hk => by
          have := ge k hk
          exact ⟨_, .letGo _ (by omega), by show (τ k).falling - 1 < (τ k).falling; omega⟩
        have h1 := ge (k + 1) (by omega)
        obtain ⟨d, rfl⟩ := Nat.exists_eq_add_of_le hk
        have h2 := le m hm d
        exfalso
        have hlt : (τ (m + d + 1)).falling < (τ (m + d)).falling := hlt
        omega

/-- The lock without the drop of the handler in it at the end. -/
def beforeEnd (a : Tended H) : RequestHanlder.State H :=
  if a.gone then { a.lock with dropped := a.lock.dropped.dropLast } else a.lock

theorem beforeEnd_pending (a : Tended H) : pending (beforeEnd a) = pending a.lock := by
  unfold beforeEnd
  cases a.gone <;> rfl

theorem beforeEnd_step {a b : Tended H} (inv : TendedInv dbg tr dummy role timeout created spawned a)
    (hs : Tended.Step dbg tr a b) :
    (beforeEnd b = beforeEnd a ∧ b.events = a.events) ∨
    ∃ e, b.events = a.events ++ [e] ∧ RequestHanlder.WildStep (beforeEnd a) e (beforeEnd b) ∧
      beforeEnd b = b.lock := by
  have stay : b.gone = a.gone → b.lock = a.lock → beforeEnd b = beforeEnd a := fun h1 h2 => by
    unfold beforeEnd
    rw [h1, h2]
  have letGo : 0 < a.falling → beforeEnd a.letGo = beforeEnd a := fun hf => by
    have hg : a.gone = false := by
      cases hg : a.gone with
      | false => rfl
      | true =>
        have h1 := inv.gone.1 hg
        have h2 := inv.refs
        omega
    unfold beforeEnd Tended.letGo
    by_cases h1 : a.refs = 1
    · simp only [h1, hg, if_true, Bool.false_or, beq_self_eq_true, List.dropLast_concat,
        Bool.false_eq_true, if_false]
    · simp only [h1, hg, if_false, Bool.false_or, beq_iff_eq, Bool.false_eq_true]
  cases hs with
  | machine h hm hi => exact .inl ⟨rfl, rfl⟩
  | machinePanics h hm hi _ _ => exact .inl ⟨rfl, rfl⟩
  | letGo hf => exact .inl ⟨letGo hf, rfl⟩
  | letGoPanics hf _ => exact .inl ⟨letGo hf, rfl⟩
  | handler e l hh hs =>
    have hg := tended_handles inv hh
    have hb : beforeEnd { a with lock := l, events := a.events ++ [e] } = l := by
      unfold beforeEnd
      show (if a.gone then _ else _) = _
      rw [hg]
      rfl
    refine .inr ⟨e, rfl, ?_, hb⟩
    rw [hb]
    have : beforeEnd a = a.lock := by
      unfold beforeEnd
      rw [hg]
      rfl
    rw [this]
    exact hs

/-- A pending call keeps the machine, so the lock is there. -/
theorem tended_pending {a : Tended H} (inv : TendedInv dbg tr dummy role timeout created spawned a)
    (hp : ¬ a.idle) : a.gone = false ∧ beforeEnd a = a.lock := by
  have hg : a.gone = false := by
    apply tended_handles inv
    by_cases h0 : a.storm.sys.handles = 0
    · exact absurd (inv.idle h0) hp
    · omega
  refine ⟨hg, ?_⟩
  unfold beforeEnd
  rw [hg]
  rfl

theorem tended_endless (h : TendedForever dbg tr dummy role timeout created spawned τ) :
    ∃ happens, WildEndless (fun n => beforeEnd (τ n)) happens ∧
      ∀ n e, happens n = some e → (τ (n + 1)).events = (τ n).events ++ [e] ∧
        beforeEnd (τ (n + 1)) = (τ (n + 1)).lock := by
  have one : ∀ n, ∃ o : Option (RequestHanlder.WildEvent H),
      (match o with
        | some e => RequestHanlder.WildStep (beforeEnd (τ n)) e (beforeEnd (τ (n + 1)))
        | none => beforeEnd (τ (n + 1)) = beforeEnd (τ n)) ∧
      ∀ e, o = some e → (τ (n + 1)).events = (τ n).events ++ [e] ∧
        beforeEnd (τ (n + 1)) = (τ (n + 1)).lock := fun n => by
    rcases h.follows n with hs | he
    · rcases beforeEnd_step (tendedInv (tendedForever_reachable h n)) hs with ⟨h1, -⟩ | ⟨e, h1, h2, h3⟩
      · exact ⟨none, h1, nofun⟩
      · exact ⟨some e, h2, fun e' he' => by cases he'; exact ⟨h1, h3⟩⟩
    · exact ⟨none, congrArg beforeEnd he, nofun⟩
  exact ⟨fun n => (one n).choose, fun n => (one n).choose_spec.1, fun n => (one n).choose_spec.2⟩

theorem tended_fair (h : TendedForever dbg tr dummy role timeout created spawned τ)
    (hl : LockGiven fun n => (τ n).lock) (hh : HoldersRun fun n => (τ n).lock) :
    LockGiven (fun n => beforeEnd (τ n)) ∧ HoldersRun fun n => beforeEnd (τ n) := by
  have inv := fun k => tendedInv (tendedForever_reachable h k)
  have fields : ∀ a : Tended H, (beforeEnd a).holder = a.lock.holder ∧ (beforeEnd a).queue = a.lock.queue :=
    fun a => by
      unfold beforeEnd
      cases a.gone <;> exact ⟨rfl, rfl⟩
  refine ⟨fun n hn => ?_, fun c x n hn => ?_⟩
  · obtain ⟨k, hk, hs⟩ := hl n fun k hk => by
      obtain ⟨t, -, ht⟩ := hn k hk
      have ht : RequestHanlder.Step (beforeEnd (τ k)) .grant t := ht
      cases ht with
      | grant c rest h1 h2 =>
        rw [(fields _).1] at h1
        rw [(fields _).2] at h2
        exact ⟨_, ⟨_, .grant _ c rest h1 h2⟩, .grant _ c rest h1 h2⟩
    refine ⟨k, hk, ?_⟩
    have hs : RequestHanlder.Step (τ k).lock .grant (τ (k + 1)).lock := hs
    show RequestHanlder.Step (beforeEnd (τ k)) .grant (beforeEnd (τ (k + 1)))
    have a0 : ¬ (τ k).idle := fun hi => by
      generalize (τ (k + 1)).lock = l at hs
      cases hs with
      | grant c rest h1 h2 => rw [hi.2] at h2; cases h2
    have a1 : ¬ (τ (k + 1)).idle := fun hi => by
      have := hi.1
      generalize (τ (k + 1)).lock = l at hs this
      cases hs with
      | grant c rest h1 h2 => cases this
    rw [(tended_pending (inv k) a0).2, (tended_pending (inv (k + 1)) a1).2]
    exact hs
  · obtain ⟨k, hk, hs⟩ := hh c x n fun k hk => by
      obtain ⟨t, -, ht⟩ := hn k hk
      have ht : RequestHanlder.Step (beforeEnd (τ k)) (.done c x) t := ht
      cases ht with
      | done c' h1 =>
        rw [(fields _).1] at h1
        exact ⟨_, ⟨_, .done _ c' h1⟩, .done _ c' h1⟩
    refine ⟨k, hk, ?_⟩
    have hs : RequestHanlder.Step (τ k).lock (.done c x) (τ (k + 1)).lock := hs
    show RequestHanlder.Step (beforeEnd (τ k)) (.done c x) (beforeEnd (τ (k + 1)))
    have key : (τ k).lock.holder ≠ none ∧ (τ (k + 1)).lock.holder = none := by
      generalize (τ (k + 1)).lock = l at hs
      cases hs with
      | done c' h1 => exact ⟨by rw [h1]; nofun, rfl⟩
    have a0 : ¬ (τ k).idle := fun hi => key.1 hi.1
    rw [(tended_pending (inv k) a0).2]
    have differ : (τ (k + 1)).lock.holder ≠ (τ k).lock.holder := fun e => key.1 (e ▸ key.2)
    have hb : beforeEnd (τ (k + 1)) = (τ (k + 1)).lock := by
      rcases h.follows k with st | he
      · rcases beforeEnd_step (inv k) st with ⟨h1, -⟩ | ⟨_, _, _, h3⟩
        · exfalso
          apply differ
          rw [← (fields _).1, h1, (fields _).1]
        · exact h3
      · exact absurd (congrArg (fun a => a.lock.holder) he) differ
    rw [hb]
    exact hs

end

end Binate
