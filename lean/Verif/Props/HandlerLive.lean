import Verif.Lemmas.HandlerLive

/-! # `set_request_handler` in the end

C109. -/

namespace Binate

open RequestHanlder Spec

variable {H : Type}

/-- **C109.** Every call returns in the end, having put its own handler in place, unless its future is
dropped. -/
theorem C109_returns {σ : Nat → State H} {happens : Nat → Option (Event H)} (h : Endless σ happens)
    (hl : LockGiven σ) (hh : HoldersRun σ) {n : Nat} {c : Call H} (hc : c ∈ pending (σ n)) :
    ∃ k, n ≤ k ∧ (happens k = some (.done c.number c.handler) ∧ (σ (k + 1)).current = c.handler ∨
      happens k = some (.cancel c.number)) := by
  obtain ⟨front, back, hp⟩ := List.append_of_mem hc
  obtain ⟨k, h1, h2⟩ := pending_ends h hl hh hp
  exact ⟨k, h1, h2.imp_left fun h3 => ⟨h3.1, h3.2.1⟩⟩

/-- **C109.** A call that is made is pending, so it returns in the end unless its future is dropped. -/
theorem C109_made {σ : Nat → State H} {happens : Nat → Option (Event H)} (h : Endless σ happens)
    (hl : LockGiven σ) (hh : HoldersRun σ) {n : Nat} {x : H} (hn : happens n = some (.call x)) :
    ∃ k, n < k ∧ (happens k = some (.done (σ n).calls x) ∧ (σ (k + 1)).current = x ∨
      happens k = some (.cancel (σ n).calls)) := by
  have hs := h n
  rw [hn] at hs
  have hs : Step (σ n) (.call x) (σ (n + 1)) := hs
  have hm : (⟨(σ n).calls, x⟩ : Call H) ∈ pending (σ (n + 1)) := by
    generalize σ (n + 1) = t at hs
    cases hs
    simp [pending]
  obtain ⟨k, h1, h2⟩ := C109_returns h hl hh hm
  exact ⟨k, h1, h2⟩

/-- **C109.** In the end the handler in place is the one that was passed last: if no further call is made
and the last one is not dropped, its handler is in place from some point on, for ever. -/
theorem C109_last {σ : Nat → State H} {happens : Nat → Option (Event H)} (h : Endless σ happens)
    (hl : LockGiven σ) (hh : HoldersRun σ) {n : Nat} {x : H} (hn : happens n = some (.call x))
    (hq : ∀ k, n < k → ∀ y, happens k ≠ some (.call y))
    (hc : ∀ k, n < k → happens k ≠ some (.cancel (σ n).calls)) :
    ∃ k, ∀ j, k ≤ j → (σ j).current = x ∧ pending (σ j) = [] := by
  have hs := h n
  rw [hn] at hs
  have hs : Step (σ n) (.call x) (σ (n + 1)) := hs
  have h0 : ∃ front, pending (σ (n + 1)) = front ++ [⟨(σ n).calls, x⟩] := by
    generalize σ (n + 1) = t at hs
    cases hs
    exact ⟨pending (σ n), by simp [pending]⟩
  obtain ⟨front, h0⟩ := h0
  obtain ⟨k, h1, ⟨-, h2, h3⟩ | h2⟩ := pending_ends h hl hh h0
  · have h3 := h3 hq rfl
    refine ⟨k + 1, fun i hi => ?_⟩
    rw [quiet_after h (n := k + 1) (fun a ha => hq a (by omega)) h3 hi]
    exact ⟨h2, h3⟩
  · exact absurd h2 (hc k h1)

/-- Handlers 1 and 2 are passed in that order; the first call is dropped while it has the lock. -/
def twoHandlers : Nat → State Nat
  | 0 => State.new 0
  | 1 => ⟨0, none, [⟨0, 1⟩], 1, []⟩
  | 2 => ⟨0, none, [⟨0, 1⟩, ⟨1, 2⟩], 2, []⟩
  | 3 => ⟨0, some ⟨0, 1⟩, [⟨1, 2⟩], 2, []⟩
  | 4 => ⟨0, none, [⟨1, 2⟩], 2, [1]⟩
  | 5 => ⟨0, some ⟨1, 2⟩, [], 2, [1]⟩
  | _ + 6 => ⟨2, none, [], 2, [1, 0]⟩

/-- An execution that satisfies the conditions of all three theorems. -/
example : ∃ happens, Endless twoHandlers happens ∧ LockGiven twoHandlers ∧ HoldersRun twoHandlers ∧
    happens 1 = some (.call 2) ∧ (∀ k, 1 < k → ∀ y, happens k ≠ some (.call y)) ∧
    (∀ k, 1 < k → happens k ≠ some (.cancel (twoHandlers 1).calls)) := by
  let happens : Nat → Option (Event Nat)
    | 0 => some (.call 1)
    | 1 => some (.call 2)
    | 2 => some .grant
    | 3 => some (.cancel 0)
    | 4 => some .grant
    | 5 => some (.done 1 2)
    | _ + 6 => none
  refine ⟨happens, fun n => ?_, fun n hn => ?_, fun c x n hn => ?_, rfl, fun k hk y => ?_,
    fun k hk => ?_⟩
  · match n with
    | 0 => exact .call (twoHandlers 0) 1
    | 1 => exact .call (twoHandlers 1) 2
    | 2 => exact .grant (twoHandlers 2) ⟨0, 1⟩ [⟨1, 2⟩] rfl rfl
    | 3 => exact .cancelHolding (twoHandlers 3) ⟨0, 1⟩ rfl
    | 4 => exact .grant (twoHandlers 4) ⟨1, 2⟩ [] rfl rfl
    | 5 => exact .done (twoHandlers 5) ⟨1, 2⟩ rfl
    | _ + 6 => exact rfl
  · obtain ⟨t, -, ht⟩ := hn (n + 6) (by omega)
    have free : ∀ c rest, (twoHandlers (n + 6)).queue ≠ c :: rest := nofun
    cases ht with
    | grant c rest _ hq => exact absurd hq (free c rest)
  · obtain ⟨t, -, ht⟩ := hn (n + 6) (by omega)
    have free : ∀ c, (twoHandlers (n + 6)).holder ≠ some c := nofun
    cases ht with
    | done c hc => exact absurd hc (free c)
  · match k with
    | 0 | 1 => omega
    | 2 | 3 | 4 | 5 => exact nofun
    | _ + 6 => exact nofun
  · match k with
    | 0 | 1 => omega
    | 2 | 3 | 4 | 5 => exact nofun
    | _ + 6 => exact nofun

end Binate
