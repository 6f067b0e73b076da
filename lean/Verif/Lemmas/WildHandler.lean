import Verif.Spec.WildHandler

/-! # Lemmas on handlers that panic when they are dropped -/

namespace Binate

open RequestHanlder Spec

variable {H : Type}

theorem wildHandler_step {s t : State H} {e : WildEvent H} (h : WildStep s e t) :
    Step s (withoutPanic e) t := by
  cases h with
  | calm h => exact h
  | donePanics c hc => exact .done s c hc
  | cancelWaitingPanics front c back hq => exact .cancelWaiting s front c back hq
  | cancelHoldingPanics c hc => exact .cancelHolding s c hc

theorem wildHandler_back {s t : State H} {e : WildEvent H} (h : Step s (withoutPanic e) t) :
    WildStep s e t := by
  cases e with
  | calm e => exact .calm h
  | donePanics n x =>
    cases h with
    | done c hc => exact .donePanics s _ hc
  | cancelPanics n =>
    cases h with
    | cancelWaiting front c back hq => exact .cancelWaitingPanics s front _ back hq
    | cancelHolding c hc => exact .cancelHoldingPanics s _ hc

theorem wildHandler_run {s t : State H} {es : List (WildEvent H)} (h : WildRun s es t) :
    Run s (es.map withoutPanic) t := by
  induction h with
  | nil => exact .nil _
  | snoc _ hs ih =>
    rw [List.map_append]
    exact .snoc ih (wildHandler_step hs)

theorem wildHandler_runBack {s t : State H} {es : List (Event H)} (h : Run s es t) :
    ∀ es' : List (WildEvent H), es'.map withoutPanic = es → WildRun s es' t := by
  induction h with
  | nil =>
    intro es' he
    rw [List.map_eq_nil_iff.1 he]
    exact .nil _
  | snoc _ hs ih =>
    intro es' he
    obtain ⟨a, b, rfl, ha, hb⟩ := List.map_eq_append_iff.1 he
    obtain ⟨x, y, rfl, hx, hy⟩ := List.map_eq_cons_iff.1 hb
    rw [List.map_eq_nil_iff.1 hy]
    exact .snoc (ih a ha) (wildHandler_back (hx ▸ hs))

theorem assigned_withoutPanic (es : List (WildEvent H)) :
    assigned (es.map withoutPanic) = putInPlace es := by
  simp only [assigned, putInPlace, List.filterMap_map]
  congr 1
  funext e
  rcases e with (_ | _ | _ | _) | _ | _ <;> rfl

theorem passed_withoutPanic (es : List (WildEvent H)) : passed (es.map withoutPanic) = given es := by
  simp only [passed, given, List.filterMap_map]
  congr 1
  funext e
  rcases e with (_ | _ | _ | _) | _ | _ <;> rfl

theorem wildEndless {σ : Nat → State H} {happens : Nat → Option (WildEvent H)}
    (h : WildEndless σ happens) : Endless σ fun n => (happens n).map withoutPanic := by
  intro n
  have hn := h n
  cases he : happens n with
  | none =>
    rw [he] at hn
    simp only [he]
    exact hn
  | some e =>
    rw [he] at hn
    simp only [he]
    exact wildHandler_step hn

end Binate
