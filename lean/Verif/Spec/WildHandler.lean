import Verif.Spec.HandlerLive
import Verif.Model.WildHandler

/-! # What can be seen of `set_request_handler` if handlers panic when they are dropped -/

namespace Binate.Spec

open RequestHanlder

variable {H : Type}

/-- The same event without the panic. -/
def withoutPanic : WildEvent H → Event H
  | .calm e => e
  | .donePanics n h => .done n h
  | .cancelPanics n => .cancel n

/-- The handlers of the calls that have ended without being dropped, by returning or by a panic, in the
order in which they ended. -/
def putInPlace (es : List (WildEvent H)) : List H :=
  es.filterMap fun e => match e with
    | .calm (.done _ h) => some h
    | .donePanics _ h => some h
    | _ => none

/-- The handlers passed to `set_request_handler`, in the order of the calls. -/
def given (es : List (WildEvent H)) : List H :=
  es.filterMap fun e => match e with
    | .calm (.call h) => some h
    | _ => none

/-- As `Endless`, if handlers may panic. -/
def WildEndless (σ : Nat → State H) (happens : Nat → Option (WildEvent H)) : Prop :=
  ∀ n, match happens n with
    | some e => WildStep (σ n) e (σ (n + 1))
    | none => σ (n + 1) = σ n

end Binate.Spec
