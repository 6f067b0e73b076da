import Verif.Model.Handler

/-! # What can be seen of `set_request_handler`

Everything here is read off the events alone. -/

namespace Binate.Spec

open RequestHanlder (Event)

variable {H : Type}

/-- The handlers passed to `set_request_handler`, in the order of the calls. -/
def passed (es : List (Event H)) : List H :=
  es.filterMap fun e => match e with
    | .call h => some h
    | _ => none

/-- The handlers of the calls that returned, in the order in which they returned. -/
def assigned (es : List (Event H)) : List H :=
  es.filterMap fun e => match e with
    | .done _ h => some h
    | _ => none

/-- The numbers of the calls that returned, in the order in which they returned. -/
def returned (es : List (Event H)) : List Nat :=
  es.filterMap fun e => match e with
    | .done n _ => some n
    | _ => none

/-- The numbers of the calls that were dropped before they returned. -/
def cancelled (es : List (Event H)) : List Nat :=
  es.filterMap fun e => match e with
    | .cancel n => some n
    | _ => none

/-- The calls that have been made and are neither returned nor dropped, in the order in which they
will be served. -/
def pending (s : RequestHanlder.State H) : List (RequestHanlder.Call H) :=
  s.holder.toList ++ s.queue

end Binate.Spec
