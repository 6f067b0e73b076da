import Verif.Spec.Ctor
import Verif.Spec.Builder

/-! # What a refused argument is blamed for

The text of the panic that the caller of a constructor gets, read off the documentation and the
parameter names. -/

namespace Binate.Spec

/-- The parameters that MUST be at most `MAX_U31`, with their names and the values given. -/
def NewCall.named31 : NewCall → List (String × Nat)
  | .lease t n _ => [("ttl", t.toNat), ("number_of_requests", n.toNat)]
  | .requestResponse s _ _ => [("stream_id", s.toNat)]
  | .requestFnf s _ _ => [("stream_id", s.toNat)]
  | .requestStream s _ n _ => [("stream_id", s.toNat), ("initial_request_n", n.toNat)]
  | .requestChannel s _ _ n _ => [("stream_id", s.toNat), ("initial_request_n", n.toNat)]
  | .requestN s n => [("stream_id", s.toNat), ("request_n", n.toNat)]
  | .cancel s => [("stream_id", s.toNat)]
  | .payload s _ _ => [("stream_id", s.toNat)]
  | .error s c _ => [("stream_id", s.toNat), ("error_code", c.toNat)]
  | _ => []

/-- The parameters that MUST be at most `MAX_U63`. -/
def NewCall.named63 : NewCall → List (String × Nat)
  | .keepalive p _ _ => [("last_received_position", p.toNat)]
  | .resume _ _ p q =>
    [("last_received_server_position", p.toNat), ("first_available_client_position", q.toNat)]
  | .resumeOk p => [("last_received_client_position", p.toNat)]
  | _ => []

/-- The parameters that MUST be positive. -/
def NewCall.namedPos : NewCall → List (String × Nat)
  | .requestStream _ _ n _ => [("initial_request_n", n.toNat)]
  | .requestChannel _ _ _ n _ => [("initial_request_n", n.toNat)]
  | .requestN _ n => [("request_n", n.toNat)]
  | _ => []

/-- The names in `l` whose values are not `fine`, each with the requirement that it breaks. -/
def blame (fine : Nat → Bool) (text : String) (l : List (String × Nat)) : List String :=
  (l.filter fun x => !fine x.2).map fun x => x.1 ++ text

/-- Everything that is wrong with the arguments of a call. -/
def NewCall.faults (c : NewCall) : List String :=
  blame (fun n => n < 2 ^ 31) " MUST be <= MAX_U31 (0x7FFFFFFF)" c.named31 ++
    blame (fun n => n < 2 ^ 63) " MUST be <= MAX_U63 (0x7FFF_FFFF_FFFF_FFFF)" c.named63 ++
    blame (fun n => 0 < n) " MUST be non-zero" c.namedPos

/-- What is wrong with the argument of a call of the SETUP builder in build profile `dbg`. -/
def setupFault (dbg : Bool) : SetupCall → Option String
  | .setKeepaliveInterval i =>
    if dbg ∧ 2 ^ 31 ≤ i.toNat then some "interval MUST be <= MAX_U31 (0x7FFFFFFF)" else none
  | .setKeepaliveTimeout t =>
    if dbg ∧ 2 ^ 31 ≤ t.toNat then some "timeout MUST be <= MAX_U31 (0x7FFFFFFF)" else none
  | .setResumeToken t =>
    if 65535 < t.length then some "assertion failed: token.len() <= 65_535" else none
  | .setMetadataMimetype s =>
    if 256 < s.length then some "assertion failed: mimetype.len() <= 256" else none
  | .setDataMimetype s =>
    if 256 < s.length then some "assertion failed: mimetype.len() <= 256" else none
  | _ => none

end Binate.Spec
