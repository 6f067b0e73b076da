import Verif.Spec.WellFormed

/-! # What the SETUP builder is documented to build -/

namespace Binate.Spec

/-- The value given by the last call that `sel` selects, or the default. -/
def lastOr {α : Type} (d : α) (sel : SetupCall → Option α) (calls : List SetupCall) : α :=
  (calls.filterMap sel).getLast?.getD d

/-- `set_version` argument. -/
def versionArg : SetupCall → Option Version
  | .setVersion a b => some ⟨a, b⟩
  | _ => none
/-- `set_keepalive_interval` argument. -/
def intervalArg : SetupCall → Option U32
  | .setKeepaliveInterval i => some i
  | _ => none
/-- `set_keepalive_timeout` argument. -/
def timeoutArg : SetupCall → Option U32
  | .setKeepaliveTimeout i => some i
  | _ => none
/-- `set_resume_token` argument. -/
def tokenArg : SetupCall → Option (Option Bytes)
  | .setResumeToken t => some (some t)
  | _ => none
/-- `set_metadata_mimetype` argument. -/
def metadataMimeArg : SetupCall → Option Bytes
  | .setMetadataMimetype m => some m
  | _ => none
/-- `set_data_mimetype` argument. -/
def dataMimeArg : SetupCall → Option Bytes
  | .setDataMimetype m => some m
  | _ => none
/-- `set_metadata` argument. -/
def metadataArg : SetupCall → Option (Option Bytes)
  | .setMetadata m => some (some m)
  | _ => none
/-- `set_data` argument. -/
def dataArg : SetupCall → Option (Option Bytes)
  | .setData m => some (some m)
  | _ => none

/-- Calls after which the RESUME flag is set. -/
def setsResume : SetupCall → Bool
  | .setResumeFlag | .setResumeToken _ => true
  | _ => false
/-- Calls after which the LEASE flag is set. -/
def setsLease : SetupCall → Bool
  | .setLeaseFlag => true
  | _ => false
/-- Calls after which the METADATA flag is set. -/
def setsMetadata : SetupCall → Bool
  | .setMetadata _ => true
  | _ => false

/-- "application/binary" in ASCII. -/
def defaultMime : Bytes :=
  [0x61, 0x70, 0x70, 0x6C, 0x69, 0x63, 0x61, 0x74, 0x69, 0x6F, 0x6E, 0x2F, 0x62, 0x69, 0x6E, 0x61,
   0x72, 0x79]

/-- A call that is accepted in the build profile `dbg`. -/
def Legal (dbg : Bool) : SetupCall → Prop
  | .setKeepaliveInterval i => dbg = true → i.toNat < 2 ^ 31
  | .setKeepaliveTimeout i => dbg = true → i.toNat < 2 ^ 31
  | .setResumeToken t => t.length ≤ 65535
  | .setMetadataMimetype m => m.length ≤ 256
  | .setDataMimetype m => m.length ≤ 256
  | _ => True

/-- The frame described by a list of calls. -/
structure Describes (calls : List SetupCall) (f : SetupFrame) : Prop where
  resume : f.flags.bits.toNat.testBit 6 = calls.any setsResume
  lease : f.flags.bits.toNat.testBit 5 = calls.any setsLease
  metadata : f.flags.bits.toNat.testBit 7 = calls.any setsMetadata
  noOther : ∀ i, i ≠ 5 → i ≠ 6 → i ≠ 7 → f.flags.bits.toNat.testBit i = false
  version : f.version = lastOr ⟨1, 0⟩ versionArg calls
  interval : f.keepaliveInterval.toNat = (lastOr 30000#32 intervalArg calls).toNat % 2 ^ 31
  timeout : f.keepaliveTimeout.toNat = (lastOr 60000#32 timeoutArg calls).toNat % 2 ^ 31
  token : f.resumeToken = lastOr none tokenArg calls
  metadataMime : f.metadataMimetype = lastOr defaultMime metadataMimeArg calls
  dataMime : f.dataMimetype = lastOr defaultMime dataMimeArg calls
  payload : f.payload = ⟨lastOr none metadataArg calls, lastOr none dataArg calls⟩

/-- The call gives a resume token. -/
def isTokenCall : SetupCall → Bool
  | .setResumeToken _ => true
  | _ => false

/-- The thing a call sets. Only calls with equal slots interact. -/
def slot : SetupCall → Nat
  | .setResumeFlag => 0
  | .setLeaseFlag => 1
  | .setVersion .. => 2
  | .setKeepaliveInterval _ => 3
  | .setKeepaliveTimeout _ => 4
  | .setResumeToken _ => 5
  | .setMetadataMimetype _ => 6
  | .setDataMimetype _ => 7
  | .setMetadata _ => 8
  | .setData _ => 9

end Binate.Spec
