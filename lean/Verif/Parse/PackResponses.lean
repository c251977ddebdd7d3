import Verif.Parse.PackPages
import Verif.Parse.Simple
import Verif.Parse.Ses
/-!
# Packing responses

`Buffer.pack` of the response classes outside `cdb/inquiry`; for the external library see `Parse/PackPages.lean`. Besides: the elements of a list of integers are
packed like integer fields of their size, one after the other; a list whose place has no end is stored as it is.
-/

namespace Verif.Parse

/-- Integer fields and fields over joined references: `TargetPortDescriptor` — `cdb/rtpg.py:56-58`; `PersistentReserveInReadReservationResponse` and
`PersistentReserveInReportCapabilitiesResponse` — `cdb/persist/input.py:39-83`; the `…ElementInfo` classes —
`cdb/diagnostic/ses_pages/enclosure_status.py:11-303`. -/
def packObject (L : BufLib) (Lb : Lib) (fs : List UField) (cats : List (String × List Ref)) (attrs : List (String × Int)) : Py Bytes := do
  let vs ← fieldValues attrs fs
  let cs ← catValues L Lb attrs cats
  packAt Lb (vs ++ cs) []

/-- A list of unsigned integers of `n` bytes. -/
def packInts (Lb : Lib) (n : Nat) : List Int → Py Bytes
  | [] => .ok []
  | v :: vs => do
    let x ← Lb.enc (8 * n) v
    let r ← packInts Lb n vs
    .ok (be n x ++ r)

/-- `PersistentReserveInReadKeysResponse.pack` — `cdb/persist/input.py:21-33`; `additional_length` is not computed. -/
def packKeys (L : BufLib) (Lb : Lib) (blob : Nat → Bytes → Py Bytes) (attrs : List (String × Int)) (keys : List Int) : Py Bytes := do
  let h ← packObject L Lb prHeader [] attrs
  let len ← fieldOf attrs "additional_length"
  let k ← packInts Lb 8 keys
  let k ← packBlob blob 8 (8 + len).toNat k
  .ok (putBytes h 8 k)

/-- `ReceiveCopyOperatingParametersResponse.pack` — `cdb/receive_copy_operating_parameters.py:23-42`; the length of the list is computed. -/
def packReceiveCopy (L : BufLib) (Lb : Lib) (attrs : List (String × Int)) (descriptors : List Int) : Py Bytes := do
  let h ← packObject L Lb receiveCopyFields [] (("implemented_descriptor_list_length", (descriptors.length : Int)) :: attrs)
  let d ← packInts Lb 1 descriptors
  .ok (putBytes h 44 d)

/-- Objects of one class, one after the other. -/
def packObjects (L : BufLib) (Lb : Lib) (fs : List UField) : List (List (String × Int)) → Py Bytes
  | [] => .ok []
  | o :: os => do
    let b ← packObject L Lb fs [] o
    let bs ← packObjects L Lb fs os
    .ok (b ++ bs)

/-- `TargetPortGroupDescriptor.pack` — `cdb/rtpg.py:60-77`; `target_port_count` is not computed. -/
def packGroup (L : BufLib) (Lb : Lib) (g : TargetPortGroup) : Py Bytes := do
  let h ← packObject L Lb targetPortGroupFields [] g.attrs
  let p ← packObjects L Lb targetPortFields g.ports
  .ok (putBytes h 8 p)

def packGroups (L : BufLib) (Lb : Lib) : List TargetPortGroup → Py Bytes
  | [] => .ok []
  | g :: gs => do
    let b ← packGroup L Lb g
    let bs ← packGroups L Lb gs
    .ok (b ++ bs)

/-- The two classes for the whole response: `TargetPortGroupLengthOnlyResponse`, with `descriptor_list` at byte 4, and `TargetPortGroupExtendedResponse`, at byte 7 —
`cdb/rtpg.py:79-86`; `data_length` is not computed. -/
def packRtpg (L : BufLib) (Lb : Lib) (blob : Nat → Bytes → Py Bytes) (extended : Bool) (r : TargetPortGroups) : Py Bytes := do
  let fs : List UField := if extended then [.i "data_length" (.bytes 0 4), .i "format_type" (.bits 4 4 7)] else [.i "data_length" (.bytes 0 4)]
  let at' := if extended then 7 else 4
  let h ← packObject L Lb fs [] r.attrs
  let len ← fieldOf r.attrs "data_length"
  let d ← packGroups L Lb r.groups
  let d ← packBlob blob at' (at' + len).toNat d
  .ok (putBytes h at' d)

/-- The integer fields of `TransportId` — `cdb/persist/transport.py:7-9`. -/
def transportFields : List UField := [.u "protocol_identifier" (.bits 0 0 4), .u "reserved_1" (.bits 0 4 6), .u "format_code" (.bits 0 6 8)]

/-- `TransportId.pack` — `cdb/persist/transport.py:6-10`; `reserved_1` is set to 0, and `protocol_identifier` and `format_code` are 1 and 0 if they were not set. -/
def packTransport (L : BufLib) (Lb : Lib) (t : TransportId) : Py Bytes := do
  let h ← packObject L Lb transportFields [] (("reserved_1", 0) :: t.attrs ++ [("protocol_identifier", 1), ("format_code", 0)])
  .ok (putBytes h 1 t.specificData)

/-- `PersistentReserveInReadFullStatusDescriptor.pack` — `cdb/persist/input.py:89-103`; `additional_length` is not computed. -/
def packFullStatus (L : BufLib) (Lb : Lib) (blob : Nat → Bytes → Py Bytes) (d : FullStatus) : Py Bytes := do
  let h ← packObject L Lb fullStatusFields [] d.attrs
  let len ← fieldOf d.attrs "additional_length"
  let t ← packTransport L Lb d.transport
  let t ← packBlob blob 24 (len + 24).toNat t
  .ok (putBytes h 24 t)

def packFullStatuses (L : BufLib) (Lb : Lib) (blob : Nat → Bytes → Py Bytes) : List FullStatus → Py Bytes
  | [] => .ok []
  | d :: ds => do
    let b ← packFullStatus L Lb blob d
    let bs ← packFullStatuses L Lb blob ds
    .ok (b ++ bs)

/-- `PersistentReserveInReadFullStatusResponse.pack` — `cdb/persist/input.py:106-117`; `additional_length` is not computed. `unpack_if` is for reading only. -/
def packReadFullStatus (L : BufLib) (Lb : Lib) (blob : Nat → Bytes → Py Bytes) (attrs : List (String × Int)) (ds : List FullStatus) : Py Bytes := do
  let h ← packObject L Lb prHeader [] attrs
  let len ← fieldOf attrs "additional_length"
  let d ← packFullStatuses L Lb blob ds
  let d ← packBlob blob 8 (8 + len).toNat d
  .ok (putBytes h 8 d)

end Verif.Parse
