import Verif.Parse.Core
/-!
# Responses of READ CAPACITY, REPORT LUNS, REPORT TARGET PORT GROUPS, RECEIVE COPY OPERATING PARAMETERS and PERSISTENT RESERVE IN

An object is modelled by its integer attributes (name and value, in declaration order) and its lists. `sg` is explained in `Parse/Core.lean`.
-/

namespace Verif.Parse

/-! ## READ CAPACITY -/

/-- `ReportReadCapacityData10` — `cdb/read_capacity.py:37-41`. -/
def capacity10Decls : List Decl := [.uint "last_logical_block_address" 4, .uint "block_length_in_bytes" 4]

/-- `ReportReadCapacityData16` — `cdb/read_capacity.py:71-91`. -/
def capacity16Decls : List Decl :=
  [.uint "last_logical_block_address" 8, .uint "block_length_in_bytes" 4,
   .bits [.field "prot_en" 1 (some 0), .field "p_type" 3 (some 0), .pad 4],
   .bits [.field "logical_blocks_per_physical_block" 4 (some 0), .field "p_i_exponent" 4 (some 0)],
   .bits [.field "lowest_aligned_lba_msb" 6 (some 0), .field "troz" 1 (some 0), .field "tpe" 1 (some 0)],
   .uint "lowest_aligned_lba_lsb" 1, .pad 16]

/-- `create_from_string`: what follows the structure is ignored. -/
def createFromString (d : List Decl) (b : Bytes) : Py (List (String × Nat)) := do
  let (vs, _) ← unpack d b
  .ok vs

/-- `ReadCapacity10Command.execute`, after the response arrived — `cdb/read_capacity.py:33`. -/
def readCapacity10 (b : Bytes) : Py (List (String × Nat)) := createFromString capacity10Decls b

/-- `ReadCapacity16Command.execute`, after the response arrived — `cdb/read_capacity.py:67`. -/
def readCapacity16 (b : Bytes) : Py (List (String × Nat)) := createFromString capacity16Decls b

/-! ## REPORT LUNS -/

/-- `SumSizeArray(name, size, element)`: elements until their sizes add up to the size read before. The library is external; what it
does when the last element crosses the end is not visible from `/repo` (here: the element is read). -/
def sumSize {α : Type} (elem : Bytes → Py (α × Nat)) (size : Nat) (buf : Bytes) : Py (List α) :=
  if size = 0 then .ok []
  else
    match elem buf with
    | .error e => .error e
    | .ok (x, k) =>
      if k = 0 then .ok [x]
      else
        match sumSize elem (size - k) (buf.drop k) with
        | .error e => .error e
        | .ok xs => .ok (x :: xs)
termination_by size

/-- `ReportLunsData` — `cdb/report_luns.py:55-60`: `lun_list_length`, four bytes of padding, the 64-bit entries. -/
structure ReportLunsData where
  lunListLength : Nat
  /-- the entries; `hex_lun_list` holds their hexadecimal texts (`cdb/report_luns.py:41`) -/
  entries : List Nat
  /-- `lun_list` after normalization -/
  lunList : List Nat
  deriving DecidableEq, Repr

/-- `_raise_if_unsupported_lun_addressing_format` — `cdb/report_luns.py:62-66`. -/
def checkLun (item : Nat) : Py Unit :=
  if item &&& 0xFFFFFFFFFFFF ≠ 0 then .error .unsupportedLunAddressing
  else if item &&& 0xC000000000000000 ≠ 0 then .error .unsupportedAddressingMethod
  else .ok ()

def checkLuns : List Nat → Py Unit
  | [] => .ok ()
  | x :: xs => do
    checkLun x
    checkLuns xs

/-- `normalize_lun_list` — `cdb/report_luns.py:68-72`. -/
def normalizeLuns (allow : Bool) (items : List Nat) : Py (List Nat) := do
  if !allow then checkLuns items
  .ok (items.map (· >>> 48))

/-- `ReportLunsData.create_from_string` and the statements after it — `cdb/report_luns.py:40-42`. -/
def reportLunsData (allow : Bool) (b : Bytes) : Py ReportLunsData := do
  let (attrs, rest) ← unpack [.uint "lun_list_length" 4, .pad 4] b
  let len := (attrs.lookup "lun_list_length").getD 0
  let items ← sumSize (elemUInt 8) len rest
  let luns ← normalizeLuns allow items
  .ok { lunListLength := len, entries := items, lunList := luns }

/-- What `ReportLunsCommand.execute` yields at the end. -/
inductive ReportLunsResult where
  | data (d : ReportLunsData)
  | raw (b : Option Bytes)
  deriving DecidableEq, Repr

/-- `ReportLunsCommand.execute`, after the response arrived — `cdb/report_luns.py:39-47`. -/
def reportLuns (alloc : Int) (allow : Bool) (b : Option Bytes) : Py ReportLunsResult :=
  if alloc ≥ 16 then
    match b with
    | none => .error .typeError
    | some b => do
      let d ← reportLunsData allow b
      .ok (.data d)
  else do
    pyAssert (decide (((b.getD []).length : Int) = alloc))
    .ok (.raw b)

/-! ## REPORT TARGET PORT GROUPS -/

/-- `TargetPortDescriptor` — `cdb/rtpg.py:56-58`. -/
def targetPortFields : List UField := [.u "relative_target_port_identifier" (.bytes 2 4)]

def targetPort (sg : Bool) (buf : Bytes) : Py (List (String × Int) × Nat) := do
  let attrs ← unpackFields sg targetPortFields buf
  .ok (attrs, 4)

/-- `TargetPortGroupDescriptor` — `cdb/rtpg.py:60-77`. -/
def targetPortGroupFields : List UField :=
  [.i "asymetric_access_state" (.bits 0 0 4), .i "pref" (.bits 0 7 8), .i "ao_sup" (.bits 1 0 1), .i "an_sup" (.bits 1 1 2),
   .i "s_sup" (.bits 1 2 3), .i "u_sup" (.bits 1 3 4), .i "lbd_sup" (.bits 1 4 5), .i "o_sup" (.bits 1 6 7), .i "t_sup" (.bits 1 7 8),
   .u "target_port_group" (.bytes 2 4), .i "status_code" (.bytes 5 6), .i "target_port_count" (.bytes 7 8)]

structure TargetPortGroup where
  attrs : List (String × Int)
  ports : List (List (String × Int))
  deriving DecidableEq, Repr

/-- A negative count gives an empty list (`range(n)`). -/
def targetPortGroup (sg : Bool) (buf : Bytes) : Py (TargetPortGroup × Nat) := do
  let attrs ← unpackFields sg targetPortGroupFields buf
  let (ports, k) ← unpackN (targetPort sg) (get attrs "target_port_count").toNat (buf.drop 8)
  .ok ({ attrs := attrs, ports := ports }, 8 + k)

structure TargetPortGroups where
  attrs : List (String × Int)
  groups : List TargetPortGroup
  deriving DecidableEq, Repr

/-- `bytes_ref[a:a + n]` for an integer `n`: a Python slice of the input (empty when `n` is negative and `a + n` is not; a negative end
counts from the end of the buffer, which does not occur below for `n ≥ -a`). -/
def sliceFrom (buf : Bytes) (a : Nat) (n : Int) : Bytes := slice buf a (a + n).toNat

/-- `TargetPortGroupLengthOnlyResponse` — `cdb/rtpg.py:79-81`. -/
def rtpgLengthOnly (sg : Bool) (buf : Bytes) : Py TargetPortGroups := do
  let attrs ← unpackFields sg [.i "data_length" (.bytes 0 4)] buf
  let groups ← unpackAll (targetPortGroup sg) (sliceFrom buf 4 (get attrs "data_length"))
  .ok { attrs := attrs, groups := groups }

/-- `TargetPortGroupExtendedResponse` — `cdb/rtpg.py:83-86`. -/
def rtpgExtended (sg : Bool) (buf : Bytes) : Py TargetPortGroups := do
  let attrs ← unpackFields sg [.i "data_length" (.bytes 0 4), .i "format_type" (.bits 4 4 7)] buf
  let groups ← unpackAll (targetPortGroup sg) (sliceFrom buf 7 (get attrs "data_length"))
  .ok { attrs := attrs, groups := groups }

/-- `RTPGCommand.execute`, after the response arrived — `cdb/rtpg.py:42-49` (the constructor admits only the formats 0 and 1). -/
def rtpg (sg : Bool) (format : Int) (buf : Bytes) : Py TargetPortGroups :=
  if format = 0 then rtpgLengthOnly sg buf
  else if format = 1 then rtpgExtended sg buf
  else .error .nameError

/-! ## RECEIVE COPY OPERATING PARAMETERS -/

/-- `ReceiveCopyOperatingParametersResponse` — `cdb/receive_copy_operating_parameters.py:23-42`. -/
def receiveCopyFields : List UField :=
  [.u "available_data" (.bytes 0 4), .i "snlid" (.bits 4 0 1), .u "max_cscd_descriptor_count" (.bytes 8 10),
   .u "max_segment_descriptor_count" (.bytes 10 12), .u "max_descriptor_list_length" (.bytes 12 16), .u "max_segment_length" (.bytes 16 20),
   .u "max_inline_data_length" (.bytes 20 24), .u "held_data_limit" (.bytes 24 28), .u "max_stream_device_transfer_size" (.bytes 28 32),
   .u "total_concurrent_copies" (.bytes 34 36), .u "max_concurrent_copies" (.bytes 36 37), .u "data_segment_granularity" (.bytes 37 38),
   .u "inline_data_granularity" (.bytes 38 39), .u "held_data_granularity" (.bytes 39 40),
   .u "implemented_descriptor_list_length" (.bytes 43 44)]

structure ReceiveCopy where
  attrs : List (String × Int)
  descriptors : List Nat
  deriving DecidableEq, Repr

def receiveCopy (sg : Bool) (buf : Bytes) : Py ReceiveCopy := do
  let attrs ← unpackFields sg receiveCopyFields buf
  let l ← unpackAll elemU8 (sliceFrom buf 44 (get attrs "implemented_descriptor_list_length"))
  .ok { attrs := attrs, descriptors := l }

/-! ## PERSISTENT RESERVE IN -/

/-- `PersistentReserveInReadKeysResponse` — `cdb/persist/input.py:21-33`: the keys are left out (`none`) when the response is not complete. -/
structure ReadKeys where
  attrs : List (String × Int)
  keys : Option (List Nat)
  deriving DecidableEq, Repr

def prHeader : List UField := [.u "pr_generation" (.bytes 0 4), .u "additional_length" (.bytes 4 8)]

def readKeys (sg : Bool) (buf : Bytes) : Py ReadKeys := do
  let attrs ← unpackFields sg prHeader buf
  let len := (get attrs "additional_length").toNat
  if buf.length ≥ len + 8 then
    let (keys, _) ← unpackN (elemUInt 8) (len / 8) (slice buf 8 (8 + len))
    .ok { attrs := attrs, keys := some keys }
  else .ok { attrs := attrs, keys := none }

/-- `required_allocation_length` — `cdb/persist/input.py:35-36`, the same at `54-55`. -/
def requiredLength (attrs : List (String × Int)) : Int := get attrs "additional_length" + 8

/-- The conditional fields of `PersistentReserveInReadReservationResponse` with the input length each asks for —
`cdb/persist/input.py:47-52`. -/
def reservationOptional : List (Nat × UField) :=
  [(16, .u "reservation_key" (.bytes 8 16)), (20, .u "obsolete_1" (.bytes 16 20)), (21, .u "reserved_1" (.bytes 20 21)),
   (21, .u "pr_type" (.bits 21 0 4)), (21, .u "scope" (.bits 21 4 8)), (24, .u "obsolete_2" (.bytes 22 24))]

/-- `PersistentReserveInReadReservationResponse` — `cdb/persist/input.py:39-52`: attributes that were unpacked. -/
def readReservation (sg : Bool) (buf : Bytes) : Py (List (String × Int)) :=
  unpackFields sg (prHeader ++ (reservationOptional.filter (fun p => decide (p.1 ≤ buf.length))).map (·.2)) buf

/-- `PersistentReserveInReportCapabilitiesResponse` — `cdb/persist/input.py:58-83`. -/
def capabilitiesFields : List UField :=
  [.u "length" (.bytes 0 2), .u "persist_through_power_lost_capable" (.bits 2 0 1), .u "reserved_1" (.bits 2 1 2),
   .u "all_target_ports_capable" (.bits 2 2 3), .u "specify_initiator_ports_capable" (.bits 2 3 4),
   .u "compatible_reservation_handling" (.bits 2 4 5), .u "reserved_2" (.bits 2 5 7), .u "replace_lost_reservation_capable" (.bits 2 7 8),
   .u "persist_through_power_lost_activates" (.bits 3 0 1), .u "reserved_3" (.bits 3 1 4), .u "allow_commands" (.bits 3 4 7),
   .u "type_mask_valid" (.bits 3 7 8), .u "write_exclusive" (.bits 4 1 2), .u "exclusive_access" (.bits 4 3 4),
   .u "write_exclusive_registrants_only" (.bits 4 5 6), .u "exclusive_access_registrants_only" (.bits 4 6 7),
   .u "write_exclusive_all_registrants" (.bits 4 7 8), .u "exclusive_access_all_registrants" (.bits 5 0 1), .u "reserved_4" (.bytes 6 8)]

def reportCapabilities (sg : Bool) (buf : Bytes) : Py (List (String × Int)) := unpackFields sg capabilitiesFields buf

/-- `TransportId` — `cdb/persist/transport.py:6-10`. -/
structure TransportId where
  attrs : List (String × Int)
  specificData : Bytes
  deriving DecidableEq, Repr

def transportId (sg : Bool) (buf : Bytes) : Py TransportId := do
  let attrs ← unpackFields sg [.u "protocol_identifier" (.bits 0 0 4), .u "reserved_1" (.bits 0 4 6), .u "format_code" (.bits 0 6 8)] buf
  .ok { attrs := attrs, specificData := buf.drop 1 }

/-- `PersistentReserveInReadFullStatusDescriptor` — `cdb/persist/input.py:89-103`. -/
structure FullStatus where
  attrs : List (String × Int)
  transport : TransportId
  deriving DecidableEq, Repr

def fullStatusFields : List UField :=
  [.u "reservation_key" (.bytes 0 8), .u "reservation_holder" (.bits 12 0 1), .u "all_target_ports" (.bits 12 1 2), .u "pr_type" (.bits 13 0 4),
   .u "scope" (.bits 13 4 8), .u "relative_target_port_identifier" (.bytes 18 20), .u "additional_length" (.bytes 20 24)]

def fullStatus (sg : Bool) (buf : Bytes) : Py (FullStatus × Nat) := do
  let attrs ← unpackFields sg fullStatusFields buf
  let len := (get attrs "additional_length").toNat
  let t ← transportId sg (slice buf 24 (len + 24))
  .ok ({ attrs := attrs, transport := t }, len + 24)

/-- `PersistentReserveInReadFullStatusResponse` — `cdb/persist/input.py:106-117`. -/
structure ReadFullStatus where
  attrs : List (String × Int)
  descriptors : Option (List FullStatus)
  deriving DecidableEq, Repr

def readFullStatus (sg : Bool) (buf : Bytes) : Py ReadFullStatus := do
  let attrs ← unpackFields sg prHeader buf
  let len := get attrs "additional_length"
  if len > 0 then
    let l ← unpackAll (fullStatus sg) (sliceFrom buf 8 len)
    .ok { attrs := attrs, descriptors := some l }
  else .ok { attrs := attrs, descriptors := none }

/-- `PersistentReserveInReadFullStatusResponse.required_allocation_length` refers to a global `additional_length` that does not exist —
`cdb/persist/input.py:119-120`. -/
def fullStatusRequiredLength (_attrs : List (String × Int)) : Py Int := .error .nameError

inductive PrinResult where
  | keys (r : ReadKeys)
  | reservation (attrs : List (String × Int))
  | capabilities (attrs : List (String × Int))
  | fullStatus (r : ReadFullStatus)
  deriving DecidableEq, Repr

/-- `PersistentReserveInCommand.execute`, after the response arrived — `cdb/persist/input.py:145-151`, table at `157-162`. -/
def prin (sg : Bool) (serviceAction : Int) (buf : Bytes) : Py PrinResult :=
  if serviceAction = 0 then do let r ← readKeys sg buf; .ok (.keys r)
  else if serviceAction = 1 then do let r ← readReservation sg buf; .ok (.reservation r)
  else if serviceAction = 2 then do let r ← reportCapabilities sg buf; .ok (.capabilities r)
  else if serviceAction = 3 then do let r ← readFullStatus sg buf; .ok (.fullStatus r)
  else .error .assertion

end Verif.Parse
