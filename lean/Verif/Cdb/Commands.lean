import Verif.Instruct

/-!
# The command classes of `cdb/`

One definition per command class: constructor, `create_datagram` and the request that `execute` hands to the
executer.  Arguments are arbitrary Python integers (`Int`), buffers are byte strings.  The result is the request or
the exception that constructor or `create_datagram` raise; since nothing is sent before the datagram exists it makes
no difference to the caller which of the two raises.
-/

namespace Verif.Cdb

/-- `OperationCode(opcode=op)`: `cdb/operation_code.py:4-14`. -/
def opcode (op : Nat) : Decl :=
  .bits [.field "command_code" 5 (some (op &&& 0x1f : Nat)), .field "group_code" 3 (some (op >>> 5 : Nat))]

/-- `Field("control", Control, DEFAULT_CONTROL)`: `cdb/control.py:6-14`. -/
def control : Decl :=
  .bits [.pad 2, .field "naca" 1 (some 0), .pad 3, .field "vendor_specific" 2 (some 0)]

/-! ## READ: `cdb/read.py` -/

/-- `cdb/read.py:17-26` and `cdb/write.py:18-27` (the two declarations differ in the operation code only). -/
def fields6 (op : Nat) : List Decl :=
  [ opcode op,
    .bits [.field "logical_block_address__msb" 5 none, .pad 3],
    .uint "logical_block_address__lsb" 2,
    .uint "transfer_length" 1,
    control ]

/-- `Read6Command`: `cdb/read.py:16-45`. -/
def read6 (L : Lib) (lba n bs : Int) : Py Req := do
  pyAssert (lba < 2 ^ 21)
  pyAssert (n < 2 ^ 8)
  let cdb ← pack L [("logical_block_address__msb", lba / 2 ^ 16), ("logical_block_address__lsb", lba % 2 ^ 16),
    ("transfer_length", n)] (fields6 0x08)
  let len := bs * n
  .ok (.read cdb (if len = 0 then 256 * 512 else len))

/-- `cdb/read.py:48-64`. -/
def read10Fields : List Decl :=
  [ opcode 0x28,
    .bits [.pad 1, .field "fua_nv" 1 (some 0), .pad 1, .field "fua" 1 (some 0), .field "dpo" 1 (some 0),
      .field "rdprotect" 3 (some 0)],
    .uint "logical_block_address" 4,
    .bits [.field "group_number" 5 (some 0), .pad 3],
    .uint "transfer_length" 2,
    control ]

/-- `Read10Command`: `cdb/read.py:47-77`. -/
def read10 (L : Lib) (lba n bs : Int) : Py Req := do
  pyAssert (lba < 2 ^ 32)
  pyAssert (n < 2 ^ 16)
  let cdb ← pack L [("logical_block_address", lba), ("transfer_length", n)] read10Fields
  .ok (.read cdb (bs * n))

/-- `cdb/read.py:81-96`. -/
def read12Fields : List Decl :=
  [ opcode 0xa8,
    .bits [.field "RelAdr" 1 (some 0), .pad 2, .field "fua" 1 (some 0), .field "dpo" 1 (some 0),
      .field "reserved" 3 (some 0)],
    .uint "logical_block_address" 4,
    .uint "transfer_length" 4,
    .bits [.pad 8],
    control ]

/-- `Read12Command`: `cdb/read.py:80-109`. -/
def read12 (L : Lib) (lba n bs : Int) : Py Req := do
  pyAssert (lba < 2 ^ 32)
  pyAssert (n < 2 ^ 32)
  let cdb ← pack L [("logical_block_address", lba), ("transfer_length", n)] read12Fields
  .ok (.read cdb (bs * n))

/-- `cdb/read.py:112-130`. -/
def read16Fields : List Decl :=
  [ opcode 0x88,
    .bits [.pad 1, .field "fua_nv" 1 (some 0), .pad 1, .field "fua" 1 (some 0), .field "dpo" 1 (some 0),
      .field "reserved" 3 (some 0)],
    .uint "logical_block_address" 8,
    .uint "transfer_length" 4,
    .bits [.field "group_number" 5 (some 0), .pad 2, .field "mmc4" 1 (some 0)],
    control ]

/-- `Read16Command`: `cdb/read.py:111-143`. -/
def read16 (L : Lib) (lba n bs : Int) : Py Req := do
  pyAssert (lba < 2 ^ 64)
  pyAssert (n < 2 ^ 32)
  let cdb ← pack L [("logical_block_address", lba), ("transfer_length", n)] read16Fields
  .ok (.read cdb (bs * n))

/-! ## WRITE: `cdb/write.py` -/

/-- `Write6Command`: `cdb/write.py:17-50`. -/
def write6 (L : Lib) (lba : Int) (buf : Bytes) (bs : Int) : Py Req := do
  pyAssert (lba < 2 ^ 21)
  let m ← pyMod buf.length bs
  pyAssert (m = 0)
  let n ← pyDiv buf.length bs
  pyAssert (0 < n ∧ n ≤ 256)
  let tl := if n = 256 then 0 else n
  let cdb ← pack L [("logical_block_address__msb", lba / 2 ^ 16), ("logical_block_address__lsb", lba % 2 ^ 16),
    ("transfer_length", tl)] (fields6 0x0A)
  .ok (.write cdb buf)

/-- The flags byte of `cdb/write.py:55-62`, `89-96`, `123-130` and `cdb/compare_and_write.py:18-25`. -/
def writeFlags : Decl :=
  .bits [.pad 1, .field "fua_nv" 1 (some 0), .pad 1, .field "fua" 1 (some 0), .field "dpo" 1 (some 0),
    .field "wrprotect" 3 (some 0)]

/-- The group number byte of `cdb/write.py:64-66`, `99-101`, `133-135`, `cdb/write_same.py:27-29`, `62-64`,
`cdb/compare_and_write.py:29-31`. -/
def groupNumber : Decl := .bits [.field "group_number" 5 (some 0), .pad 3]

/-- `cdb/write.py:53-69`. -/
def write10Fields : List Decl :=
  [opcode 0x2A, writeFlags, .uint "logical_block_address" 4, groupNumber, .uint "transfer_length" 2, control]

/-- `Write10Command`: `cdb/write.py:52-84`. -/
def write10 (L : Lib) (lba : Int) (buf : Bytes) (bs : Int) : Py Req := do
  let tl ← pyDiv buf.length bs
  let m ← pyMod buf.length bs
  pyAssert (m = 0)
  pyAssert (lba < 2 ^ 32)
  pyAssert (0 ≤ tl ∧ tl < 2 ^ 16)
  let cdb ← pack L [("logical_block_address", lba), ("transfer_length", tl)] write10Fields
  .ok (.write cdb buf)

/-- `cdb/write.py:87-103`. -/
def write12Fields : List Decl :=
  [opcode 0xAA, writeFlags, .uint "logical_block_address" 4, .uint "transfer_length" 4, groupNumber, control]

/-- `Write12Command`: `cdb/write.py:86-118`. -/
def write12 (L : Lib) (lba : Int) (buf : Bytes) (bs : Int) : Py Req := do
  let tl ← pyDiv buf.length bs
  let m ← pyMod buf.length bs
  pyAssert (m = 0)
  pyAssert (lba < 2 ^ 32)
  pyAssert (0 < tl ∧ tl < 2 ^ 32)
  let cdb ← pack L [("logical_block_address", lba), ("transfer_length", tl)] write12Fields
  .ok (.write cdb buf)

/-- `cdb/write.py:121-137`. -/
def write16Fields : List Decl :=
  [opcode 0x8A, writeFlags, .uint "logical_block_address" 8, .uint "transfer_length" 4, groupNumber, control]

/-- `Write16Command`: `cdb/write.py:120-152`. -/
def write16 (L : Lib) (lba : Int) (buf : Bytes) (bs : Int) : Py Req := do
  let tl ← pyDiv buf.length bs
  let m ← pyMod buf.length bs
  pyAssert (m = 0)
  pyAssert (lba < 2 ^ 64)
  pyAssert (0 ≤ tl ∧ tl < 2 ^ 32)
  let cdb ← pack L [("logical_block_address", lba), ("transfer_length", tl)] write16Fields
  .ok (.write cdb buf)

/-! ## WRITE SAME: `cdb/write_same.py` -/

/-- `cdb/write_same.py:17-32`. -/
def writeSame10Fields : List Decl :=
  [ opcode 0x41,
    .bits [.pad 1, .field "lbdata" 1 (some 0), .field "pbdata" 1 (some 0), .pad 2, .field "wrprotect" 3 (some 0)],
    .uint "logical_block_address" 4, groupNumber, .uint "number_of_blocks" 2, control ]

/-- `WriteSame10Command`: `cdb/write_same.py:16-46`.  The `block_size` argument is not used by the code. -/
def writeSame10 (L : Lib) (lba : Int) (buf : Bytes) (n _bs : Int) : Py Req := do
  pyAssert (buf.length % 512 = 0)
  pyAssert (lba < 2 ^ 32)
  pyAssert (n < 2 ^ 16)
  let cdb ← pack L [("logical_block_address", lba), ("number_of_blocks", n)] writeSame10Fields
  .ok (.write cdb buf)

/-- `cdb/write_same.py:50-66`. -/
def writeSame16Fields : List Decl :=
  [ opcode 0x93,
    .bits [.pad 1, .field "lbdata" 1 (some 0), .field "pbdata" 1 (some 0), .field "unmap" 1 (some 0), .pad 1,
      .field "wrprotect" 3 (some 0)],
    .uint "logical_block_address" 8, .uint "number_of_blocks" 4, groupNumber, control ]

/-- `WriteSame16Command`: `cdb/write_same.py:49-79`. -/
def writeSame16 (L : Lib) (lba : Int) (buf : Bytes) (n _bs : Int) : Py Req := do
  pyAssert (buf.length % 512 = 0)
  pyAssert (lba < 2 ^ 64)
  pyAssert (n < 2 ^ 32)
  let cdb ← pack L [("logical_block_address", lba), ("number_of_blocks", n)] writeSame16Fields
  .ok (.write cdb buf)

/-! ## COMPARE AND WRITE: `cdb/compare_and_write.py` -/

/-- `cdb/compare_and_write.py:16-33`. -/
def compareAndWriteFields : List Decl :=
  [ opcode 0x89, writeFlags, .uint "logical_block_address" 8, .pad 3, .uint "number_of_logical_blocks" 1,
    groupNumber, control ]

/-- `CompareAndWriteCommand`: `cdb/compare_and_write.py:15-50`. -/
def compareAndWrite (L : Lib) (lba : Int) (buf : Bytes) (n bs : Int) : Py Req := do
  let _ ← pyDiv buf.length bs
  let m ← pyMod buf.length bs
  pyAssert (m = 0)
  pyAssert (lba < 2 ^ 64)
  pyAssert (n < 2 ^ 8)
  let cdb ← pack L [("logical_block_address", lba), ("number_of_logical_blocks", n)] compareAndWriteFields
  .ok (.write cdb buf)

/-! ## UNMAP: `cdb/unmap.py` -/

/-- `cdb/unmap.py:12-21`. -/
def unmapFields : List Decl :=
  [ opcode 0x42, .pad 5, .bits [.field "GROUP_NUMBER" 5 (some 0), .pad 3], .uint "parameter_list_length" 2, control ]

/-- `UnmapParameterListHeader`: `cdb/unmap.py:43-54`. -/
def unmapHeader (L : Lib) (len : Nat) : Py Bytes :=
  pack L [("unmap_data_length", len + 7), ("unmap_block_descriptor_data_length", len)]
    [.uint "unmap_data_length" 2, .uint "unmap_block_descriptor_data_length" 2, .pad 4]

/-- `UnmapParameterListBlock`: `cdb/unmap.py:57-68`. -/
def unmapBlock (L : Lib) (lba n : Int) : Py Bytes :=
  pack L [("unmap_lba", lba), ("number_of_logical_blocks", n)]
    [.uint "unmap_lba" 8, .uint "number_of_logical_blocks" 4, .pad 4]

/-- The joined blocks: `cdb/unmap.py:27-31`. -/
def unmapBlocks (L : Lib) : List (Int × Int) → Py Bytes
  | [] => .ok []
  | (lba, n) :: r => do
    let b ← unmapBlock L lba n
    let bs ← unmapBlocks L r
    .ok (b ++ bs)

/-- `UnmapCommand`: `cdb/unmap.py:23-40`. -/
def unmap (L : Lib) (ranges : List (Int × Int)) : Py Req := do
  let blocks ← unmapBlocks L ranges
  let header ← unmapHeader L blocks.length
  let buffer := header ++ blocks
  let cdb ← pack L [("parameter_list_length", buffer.length)] unmapFields
  .ok (.write cdb buffer)

/-! ## TEST UNIT READY, INQUIRY, READ CAPACITY, REPORT LUNS, REPORT TARGET PORT GROUPS -/

/-- `TestUnitReadyCommand`: `cdb/tur.py:11-21`. -/
def testUnitReady (L : Lib) : Py Req := do
  let cdb ← pack L [] [opcode 0x00, .pad 4, control]
  .ok (.read cdb 0)

/-- `InquiryCommand`: `cdb/inquiry/__init__.py:25-43`. -/
def inquiry (L : Lib) (evpd page alloc : Int) : Py Req := do
  let cdb ← pack L [("evpd", evpd), ("page_code", page), ("allocation_length", alloc)]
    [ opcode 0x12, .bits [.field "evpd" 1 (some 0), .pad 7], .uint "page_code" 1, .uint "allocation_length" 2,
      control ]
  .ok (.read cdb alloc)

/-- `StandardInquiryCommand`: `cdb/inquiry/standard.py:91-95`. -/
def standardInquiry (L : Lib) (page : Int := 0) (evpd : Int := 0) (alloc : Int := 36) : Py Req :=
  inquiry L evpd page alloc

/-- `EVPDInquiryCommand`: `cdb/inquiry/vpd_pages/__init__.py:5-8`. -/
def evpdInquiry (L : Lib) (page alloc : Int) : Py Req := inquiry L 1 page alloc

/-- `ReadCapacity10Command`: `cdb/read_capacity.py:13-34`. -/
def readCapacity10 (L : Lib) (lba pmi : Int) : Py Req := do
  let cdb ← pack L [("logical_block_address", lba), ("pmi", pmi)]
    [ opcode 0x25, .pad 1, .uint "logical_block_address" 4, .pad 2, .bits [.field "pmi" 1 (some 0), .pad 7], control ]
  .ok (.read cdb 8)

/-- `ReadCapacity16Command`: `cdb/read_capacity.py:44-68`. -/
def readCapacity16 (L : Lib) (lba pmi : Int) : Py Req := do
  let cdb ← pack L [("logical_block_address", lba), ("pmi", pmi), ("allocation_length", 32)]
    [ opcode 0x9E, .bits [.field "service_action" 5 (some 0x10), .pad 3], .uint "logical_block_address" 8,
      .uint "allocation_length" 4, .bits [.field "pmi" 1 (some 0), .pad 7], control ]
  .ok (.read cdb 32)

/-- `ReportLunsCommand`: `cdb/report_luns.py:24-52`. -/
def reportLuns (L : Lib) (select alloc : Int) : Py Req := do
  let cdb ← pack L [("select_report", select), ("allocation_length", alloc)]
    [ opcode 0xA0, .pad 1, .uint "select_report" 1, .pad 3, .uint "allocation_length" 4, .pad 1, control ]
  .ok (.read cdb alloc)

/-- `RTPGCommand`: `cdb/rtpg.py:24-54`. -/
def rtpg (L : Lib) (fmt alloc : Int) : Py Req := do
  pyAssert (fmt = 0 ∨ fmt = 1)
  let cdb ← pack L [("parameter_data_format", fmt), ("allocation_length", alloc)]
    [ opcode 0xA3, .bits [.field "service_action" 5 (some 10), .field "parameter_data_format" 3 (some 0)], .pad 4,
      .uint "allocation_length" 4, .pad 1, control ]
  .ok (.read cdb alloc)

/-! ## Positional command blocks -/

/-- The fields of `ControlBuffer` (`cdb/control.py:17-21`) at byte `i`, with their default values. -/
def controlAt (i : Nat) : List (String × Ref × Int) :=
  [("naca", .bits i 2 3, 0), ("vendor_specific", .bits i 6 8, 0)]

/-- `LogSenseCommand`: `cdb/log_sense.py:8-30`. -/
def logSense (L : Lib) (page subpage alloc : Int) : Py Req := do
  let cdb ← packAt L ([("operation_code", .bytes 0 1, 0x4d), ("sp", .bits 1 0 1, 0), ("page_code", .bits 2 0 6, page),
    ("pc", .bits 2 6 8, 0), ("subpage_code", .bytes 3 4, subpage), ("parameter_pointer", .bytes 5 7, 0),
    ("allocation_length", .bytes 7 9, alloc)] ++ controlAt 9) []
  .ok (.read cdb alloc)

/-- `ReceiveCopyOperatingParametersCommand`: `cdb/receive_copy_operating_parameters.py:8-19`. -/
def receiveCopyOperatingParameters (L : Lib) (alloc ctrl : Int) : Py Req := do
  let cdb ← packAt L [("operation_code", .bytes 0 1, 0x84), ("service_action", .bits 1 0 5, 3),
    ("allocation_length", .bytes 10 14, alloc), ("control", .bytes 15 16, ctrl)] []
  .ok (.read cdb alloc)

/-- `ReceiveDiagnosticResultCommand`: `cdb/diagnostic/__init__.py:9-26`. -/
def receiveDiagnostic (L : Lib) (pcv page alloc : Int) : Py Req := do
  let cdb ← packAt L ([("opcode", .bytes 0 1, 0x1C), ("pcv", .bits 1 0 1, pcv), ("page_code", .bytes 2 3, page),
    ("allocation_length", .bytes 3 5, alloc)] ++ controlAt 5) []
  .ok (.read cdb alloc)

/-- `Reserve6Command`: `cdb/reserve.py:11-25`. -/
def reserve6 (L : Lib) : Py Req := do
  let cdb ← packAt L ([("operation_code", .bytes 0 1, 0x16), ("obsolete_1", .bits 1 0 5, 0),
    ("reserved_1", .bits 1 5 8, 0), ("obsolete_2", .bytes 2 3, 0), ("obsolete_3", .bytes 3 5, 0)] ++ controlAt 5) []
  .ok (.write cdb [])

/-- `Release6Command`: `cdb/release.py:10-25`. -/
def release6 (L : Lib) : Py Req := do
  let cdb ← packAt L ([("operation_code", .bytes 0 1, 0x17), ("obsolete_1", .bits 1 0 5, 0),
    ("reserved_1", .bits 1 5 8, 0), ("obsolete_2", .bytes 2 3, 0), ("reserved_3", .bytes 3 4, 0),
    ("reserved_4", .bytes 4 5, 0)] ++ controlAt 5) []
  .ok (.write cdb [])

/-- The fields of `Reserve10Command` / `Release10Command`: `cdb/reserve.py:39-49`, `cdb/release.py:37-47`. -/
def thirdPartyFields (op longId thirdParty id paramLen : Int) : List (String × Ref × Int) :=
  [("operation_code", .bytes 0 1, op), ("obsolete_1", .bits 1 0 1, 0), ("long_id", .bits 1 1 2, longId),
    ("reserved_1", .bits 1 2 4, 0), ("third_party", .bits 1 4 5, thirdParty), ("reserved_2", .bits 1 5 8, 0),
    ("obsolete_2", .bytes 2 3, 0), ("third_party_device_id", .bytes 3 4, id), ("reserved_3", .bytes 4 7, 0),
    ("parameter_list_length", .bytes 7 9, paramLen)] ++ controlAt 9

/-- `Reserve10Command`: `cdb/reserve.py:28-72`. -/
def reserve10 (L : Lib) (id : Int) : Py Req := do
  if id > 0 then
    if id < 255 then do
      let cdb ← packAt L (thirdPartyFields 0x56 0 1 id 0) []
      .ok (.write cdb [])
    else do
      let params ← packAt L [("third_party_device_id", .bytes 0 8, id)] []
      let cdb ← packAt L (thirdPartyFields 0x56 1 1 0 8) []
      .ok (.write cdb params)
  else do
    let cdb ← packAt L (thirdPartyFields 0x56 0 0 0 0) []
    .ok (.write cdb [])

/-- `Release10Command`: `cdb/release.py:27-72`. -/
def release10 (L : Lib) (id : Int) : Py Req := do
  if id > 0 then
    if id < 255 then do
      let cdb ← packAt L (thirdPartyFields 0x57 0 1 id 0) []
      .ok (.write cdb [])
    else do
      let params ← packAt L [("third_party_device_id", .bytes 0 8, id)] []
      let cdb ← packAt L (thirdPartyFields 0x57 1 1 0 params.length) []
      .ok (.write cdb params)
  else do
    let cdb ← packAt L (thirdPartyFields 0x57 0 0 0 0) []
    .ok (.write cdb [])

/-! ## PERSISTENT RESERVE: `cdb/persist/` -/

/-- `TransportId`: `cdb/persist/transport.py:6-10`. -/
structure TransportId where
  protocolIdentifier : Int := 1
  formatCode : Int := 0
  specificData : Bytes
  deriving Repr

/-- `TransportId.pack()`: `cdb/persist/transport.py:6-10`; the data follows the first byte. -/
def TransportId.pack (L : Lib) (t : TransportId) : Py Bytes := do
  let hd ← packAt L [("protocol_identifier", .bits 0 0 4, t.protocolIdentifier), ("reserved_1", .bits 0 4 6, 0),
    ("format_code", .bits 0 6 8, t.formatCode)] []
  .ok (hd ++ t.specificData)

/-- Options of PERSISTENT RESERVE OUT passed on to the parameter list class as keyword arguments. -/
structure ProutArgs where
  serviceAction : Int
  key : Int := 0
  saKey : Int := 0
  prType : Int := 1
  aptpl : Int := 0
  allTgPt : Int := 0
  specIPt : Int := 0
  unregister : Int := 0
  relPort : Int := 0
  transportId : Option TransportId := none
  deriving Repr

/-- `PersistentReserveOutCommandBasicParameterList`: `cdb/persist/output.py:37-50`.  `set_before_pack=0` on the
APTPL bit replaces the value given by the caller. -/
def proutBasic (L : Lib) (a : ProutArgs) : Py Bytes :=
  packAt L [("reservation_key", .bytes 0 8, a.key), ("service_action_reservation_key", .bytes 8 16, a.saKey),
    ("activate_persist_through_power_loss", .bits 20 0 1, 0), ("obsolete_1", .bytes 16 20, 0),
    ("all_target_ports", .bits 20 2 3, a.allTgPt), ("specify_initiator_ports", .bits 20 3 4, a.specIPt),
    ("reserved_1", .bytes 21 22, 0), ("obsolete_2", .bytes 22 24, 0)] []

/-- `PersistentReserveOutCommandRegisterAndMoveParameterList`: `cdb/persist/output.py:52-69`.  The class requires
a `transport_id` argument. -/
def proutRegisterAndMove (L : Lib) (a : ProutArgs) : Py Bytes := do
  match a.transportId with
  | none => .error .typeError
  | some t =>
    let tid ← t.pack L
    let hd ← packAt L [("reservation_key", .bytes 0 8, a.key), ("service_action_reservation_key", .bytes 8 16, a.saKey),
      ("activate_persist_through_power_loss", .bits 17 0 1, a.aptpl), ("unregister", .bits 17 1 2, a.unregister),
      ("relative_target_port_identifier", .bytes 18 20, a.relPort),
      ("transport_id_length", .bytes 20 24, tid.length)] []
    .ok (hd ++ tid)

/-- `SERVICE_ACTION_TO_PARAMETER_LIST_CLASS` and the construction of the parameter list:
`cdb/persist/output.py:90-98`, `111-123`.  Codes `0..8` are known, 7 is REGISTER AND MOVE. -/
def proutParams (L : Lib) (a : ProutArgs) : Py Bytes := do
  pyAssert (0 ≤ a.serviceAction ∧ a.serviceAction ≤ 8)
  if a.serviceAction = 7 then proutRegisterAndMove L a else proutBasic L a

/-- `PersistentReserveOutCommand`: `cdb/persist/output.py:72-104`. -/
def persistentReserveOut (L : Lib) (a : ProutArgs) : Py Req := do
  let params ← proutParams L a
  let cdb ← packAt L ([("operation_code", .bytes 0 1, 0x5F), ("service_action", .bits 1 0 5, a.serviceAction),
    ("pr_type", .bits 2 0 4, a.prType), ("scope", .bits 3 4 8, 0),
    ("parameter_list_length", .bytes 5 9, params.length)] ++ controlAt 9) []
  .ok (.write cdb params)

/-- `PersistentReserveInCommand`: `cdb/persist/input.py:123-144`. -/
def persistentReserveIn (L : Lib) (serviceAction alloc : Int) : Py Req := do
  pyAssert (alloc ≥ 8)
  let cdb ← packAt L ([("operation_code", .bytes 0 1, 0x5E), ("service_action", .bits 1 0 5, serviceAction),
    ("allocation_length", .bytes 7 9, alloc)] ++ controlAt 9) []
  .ok (.read cdb alloc)

/-! ## All commands -/

/-- Every command class of the library with its constructor arguments. -/
inductive Cmd where
  | read6 (lba n bs : Int)
  | read10 (lba n bs : Int)
  | read12 (lba n bs : Int)
  | read16 (lba n bs : Int)
  | write6 (lba : Int) (buf : Bytes) (bs : Int)
  | write10 (lba : Int) (buf : Bytes) (bs : Int)
  | write12 (lba : Int) (buf : Bytes) (bs : Int)
  | write16 (lba : Int) (buf : Bytes) (bs : Int)
  | writeSame10 (lba : Int) (buf : Bytes) (n bs : Int)
  | writeSame16 (lba : Int) (buf : Bytes) (n bs : Int)
  | compareAndWrite (lba : Int) (buf : Bytes) (n bs : Int)
  | unmap (ranges : List (Int × Int))
  | testUnitReady
  | inquiry (evpd page alloc : Int)
  | readCapacity10 (lba pmi : Int)
  | readCapacity16 (lba pmi : Int)
  | reportLuns (select alloc : Int)
  | rtpg (fmt alloc : Int)
  | logSense (page subpage alloc : Int)
  | receiveCopyOperatingParameters (alloc ctrl : Int)
  | receiveDiagnostic (pcv page alloc : Int)
  | reserve6
  | release6
  | reserve10 (id : Int)
  | release10 (id : Int)
  | persistentReserveOut (a : ProutArgs)
  | persistentReserveIn (serviceAction alloc : Int)

/-- The request of a command. -/
def request (L : Lib) : Cmd → Py Req
  | .read6 lba n bs => read6 L lba n bs
  | .read10 lba n bs => read10 L lba n bs
  | .read12 lba n bs => read12 L lba n bs
  | .read16 lba n bs => read16 L lba n bs
  | .write6 lba buf bs => write6 L lba buf bs
  | .write10 lba buf bs => write10 L lba buf bs
  | .write12 lba buf bs => write12 L lba buf bs
  | .write16 lba buf bs => write16 L lba buf bs
  | .writeSame10 lba buf n bs => writeSame10 L lba buf n bs
  | .writeSame16 lba buf n bs => writeSame16 L lba buf n bs
  | .compareAndWrite lba buf n bs => compareAndWrite L lba buf n bs
  | .unmap ranges => unmap L ranges
  | .testUnitReady => testUnitReady L
  | .inquiry evpd page alloc => inquiry L evpd page alloc
  | .readCapacity10 lba pmi => readCapacity10 L lba pmi
  | .readCapacity16 lba pmi => readCapacity16 L lba pmi
  | .reportLuns select alloc => reportLuns L select alloc
  | .rtpg fmt alloc => rtpg L fmt alloc
  | .logSense page subpage alloc => logSense L page subpage alloc
  | .receiveCopyOperatingParameters alloc ctrl => receiveCopyOperatingParameters L alloc ctrl
  | .receiveDiagnostic pcv page alloc => receiveDiagnostic L pcv page alloc
  | .reserve6 => reserve6 L
  | .release6 => release6 L
  | .reserve10 id => reserve10 L id
  | .release10 id => release10 L id
  | .persistentReserveOut a => persistentReserveOut L a
  | .persistentReserveIn serviceAction alloc => persistentReserveIn L serviceAction alloc

end Verif.Cdb
