import Verif.Cdb.Commands

/-!
# Command objects that are changed between construction and execution

`Verif.Cdb` takes a command from the arguments of its constructor straight to its request.  The objects of the library are
ordinary Python objects, though: a caller may assign to any of their attributes before handing them to an executer
(`cmd.fua = 1`), and that is the only way to use the options that no constructor takes.  Here an object is its class, its
attributes and its data buffer; `create_datagram` (`cdb/__init__.py:8-9`) and `execute` read them when they run.

Assigning `cmd.control = Control(naca=n, vendor_specific=v)` (`cdb/control.py:6-14`, `17-21`) is two assignments here, to `naca`
and `vendor_specific`; the members of a fresh `Control` are integers, nothing else can be reached through the object.

Commands are declared in two ways: as a `Struct` (`cdb/__init__.py:5-12`), whose fields follow each other, or as a `Buffer`
(`cdb/__init__.py:15-20`), whose fields have positions.  A field of a `Buffer` declared with `default=` takes the value assigned
to its attribute; one declared with `set_before_pack=` is given the declared value each time the object is packed, whatever was
assigned (`Source`).
-/

namespace Verif.Options

open Verif.Cdb

/-- The command classes whose attributes are followed here. -/
inductive Cls where
  | read6 | read10 | read12 | read16
  | write6 | write10 | write12 | write16
  | writeSame10 | writeSame16 | compareAndWrite | unmap
  | inquiry | readCapacity10 | readCapacity16 | reportLuns | rtpg | testUnitReady
  | logSense | receiveCopy | receiveDiagnostic | reserve6 | release6 | reserve10 | release10 | prOut | prIn
  deriving DecidableEq, Repr

/-- A command object: attributes (the latest assignment first) and the data it sends, `self.buffer` of the commands that write
blocks, `self.parameter_list_datagram` of the reservation commands (`None` is empty here, as nothing is sent either way). -/
structure Obj where
  cls : Cls
  attrs : Attrs
  buffer : Bytes
  deriving DecidableEq, Repr

/-- `cmd.name = v`. -/
def Obj.set (o : Obj) (name : String) (v : Int) : Obj := { o with attrs := (name, v) :: o.attrs }

/-- `cmd.buffer = bs`, `cmd.parameter_list_datagram = bs`. -/
def Obj.setBuffer (o : Obj) (bs : Bytes) : Obj := { o with buffer := bs }

/-- A sequence of assignments, the first one first. -/
def Obj.sets (o : Obj) (l : List (String × Int)) : Obj := l.foldl (fun o p => o.set p.1 p.2) o

/-- `self.name` in a method; an attribute nobody has assigned has no value. -/
def Obj.get (o : Obj) (name : String) : Py Int := attr o.attrs name none

/-! ## Constructors -/

/-- `Read6Command.__init__`: `cdb/read.py:28-36`. -/
def newRead6 (lba n bs : Int) : Py Obj := do
  pyAssert (lba < 2 ^ 21)
  pyAssert (n < 2 ^ 8)
  .ok ⟨.read6, [("logical_block_address__lsb", lba % 2 ^ 16), ("logical_block_address__msb", lba / 2 ^ 16),
    ("transfer_length", n), ("block_size", bs), ("logical_block_address", lba)], []⟩

/-- `Read10Command.__init__`: `cdb/read.py:66-72`. -/
def newRead10 (lba n bs : Int) : Py Obj := do
  pyAssert (lba < 2 ^ 32)
  pyAssert (n < 2 ^ 16)
  .ok ⟨.read10, [("transfer_length", n), ("block_size", bs), ("logical_block_address", lba)], []⟩

/-- `Read12Command.__init__`: `cdb/read.py:98-104`. -/
def newRead12 (lba n bs : Int) : Py Obj := do
  pyAssert (lba < 2 ^ 32)
  pyAssert (n < 2 ^ 32)
  .ok ⟨.read12, [("transfer_length", n), ("block_size", bs), ("logical_block_address", lba)], []⟩

/-- `Read16Command.__init__`: `cdb/read.py:132-138`. -/
def newRead16 (lba n bs : Int) : Py Obj := do
  pyAssert (lba < 2 ^ 64)
  pyAssert (n < 2 ^ 32)
  .ok ⟨.read16, [("transfer_length", n), ("block_size", bs), ("logical_block_address", lba)], []⟩

/-- `Write6Command.__init__`: `cdb/write.py:29-45`. -/
def newWrite6 (lba : Int) (buf : Bytes) (bs : Int) : Py Obj := do
  pyAssert (lba < 2 ^ 21)
  let m ← pyMod buf.length bs
  pyAssert (m = 0)
  let n ← pyDiv buf.length bs
  pyAssert (0 < n ∧ n ≤ 256)
  .ok ⟨.write6, [("logical_block_address__lsb", lba % 2 ^ 16), ("logical_block_address__msb", lba / 2 ^ 16),
    ("transfer_length", if n = 256 then 0 else n), ("block_size", bs), ("logical_block_address", lba)], buf⟩

/-- `Write10Command.__init__`: `cdb/write.py:71-79`. -/
def newWrite10 (lba : Int) (buf : Bytes) (bs : Int) : Py Obj := do
  let tl ← pyDiv buf.length bs
  let m ← pyMod buf.length bs
  pyAssert (m = 0)
  pyAssert (lba < 2 ^ 32)
  pyAssert (0 ≤ tl ∧ tl < 2 ^ 16)
  .ok ⟨.write10, [("transfer_length", tl), ("block_size", bs), ("logical_block_address", lba)], buf⟩

/-- `Write12Command.__init__`: `cdb/write.py:105-113`. -/
def newWrite12 (lba : Int) (buf : Bytes) (bs : Int) : Py Obj := do
  let tl ← pyDiv buf.length bs
  let m ← pyMod buf.length bs
  pyAssert (m = 0)
  pyAssert (lba < 2 ^ 32)
  pyAssert (0 < tl ∧ tl < 2 ^ 32)
  .ok ⟨.write12, [("transfer_length", tl), ("block_size", bs), ("logical_block_address", lba)], buf⟩

/-- `Write16Command.__init__`: `cdb/write.py:139-147`. -/
def newWrite16 (lba : Int) (buf : Bytes) (bs : Int) : Py Obj := do
  let tl ← pyDiv buf.length bs
  let m ← pyMod buf.length bs
  pyAssert (m = 0)
  pyAssert (lba < 2 ^ 64)
  pyAssert (0 ≤ tl ∧ tl < 2 ^ 32)
  .ok ⟨.write16, [("transfer_length", tl), ("block_size", bs), ("logical_block_address", lba)], buf⟩

/-- `WriteSame10Command.__init__`: `cdb/write_same.py:34-41`; `block_size` is not kept. -/
def newWriteSame10 (lba : Int) (buf : Bytes) (n _bs : Int) : Py Obj := do
  pyAssert (buf.length % 512 = 0)
  pyAssert (lba < 2 ^ 32)
  pyAssert (n < 2 ^ 16)
  .ok ⟨.writeSame10, [("number_of_blocks", n), ("logical_block_address", lba)], buf⟩

/-- `WriteSame16Command.__init__`: `cdb/write_same.py:67-74`. -/
def newWriteSame16 (lba : Int) (buf : Bytes) (n _bs : Int) : Py Obj := do
  pyAssert (buf.length % 512 = 0)
  pyAssert (lba < 2 ^ 64)
  pyAssert (n < 2 ^ 32)
  .ok ⟨.writeSame16, [("number_of_blocks", n), ("logical_block_address", lba)], buf⟩

/-- `CompareAndWriteCommand.__init__`: `cdb/compare_and_write.py:35-42`; the ranges are checked by `execute`. -/
def newCompareAndWrite (lba : Int) (buf : Bytes) (n bs : Int) : Py Obj := do
  let tl ← pyDiv buf.length bs
  let m ← pyMod buf.length bs
  pyAssert (m = 0)
  .ok ⟨.compareAndWrite, [("transfer_length", tl), ("number_of_logical_blocks", n), ("block_size", bs),
    ("logical_block_address", lba)], buf⟩

/-- `UnmapCommand.__init__`: `cdb/unmap.py:23-35`; the parameter list is built here. -/
def newUnmap (L : Lib) (ranges : List (Int × Int)) : Py Obj := do
  let blocks ← unmapBlocks L ranges
  let header ← unmapHeader L blocks.length
  let buffer := header ++ blocks
  .ok ⟨.unmap, [("parameter_list_length", buffer.length)], buffer⟩

/-- `InquiryCommand(result_class, evpd=, page_code=, allocation_length=)`: `cdb/inquiry/__init__.py:37-39`. -/
def newInquiry (evpd page alloc : Int) : Py Obj :=
  .ok ⟨.inquiry, [("allocation_length", alloc), ("page_code", page), ("evpd", evpd)], []⟩

/-- `ReadCapacity10Command.__init__`: `cdb/read_capacity.py:26-27`. -/
def newReadCapacity10 (lba pmi : Int) : Py Obj :=
  .ok ⟨.readCapacity10, [("pmi", pmi), ("logical_block_address", lba)], []⟩

/-- `ReadCapacity16Command.__init__`: `cdb/read_capacity.py:60-62`. -/
def newReadCapacity16 (lba pmi : Int) : Py Obj :=
  .ok ⟨.readCapacity16, [("allocation_length", 32), ("pmi", pmi), ("logical_block_address", lba)], []⟩

/-- `ReportLunsCommand.__init__`: `cdb/report_luns.py:49-52`. -/
def newReportLuns (select alloc : Int) : Py Obj :=
  .ok ⟨.reportLuns, [("allocation_length", alloc), ("select_report", select)], []⟩

/-- `RTPGCommand.__init__`: `cdb/rtpg.py:51-54`. -/
def newRtpg (fmt alloc : Int) : Py Obj := do
  pyAssert (fmt = 0 ∨ fmt = 1)
  .ok ⟨.rtpg, [("allocation_length", alloc), ("parameter_data_format", fmt)], []⟩

/-- `LogSenseCommand.__init__`: `cdb/log_sense.py:18-25`. -/
def newLogSense (page subpage alloc : Int) : Py Obj :=
  .ok ⟨.logSense, [("allocation_length", alloc), ("subpage_code", subpage), ("page_code", page),
    ("parameter_pointer", 0), ("pc", 0), ("sp", 0)], []⟩

/-- `TestUnitReadyCommand()`: `cdb/tur.py:11-16`. -/
def newTestUnitReady : Py Obj := .ok ⟨.testUnitReady, [], []⟩

/-- `ReceiveCopyOperatingParametersCommand(allocation_length=, control=)`: `cdb/receive_copy_operating_parameters.py:8-12`; here
`control` is an integer. -/
def newReceiveCopy (alloc ctrl : Int) : Py Obj := .ok ⟨.receiveCopy, [("control", ctrl), ("allocation_length", alloc)], []⟩

/-- `ReceiveDiagnosticResultCommand.__init__`: `cdb/diagnostic/__init__.py:16-19`. -/
def newReceiveDiagnostic (pcv page alloc : Int) : Py Obj :=
  .ok ⟨.receiveDiagnostic, [("allocation_length", alloc), ("page_code", page), ("pcv", pcv)], []⟩

/-- `Reserve6Command()`: `cdb/reserve.py:11-20`. -/
def newReserve6 : Py Obj := .ok ⟨.reserve6, [], []⟩

/-- `Release6Command()`: `cdb/release.py:10-20`. -/
def newRelease6 : Py Obj := .ok ⟨.release6, [], []⟩

/-- `Reserve10Command.__init__`: `cdb/reserve.py:51-65`; an identifier above 254 goes to a parameter list, built here. -/
def newReserve10 (L : Lib) (id : Int) : Py Obj :=
  if id > 0 then
    if id < 255 then
      .ok ⟨.reserve10, [("parameter_list_length", 0), ("long_id", 0), ("third_party_device_id", id), ("third_party", 1),
        ("third_party", 0)], []⟩
    else do
      let params ← packAt L [("third_party_device_id", .bytes 0 8, id)] []
      .ok ⟨.reserve10, [("long_id", 1), ("parameter_list_length", 8), ("third_party", 1), ("third_party", 0)], params⟩
  else .ok ⟨.reserve10, [("third_party", 0)], []⟩

/-- `Release10Command.__init__`: `cdb/release.py:49-64`. -/
def newRelease10 (L : Lib) (id : Int) : Py Obj :=
  if id > 0 then
    if id < 255 then
      .ok ⟨.release10, [("long_id", 0), ("parameter_list_length", 0), ("third_party_device_id", id), ("third_party", 1),
        ("third_party", 0)], []⟩
    else do
      let params ← packAt L [("third_party_device_id", .bytes 0 8, id)] []
      .ok ⟨.release10, [("long_id", 1), ("parameter_list_length", params.length), ("third_party", 1), ("third_party", 0)], params⟩
  else .ok ⟨.release10, [("third_party", 0)], []⟩

/-- `PersistentReserveOutCommand.__init__`: `cdb/persist/output.py:84-98`. -/
def newPrOut (L : Lib) (a : ProutArgs) : Py Obj := do
  let params ← proutParams L a
  .ok ⟨.prOut, [("parameter_list_length", params.length), ("pr_type", a.prType), ("service_action", a.serviceAction)], params⟩

/-- `PersistentReserveInCommand.__init__`: `cdb/persist/input.py:133-139`. -/
def newPrIn (serviceAction alloc : Int) : Py Obj := do
  pyAssert (alloc ≥ 8)
  .ok ⟨.prIn, [("allocation_length", alloc), ("service_action", serviceAction)], []⟩

/-! ## `execute` -/

/-- The operation codes of the classes declared as a `Struct`, a constant structure of their own (`ConstField("opcode", ...)`)
that no assignment to an attribute of the command reaches. -/
def Cls.op : Cls → UInt8
  | .read6 => 0x08 | .read10 => 0x28 | .read12 => 0xa8 | .read16 => 0x88
  | .write6 => 0x0A | .write10 => 0x2A | .write12 => 0xAA | .write16 => 0x8A
  | .writeSame10 => 0x41 | .writeSame16 => 0x93 | .compareAndWrite => 0x89 | .unmap => 0x42
  | .inquiry => 0x12 | .readCapacity10 => 0x25 | .readCapacity16 => 0x9E | .reportLuns => 0xA0 | .rtpg => 0xA3
  | _ => 0

/-- The `_fields_` of a class declared as a `Struct`, after the operation code. -/
def Cls.fields : Cls → List Decl
  | .read6 => (fields6 0x08).tail
  | .read10 => read10Fields.tail
  | .read12 => read12Fields.tail
  | .read16 => read16Fields.tail
  | .write6 => (fields6 0x0A).tail
  | .write10 => write10Fields.tail
  | .write12 => write12Fields.tail
  | .write16 => write16Fields.tail
  | .writeSame10 => writeSame10Fields.tail
  | .writeSame16 => writeSame16Fields.tail
  | .compareAndWrite => compareAndWriteFields.tail
  | .unmap => unmapFields.tail
  | .inquiry => -- `cdb/inquiry/__init__.py:26-34`
    [ .bits [.field "evpd" 1 (some 0), .pad 7], .uint "page_code" 1, .uint "allocation_length" 2, control ]
  | .readCapacity10 => -- `cdb/read_capacity.py:14-24`
    [ .pad 1, .uint "logical_block_address" 4, .pad 2, .bits [.field "pmi" 1 (some 0), .pad 7], control ]
  | .readCapacity16 => -- `cdb/read_capacity.py:45-58`
    [ .bits [.field "service_action" 5 (some 0x10), .pad 3], .uint "logical_block_address" 8,
      .uint "allocation_length" 4, .bits [.field "pmi" 1 (some 0), .pad 7], control ]
  | .reportLuns => -- `cdb/report_luns.py:25-33`
    [ .pad 1, .uint "select_report" 1, .pad 3, .uint "allocation_length" 4, .pad 1, control ]
  | .rtpg => -- `cdb/rtpg.py:27-37`
    [ .bits [.field "service_action" 5 (some 10), .field "parameter_data_format" 3 (some 0)], .pad 4,
      .uint "allocation_length" 4, .pad 1, control ]
  | .testUnitReady => [ .pad 4, control ] -- `cdb/tur.py:12-16`
  | _ => []

/-- Where a field of a `Buffer` takes its value from: `set_before_pack=`, or the attribute, with or without `default=`. -/
inductive Source where
  | fixed (v : Int)
  | attr (default : Option Int)
  deriving DecidableEq, Repr

/-- A `ControlBuffer` in byte `i`: `cdb/control.py:17-21`. -/
def controlPlaces (i : Nat) : List (String × Ref × Source) :=
  [("naca", .bits i 2 3, .attr (some 0)), ("vendor_specific", .bits i 6 8, .attr (some 0))]

/-- `Reserve10Command`, `Release10Command`: `cdb/reserve.py:39-49`, `cdb/release.py:37-47`; they differ in how the operation
code is declared. -/
def thirdPartyPlaces (op : Source) : List (String × Ref × Source) :=
  [("operation_code", .bytes 0 1, op), ("obsolete_1", .bits 1 0 1, .attr (some 0)), ("long_id", .bits 1 1 2, .attr (some 0)),
    ("reserved_1", .bits 1 2 4, .attr (some 0)), ("third_party", .bits 1 4 5, .attr (some 0)),
    ("reserved_2", .bits 1 5 8, .attr (some 0)), ("obsolete_2", .bytes 2 3, .attr (some 0)),
    ("third_party_device_id", .bytes 3 4, .attr (some 0)), ("reserved_3", .bytes 4 7, .attr (some 0)),
    ("parameter_list_length", .bytes 7 9, .attr (some 0))] ++ controlPlaces 9

/-- The fields of a class declared as a `Buffer`. -/
def Cls.places : Cls → List (String × Ref × Source)
  | .logSense => -- `cdb/log_sense.py:9-16`
    [("operation_code", .bytes 0 1, .fixed 0x4d), ("sp", .bits 1 0 1, .attr none), ("page_code", .bits 2 0 6, .attr none),
      ("pc", .bits 2 6 8, .attr none), ("subpage_code", .bytes 3 4, .attr none), ("parameter_pointer", .bytes 5 7, .attr none),
      ("allocation_length", .bytes 7 9, .attr none)] ++ controlPlaces 9
  | .receiveCopy => -- `cdb/receive_copy_operating_parameters.py:9-12`
    [("operation_code", .bytes 0 1, .fixed 0x84), ("service_action", .bits 1 0 5, .fixed 3),
      ("allocation_length", .bytes 10 14, .attr none), ("control", .bytes 15 16, .attr none)]
  | .receiveDiagnostic => -- `cdb/diagnostic/__init__.py:10-14`
    [("opcode", .bytes 0 1, .fixed 0x1C), ("pcv", .bits 1 0 1, .attr none), ("page_code", .bytes 2 3, .attr none),
      ("allocation_length", .bytes 3 5, .attr none)] ++ controlPlaces 5
  | .reserve6 => -- `cdb/reserve.py:15-20`
    [("operation_code", .bytes 0 1, .fixed 0x16), ("obsolete_1", .bits 1 0 5, .attr (some 0)),
      ("reserved_1", .bits 1 5 8, .attr (some 0)), ("obsolete_2", .bytes 2 3, .attr (some 0)),
      ("obsolete_3", .bytes 3 5, .attr (some 0))] ++ controlPlaces 5
  | .release6 => -- `cdb/release.py:14-20`
    [("operation_code", .bytes 0 1, .fixed 0x17), ("obsolete_1", .bits 1 0 5, .attr (some 0)),
      ("reserved_1", .bits 1 5 8, .attr (some 0)), ("obsolete_2", .bytes 2 3, .attr (some 0)),
      ("reserved_3", .bytes 3 4, .attr (some 0)), ("reserved_4", .bytes 4 5, .attr (some 0))] ++ controlPlaces 5
  | .reserve10 => thirdPartyPlaces (.attr (some 0x56)) -- `cdb/reserve.py:39`: `default=`
  | .release10 => thirdPartyPlaces (.fixed 0x57) -- `cdb/release.py:37`: `set_before_pack=`
  | .prOut => -- `cdb/persist/output.py:78-83`
    [("operation_code", .bytes 0 1, .fixed 0x5F), ("service_action", .bits 1 0 5, .attr none),
      ("pr_type", .bits 2 0 4, .attr none), ("scope", .bits 3 4 8, .fixed 0),
      ("parameter_list_length", .bytes 5 9, .attr none)] ++ controlPlaces 9
  | .prIn => -- `cdb/persist/input.py:128-131`
    [("operation_code", .bytes 0 1, .fixed 0x5E), ("service_action", .bits 1 0 5, .attr none),
      ("allocation_length", .bytes 7 9, .attr none)] ++ controlPlaces 9
  | _ => []

/-- Whether a class is declared as a `Buffer`. -/
def Cls.positional : Cls → Bool
  | .logSense | .receiveCopy | .receiveDiagnostic | .reserve6 | .release6 | .reserve10 | .release10 | .prOut | .prIn => true
  | _ => false

/-- The classes that declare `control` with `set_before_pack=DEFAULT_CONTROL_BUFFER` instead of `default=`:
`cdb/log_sense.py:16`, `cdb/diagnostic/__init__.py:14`, `cdb/persist/output.py:83`, `cdb/persist/input.py:131`. -/
def Cls.resets : Cls → Bool
  | .logSense | .receiveDiagnostic | .prOut | .prIn => true
  | _ => false

/-- The values of the fields of a `Buffer`. -/
def placed (e : Attrs) : List (String × Ref × Source) → Py (List (String × Ref × Int))
  | [] => .ok []
  | (name, r, .fixed v) :: l => do
    let vs ← placed e l
    .ok ((name, r, v) :: vs)
  | (name, r, .attr d) :: l => do
    let v ← attr e name d
    let vs ← placed e l
    .ok ((name, r, v) :: vs)

/-- The command block, with the control byte `naca` and `vendor_specific` give. -/
def Obj.packed (L : Lib) (o : Obj) : Py Bytes :=
  if o.cls.positional then do
    let vs ← placed o.attrs o.cls.places
    packAt L vs []
  else pack L o.attrs (.const [o.cls.op] :: o.cls.fields)

/-- An object as packing sees it: `control` is replaced where it is declared with `set_before_pack`. -/
def Obj.prepared (o : Obj) : Obj := if o.cls.resets then (o.set "vendor_specific" 0).set "naca" 0 else o

/-- `create_datagram`: `cdb/__init__.py:8-9`, `16-17`. -/
def Obj.datagram (L : Lib) (o : Obj) : Py Bytes := o.prepared.packed L

/-- The request `execute` hands to the executer, given what `create_datagram` returns: `cdb/read.py:38-45`, `74-77`, `106-109`,
`140-143`, `cdb/write.py:47-50`, `81-84`, `115-118`, `149-152`, `cdb/write_same.py:43-46`, `76-79`,
`cdb/compare_and_write.py:44-50`, `cdb/unmap.py:37-40`, `cdb/inquiry/__init__.py:41-46`, `cdb/read_capacity.py:29-34`, `64-68`,
`cdb/report_luns.py:35-37`, `cdb/rtpg.py:39-41`, `cdb/tur.py:18-21`, `cdb/log_sense.py:27-30`,
`cdb/receive_copy_operating_parameters.py:14-16`, `cdb/diagnostic/__init__.py:21-23`, `cdb/reserve.py:22-25`, `67-72`,
`cdb/release.py:22-25`, `66-72`, `cdb/persist/output.py:100-104`, `cdb/persist/input.py:141-144`. -/
def Obj.executeWith (datagram : Py Bytes) (o : Obj) : Py Req :=
  match o.cls with
  | .read6 => do
    let cdb ← datagram
    let bs ← o.get "block_size"
    let n ← o.get "transfer_length"
    let len := bs * n
    .ok (.read cdb (if len = 0 then 256 * 512 else len))
  | .read10 | .read12 | .read16 => do
    let cdb ← datagram
    let bs ← o.get "block_size"
    let n ← o.get "transfer_length"
    .ok (.read cdb (bs * n))
  | .write6 | .write10 | .write12 | .write16 | .writeSame10 | .writeSame16 | .unmap | .reserve10 | .release10 | .prOut => do
    let cdb ← datagram
    .ok (.write cdb o.buffer)
  | .reserve6 | .release6 => do
    let cdb ← datagram
    .ok (.write cdb [])
  | .compareAndWrite => do
    let lba ← o.get "logical_block_address"
    pyAssert (lba < 2 ^ 64)
    let n ← o.get "number_of_logical_blocks"
    pyAssert (n < 2 ^ 8)
    let cdb ← datagram
    .ok (.write cdb o.buffer)
  | .readCapacity10 => do
    let cdb ← datagram
    .ok (.read cdb 8)
  | .testUnitReady => do
    let cdb ← datagram
    .ok (.read cdb 0)
  | .inquiry | .readCapacity16 | .reportLuns | .rtpg | .logSense | .receiveCopy | .receiveDiagnostic | .prIn => do
    let cdb ← datagram
    let alloc ← o.get "allocation_length"
    .ok (.read cdb alloc)

/-- `execute` up to the request. -/
def Obj.execute (L : Lib) (o : Obj) : Py Req := o.executeWith (o.datagram L)

end Verif.Options
