import Verif.Parse.Core
/-!
# Standard INQUIRY data and the VPD pages

Besides the fields of `Parse/Core.lean` these classes use, of the external library:

* `str_field`: the bytes of the range as text without the padding at the end. With `padding=` that is the declared byte. Without, it is not visible
  from `/repo` what is dropped (parameter `trim`); the expectations of `tests/test_inquiry.py` are that NULs are (`test__serial_number`), that spaces
  are (`test__ata_information`), and that spaces in front are not; the laws of `trim` are these expectations for any text. A text is modelled by its
  ASCII bytes; what the library does with other bytes is the parameter `text`, and what it does when packing a text that is not ASCII or does not
  fit is `packOther`.
* integer fields over several references joined with `+`: `readCat`. Whether the first reference holds the least or the most significant
  bits is not visible from `/repo` (the tests only count designators): parameter `lowFirst`.
* fields with `unpack_if` whose condition fails keep the value `None`.
-/

namespace Verif.Parse

/-- What `/repo` does not tell about `infi.instruct.buffer`. -/
structure BufLib where
  /-- a whole-byte `be_int_field` without `sign=` is two's complement -/
  sg : Bool
  /-- `ref1 + ref2`: `ref1` holds the least significant bits -/
  lowFirst : Bool
  /-- unpacking bytes that are not ASCII as text -/
  text : Bytes → Py Bytes
  /-- packing a text that is not ASCII, or is longer than its place -/
  packOther : Nat → Bytes → Py Bytes
  /-- what a `str_field` without `padding=` makes of the bytes of its range -/
  trim : Bytes → Bytes
  /-- NULs at the end, or spaces, are dropped from a text that ends in a visible character (or is empty) -/
  trim_padding : ∀ (t : Bytes) (n : Nat) (c : UInt8), (∀ x, t.getLast? = some x → 0x20 < x.toNat ∧ x.toNat < 0x7F) → c = 0 ∨ c = 0x20 →
    trim (t ++ List.replicate n c) = t
  /-- nothing is dropped in front -/
  trim_prefix : ∀ b : Bytes, ∃ n, trim b = b.take n

def isAscii (b : Bytes) : Bool := b.all fun c => decide (c.toNat < 128)

/-- Without the padding at the end. -/
def dropTail (p : UInt8) : Bytes → Bytes
  | [] => []
  | c :: cs =>
    match dropTail p cs with
    | [] => if c = p then [] else [c]
    | d :: ds => c :: d :: ds

/-- `str_field`, unpacking the bytes of its range. -/
def textOf (L : BufLib) (pad : Option UInt8) (b : Bytes) : Py Bytes :=
  if isAscii b then .ok (match pad with | some p => dropTail p b | none => L.trim b) else L.text b

/-- `str_field(where=bytes_ref[lo:hi], padding=pad, justify='left')`, the bytes stored. -/
def packText (L : BufLib) (pad : UInt8) (n : Nat) (t : Bytes) : Py Bytes :=
  if isAscii t ∧ t.length ≤ n then .ok (t ++ List.replicate (n - t.length) pad) else L.packOther n t

/-- The parts of a joined reference: value and width. -/
def readParts : List Ref → Bytes → Py (List (Nat × Nat))
  | [], _ => .ok []
  | r :: rs, buf => do
    let v ← r.read buf
    let vs ← readParts rs buf
    .ok ((v, r.width) :: vs)

def joinLow : List (Nat × Nat) → Nat
  | [] => 0
  | (v, w) :: r => v + 2 ^ w * joinLow r

def joinHigh : Nat → List (Nat × Nat) → Nat
  | acc, [] => acc
  | acc, (v, w) :: r => joinHigh (acc * 2 ^ w + v) r

def joinParts (L : BufLib) (ps : List (Nat × Nat)) : Nat := if L.lowFirst then joinLow ps else joinHigh 0 ps

/-- `be_uint_field(where=ref1 + ref2 + ...)` -/
def readCat (L : BufLib) (rs : List Ref) (buf : Bytes) : Py Nat := do
  let ps ← readParts rs buf
  .ok (joinParts L ps)

def readCats (L : BufLib) : List (String × List Ref) → Bytes → Py (List (String × Int))
  | [], _ => .ok []
  | (n, rs) :: cs, buf => do
    let v ← readCat L rs buf
    let vs ← readCats L cs buf
    .ok ((n, (v : Int)) :: vs)

def refsEnd : List Ref → Nat
  | [] => 0
  | r :: rs => max r.stop (refsEnd rs)

def catsEnd : List (String × List Ref) → Nat
  | [] => 0
  | (_, rs) :: cs => max (refsEnd rs) (catsEnd cs)

/-- Store `bs` from byte `lo` on. -/
def putBytes (buf : Bytes) (lo : Nat) (bs : Bytes) : Bytes := setRange (grow buf lo) lo (lo + bs.length) bs

/-! ## Common -/

/-- `PeripheralDeviceDataBuffer` — `cdb/inquiry/__init__.py:12-15`. -/
def peripheralFields : List UField := [.i "type" (.bits 0 0 5), .i "qualifier" (.bits 0 5 8)]

/-- An object with integer attributes and its `peripheral_device`. -/
structure Page where
  peripheral : List (String × Int)
  attrs : List (String × Int)
  deriving DecidableEq, Repr

/-- A page of fixed fields. -/
def fixedPage (L : BufLib) (fs : List UField) (cats : List (String × List Ref)) (buf : Bytes) : Py Page := do
  let p ← unpackFields L.sg peripheralFields buf
  let a ← unpackFields L.sg fs buf
  let c ← readCats L cats buf
  .ok { peripheral := p, attrs := a ++ c }

/-! ## Supported pages, serial number, unknown pages -/

/-- `SupportedVPDPagesBuffer` — `cdb/inquiry/vpd_pages/supported_pages.py:7-12`. -/
def supportedPages (L : BufLib) (buf : Bytes) : Py (Page × List Nat) := do
  let p ← fixedPage L [.u "page_code" (.bytes 1 2), .u "page_length" (.bytes 3 4)] [] buf
  let (l, _) ← unpackN elemU8 (get p.attrs "page_length").toNat (buf.drop 4)
  .ok (p, l)

/-- `UnitSerialNumberVPDPageBuffer.unpack` — `cdb/inquiry/vpd_pages/unit_serial_number.py:7-11`. -/
def unitSerial (L : BufLib) (buf : Bytes) : Py (Page × Bytes) := do
  let p ← fixedPage L [.u "page_code" (.bytes 1 2), .u "page_length" (.bytes 3 4)] [] buf
  let t ← textOf L none (slice buf 4 (4 + get p.attrs "page_length").toNat)
  .ok (p, t)

/-- `UnknownVPDPageBuffer.unpack` — `cdb/inquiry/vpd_pages/unknown.py:7-11`. -/
def unknownPage (L : BufLib) (buf : Bytes) : Py (Page × List Nat) := do
  let p ← fixedPage L [.u "page_code" (.bytes 1 2), .u "page_length" (.bytes 2 4)] [] buf
  let l ← unpackAll elemU8 (slice buf 4 (4 + get p.attrs "page_length").toNat)
  .ok (p, l)

/-- `UnitSerialNumberVPDPageBuffer.pack`: `page_length` is set to the length of the serial number. -/
def packUnitSerial (L : BufLib) (Lb : Lib) (type qualifier pageCode : Int) (serial : Bytes) : Py Bytes := do
  let h ← packAt Lb [("type", .bits 0 0 5, type), ("qualifier", .bits 0 5 8, qualifier), ("page_code", .bytes 1 2, pageCode),
    ("page_length", .bytes 3 4, (serial.length : Int))] []
  let t ← packText L 0 serial.length serial
  .ok (putBytes h 4 t)

/-- `b_uint8` elements of a list. -/
def packBytes : List Int → Py Bytes
  | [] => .ok []
  | v :: vs => do
    let b ← packUInt 1 v
    let bs ← packBytes vs
    .ok (b ++ bs)

/-- `UnknownVPDPageBuffer.pack`. -/
def packUnknownPage (Lb : Lib) (type qualifier pageCode : Int) (data : List Int) : Py Bytes := do
  let h ← packAt Lb [("type", .bits 0 0 5, type), ("qualifier", .bits 0 5 8, qualifier), ("page_code", .bytes 1 2, pageCode),
    ("page_length", .bytes 2 4, (data.length : Int))] []
  let d ← packBytes data
  .ok (putBytes h 4 d)

/-! ## Block limits, veritas -/

/-- `BlockLimitsVPDPageBuffer` — `cdb/inquiry/vpd_pages/block_limits.py:7-22`. -/
def blockLimitsFields : List UField :=
  [.u "page_code" (.bytes 1 2), .u "page_length" (.bytes 2 4), .u "wsnz" (.bits 4 0 1), .u "maximum_compare_and_write_length" (.bytes 5 6),
   .u "optimal_transfer_length_granularity" (.bytes 6 8), .u "maximum_transfer_length" (.bytes 8 12),
   .u "optimal_transfer_length" (.bytes 12 16), .u "maximum_prefetch_xdread_xdwrite_transfer_length" (.bytes 16 20),
   .u "maximum_unmap_lba_count" (.bytes 20 24), .u "maximum_unmap_block_descriptor_count" (.bytes 24 28),
   .u "optimal_unmap_granularity" (.bytes 28 32), .u "ugavalid" (.bits 32 7 8), .u "maximum_write_same_length" (.bytes 36 44)]

def alignmentRefs : List Ref := [.bytes 35 36, .bytes 34 35, .bytes 33 34, .bits 32 0 7]

def blockLimits (L : BufLib) (buf : Bytes) : Py Page := fixedPage L blockLimitsFields [("unmap_granularity_alignment", alignmentRefs)] buf

/-- `VeritasVPDPageBuffer` — `cdb/inquiry/vpd_pages/veritas.py:7-19`. -/
def veritasFields : List UField :=
  [.u "page_code" (.bytes 1 2), .u "page_length" (.bytes 2 4), .u "is_thin_lun" (.bits 4 0 1), .u "is_snapshot_lun" (.bits 4 1 2),
   .u "is_space_optimized_src" (.bits 4 2 3), .u "is_fcdisk_lun" (.bits 4 3 4), .u "is_satadisk_lun" (.bits 4 4 5),
   .u "is_replication_src" (.bits 4 5 6), .u "is_replication_dst" (.bits 4 6 7), .u "raid_type" (.bytes 5 6)]

def veritas (L : BufLib) (buf : Bytes) : Py Page := fixedPage L veritasFields [] buf

/-! ## Designators -/

/-- `str_field` and `bytearray_field` of a designator: from byte `lo` to `hi`, or to the end given by `designator_length`. -/
inductive DField where
  | text (name : String) (lo : Nat) (hi : Option Nat)
  | blob (name : String) (lo : Nat) (hi : Option Nat)
  deriving DecidableEq, Repr

/-- A subclass of `DesignatorDescriptor`: its fields besides the header. -/
structure DesignatorClass where
  name : String
  ints : List UField := []
  cats : List (String × List Ref) := []
  data : List DField := []
  /-- the attribute whose length `designator_length` is set to before packing, if it is (`set_before_pack=len_ref(self_ref. ...)`) -/
  lengthOf : Option String := none

structure Designator where
  cls : String
  attrs : List (String × Int)
  data : List (String × Bytes)
  deriving DecidableEq, Repr

/-- `DesignatorDescriptor` — `cdb/inquiry/vpd_pages/designators.py:8-15`. -/
def designatorHeader : List UField :=
  [.u "code_set" (.bits 0 0 4), .u "protocol_identifier" (.bits 0 4 8), .u "designator_type" (.bits 1 0 4), .u "association" (.bits 1 4 6),
   .u "piv" (.bits 1 7 8), .u "reserved" (.bytes 2 3), .u "designator_length" (.bytes 3 4)]

/-- `Reserved_Designator` — `designators.py:20-22` (attribute `desginator`; the length is taken from an attribute `designator`). -/
def reservedDesignator : DesignatorClass := { name := "Reserved_Designator", data := [.text "desginator" 4 none], lengthOf := some "designator" }

/-- `EUI64_Designator` — `designators.py:26-28`. -/
def eui64 : DesignatorClass :=
  { name := "EUI64_Designator", ints := [.u "ieee_company" (.bytes 4 7), .u "vendor_specific_extension_identifer" (.bytes 7 12)] }

/-- `EUI64_12Byte_Designator` — `designators.py:32-33`. -/
def eui64_12 : DesignatorClass :=
  { name := "EUI64_12Byte_Designator",
    ints := [.u "ieee_company" (.bytes 4 7), .u "vendor_specific_extension_identifer" (.bytes 7 12), .u "directory_id" (.bytes 12 16)] }

/-- `EUI64_16Byte_Designator` — `designators.py:37-40`. -/
def eui64_16 : DesignatorClass :=
  { name := "EUI64_16Byte_Designator",
    ints := [.u "identifier_extension" (.bytes 4 12), .u "ieee_company" (.bytes 12 15),
      .u "vendor_specific_extension_identifer" (.bytes 15 20)] }

/-- `NAA_Descriptor` — `designators.py:44-45`. -/
def naaField : UField := .u "naa" (.bits 4 4 8)

/-- `NAA_IEEE_Extended_Designator` — `designators.py:49-52`. -/
def naaExtended : DesignatorClass :=
  { name := "NAA_IEEE_Extended_Designator",
    ints := [naaField, .u "ieee_company" (.bytes 6 9), .u "vendor_specific_identifier_b" (.bytes 9 12)],
    cats := [("vendor_specific_identifier_a", [.bytes 5 6, .bits 4 0 4])] }

/-- `NAA_Locally_Assigned_Designator` — `designators.py:56-59`. -/
def naaLocal : DesignatorClass :=
  { name := "NAA_Locally_Assigned_Designator", ints := [naaField],
    cats := [("locally_administered_value",
      [.bytes 11 12, .bytes 10 11, .bytes 9 10, .bytes 8 9, .bytes 7 8, .bytes 6 7, .bytes 5 6, .bits 4 0 4])] }

def registeredCats : List (String × List Ref) :=
  [("ieee_company_id", [.bits 7 4 8, .bytes 6 7, .bytes 5 6, .bits 4 0 4]),
   ("vendor_specific_identifier", [.bytes 11 12, .bytes 10 11, .bytes 9 10, .bytes 8 9, .bits 7 0 4])]

/-- `NAA_IEEE_Registered_Designator` — `designators.py:63-67`. -/
def naaRegistered : DesignatorClass := { name := "NAA_IEEE_Registered_Designator", ints := [naaField], cats := registeredCats }

/-- `NAA_IEEE_Registered_Extended_Designator` — `designators.py:71-72`. -/
def naaRegisteredExtended : DesignatorClass :=
  { name := "NAA_IEEE_Registered_Extended_Designator", ints := [naaField, .u "vendor_specific_identifier_extension" (.bytes 12 20)],
    cats := registeredCats }

/-- `RelativeTargetPortDesignator` — `designators.py:76-77`. -/
def relativePort : DesignatorClass := { name := "RelativeTargetPortDesignator", ints := [.u "relative_target_port_identifier" (.bytes 6 8)] }

/-- `TargetPortGroupDesignator` — `designators.py:81-82`. -/
def portGroup : DesignatorClass := { name := "TargetPortGroupDesignator", ints := [.u "target_port_group" (.bytes 6 8)] }

/-- `LogicalUnitGroupDesignator` — `designators.py:86-87`. -/
def unitGroup : DesignatorClass := { name := "LogicalUnitGroupDesignator", ints := [.u "logical_unit_group" (.bytes 6 8)] }

/-- `MD5LogicalUnitDesignator` — `designators.py:91-93`. -/
def md5 : DesignatorClass :=
  { name := "MD5LogicalUnitDesignator", data := [.blob "md5_logical_unit_identifier" 4 none],
    lengthOf := some "md5_logical_unit_identifier" }

/-- `SCSINameDesignator` — `designators.py:97-99`. -/
def scsiName : DesignatorClass := { name := "SCSINameDesignator", data := [.blob "scsi_name_string" 4 none], lengthOf := some "scsi_name_string" }

/-- `VendorSpecificDesignator` — `designators.py:103-105`. -/
def vendorSpecific : DesignatorClass :=
  { name := "VendorSpecificDesignator", data := [.blob "vendor_specific_identifier" 4 none],
    lengthOf := some "vendor_specific_identifier" }

/-- `T10VendorIDDesignator` — `designators.py:108-111`. -/
def t10Vendor : DesignatorClass :=
  { name := "T10VendorIDDesignator", data := [.text "t10_vendor_identification" 4 (some 12), .blob "vendor_specific_identifier" 12 none],
    lengthOf := some "vendor_specific_identifier" }

/-- `EUI64_BY_LENGTH` — `designators.py:114-118`. -/
def euiByLength : List (Int × DesignatorClass) := [(0x08, eui64), (0x0c, eui64_12), (0x10, eui64_16)]

/-- `NAA_BY_TYPE` — `designators.py:120-125`. -/
def naaByType : List (Int × DesignatorClass) :=
  [(0x02, naaExtended), (0x03, naaLocal), (0x05, naaRegistered), (0x06, naaRegisteredExtended)]

/-- `SINGLE_TYPE_DESIGNATORS` — `designators.py:127-135`. -/
def singleType : List (Int × DesignatorClass) :=
  [(0x00, vendorSpecific), (0x01, t10Vendor), (0x04, relativePort), (0x05, portGroup), (0x06, unitGroup), (0x07, md5), (0x08, scsiName)]

/-- `determine_designator` with `_determine_eui_designator` and `_determine_naa_designator` — `designators.py:138-169`. -/
def determineDesignator (L : BufLib) (buf : Bytes) : Py DesignatorClass := do
  let header ← unpackFields L.sg designatorHeader buf
  let t := get header "designator_type"
  match singleType.lookup t with
  | some c => .ok c
  | none =>
    if t = 0x02 then
      match euiByLength.lookup (get header "designator_length") with
      | some c => .ok c
      | none => .error .instruct
    else if t = 0x03 then do
      let naa ← unpackFields L.sg (designatorHeader ++ [naaField]) buf
      match naaByType.lookup (get naa "naa") with
      | some c => .ok c
      | none => .error .instruct
    else if t ≥ 0x09 ∧ t ≤ 0x0F then .ok reservedDesignator
    else .error .instruct

/-- The bytes of a `DField`; `stop` is `4 + designator_length`. -/
def DField.unpack (L : BufLib) (stop : Nat) (buf : Bytes) : DField → Py (String × Bytes)
  | .text n lo hi => do
    let t ← textOf L none (slice buf lo (hi.getD stop))
    .ok (n, t)
  | .blob n lo hi => .ok (n, slice buf lo (hi.getD stop))

def unpackData (L : BufLib) (stop : Nat) (buf : Bytes) : List DField → Py (List (String × Bytes))
  | [] => .ok []
  | f :: fs => do
    let x ← f.unpack L stop buf
    let xs ← unpackData L stop buf fs
    .ok (x :: xs)

def dataEnd (stop : Nat) : List DField → Nat
  | [] => 0
  | .text _ _ hi :: fs => max (hi.getD stop) (dataEnd stop fs)
  | .blob _ _ hi :: fs => max (hi.getD stop) (dataEnd stop fs)

/-- `unpack` of a designator class; the size is the end of the last field. -/
def unpackDesignator (L : BufLib) (c : DesignatorClass) (buf : Bytes) : Py (Designator × Nat) := do
  let header ← unpackFields L.sg designatorHeader buf
  let ints ← unpackFields L.sg c.ints buf
  let cats ← readCats L c.cats buf
  let stop := 4 + (get header "designator_length").toNat
  let data ← unpackData L stop buf c.data
  .ok ({ cls := c.name, attrs := header ++ ints ++ cats, data := data },
    max 4 (max (fieldsEnd c.ints) (max (catsEnd c.cats) (dataEnd stop c.data))))

/-- One element of `designators_list`. -/
def designator (L : BufLib) (buf : Bytes) : Py (Designator × Nat) := do
  let c ← determineDesignator L buf
  unpackDesignator L c buf

/-- `DeviceIdentificationVPDPageBuffer` — `cdb/inquiry/vpd_pages/device_identification.py:8-13`. -/
def deviceIdentification (L : BufLib) (buf : Bytes) : Py (Page × List Designator) := do
  let p ← fixedPage L [.u "page_code" (.bytes 1 2), .u "page_length" (.bytes 2 4)] [] buf
  let l ← unpackAll (designator L) (slice buf 4 (4 + get p.attrs "page_length").toNat)
  .ok (p, l)

/-- `LogicalBlockProvisioningVPDPageBuffer` — `cdb/inquiry/vpd_pages/logical_block_provisioning.py:8-26`. -/
def provisioningFields : List UField :=
  [.u "page_code" (.bytes 1 2), .u "page_length" (.bytes 2 4), .u "threshold_exponent" (.bytes 4 5), .u "dp" (.bits 5 0 1),
   .u "anc_sup" (.bits 5 1 2), .u "lbprz" (.bits 5 2 3), .u "lbpws10" (.bits 5 5 6), .u "lbpws" (.bits 5 6 7), .u "lbpu" (.bits 5 7 8),
   .u "provisioning_type" (.bits 6 0 3)]

def provisioning (L : BufLib) (buf : Bytes) : Py (Page × Option Designator) := do
  let p ← fixedPage L provisioningFields [] buf
  if buf.length > 8 then
    let (d, _) ← designator L (buf.drop 8)
    .ok (p, some d)
  else .ok (p, none)

/-! ## ATA information -/

/-- The bytes at the given positions, in that order (`bytes_ref[i, j, ...]`); positions beyond the input are left out. -/
def pick (buf : Bytes) (idx : List Nat) : Bytes := idx.filterMap (fun i => buf[i]?)

/-- `AtaIdentifyDevice` — `cdb/inquiry/vpd_pages/ata_information.py:7-21`. -/
def serialIdx : List Nat := [21, 20, 23, 22, 25, 24, 27, 26, 29, 28, 31, 30, 33, 32, 35, 34, 37, 36, 39, 38]
def firmwareIdx : List Nat := [47, 46, 49, 48, 51, 50, 53, 52]
def modelIdx : List Nat :=
  [55, 54, 57, 56, 59, 58, 61, 60, 63, 62, 65, 64, 67, 66, 69, 68, 71, 70, 73, 72, 75, 74, 77, 76, 79, 78, 81, 80, 83, 82, 85, 84, 87, 86,
   89, 88, 91, 90]

structure AtaIdentify where
  serial : Bytes
  firmware : Bytes
  model : Bytes
  deriving DecidableEq, Repr

def ataIdentify (L : BufLib) (buf : Bytes) : Py AtaIdentify := do
  let s ← textOf L none (pick buf serialIdx)
  let f ← textOf L none (pick buf firmwareIdx)
  let m ← textOf L none (pick buf modelIdx)
  .ok { serial := s, firmware := f, model := m }

/-- `DeviceSignature` — `ata_information.py:24-34`; `lba` is a text over six bytes. -/
def signatureFields : List UField :=
  [.i "transport_id" (.bytes 0 1), .i "pm_port" (.bits 1 0 4), .i "interrupt" (.bits 1 6 7), .i "status" (.bytes 2 3), .i "error" (.bytes 3 4),
   .i "device" (.bytes 7 8), .i "sector_count" (.bytes 12 14)]

structure AtaInformation where
  page : Page
  vendor : Bytes
  product : Bytes
  revision : Bytes
  signature : List (String × Int)
  lba : Bytes
  identify : AtaIdentify
  deriving DecidableEq, Repr

/-- `AtaInformationVPDPageBuffer` — `ata_information.py:37-48`. -/
def ataInformation (L : BufLib) (buf : Bytes) : Py AtaInformation := do
  let p ← fixedPage L [.i "page_code" (.bytes 1 2), .i "page_length" (.bytes 2 4), .i "command_code" (.bytes 56 57)] [] buf
  let v ← textOf L none (slice buf 8 16)
  let pr ← textOf L none (slice buf 16 32)
  let r ← textOf L none (slice buf 32 36)
  let sig := slice buf 36 56
  let s ← unpackFields L.sg signatureFields sig
  let lba ← textOf L none (pick sig [4, 5, 6, 8, 9, 10])
  let i ← ataIdentify L (slice buf 60 572)
  .ok { page := p, vendor := v, product := pr, revision := r, signature := s, lba := lba, identify := i }

/-! ## Standard INQUIRY data -/

/-- `StandardInquiryExtendedDataBuffer` — `cdb/inquiry/standard.py:10-33`; `none` is the Python `None` of a field that was not unpacked. -/
structure Extended where
  vendor1 : Bytes
  ius : Option Int
  qas : Option Int
  clocking : Option Int
  versions : Option (List Nat)
  vendor2 : Option Bytes
  deriving DecidableEq, Repr

/-- `ius`, `qas`, `clocking` — `standard.py:13-21`. -/
def extendedBits (sg : Bool) (e : Bytes) : Py (Option (List (String × Int))) :=
  if e.length ≥ 21 then
    (unpackFields sg [.u "ius" (.bits 20 0 1), .u "qas" (.bits 20 1 2), .u "clocking" (.bits 20 2 4)] e).map some
  else .ok none

/-- `version_descriptors` — `standard.py:24-27`. -/
def extendedVersions (e : Bytes) : Py (Option (List Nat)) :=
  if e.length ≥ 24 then (unpackN (elemUInt 2) (min ((e.length - 22) / 2) 8) (e.drop 22)).map fun l => some l.1 else .ok none

def unpackExtended (sg : Bool) (e : Bytes) : Py Extended := do
  let bits ← extendedBits sg e
  let versions ← extendedVersions e
  .ok { vendor1 := slice e 0 (min 20 e.length), ius := bits.map (get · "ius"), qas := bits.map (get · "qas"),
        clocking := bits.map (get · "clocking"), versions := versions, vendor2 := if e.length ≥ 61 then some (e.drop 60) else none }

/-- Integer fields of `StandardInquiryDataBuffer` — `cdb/inquiry/standard.py:40-66`. -/
def standardFields : List UField :=
  [.u "cong" (.bits 1 6 7), .u "rmb" (.bits 1 7 8), .u "version" (.bytes 2 3), .u "response_data_format" (.bits 3 0 4), .u "hisup" (.bits 3 4 5),
   .u "normaca" (.bits 3 5 6), .u "additional_length" (.bytes 4 5), .u "protect" (.bits 5 0 1), .u "threepc" (.bits 5 3 4),
   .u "tpgs" (.bits 5 4 6), .u "acc" (.bits 5 6 7), .u "sccs" (.bits 5 7 8), .u "addr16" (.bits 6 0 1), .u "multi_p" (.bits 6 4 5),
   .u "enc_serv" (.bits 6 6 7), .u "cmd_que" (.bits 7 1 2), .u "sync" (.bits 7 4 5), .u "wbus16" (.bits 7 5 6)]

structure StandardInquiry where
  page : Page
  vendor : Bytes
  product : Bytes
  revision : Bytes
  extended : Option Extended
  deriving DecidableEq, Repr

/-- `StandardInquiryDataBuffer.unpack` — `cdb/inquiry/standard.py:37-75`. -/
def standardInquiry (L : BufLib) (buf : Bytes) : Py StandardInquiry := do
  let p ← fixedPage L standardFields [] buf
  let v ← textOf L (some 0x20) (slice buf 8 16)
  let pr ← textOf L (some 0x20) (slice buf 16 32)
  let r ← textOf L (some 0x20) (slice buf 32 36)
  let len := get p.attrs "additional_length"
  if len > 36 - 5 then
    let e ← unpackExtended L.sg (slice buf 36 (len + 5).toNat)
    .ok { page := p, vendor := v, product := pr, revision := r, extended := some e }
  else .ok { page := p, vendor := v, product := pr, revision := r, extended := none }

/-- The attributes given to `StandardInquiryExtendedDataBuffer(...)` before packing (all fields set; packing an object with a field left
out is not modelled, except `vendor_specific_2`, which has a `pack_if`). -/
structure ExtendedArgs where
  vendor1 : Bytes
  ius : Int
  qas : Int
  clocking : Int
  versions : List Int
  vendor2 : Option Bytes

def packUInts (n : Nat) : List Int → Py Bytes
  | [] => .ok []
  | v :: vs => do
    let b ← packUInt n v
    let bs ← packUInts n vs
    .ok (b ++ bs)

/-- `StandardInquiryExtendedDataBuffer.pack` — `cdb/inquiry/standard.py:10-30`. -/
def packExtended (Lb : Lib) (x : ExtendedArgs) : Py Bytes := do
  let b ← packAt Lb [("ius", .bits 20 0 1, x.ius), ("qas", .bits 20 1 2, x.qas), ("clocking", .bits 20 2 4, x.clocking)] x.vendor1
  let vs ← packUInts 2 x.versions
  let b := putBytes b 22 vs
  match x.vendor2 with
  | none => .ok b
  | some v => .ok (putBytes b 60 v)

/-- The attributes given to `StandardInquiryDataBuffer(...)` before packing. `ints` are the integer attributes in declaration order;
`additional_length` is computed. -/
structure StandardArgs where
  type : Int
  qualifier : Int
  cong : Int
  rmb : Int
  version : Int
  responseDataFormat : Int
  hisup : Int
  normaca : Int
  protect : Int
  threepc : Int
  tpgs : Int
  acc : Int
  sccs : Int
  addr16 : Int
  multiP : Int
  encServ : Int
  cmdQue : Int
  sync : Int
  wbus16 : Int
  vendor : Bytes
  product : Bytes
  revision : Bytes
  extended : Option ExtendedArgs

/-- The integer fields with their values, in declaration order. -/
def standardValues (a : StandardArgs) (additional : Int) : List (String × Ref × Int) :=
  [("type", .bits 0 0 5, a.type), ("qualifier", .bits 0 5 8, a.qualifier), ("cong", .bits 1 6 7, a.cong), ("rmb", .bits 1 7 8, a.rmb),
   ("version", .bytes 2 3, a.version), ("response_data_format", .bits 3 0 4, a.responseDataFormat), ("hisup", .bits 3 4 5, a.hisup),
   ("normaca", .bits 3 5 6, a.normaca), ("additional_length", .bytes 4 5, additional), ("protect", .bits 5 0 1, a.protect),
   ("threepc", .bits 5 3 4, a.threepc), ("tpgs", .bits 5 4 6, a.tpgs), ("acc", .bits 5 6 7, a.acc), ("sccs", .bits 5 7 8, a.sccs),
   ("addr16", .bits 6 0 1, a.addr16), ("multi_p", .bits 6 4 5, a.multiP), ("enc_serv", .bits 6 6 7, a.encServ),
   ("cmd_que", .bits 7 1 2, a.cmdQue), ("sync", .bits 7 4 5, a.sync), ("wbus16", .bits 7 5 6, a.wbus16)]

/-- The packed extended part, if there is one. -/
def packExtendedIf (Lb : Lib) : Option ExtendedArgs → Py (Option Bytes)
  | none => .ok none
  | some x => (packExtended Lb x).map some

/-- `_calc_additional_length` — `standard.py:79-83`. -/
def additionalLength (ext : Option Bytes) : Int := 36 - 5 + (ext.elim 0 fun b => (b.length : Int))

/-- `StandardInquiryDataBuffer.pack` — `cdb/inquiry/standard.py:37-84`. -/
def packStandard (L : BufLib) (Lb : Lib) (a : StandardArgs) : Py Bytes := do
  let ext ← packExtendedIf Lb a.extended
  let h ← packAt Lb (standardValues a (additionalLength ext)) []
  let v ← packText L 0x20 8 a.vendor
  let p ← packText L 0x20 16 a.product
  let r ← packText L 0x20 4 a.revision
  let b := putBytes (putBytes (putBytes h 8 v) 16 p) 32 r
  .ok (ext.elim b fun e => putBytes b 36 e)

end Verif.Parse
