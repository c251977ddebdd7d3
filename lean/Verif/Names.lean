import Verif.Messages
import Verif.Parse.Inquiry
/-!
# Tables of names

The dictionaries in which users of the library look up what the numbers of decoded objects mean. The library itself does not read them.
-/

namespace Verif.Names

open Verif.Messages (digits)

/-- `d[k]` of a dictionary written as a literal: of two entries with the same key the later one counts. -/
def index {α : Type} (d : List (Int × α)) (k : Int) : Py α :=
  match d.reverse.lookup k with
  | some v => .ok v
  | none => .error .keyError

/-- `SCSI_PERIPHERAL_DEVICE_TYPE` — `cdb/inquiry/vpd_pages/__init__.py:37-68`. -/
def deviceTypes : List (Int × String) :=
  [(0x00, "disk"), (0x01, "tape"), (0x02, "printer"), (0x03, "processor"), (0x04, "write once optical disk"), (0x05, "cd/dvd"),
   (0x06, "scanner"), (0x07, "optical memory device"), (0x08, "medium changer"), (0x09, "communications"), (0x0a, "graphics [0xa]"),
   (0x0b, "graphics [0xb]"), (0x0c, "storage array controller"), (0x0d, "enclosure services device"),
   (0x0e, "simplified direct access device"), (0x0f, "optical card reader/writer device"), (0x10, "bridge controller commands"),
   (0x11, "object based storage"), (0x12, "automation/driver interface"), (0x13, "security manager device"),
   (0x14, "zoned block commands"), (0x15, "0x15"), (0x16, "0x16"), (0x17, "0x17"), (0x18, "0x18"), (0x19, "0x19"), (0x1a, "0x1a"),
   (0x1b, "0x1b"), (0x1c, "0x1c"), (0x1d, "0x1d"), (0x1e, "well known logical unit"), (0x1f, "no physical device on this lu")]

/-- `SCSI_VERSION_NAME` — `vpd_pages/__init__.py:71-79`. -/
def versions : List (Int × String) :=
  [(0x00, "no conformance claimed"), (0x01, "SCSI-1"), (0x02, "SCSI-2"), (0x03, "SPC"), (0x04, "SPC-2"), (0x05, "SPC-3"), (0x06, "SPC-4"),
   (0x07, "SPC-5")]

/-- A value of `SCSI_VPD_NAME`: a name, or (for pages of the command sets) a dictionary of names by device type. -/
inductive PageName where
  | name (s : String)
  | byType (d : List (Int × String))
  deriving DecidableEq, Repr

/-- `SCSI_VPD_NAME` — `vpd_pages/__init__.py:82-121`. -/
def pageNames : List (Int × PageName) :=
  [(0x00, .name "Supported VPD pages"),
   (0x80, .name "Unit serial number"),
   (0x81, .name "Implemented operating definitions (obsolete)"),
   (0x82, .name "ASCII implemented operating definition (obsolete)"),
   (0x83, .name "Device identification"),
   (0x84, .name "Software interface identification"),
   (0x85, .name "Management network addresses"),
   (0x86, .name "Extended INQUIRY data"),
   (0x87, .name "Mode page policy"),
   (0x88, .name "SCSI ports"),
   (0x89, .name "ATA information"),
   (0x8a, .name "Power condition"),
   (0x8b, .name "Device constituents"),
   (0x8c, .name "CFA profile information"),
   (0x8d, .name "Power consumption"),
   (0x8f, .name "Third party copy"),
   (0x90, .name "Protocol-specific logical unit information"),
   (0x91, .name "Protocol-specific port information"),
   (0x92, .name "SCSI Feature sets"),
   (0xb0, .byType [(0x00, "Block limits (sbc2)"), (0x01, "Sequential access device capabilities (ssc3)"), (0x11, "OSD information (osd)")]),
   (0xb1, .byType [(0x00, "Block device characteristics (sbc3)"), (0x11, "Security token (osd)"), (0x0d, "Enclosure services device characteristics (ses4)")]),
   (0xb2, .byType [(0x00, "Logical block provisioning (sbc3)"), (0x01, "TapeAlert supported flags (ssc3)")]),
   (0xb3, .byType [(0x00, "Referrals (sbc3)")]),
   (0xc0, .name "vendor: Firmware numbers (seagate); Unit path report (EMC)"),
   (0xc1, .name "vendor: Date code (seagate)"),
   (0xc2, .name "vendor: Jumper settings (seagate); Software version (RDAC)"),
   (0xc3, .name "vendor: Device behavior (seagate)"),
   (0xc9, .name "Volume Access Control (RDAC)")]

/-- The name of a page of a device of type `type`: `v = SCSI_VPD_NAME[page]`, and `v[type]` where `v` is a dictionary. -/
def pageName (page type : Int) : Py String := do
  match ← index pageNames page with
  | .name s => .ok s
  | .byType d => index d type

/-- `SCSI_CODE_SETS` — `vpd_pages/__init__.py:124`. -/
def codeSets : List (Int × String) :=
  [(0x01, "Binary"), (0x02, "ASCII"), (0x03, "UTF8")]

/-- `_SCSI_DESIGNATOR_TYPES` — `vpd_pages/__init__.py:127-138`. -/
def designatorTypes : List (Int × String) :=
  [(0x00, "vendor specific [0x0]"), (0x01, "T10 vendor identification"), (0x02, "EUI-64 based"), (0x03, "NAA"),
   (0x04, "Relative target port"), (0x05, "Target port group"), (0x06, "Logical unit group"), (0x07, "MD5 logical unit identifier"),
   (0x08, "SCSI name string"), (0x09, "Protocol specific port identifier"), (0x0a, "UUID identifier")]

/-- `SCSI_DESIGNATOR_ASSOCIATIONS` — `vpd_pages/__init__.py:143-147`. -/
def associations : List (Int × String) :=
  [(0x00, "Addressed logical unit"), (0x01, "Target port"), (0x02, "Target device that contains addressed lu"), (0x03, "Reserved [0x3]")]

/-- `ELEMENT_TYPE_CODES` with the constants — `cdb/diagnostic/ses_pages/configuration.py:7-62`. -/
def elementTypeCodes : List (Int × String) :=
  [(0x00, "Unspecified"), (0x01, "Device Slot"), (0x02, "Power Supply"), (0x03, "Cooling"), (0x04, "Temperature Sensor"), (0x05, "Door"),
   (0x06, "Audible Alarm"), (0x07, "Enclosure Services Controller Electronics"), (0x08, "SCC Controller Electronics"),
   (0x09, "Nonvolatile Cache"), (0x0a, "Invalid Operation Reason"), (0x0b, "Uninterruptible Power Supply"), (0x0c, "Display"),
   (0x0d, "Key Pad Entry"), (0x0e, "Enclosure"), (0x0f, "SCSI Port/Transceiver"), (0x10, "Language"), (0x11, "Communication Port"),
   (0x12, "Voltage Sensor"), (0x13, "Current Sensor"), (0x14, "SCSI Target Port"), (0x15, "SCSI Initiator Port"),
   (0x16, "Simple Subenclosure"), (0x17, "Array Device Slot"), (0x18, "SAS Expander"), (0x19, "SAS Connector"),
   (0x9e, "Sanmina Specific Data")]

/-- `FAN_SPEED_CODE` — `cdb/diagnostic/ses_pages/enclosure_status.py:79-86`. -/
def fanSpeeds : List (Int × String) :=
  [(0x00, "Cooling mechanism is stopped"), (0x01, "Cooling mechanism is at its lowest speed"),
   (0x02, "Cooling mechanism is at its second lowest speed"), (0x03, "Cooling mechanism is at its third lowest speed"),
   (0x04, "Cooling mechanism is at its intermediate speed"), (0x05, "Cooling mechanism is at its third highest speed"),
   (0x06, "Cooling mechanism is at its second highest speed"), (0x07, "Cooling mechanism is at its highest speed")]

/-- `ELEMENT_STATUS_CODE` — `enclosure_status.py:306-314`. -/
def statusCodes : List (Int × String) :=
  [(0x00, "Unsupported"), (0x01, "OK"), (0x02, "Critical"), (0x03, "Noncritical"), (0x04, "Unrecoverable"), (0x05, "Not Installed"),
   (0x06, "Unknown"), (0x07, "Not Available"), (0x08, "No Access")]

/-! ## `CustomDefaultDict` -/

/-- Python's `hex(i)`. -/
def hex (i : Int) : List Char := (if i < 0 then ['-'] else []) ++ ['0', 'x'] ++ digits 16 i.natAbs

/-- The factory `lambda i: 'Reserved [%s]' % hex(i)` — `vpd_pages/__init__.py:140`. -/
def reserved (i : Int) : String := String.ofList ("Reserved [".toList ++ hex i ++ [']'])

/-- `d[key] = value` -/
def setItem (d : List (Int × String)) (k : Int) (v : String) : List (Int × String) := d ++ [(k, v)]

/-- `CustomDefaultDict.__missing__` with a factory — `vpd_pages/__init__.py:13-17`. -/
def missing (factory : Int → String) (d : List (Int × String)) (k : Int) : String × List (Int × String) :=
  let value := factory k
  (value, setItem d k value)

/-- `d[key]` of the dictionary: `__missing__` is called for keys that are not there. -/
def getItem (factory : Int → String) (d : List (Int × String)) (k : Int) : String × List (Int × String) :=
  match d.reverse.lookup k with
  | some v => (v, d)
  | none => missing factory d k

/-- `d.get(key)`, which does not call `__missing__`. -/
def get? (d : List (Int × String)) (k : Int) : Option String := d.reverse.lookup k

/-- One lookup in the module's dictionary. -/
inductive Lookup where
  /-- `SCSI_DESIGNATOR_TYPES[k]` -/
  | item (k : Int)
  /-- `SCSI_DESIGNATOR_TYPES.get(k)` -/
  | get (k : Int)
  deriving DecidableEq, Repr

/-- A program that looks up names in `SCSI_DESIGNATOR_TYPES` (`vpd_pages/__init__.py:140`), which starts as a copy of `_SCSI_DESIGNATOR_TYPES`:
the answers and the dictionary it leaves behind. -/
def lookups (d : List (Int × String)) : List Lookup → List (Option String) × List (Int × String)
  | [] => ([], d)
  | .item k :: ls =>
    let (v, d') := getItem reserved d k
    let (vs, d'') := lookups d' ls
    (some v :: vs, d'')
  | .get k :: ls =>
    let (vs, d') := lookups d ls
    (get? d k :: vs, d')

end Verif.Names
