import Verif.Cdb.Commands
import Verif.Parse.Simple
import Verif.Parse.Ses
import Verif.ExecuterGen
/-!
# The command objects: request and decoding of the response

Every `execute` method of `cdb/` has the shape of `ExecuterGen.Command`: build the datagram, `yield executer.call(...)`, decode what
came back, `yield` the result. Here each class is given its request (`Cdb.Commands`) and its decoder (`Parse`).
-/

namespace Verif.Commands

open Verif.Parse Verif.ExecuterGen

/-! ## Page classes and their tables -/

/-- The command classes of `cdb/inquiry/vpd_pages/`. -/
inductive VpdCommand where
  | supported
  | serial
  | identification
  | ata
  | limits
  | provisioning
  | veritas
  | unknown (page : Int)
  deriving DecidableEq, Repr

/-- The buffer classes of `cdb/inquiry/vpd_pages/`. -/
inductive VpdBuffer where
  | supported
  | serial
  | identification
  | ata
  | limits
  | provisioning
  | veritas
  | unknown
  deriving DecidableEq, Repr

/-- `SUPPORTED_VPD_PAGES_COMMANDS` — `cdb/inquiry/vpd_pages/__init__.py:150-158`, codes at `19-25`. -/
def vpdCommands : List (Int × VpdCommand) :=
  [(0x00, .supported), (0x80, .serial), (0x83, .identification), (0x89, .ata), (0xb0, .limits), (0xb2, .provisioning), (0xc0, .veritas)]

/-- `SUPPORTED_VPD_PAGES_DATA` — `cdb/inquiry/vpd_pages/__init__.py:160-168`. -/
def vpdBuffers : List (Int × VpdBuffer) :=
  [(0x00, .supported), (0x80, .serial), (0x83, .identification), (0x89, .ata), (0xb0, .limits), (0xb2, .provisioning), (0xc0, .veritas)]

/-- `get_vpd_page` — `cdb/inquiry/vpd_pages/__init__.py:171-172`. -/
def getVpdPage (code : Int) : VpdCommand := (vpdCommands.lookup code).getD (.unknown code)

/-- `get_vpd_page_data` — `cdb/inquiry/vpd_pages/__init__.py:175-176`. -/
def getVpdPageData (code : Int) : VpdBuffer := (vpdBuffers.lookup code).getD .unknown

/-- The arguments the constructors hand to `EVPDInquiryCommand` (page code, allocation length, result class): `supported_pages.py:18`,
`unit_serial_number.py:17`, `device_identification.py:19`, `ata_information.py:54`, `block_limits.py:27`, `logical_block_provisioning.py:31`,
`veritas.py:25`, `unknown.py:18`, all in `cdb/inquiry/vpd_pages/`. -/
def VpdCommand.args : VpdCommand → Int × Int × VpdBuffer
  | .supported => (0x00, 252, .supported)
  | .serial => (0x80, 252, .serial)
  | .identification => (0x83, 252, .identification)
  | .ata => (0x89, 1024, .ata)
  | .limits => (0xb0, 252, .limits)
  | .provisioning => (0xb2, 252, .provisioning)
  | .veritas => (0xc0, 252, .veritas)
  | .unknown page => (page, 2048, .unknown)

/-- The command classes of `cdb/diagnostic/ses_pages/`. -/
inductive SesCommand where
  | supported
  | configuration
  | status
  | descriptors
  | vendor
  | unknown (page : Int)
  deriving DecidableEq, Repr

/-- The buffer classes of `cdb/diagnostic/ses_pages/`. -/
inductive SesBuffer where
  | supported
  | configuration
  | status
  | descriptors
  | vendor
  | unknown
  deriving DecidableEq, Repr

/-- `SUPPORTED_SES_PAGES_COMMANDS` — `cdb/diagnostic/ses_pages/__init__.py:32-38`, codes at `17-21`. -/
def sesCommands : List (Int × SesCommand) :=
  [(0x00, .supported), (0x01, .configuration), (0x02, .status), (0x07, .descriptors), (0x80, .vendor)]

/-- `SUPPORTED_SES_PAGES_DATA` — `cdb/diagnostic/ses_pages/__init__.py:40-46`. -/
def sesBuffers : List (Int × SesBuffer) :=
  [(0x00, .supported), (0x01, .configuration), (0x02, .status), (0x07, .descriptors), (0x80, .vendor)]

/-- `get_ses_page` — `cdb/diagnostic/ses_pages/__init__.py:49-50`. -/
def getSesPage (code : Int) : SesCommand := (sesCommands.lookup code).getD (.unknown code)

/-- `get_ses_page_data` — `cdb/diagnostic/ses_pages/__init__.py:53-54`. -/
def getSesPageData (code : Int) : SesBuffer := (sesBuffers.lookup code).getD .unknown

/-- The arguments the constructors hand to `PCVReceiveDiagnosticResultCommand`: `supported_pages.py:15`, `configuration.py:112`,
`enclosure_status.py:506`, `element_descriptor.py:43`, `vendor_0x80.py:13`, `unknown.py:13`, all in `cdb/diagnostic/ses_pages/`. -/
def SesCommand.args : SesCommand → Int × Int × SesBuffer
  | .supported => (0x00, 255, .supported)
  | .configuration => (0x01, 65535, .configuration)
  | .status => (0x02, 65535, .status)
  | .descriptors => (0x07, 65535, .descriptors)
  | .vendor => (0x80, 255, .vendor)
  | .unknown page => (page, 2048, .unknown)

/-! ## Results -/

/-- What the commands yield. -/
inductive Result where
  /-- the data as it came from the executer -/
  | raw (d : Option Bytes)
  | true
  | capacity (attrs : List (String × Nat))
  | luns (r : ReportLunsResult)
  | groups (r : TargetPortGroups)
  | copy (r : ReceiveCopy)
  | reservations (r : PrinResult)
  | standard (r : StandardInquiry)
  | bytes (p : Page × List Nat)
  | serial (p : Page × Bytes)
  | designators (p : Page × List Designator)
  | ata (r : AtaInformation)
  | page (p : Page)
  | provisioning (p : Page × Option Designator)
  | diagnosticBytes (p : List (String × Int) × List Nat)
  | configuration (r : Ses.Configuration)
  | status (r : Ses.EnclosureStatus)
  | descriptors (r : Ses.ElementDescriptors)
  | unknownDiagnostic (attrs : List (String × Int))

/-- `result_class().unpack(datagram)` for a VPD page — `cdb/inquiry/__init__.py:44-46`. -/
def unpackVpd (B : BufLib) (b : Bytes) : VpdBuffer → Py Result
  | .supported => (supportedPages B b).map .bytes
  | .serial => (unitSerial B b).map .serial
  | .identification => (deviceIdentification B b).map .designators
  | .ata => (ataInformation B b).map .ata
  | .limits => (blockLimits B b).map .page
  | .provisioning => (Parse.provisioning B b).map .provisioning
  | .veritas => (Parse.veritas B b).map .page
  | .unknown => (unknownPage B b).map .bytes

/-- `result_class(conf_page=...)` and `unpack(datagram)` for a diagnostic page — `cdb/diagnostic/__init__.py:24-26`. `other` is what becomes of
the generic page (an open-ended integer field of a class that takes no `conf_page`; the library is external). Without a configuration page the
status and descriptor pages refer to attributes of `None`. -/
def unpackSes (B : BufLib) (other : Bytes → Py (List (String × Int))) (conf : Option Ses.Configuration) (b : Bytes) : SesBuffer → Py Result
  | .supported => (Ses.bytesPage B b).map .diagnosticBytes
  | .configuration => (Ses.configuration B b).map .configuration
  | .status =>
    match conf with
    | none => .error .attribute
    | some c => (Ses.enclosureStatus B c b).map .status
  | .descriptors =>
    match conf with
    | none => .error .attribute
    | some c => (Ses.elementDescriptors B c b).map .descriptors
  | .vendor => (Ses.bytesPage B b).map .diagnosticBytes
  | .unknown => (other b).map .unknownDiagnostic

/-! ## Command objects -/

/-- The command objects a caller can build. -/
inductive Cmd where
  /-- the commands that yield the executer's data unchanged -/
  | read6 (lba n bs : Int)
  | read10 (lba n bs : Int)
  | read12 (lba n bs : Int)
  | read16 (lba n bs : Int)
  | write6 (lba : Int) (buf : Bytes) (bs : Int)
  | write10 (lba : Int) (buf : Bytes) (bs : Int)
  | write12 (lba : Int) (buf : Bytes) (bs : Int)
  | write16 (lba : Int) (buf : Bytes) (bs : Int)
  | writeSame10 (lba : Int) (buf : Bytes) (n bs : Int)
  | writeSame16 (lba : Int) (buf : Bytes) (n bs : Int)
  | compareAndWrite (lba : Int) (buf : Bytes) (n bs : Int)
  | unmap (ranges : List (Int × Int))
  | logSense (page subpage alloc : Int)
  | reserve6
  | release6
  | reserve10 (id : Int)
  | release10 (id : Int)
  | persistentReserveOut (a : Cdb.ProutArgs)
  /-- the commands that decode -/
  | testUnitReady
  | standardInquiry (page evpd alloc : Int)
  | vpd (c : VpdCommand)
  | readCapacity10 (lba pmi : Int)
  | readCapacity16 (lba pmi : Int)
  | reportLuns (select alloc : Int) (allow : Bool)
  | rtpg (fmt alloc : Int)
  | receiveCopy (alloc ctrl : Int)
  | ses (c : SesCommand) (conf : Option Ses.Configuration)
  | persistentReserveIn (serviceAction alloc : Int)

/-- The CDB class and arguments behind a command object. -/
def Cmd.cdb : Cmd → Cdb.Cmd
  | .read6 lba n bs => .read6 lba n bs
  | .read10 lba n bs => .read10 lba n bs
  | .read12 lba n bs => .read12 lba n bs
  | .read16 lba n bs => .read16 lba n bs
  | .write6 lba buf bs => .write6 lba buf bs
  | .write10 lba buf bs => .write10 lba buf bs
  | .write12 lba buf bs => .write12 lba buf bs
  | .write16 lba buf bs => .write16 lba buf bs
  | .writeSame10 lba buf n bs => .writeSame10 lba buf n bs
  | .writeSame16 lba buf n bs => .writeSame16 lba buf n bs
  | .compareAndWrite lba buf n bs => .compareAndWrite lba buf n bs
  | .unmap ranges => .unmap ranges
  | .logSense page subpage alloc => .logSense page subpage alloc
  | .reserve6 => .reserve6
  | .release6 => .release6
  | .reserve10 id => .reserve10 id
  | .release10 id => .release10 id
  | .persistentReserveOut a => .persistentReserveOut a
  | .testUnitReady => .testUnitReady
  | .standardInquiry page evpd alloc => .inquiry evpd page alloc
  | .vpd c => .inquiry 1 c.args.1 c.args.2.1
  | .readCapacity10 lba pmi => .readCapacity10 lba pmi
  | .readCapacity16 lba pmi => .readCapacity16 lba pmi
  | .reportLuns select alloc _ => .reportLuns select alloc
  | .rtpg fmt alloc => .rtpg fmt alloc
  | .receiveCopy alloc ctrl => .receiveCopyOperatingParameters alloc ctrl
  | .ses c _ => .receiveDiagnostic 1 c.args.1 c.args.2.1
  | .persistentReserveIn sa alloc => .persistentReserveIn sa alloc

/-- Decoding needs a datagram: unpacking `None` raises (which exception is up to the external library). -/
def withData (f : Bytes → Py Result) : Option Bytes → Py Result
  | none => .error .typeError
  | some b => f b

/-- What `execute` does after the response arrived. `raw`: `read.py:45` and the others' `yield result_datagram`; `tur.py:21`;
`inquiry/__init__.py:44-46`; `read_capacity.py:33-34`, `67-68`; `report_luns.py:39-47`; `rtpg.py:42-49`;
`receive_copy_operating_parameters.py:17-19`; `diagnostic/__init__.py:24-26`; `persist/input.py:145-151` (all in `cdb/`). -/
def Cmd.decode (B : BufLib) (other : Bytes → Py (List (String × Int))) : Cmd → Option Bytes → Py Result
  | .testUnitReady, _ => .ok .true
  | .standardInquiry .., d => withData (fun b => (Parse.standardInquiry B b).map .standard) d
  | .vpd c, d => withData (fun b => unpackVpd B b c.args.2.2) d
  | .readCapacity10 .., d => withData (fun b => (Parse.readCapacity10 b).map .capacity) d
  | .readCapacity16 .., d => withData (fun b => (Parse.readCapacity16 b).map .capacity) d
  | .reportLuns _ alloc allow, d => (Parse.reportLuns alloc allow d).map .luns
  | .rtpg fmt _, d => withData (fun b => (Parse.rtpg B.sg fmt b).map .groups) d
  | .receiveCopy .., d => withData (fun b => (Parse.receiveCopy B.sg b).map .copy) d
  | .ses c conf, d => withData (fun b => unpackSes B other conf b c.args.2.2) d
  | .persistentReserveIn sa _, d => withData (fun b => (Parse.prin B.sg sa b).map .reservations) d
  | .read6 .., d | .read10 .., d | .read12 .., d | .read16 .., d | .write6 .., d | .write10 .., d | .write12 .., d | .write16 .., d
  | .writeSame10 .., d | .writeSame16 .., d | .compareAndWrite .., d | .unmap _, d | .logSense .., d | .reserve6, d | .release6, d
  | .reserve10 _, d | .release10 _, d | .persistentReserveOut _, d => .ok (.raw d)

/-- The command object as the generator `execute` sees it (`call` yields its datagram or `None`). -/
def Cmd.command (L : Lib) (B : BufLib) (other : Bytes → Py (List (String × Int))) (c : Cmd) : Command Req (Option Bytes) Result :=
  { request := Cdb.request L c.cdb, decode := fun d => c.decode B other (d.getD none) }

end Verif.Commands
