import Verif.Platform.Linux
import Verif.Platform.Aix
import Verif.Platform.Solaris
import Verif.Platform.Win32
/-!
# The texts of the exceptions for failed commands

linux.py:239-264, aix.py:237-243, 372-401, solaris.py:207-226, win32.py:375-382. The platform models have these exceptions without their texts; here are the
texts, from the same response blocks.
-/

namespace Verif.Messages
open Verif.Platform

/-- One digit of `%x` or `%d`. -/
def digit (n : Nat) : Char := (['0', '1', '2', '3', '4', '5', '6', '7', '8', '9', 'a', 'b', 'c', 'd', 'e', 'f'][n]?).getD '0'

/-- The digits of a number, no zeros in front. -/
def digits (base : Nat) (n : Nat) : List Char :=
  if _h : 2 ≤ base ∧ base ≤ n then digits base (n / base) ++ [digit (n % base)] else [digit n]
termination_by n
decreasing_by exact Nat.div_lt_self (by omega) (by omega)

/-- `"%02x" % n` for a number that is not negative. -/
def hex2 (n : Nat) : List Char :=
  let d := digits 16 n
  if d.length < 2 then '0' :: d else d

/-- `"%d" % n` for a number that is not negative. -/
def decimal (n : Nat) : List Char := digits 10 n

/-- `prettify_status` (linux.py:113-115); the table is a `dict` from names to codes. -/
def prettify (code : Nat) (table : List (String × Nat)) : List Char :=
  let names := (table.filter fun e => e.2 == code).map Prod.fst
  (names.head?.getD "").toList ++ " 0x".toList ++ hex2 code

/-- `SCSI_STATUS_CODES` (__init__.py:14-23) -/
def statusCodes : List (String × Nat) :=
  [("SCSI_STATUS_GOOD", 0x00), ("SCSI_STATUS_CHECK_CONDITION", 0x02), ("SCSI_STATUS_CONDITION_MET", 0x04), ("SCSI_STATUS_BUSY", 0x08),
   ("SCSI_STATUS_RESERVATION_CONFLICT", 0x18), ("SCSI_STATUS_TASK_SET_FULL", 0x28), ("SCSI_STATUS_ACA_ACTIVE", 0x30), ("SCSI_STATUS_TASK_ABORTED", 0x40)]

/-- `DRIVER_STATUS_CODES` (linux.py:77-92) -/
def driverCodes : List (String × Nat) :=
  [("SG_ERR_DRIVER_OK", 0x00), ("SG_ERR_DRIVER_BUSY", 0x01), ("SG_ERR_DRIVER_SOFT", 0x02), ("SG_ERR_DRIVER_MEDIA", 0x03), ("SG_ERR_DRIVER_ERROR", 0x04),
   ("SG_ERR_DRIVER_INVALID", 0x05), ("SG_ERR_DRIVER_TIMEOUT", 0x06), ("SG_ERR_DRIVER_HARD", 0x07), ("SG_ERR_DRIVER_SENSE", 0x08),
   ("SG_ERR_SUGGEST_RETRY", 0x10), ("SG_ERR_SUGGEST_ABORT", 0x20), ("SG_ERR_SUGGEST_REMAP", 0x30), ("SG_ERR_SUGGEST_DIE", 0x40),
   ("SG_ERR_SUGGEST_SENSE", 0x80)]

/-- `HOST_STATUS_CODES` (linux.py:95-108) -/
def hostCodes : List (String × Nat) :=
  [("SG_ERR_DID_OK", 0x00), ("SG_ERR_DID_NO_CONNECT", 0x01), ("SG_ERR_DID_BUS_BUSY", 0x02), ("SG_ERR_DID_TIME_OUT", 0x03), ("SG_ERR_DID_BAD_TARGET", 0x04),
   ("SG_ERR_DID_ABORT", 0x05), ("SG_ERR_DID_PARITY", 0x06), ("SG_ERR_DID_ERROR", 0x07), ("SG_ERR_DID_RESET", 0x08), ("SG_ERR_DID_BAD_INTR", 0x09),
   ("SG_ERR_DID_PASSTHROUGH", 0x0a), ("SG_ERR_DID_SOFT_ERROR", 0x0b)]

/-- `"...: %s(driver status: %s, host status: %s)"` (linux.py:245-249, 259-263) -/
def linuxFull (head : String) (status driver host : Nat) : List Char :=
  head.toList ++ prettify status statusCodes ++ "(driver status: ".toList ++ prettify (driver &&& 0x0f) driverCodes ++ ", host status: ".toList ++
    prettify host hostCodes ++ ")".toList

/-- The text of the `AsiSCSIError` of `_handle_raw_response` (linux.py:233-264), if there is one. -/
def linuxText (status driver host : Nat) : Option (List Char) :=
  if status &&& 2 ≠ 0 ∨ driver &&& 8 ≠ 0 then none
  else if status ≠ 0 then
    if host = 0x07 then none
    else if host = 0x18 then none
    else some (linuxFull "SCSI response status is not zero: " status driver host)
  else if driver &&& 0x0F ≠ 0 then
    some ("SCSI driver response status is not zero: ".toList ++ prettify status statusCodes ++ " (host status: ".toList ++
      prettify (driver &&& 0x0f) driverCodes ++ ")".toList)
  else if host ≠ 0 then some (linuxFull "SCSI host status is not zero: " status driver host)
  else none

/-- The same from the response. -/
def linuxMessage (a : Abi) (raw : Bytes) : Option (List Char) :=
  linuxText (load a (Linux.fld a "status") raw).toNat (load a (Linux.fld a "driver_status") raw).toNat (load a (Linux.fld a "host_status") raw).toNat

/-- `STATUS_VALIDITY_CODES` (aix.py:182-185) -/
def validityCodes : List (String × Nat) := [("SC_SCSI_ERROR", 1), ("SC_ADAPTER_ERROR", 2)]

/-- `ADAPTER_STATUS_CODES` (aix.py:198-214) -/
def adapterCodes : List (String × Nat) :=
  [("SCSI_HOST_IO_BUS_ERR", 0x01), ("SCSI_TRANSPORT_FAULT", 0x02), ("SCSI_CMD_TIMEOUT", 0x03), ("SCSI_NO_DEVICE_RESPONSE", 0x04),
   ("SCSI_ADAPTER_HDW_FAILURE", 0x05), ("SCSI_ADAPTER_SFW_FAILURE", 0x06), ("SCSI_WW_NAME_CHANGE", 0x07), ("SCSI_FUSE_OR_TERMINAL_PWR", 0x08),
   ("SCSI_TRANSPORT_RESET", 0x09), ("SCSI_TRANSPORT_BUSY", 0x0a), ("SCSI_TRANSPORT_DEAD", 0x0b), ("SCSI_VERIFY_DEVICE", 0x0c),
   ("SCSI_TRANSPORT_MIGRATED", 0x0d), ("SCSI_ERROR_NO_RETRY", 0x0e), ("SCSI_ERROR_DELAY_LOG", 0x0f)]

/-- `EINVAL_CODES` (aix.py:217-234) -/
def einvalCodes : List (String × Nat) :=
  [("SC_PASSTHRU_INV_VERS", 1), ("SC_PASSTHRU_INV_Q_TAG_MSG", 9), ("SC_PASSTHRU_INV_FLAGS", 10), ("SC_PASSTHRU_INV_DEVFLAGS", 11),
   ("SC_PASSTHRU_INV_Q_FLAGS", 12), ("SC_PASSTHRU_INV_CDB_LEN", 13), ("SC_PASSTHRU_INV_AS_LEN", 15), ("SC_PASSTHRU_INV_CDB", 16),
   ("SC_PASSTHRU_INV_TO", 17), ("SC_PASSTHRU_INV_D_LEN", 18), ("SC_PASSTHRU_INV_SID", 19), ("SC_PASSTHRU_INV_LUN", 20),
   ("SC_PASSTHRU_INV_BUFF", 21), ("SC_PASSTHRU_INV_AS_BUFF", 22), ("SC_PASSTHRU_INV_VAR_CDB_LEN", 23), ("SC_PASSTHRU_INV_VAR_CDB", 24)]

/-- `AixAsiSCSIError` (aix.py:237-243) -/
def aixFull (msg : String) (validity bus adapter : Nat) : List Char :=
  msg.toList ++ ", validity=".toList ++ prettify validity validityCodes ++ ", scsi_bus_status=".toList ++ prettify (bus &&& 0x1e) statusCodes ++
    ", adapter_status=".toList ++ prettify adapter adapterCodes

/-- The text of the exception of `_handle_raw_response` (aix.py:392-401), if there is one. -/
def aixText (validity bus adapter : Nat) : Option (List Char) :=
  if validity ≠ 0 then
    if validity = 1 then
      if (bus &&& 0x1e) &&& 2 ≠ 0 then none else some (aixFull "SCSI bus response status is not zero" validity bus adapter)
    else if validity = 2 then some (aixFull "SCSI adapter response status is not zero" validity bus adapter)
    else some (aixFull "SCSI response status validity unknown" validity bus adapter)
  else none

def aixMessage (a : Abi) (raw : Bytes) : Option (List Char) :=
  aixText (load a (Aix.fld a "status_validity") raw).toNat (load a (Aix.fld a "scsi_bus_status") raw).toNat (load a (Aix.fld a "adapter_status") raw).toNat

/-- The text of the `AsiOSError` for an ioctl that failed with an invalid argument (aix.py:377-379). -/
def aixInvalid (code : Nat) : List Char := "ioctl failed, invalid argument: ".toList ++ prettify code einvalCodes

/-- `response_reason_code` (solaris.py:213): `(uscsi_status << 8) & 0xFF` -/
def solarisReason (status : Int) : Nat := (status * 2 ^ 8 % 256).toNat

/-- The text of the `AsiSCSIError` of `_handle_raw_response` (solaris.py:212-226), if there is one; `status` is the two bytes of `uscsi_status`. -/
def solarisText (status : Int) (rqstatus : Nat) : Option (List Char) :=
  let code := (status % 256).toNat
  if code &&& 2 ≠ 0 then none
  else if code ≠ 0 then
    some ("SCSI response status is not zero: 0x".toList ++ hex2 code ++ " (SCSI reason: 0x".toList ++ hex2 (solarisReason status) ++ ")".toList)
  else if rqstatus ≠ 0 then some ("SCSI request commmand status is not zero: 0x".toList ++ hex2 rqstatus)
  else none

def solarisMessage (a : Abi) (raw : Bytes) : Option (List Char) :=
  solarisText (load a (Solaris.fld a "uscsi_status") raw) (load a (Solaris.fld a "uscsi_rqstatus") raw).toNat

/-- The text of the `AsiSCSIError` of `_os_receive` (win32.py:377-382), if there is one. -/
def win32Text (status : Nat) : Option (List Char) :=
  if status ≠ 0 then
    if status = 2 then none else some ("SCSI response status is not zero: ".toList ++ decimal status)
  else none

def win32Message (a : Abi) (raw : Bytes) : Option (List Char) := win32Text (load a (Win32.fld a "ScsiStatus") raw).toNat

/-! ## CHECK CONDITION (errors.py:14-19) -/

/-- `hexlify` -/
def hexlify (b : Bytes) : List Char := b.flatMap fun x => [digit (x.toNat / 16), digit (x.toNat % 16)]

/-- `"%s" % b` of a byte string: as it is in Python 2, `b'..'` in Python 3 (hexadecimal digits need no escapes). -/
def formatBytes (py3 : Bool) (b : List Char) : List Char := if py3 then ['b', '\''] ++ b ++ ['\''] else b

/-- The text of an `AsiCheckConditionError` (errors.py:16-17). `repr` is what `repr(sense_obj)` gives; the structures of the library are external. -/
def checkConditionText (py3 : Bool) (repr : List Char) (buffer : Bytes) : List Char :=
  "SCSI Check Condition status, sense ".toList ++ repr ++ " [".toList ++ formatBytes py3 (hexlify buffer) ++ "]".toList

/-- The text of the exception of a call, if it is an `AsiCheckConditionError`. -/
def senseText {S : Type} (py3 : Bool) (repr : Option S → List Char) : Executer.Exn (DevErr S) → Option (List Char)
  | .dev (.checkCondition buffer sense) => some (checkConditionText py3 (repr sense) buffer)
  | _ => none

end Verif.Messages
