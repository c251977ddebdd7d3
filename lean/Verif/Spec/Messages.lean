/-!
# Reading the message of an exception

What somebody who reads a log does: look for a label, read the name and the number behind it. Nothing here refers to the model.
-/

namespace Verif.Spec.Messages

/-- The parts of a text between occurrences of a character. -/
def parts (sep : Char) : List Char → List (List Char)
  | [] => [[]]
  | c :: cs =>
    if c = sep then [] :: parts sep cs
    else
      match parts sep cs with
      | [] => [[c]]
      | p :: ps => (c :: p) :: ps

/-- The part that follows the first part that ends with the label. -/
def partAfter (label : List Char) : List (List Char) → Option (List Char)
  | p :: q :: ps => if label.isSuffixOf p then some q else partAfter label (q :: ps)
  | _ => none

/-- The value of a digit, decimal or hexadecimal. -/
def digitValue (c : Char) : Option Nat :=
  match c with
  | '0' => some 0 | '1' => some 1 | '2' => some 2 | '3' => some 3 | '4' => some 4 | '5' => some 5 | '6' => some 6 | '7' => some 7
  | '8' => some 8 | '9' => some 9 | 'a' => some 10 | 'b' => some 11 | 'c' => some 12 | 'd' => some 13 | 'e' => some 14 | 'f' => some 15
  | _ => none

def isDigit (base : Nat) (c : Char) : Bool :=
  match digitValue c with
  | some v => decide (v < base)
  | none => false

/-- The number that digits stand for. -/
def number (base : Nat) (cs : List Char) : Nat := cs.foldl (fun n c => n * base + (digitValue c).getD 0) 0

/-- A name and the hexadecimal number behind it: `NAME 0x1f`. The name is what is in front of the `0x` without spaces. -/
def nameAndNumber (p : List Char) : String × Nat :=
  (String.ofList (((p.takeWhile (· ≠ 'x')).dropLast).filter (· ≠ ' ')), number 16 (((p.dropWhile (· ≠ 'x')).drop 1).takeWhile (isDigit 16)))

/-- What a text says behind a label and a separator. -/
def told (sep : Char) (label : String) (text : List Char) : Option (String × Nat) := (partAfter label.toList (parts sep text)).map nameAndNumber

/-- The decimal number that a text says behind a label and a colon. -/
def toldDecimal (label : String) (text : List Char) : Option Nat :=
  (partAfter label.toList (parts ':' text)).map fun p => number 10 ((p.dropWhile (· = ' ')).takeWhile (isDigit 10))

/-- SCSI status codes (SAM-5 5.3.1). -/
def statusName : Nat → String
  | 0x00 => "SCSI_STATUS_GOOD"
  | 0x02 => "SCSI_STATUS_CHECK_CONDITION"
  | 0x04 => "SCSI_STATUS_CONDITION_MET"
  | 0x08 => "SCSI_STATUS_BUSY"
  | 0x18 => "SCSI_STATUS_RESERVATION_CONFLICT"
  | 0x28 => "SCSI_STATUS_TASK_SET_FULL"
  | 0x30 => "SCSI_STATUS_ACA_ACTIVE"
  | 0x40 => "SCSI_STATUS_TASK_ABORTED"
  | _ => ""

/-- The low nibble of the driver status of sg (sg_err.h). -/
def driverName : Nat → String
  | 0 => "SG_ERR_DRIVER_OK"
  | 1 => "SG_ERR_DRIVER_BUSY"
  | 2 => "SG_ERR_DRIVER_SOFT"
  | 3 => "SG_ERR_DRIVER_MEDIA"
  | 4 => "SG_ERR_DRIVER_ERROR"
  | 5 => "SG_ERR_DRIVER_INVALID"
  | 6 => "SG_ERR_DRIVER_TIMEOUT"
  | 7 => "SG_ERR_DRIVER_HARD"
  | 8 => "SG_ERR_DRIVER_SENSE"
  | _ => ""

/-- The host status of sg (sg_err.h). -/
def hostName : Nat → String
  | 0 => "SG_ERR_DID_OK"
  | 1 => "SG_ERR_DID_NO_CONNECT"
  | 2 => "SG_ERR_DID_BUS_BUSY"
  | 3 => "SG_ERR_DID_TIME_OUT"
  | 4 => "SG_ERR_DID_BAD_TARGET"
  | 5 => "SG_ERR_DID_ABORT"
  | 6 => "SG_ERR_DID_PARITY"
  | 7 => "SG_ERR_DID_ERROR"
  | 8 => "SG_ERR_DID_RESET"
  | 9 => "SG_ERR_DID_BAD_INTR"
  | 10 => "SG_ERR_DID_PASSTHROUGH"
  | 11 => "SG_ERR_DID_SOFT_ERROR"
  | _ => ""

/-- `status_validity` of AIX's `sc_passthru`. -/
def validityName : Nat → String
  | 1 => "SC_SCSI_ERROR"
  | 2 => "SC_ADAPTER_ERROR"
  | _ => ""

/-- `adapter_status` of AIX's `sc_passthru` (scsi_buf.h). -/
def adapterName : Nat → String
  | 1 => "SCSI_HOST_IO_BUS_ERR"
  | 2 => "SCSI_TRANSPORT_FAULT"
  | 3 => "SCSI_CMD_TIMEOUT"
  | 4 => "SCSI_NO_DEVICE_RESPONSE"
  | 5 => "SCSI_ADAPTER_HDW_FAILURE"
  | 6 => "SCSI_ADAPTER_SFW_FAILURE"
  | 7 => "SCSI_WW_NAME_CHANGE"
  | 8 => "SCSI_FUSE_OR_TERMINAL_PWR"
  | 9 => "SCSI_TRANSPORT_RESET"
  | 10 => "SCSI_TRANSPORT_BUSY"
  | 11 => "SCSI_TRANSPORT_DEAD"
  | 12 => "SCSI_VERIFY_DEVICE"
  | 13 => "SCSI_TRANSPORT_MIGRATED"
  | 14 => "SCSI_ERROR_NO_RETRY"
  | 15 => "SCSI_ERROR_DELAY_LOG"
  | _ => ""

/-- `einval_arg` of AIX's `sc_passthru`. -/
def einvalName : Nat → String
  | 1 => "SC_PASSTHRU_INV_VERS"
  | 9 => "SC_PASSTHRU_INV_Q_TAG_MSG"
  | 10 => "SC_PASSTHRU_INV_FLAGS"
  | 11 => "SC_PASSTHRU_INV_DEVFLAGS"
  | 12 => "SC_PASSTHRU_INV_Q_FLAGS"
  | 13 => "SC_PASSTHRU_INV_CDB_LEN"
  | 15 => "SC_PASSTHRU_INV_AS_LEN"
  | 16 => "SC_PASSTHRU_INV_CDB"
  | 17 => "SC_PASSTHRU_INV_TO"
  | 18 => "SC_PASSTHRU_INV_D_LEN"
  | 19 => "SC_PASSTHRU_INV_SID"
  | 20 => "SC_PASSTHRU_INV_LUN"
  | 21 => "SC_PASSTHRU_INV_BUFF"
  | 22 => "SC_PASSTHRU_INV_AS_BUFF"
  | 23 => "SC_PASSTHRU_INV_VAR_CDB_LEN"
  | 24 => "SC_PASSTHRU_INV_VAR_CDB"
  | _ => ""

/-- The bytes that pairs of hexadecimal digits stand for. -/
def hexPairs : List Char → Option (List UInt8)
  | [] => some []
  | a :: b :: cs =>
    match digitValue a, digitValue b, hexPairs cs with
    | some x, some y, some r => some (UInt8.ofNat (16 * x + y) :: r)
    | _, _, _ => none
  | _ => none

/-- What stands in the last brackets of a text, without the quotes of a Python byte string. -/
def lastBrackets (text : List Char) : List Char :=
  let inside := (((text.reverse.dropWhile (· ≠ ']')).drop 1).takeWhile (· ≠ '[')).reverse
  if inside.getLast? = some '\'' then (inside.drop 2).dropLast else inside

/-- The sense data that a text shows in its last brackets. -/
def senseTold (text : List Char) : Option (List UInt8) := hexPairs (lastBrackets text)

end Verif.Spec.Messages
