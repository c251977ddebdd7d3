import Verif.Spec.Messages
/-!
# What the numbers mean

The names that the standards (SPC-4, SES-3) give the values of some fields, worded as the library words them; `none` for values without a
name. Nothing here refers to the model.
-/

namespace Verif.Spec.Names

open Verif.Spec.Messages

/-- PERIPHERAL DEVICE TYPE, five bits (SPC-4 table 141). Values the standard reserves are named by their number. -/
def deviceType : Nat → Option String
  | 0x00 => some "disk"
  | 0x01 => some "tape"
  | 0x02 => some "printer"
  | 0x03 => some "processor"
  | 0x04 => some "write once optical disk"
  | 0x05 => some "cd/dvd"
  | 0x06 => some "scanner"
  | 0x07 => some "optical memory device"
  | 0x08 => some "medium changer"
  | 0x09 => some "communications"
  | 0x0a => some "graphics [0xa]"
  | 0x0b => some "graphics [0xb]"
  | 0x0c => some "storage array controller"
  | 0x0d => some "enclosure services device"
  | 0x0e => some "simplified direct access device"
  | 0x0f => some "optical card reader/writer device"
  | 0x10 => some "bridge controller commands"
  | 0x11 => some "object based storage"
  | 0x12 => some "automation/driver interface"
  | 0x13 => some "security manager device"
  | 0x14 => some "zoned block commands"
  | 0x15 => some "0x15"
  | 0x16 => some "0x16"
  | 0x17 => some "0x17"
  | 0x18 => some "0x18"
  | 0x19 => some "0x19"
  | 0x1a => some "0x1a"
  | 0x1b => some "0x1b"
  | 0x1c => some "0x1c"
  | 0x1d => some "0x1d"
  | 0x1e => some "well known logical unit"
  | 0x1f => some "no physical device on this lu"
  | _ => none

/-- VERSION, one byte (SPC-4 table 142). -/
def version : Nat → Option String
  | 0x00 => some "no conformance claimed"
  | 0x01 => some "SCSI-1"
  | 0x02 => some "SCSI-2"
  | 0x03 => some "SPC"
  | 0x04 => some "SPC-2"
  | 0x05 => some "SPC-3"
  | 0x06 => some "SPC-4"
  | 0x07 => some "SPC-5"
  | _ => none

/-- VPD pages that are the same for all devices, by page code (SPC-4 table 517), and those of some vendors. -/
def commonPage : Nat → Option String
  | 0x00 => some "Supported VPD pages"
  | 0x80 => some "Unit serial number"
  | 0x81 => some "Implemented operating definitions (obsolete)"
  | 0x82 => some "ASCII implemented operating definition (obsolete)"
  | 0x83 => some "Device identification"
  | 0x84 => some "Software interface identification"
  | 0x85 => some "Management network addresses"
  | 0x86 => some "Extended INQUIRY data"
  | 0x87 => some "Mode page policy"
  | 0x88 => some "SCSI ports"
  | 0x89 => some "ATA information"
  | 0x8a => some "Power condition"
  | 0x8b => some "Device constituents"
  | 0x8c => some "CFA profile information"
  | 0x8d => some "Power consumption"
  | 0x8f => some "Third party copy"
  | 0x90 => some "Protocol-specific logical unit information"
  | 0x91 => some "Protocol-specific port information"
  | 0x92 => some "SCSI Feature sets"
  | 0xc0 => some "vendor: Firmware numbers (seagate); Unit path report (EMC)"
  | 0xc1 => some "vendor: Date code (seagate)"
  | 0xc2 => some "vendor: Jumper settings (seagate); Software version (RDAC)"
  | 0xc3 => some "vendor: Device behavior (seagate)"
  | 0xc9 => some "Volume Access Control (RDAC)"
  | _ => none

/-- Page B0h, by device type. -/
def pageB0 : Nat → Option String
  | 0x00 => some "Block limits (sbc2)"
  | 0x01 => some "Sequential access device capabilities (ssc3)"
  | 0x11 => some "OSD information (osd)"
  | _ => none

/-- Page B1h, by device type. -/
def pageB1 : Nat → Option String
  | 0x00 => some "Block device characteristics (sbc3)"
  | 0x11 => some "Security token (osd)"
  | 0x0d => some "Enclosure services device characteristics (ses4)"
  | _ => none

/-- Page B2h, by device type. -/
def pageB2 : Nat → Option String
  | 0x00 => some "Logical block provisioning (sbc3)"
  | 0x01 => some "TapeAlert supported flags (ssc3)"
  | _ => none

/-- Page B3h, by device type. -/
def pageB3 : Nat → Option String
  | 0x00 => some "Referrals (sbc3)"
  | _ => none

/-- VPD pages by page code and device type; pages B0h to B3h belong to the command sets. -/
def page (code type : Nat) : Option String :=
  if code = 0xb0 then pageB0 type
  else if code = 0xb1 then pageB1 type
  else if code = 0xb2 then pageB2 type
  else if code = 0xb3 then pageB3 type
  else commonPage code

/-- CODE SET, four bits (SPC-4 table 23). -/
def codeSet : Nat → Option String
  | 0x01 => some "Binary"
  | 0x02 => some "ASCII"
  | 0x03 => some "UTF8"
  | _ => none

/-- ASSOCIATION, two bits (SPC-4 table 530). -/
def association : Nat → Option String
  | 0x00 => some "Addressed logical unit"
  | 0x01 => some "Target port"
  | 0x02 => some "Target device that contains addressed lu"
  | 0x03 => some "Reserved [0x3]"
  | _ => none

/-- ELEMENT TYPE, one byte (SES-3 7.1), and the type of one vendor. -/
def elementType : Nat → Option String
  | 0x00 => some "Unspecified"
  | 0x01 => some "Device Slot"
  | 0x02 => some "Power Supply"
  | 0x03 => some "Cooling"
  | 0x04 => some "Temperature Sensor"
  | 0x05 => some "Door"
  | 0x06 => some "Audible Alarm"
  | 0x07 => some "Enclosure Services Controller Electronics"
  | 0x08 => some "SCC Controller Electronics"
  | 0x09 => some "Nonvolatile Cache"
  | 0x0a => some "Invalid Operation Reason"
  | 0x0b => some "Uninterruptible Power Supply"
  | 0x0c => some "Display"
  | 0x0d => some "Key Pad Entry"
  | 0x0e => some "Enclosure"
  | 0x0f => some "SCSI Port/Transceiver"
  | 0x10 => some "Language"
  | 0x11 => some "Communication Port"
  | 0x12 => some "Voltage Sensor"
  | 0x13 => some "Current Sensor"
  | 0x14 => some "SCSI Target Port"
  | 0x15 => some "SCSI Initiator Port"
  | 0x16 => some "Simple Subenclosure"
  | 0x17 => some "Array Device Slot"
  | 0x18 => some "SAS Expander"
  | 0x19 => some "SAS Connector"
  | 0x9e => some "Sanmina Specific Data"
  | _ => none

/-- ACTUAL SPEED CODE, three bits (SES-3 7.3.5). -/
def fanSpeed : Nat → Option String
  | 0x00 => some "Cooling mechanism is stopped"
  | 0x01 => some "Cooling mechanism is at its lowest speed"
  | 0x02 => some "Cooling mechanism is at its second lowest speed"
  | 0x03 => some "Cooling mechanism is at its third lowest speed"
  | 0x04 => some "Cooling mechanism is at its intermediate speed"
  | 0x05 => some "Cooling mechanism is at its third highest speed"
  | 0x06 => some "Cooling mechanism is at its second highest speed"
  | 0x07 => some "Cooling mechanism is at its highest speed"
  | _ => none

/-- ELEMENT STATUS CODE, four bits (SES-3 7.2.3). -/
def status : Nat → Option String
  | 0x00 => some "Unsupported"
  | 0x01 => some "OK"
  | 0x02 => some "Critical"
  | 0x03 => some "Noncritical"
  | 0x04 => some "Unrecoverable"
  | 0x05 => some "Not Installed"
  | 0x06 => some "Unknown"
  | 0x07 => some "Not Available"
  | 0x08 => some "No Access"
  | _ => none

/-- DESIGNATOR TYPE, four bits (SPC-4 table 531), the values that are not reserved. -/
def designatorType : Nat → Option String
  | 0x00 => some "vendor specific [0x0]"
  | 0x01 => some "T10 vendor identification"
  | 0x02 => some "EUI-64 based"
  | 0x03 => some "NAA"
  | 0x04 => some "Relative target port"
  | 0x05 => some "Target port group"
  | 0x06 => some "Logical unit group"
  | 0x07 => some "MD5 logical unit identifier"
  | 0x08 => some "SCSI name string"
  | 0x09 => some "Protocol specific port identifier"
  | 0x0a => some "UUID identifier"
  | _ => none

/-- A way to name all designator types: as above, and reserved ones by the word and the number. -/
def DesignatorNames (name : Nat → String) : Prop :=
  (∀ n s, designatorType n = some s → name n = s) ∧
  ∀ n, designatorType n = none →
    ∃ digits : List Char, (∀ c ∈ digits, isDigit 16 c = true) ∧ number 16 digits = n ∧ (name n).toList = "Reserved [0x".toList ++ digits ++ [']']

/-- A question about a designator type: with an answer for every number, or only for the numbers that are there already. -/
inductive Ask where
  | item (n : Nat)
  | get (n : Nat)
  deriving DecidableEq, Repr

/-- Answers that depend on nothing but the question. -/
def answer (name : Nat → String) : Ask → Option String
  | .item n => some (name n)
  | .get n => if (designatorType n).isSome then some (name n) else none

/-- Answers of a table that keeps the reserved numbers somebody has asked for. -/
def answers (name : Nat → String) (seen : List Nat) : List Ask → List (Option String)
  | [] => []
  | .item n :: as => some (name n) :: answers name (n :: seen) as
  | .get n :: as => (if (designatorType n).isSome ∨ n ∈ seen then some (name n) else none) :: answers name seen as

/-- Different values have different names. -/
def Distinct (f : Nat → Option String) : Prop := ∀ m n s, f m = some s → f n = some s → m = n

end Verif.Spec.Names
