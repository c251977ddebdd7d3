import Verif.Spec.Data
/-!
# Sense data as SPC-4 describes it (section "Sense data")
-/

namespace Verif.Spec

/-- The names of the sense keys 0h..Fh. -/
def senseKeyNames : List String :=
  ["NO_SENSE", "RECOVERED_ERROR", "NOT_READY", "MEDIUM_ERROR", "HARDWARE_ERROR", "ILLEGAL_REQUEST", "UNIT_ATTENTION", "DATA_PROTECT", "BLANK_CHECK",
   "VENDOR_SPECIFIC", "COPY_ABORTED", "ABORTED_COMMAND", "RESERVED", "VOLUME_OVERFLOW", "MISCOMPARE", "COMPLETED"]

def senseKeyName (k : Nat) : String := senseKeyNames.getD k ""

/-- RESPONSE CODE: bits 6..0 of byte 0. -/
def responseCode (b : Bytes) : Nat := bitsAt b 0 6 0

/-- Fixed format, bytes 0..16 (all but the last byte of SENSE KEY SPECIFIC): what the library's attributes stand for. -/
def fixedSense (b : Bytes) : List (String × Nat) :=
  [("response_code.code", bitsAt b 0 6 0), ("response_code.valid", bitAt b 0 7), ("ili", bitAt b 2 5), ("eom", bitAt b 2 6), ("filemark", bitAt b 2 7),
   ("information", num b 3 4), ("additional_sense_length", byteAt b 7), ("command_specific_information", num b 8 4),
   ("additional_sense_code.code", byteAt b 12), ("additional_sense_code.qualifier", byteAt b 13), ("field_replaceable_unit_code", byteAt b 14),
   ("sense_key_specific_high", bitsAt b 15 6 0), ("sksv", bitAt b 15 7), ("sense_key_specific_low", byteAt b 16)]

/-- SENSE KEY SPECIFIC: 23 bits in bytes 15..17 after SKSV. -/
def senseKeySpecific (b : Bytes) : Nat := num b 15 3 % 2 ^ 23

/-- A sense data descriptor: type, additional length, data. -/
structure SenseDescriptor where
  type : UInt8
  data : Bytes

def SenseDescriptor.encode (d : SenseDescriptor) : Bytes := d.type :: byte d.data.length :: d.data

/-- Descriptor format: response code, sense key, ASC, ASCQ, three reserved bytes, ADDITIONAL SENSE LENGTH (byte 7), the descriptors. -/
def descriptorSense (code key asc ascq : Nat) (ds : List SenseDescriptor) : Bytes :=
  [byte code, byte key, byte asc, byte ascq, 0, 0, 0, byte (ds.flatMap SenseDescriptor.encode).length] ++ ds.flatMap SenseDescriptor.encode

/-- Sense data of either format (bytes beyond the end count as zero) that reports this sense key, additional sense code and qualifier. In
descriptor format byte 6 is reserved. -/
def ReportsSense (b : Bytes) (key asc ascq : Nat) : Prop :=
  ((responseCode b = 0x70 ∨ responseCode b = 0x71) ∧ key = bitsAt b 2 3 0 ∧ asc = byteAt b 12 ∧ ascq = byteAt b 13) ∨
  ((responseCode b = 0x72 ∨ responseCode b = 0x73) ∧ byteAt b 6 = 0 ∧ key = bitsAt b 1 3 0 ∧ asc = byteAt b 2 ∧ ascq = byteAt b 3)

/-- The sixteen digits of hexadecimal numbers. -/
def hexDigits : List Char := ['0', '1', '2', '3', '4', '5', '6', '7', '8', '9', 'A', 'B', 'C', 'D', 'E', 'F']

/-- A byte as the text `%2X` of Python shows it: two characters, the first of them a blank for numbers of one digit. -/
def byteText (q : Nat) : String :=
  String.ofList [if q / 16 = 0 then ' ' else hexDigits.getD (q / 16) ' ', hexDigits.getD (q % 16) ' ']

end Verif.Spec
