import Verif.Sense.AscTable
import Verif.Parse.Simple
/-!
# Sense data: `infi/asi/sense`
-/

namespace Verif.Sense
open Verif.Parse

/-! ## Additional sense codes -/

/-- `"%2X" % i`: upper case hexadecimal, padded with a blank to two characters. -/
def hex2 (i : Nat) : String :=
  let s := (String.ofList (Nat.toDigits 16 i)).toUpper
  if i < 16 then " " ++ s else s

/-- The entries added by `for i in range(0x80, 0xFF)` — `sense/asc.py:671-672` — in the order of insertion. -/
def ascLoop1 : List ((Nat × Nat) × String) :=
  ((List.range (0xFF - 0x80)).map (· + 0x80)).map fun i => ((0x40, i), "DIAGNOSTIC FAILURE ON COMPONENT " ++ hex2 i)

/-- The entries added by `for i in range(0, 0xFF)` — `sense/asc.py:674-676`. -/
def ascLoop2 : List ((Nat × Nat) × String) :=
  (List.range 0xFF).flatMap fun i => [((0x4D, i), "TAGGED OVERLAPPED COMMANDS (" ++ hex2 i ++ " = TASK TAG)"),
    ((0x70, i), "DECOMPRESSION EXCEPTION SHORT ALGORITHM ID OF " ++ hex2 i)]

/-- All insertions into `ASC_CODES`, oldest first. -/
def ascInsertions : List ((Nat × Nat) × String) := ascLiteral.map (fun e => ((e.1, e.2.1), e.2.2)) ++ ascLoop1 ++ ascLoop2

/-- `ASC_CODES.get(key)`: the last insertion for a key wins. -/
def ascLookup (c q : Nat) : Option String := ascInsertions.reverse.lookup (c, q)

/-- `"Unknown code, qualifier: {}, {}".format(code, qualifier)` — `sense/asc.py:687`. -/
def ascUnknown (c q : Nat) : String := "Unknown code, qualifier: " ++ toString c ++ ", " ++ toString q

/-- `AdditionalSenseCode.code_name` — `sense/asc.py:684-687`; `struct.pack(">BB", …)` raises for numbers above 255. -/
def codeName (c q : Nat) : Py String :=
  if c < 256 ∧ q < 256 then .ok ((ascLookup c q).getD (ascUnknown c q)) else .error .structError

/-! ## Sense data -/

/-- `SCSI_SENSE_KEY` — `sense/__init__.py:6-21`. -/
def senseKeys : List (String × Nat) :=
  [("NO_SENSE", 0x00), ("RECOVERED_ERROR", 0x01), ("NOT_READY", 0x02), ("MEDIUM_ERROR", 0x03), ("HARDWARE_ERROR", 0x04), ("ILLEGAL_REQUEST", 0x05),
   ("UNIT_ATTENTION", 0x06), ("DATA_PROTECT", 0x07), ("BLANK_CHECK", 0x08), ("VENDOR_SPECIFIC", 0x09), ("COPY_ABORTED", 0x0A),
   ("ABORTED_COMMAND", 0x0B), ("RESERVED", 0x0C), ("VOLUME_OVERFLOW", 0x0D), ("MISCOMPARE", 0x0E), ("COMPLETED", 0x0F)]

/-- `MappingField("sense_key", BitMarshal(4), SCSI_SENSE_KEY)`: the name with this value; no name is an error of the library. -/
def senseKeyName (k : Nat) : Py String :=
  match senseKeys.find? (fun p => p.2 == k) with
  | some p => .ok p.1
  | none => .error .instruct

/-- `SCSISenseResponseCode` — `sense/__init__.py:47-51`. -/
def responseCodeBits : Decl := .bits [.field "response_code.code" 7 none, .field "response_code.valid" 1 none]

/-- `SCSISenseDataFixed` — `sense/__init__.py:68-89`; members of nested structures are written with a dot. -/
def fixedDecls : List Decl :=
  [responseCodeBits, .pad 1, .bits [.field "sense_key" 4 none, .pad 1, .field "ili" 1 none, .field "eom" 1 none, .field "filemark" 1 none],
   .uint "information" 4, .uint "additional_sense_length" 1, .uint "command_specific_information" 4, .uint "additional_sense_code.code" 1,
   .uint "additional_sense_code.qualifier" 1, .uint "field_replaceable_unit_code" 1,
   .bits [.field "sense_key_specific_high" 7 none, .field "sksv" 1 none, .field "sense_key_specific_low" 8 none]]

/-- The part of `SCSISenseDataDescriptorBased` before the array — `sense/__init__.py:56-62`. -/
def descriptorHeader : List Decl :=
  [responseCodeBits, .bits [.field "sense_key" 4 none, .pad 4], .uint "additional_sense_code.code" 1, .uint "additional_sense_code.qualifier" 1, .pad 2]

inductive Descriptor where
  /-- `SCSISenseDataDescriptorInformation` — `sense/__init__.py:31-41` -/
  | information (valid : Nat) (information : Bytes)
  /-- `SCSISenseDataGenericDescriptor` — `sense/__init__.py:24-28` -/
  | generic (type : Nat) (data : Bytes)
  deriving DecidableEq, Repr

/-- `StructSelector(UBInt8, SENSE_DESCIPTOR_TYPES, default=SCSISenseDataGenericDescriptor)` — `sense/__init__.py:43-45, 64`: the class is
selected by the type byte, which is then read again as a member of the class. -/
def descriptor (b : Bytes) : Py (Descriptor × Nat) :=
  match b with
  | [] => .error .truncated
  | t :: r =>
    if t.toNat = 0 then do
      let (vs, rest) ← unpack [.const [0x00], .const [0x0A], .bits [.pad 7, .field "valid" 1 (some 1)], .pad 1] b
      if rest.length < 8 then .error .truncated
      else .ok (.information ((vs.lookup "valid").getD 0) (rest.take 8), 12)
    else
      match r with
      | [] => .error .truncated
      | n :: d => if d.length < n.toNat then .error .truncated else .ok (.generic t.toNat (d.take n.toNat), 2 + n.toNat)

/-- A sense object. The numbers are the members other than `sense_key`. -/
inductive Sense where
  | fixed (senseKey : String) (attrs : List (String × Nat))
  | descriptorBased (senseKey : String) (attrs : List (String × Nat)) (descriptors : List Descriptor)
  deriving DecidableEq, Repr

def Sense.key : Sense → String
  | .fixed k _ => k
  | .descriptorBased k _ _ => k

def Sense.attrs : Sense → List (String × Nat)
  | .fixed _ a => a
  | .descriptorBased _ a _ => a

/-- Replace the number of the key by its name. -/
def splitKey (vs : List (String × Nat)) : Py (String × List (String × Nat)) := do
  let name ← senseKeyName ((vs.lookup "sense_key").getD 0)
  .ok (name, vs.filter (fun p => p.1 != "sense_key"))

/-- `SCSISenseDataFixed.create_from_string`. -/
def fixed (b : Bytes) : Py Sense := do
  let (vs, _) ← unpack fixedDecls b
  let (k, a) ← splitKey vs
  .ok (.fixed k a)

/-- `SCSISenseDataDescriptorBased.create_from_string` — the array's size is the byte right after the two padding bytes. -/
def descriptorBased (b : Bytes) : Py Sense := do
  let (vs, rest) ← unpack descriptorHeader b
  let (k, a) ← splitKey vs
  match rest with
  | [] => .error .truncated
  | n :: ds =>
    let l ← sumSize descriptor n.toNat ds
    .ok (.descriptorBased k a l)

/-- `get_sense_object_from_buffer` — `sense/__init__.py:92-101`. -/
def getSense (b : Bytes) : Py (Option Sense) := do
  let (vs, _) ← unpack [responseCodeBits] b
  let code := (vs.lookup "response_code.code").getD 0
  if code = 0x70 ∨ code = 0x71 then do let s ← fixed b; .ok (some s)
  else if code = 0x72 ∨ code = 0x73 then do let s ← descriptorBased b; .ok (some s)
  else .ok none

end Verif.Sense
