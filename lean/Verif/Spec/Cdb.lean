import Verif.Instruct

/-!
# Specification of command descriptor blocks

The byte strings that the SCSI standards (SBC-3, SPC-4) prescribe, written out byte by byte, independently of the
declarations in the library.  `be n v` is the `n`-byte big-endian encoding of `v`.  Arguments are in-range naturals.
-/

namespace Verif.Spec.Cdb

/-- READ(6) and WRITE(6) have the address in the low 5 bits of byte 1 and in bytes 2-3: 21 bits. -/
def cdb6 (op lba n : Nat) : Bytes := [byte op] ++ be 3 lba ++ [byte n, 0]

def cdb10 (op lba n : Nat) : Bytes := [byte op, 0] ++ be 4 lba ++ [0] ++ be 2 n ++ [0]

def cdb12 (op lba n : Nat) : Bytes := [byte op, 0] ++ be 4 lba ++ be 4 n ++ [0, 0]

def cdb16 (op lba n : Nat) : Bytes := [byte op, 0] ++ be 8 lba ++ be 4 n ++ [0, 0]

def read6 (lba n : Nat) : Bytes := cdb6 0x08 lba n
def read10 (lba n : Nat) : Bytes := cdb10 0x28 lba n
def read12 (lba n : Nat) : Bytes := cdb12 0xA8 lba n
def read16 (lba n : Nat) : Bytes := cdb16 0x88 lba n

def write6 (lba n : Nat) : Bytes := cdb6 0x0A lba n
def write10 (lba n : Nat) : Bytes := cdb10 0x2A lba n
def write12 (lba n : Nat) : Bytes := cdb12 0xAA lba n
def write16 (lba n : Nat) : Bytes := cdb16 0x8A lba n

def writeSame10 (lba n : Nat) : Bytes := cdb10 0x41 lba n
def writeSame16 (lba n : Nat) : Bytes := cdb16 0x93 lba n

def compareAndWrite (lba n : Nat) : Bytes := [0x89, 0] ++ be 8 lba ++ [0, 0, 0, byte n, 0, 0]

def unmap (paramLen : Nat) : Bytes := [0x42, 0, 0, 0, 0, 0, 0] ++ be 2 paramLen ++ [0]

def testUnitReady : Bytes := [0, 0, 0, 0, 0, 0]

def inquiry (evpd page alloc : Nat) : Bytes := [0x12, byte evpd, byte page] ++ be 2 alloc ++ [0]

def readCapacity10 (lba pmi : Nat) : Bytes := [0x25, 0] ++ be 4 lba ++ [0, 0, byte pmi, 0]

/-- SERVICE ACTION IN(16), service action 10h. -/
def readCapacity16 (lba alloc pmi : Nat) : Bytes := [0x9E, 0x10] ++ be 8 lba ++ be 4 alloc ++ [byte pmi, 0]

def reportLuns (select alloc : Nat) : Bytes := [0xA0, 0, byte select, 0, 0, 0] ++ be 4 alloc ++ [0, 0]

/-- MAINTENANCE IN, service action 0Ah; parameter data format in bits 5-7 of byte 1. -/
def reportTargetPortGroups (fmt alloc : Nat) : Bytes := [0xA3, byte (fmt * 32 + 0x0A), 0, 0, 0, 0] ++ be 4 alloc ++ [0, 0]

/-- PC (bits 6-7 of byte 2) and SP are zero. -/
def logSense (page subpage alloc : Nat) : Bytes := [0x4D, 0, byte page, byte subpage, 0, 0, 0] ++ be 2 alloc ++ [0]

/-- RECEIVE COPY RESULTS, service action 03h. -/
def receiveCopyOperatingParameters (alloc ctrl : Nat) : Bytes :=
  [0x84, 0x03, 0, 0, 0, 0, 0, 0, 0, 0] ++ be 4 alloc ++ [0, byte ctrl]

def receiveDiagnosticResults (pcv page alloc : Nat) : Bytes := [0x1C, byte pcv, byte page] ++ be 2 alloc ++ [0]

def reserve6 : Bytes := [0x16, 0, 0, 0, 0, 0]
def release6 : Bytes := [0x17, 0, 0, 0, 0, 0]

/-- RESERVE(10) (56h) and RELEASE(10) (57h). -/
def thirdParty (op : UInt8) (is3rd longId : Bool) (id paramLen : Nat) : Bytes :=
  [op, (if is3rd then 0x10 else 0) + (if longId then 2 else 0), 0, byte id, 0, 0, 0] ++ be 2 paramLen ++ [0]

/-- PERSISTENT RESERVE OUT with LU scope (0). -/
def persistentReserveOut (action type paramLen : Nat) : Bytes :=
  [0x5F, byte action, byte type, 0, 0] ++ be 4 paramLen ++ [0]

def persistentReserveIn (action alloc : Nat) : Bytes := [0x5E, byte action, 0, 0, 0, 0, 0] ++ be 2 alloc ++ [0]

/-- Basic parameter list of PERSISTENT RESERVE OUT: keys, obsolete bytes, byte 20 with SPEC_I_PT (bit 3),
ALL_TG_PT (bit 2) and APTPL (bit 0). -/
def proutBasic (key saKey : Nat) (specIPt allTgPt aptpl : Bool) : Bytes :=
  be 8 key ++ be 8 saKey ++ [0, 0, 0, 0,
    (if specIPt then 8 else 0) + (if allTgPt then 4 else 0) + (if aptpl then 1 else 0), 0, 0, 0]

/-- REGISTER AND MOVE parameter list: byte 17 with UNREG (bit 1) and APTPL (bit 0). -/
def proutRegisterAndMove (key saKey : Nat) (unreg aptpl : Bool) (relPort : Nat) (transportId : Bytes) : Bytes :=
  be 8 key ++ be 8 saKey ++ [0, (if unreg then 2 else 0) + (if aptpl then 1 else 0)] ++ be 2 relPort ++
    be 4 transportId.length ++ transportId

/-- UNMAP parameter list as SBC-3 lays it out: bytes 0-1 number of bytes following, bytes 2-3 number of descriptor
bytes, 4 reserved bytes, then 16 bytes per range. -/
def unmapDescriptor (r : Nat × Nat) : Bytes := be 8 r.1 ++ be 4 r.2 ++ [0, 0, 0, 0]

def unmapDescriptors (ranges : List (Nat × Nat)) : Bytes := (ranges.map unmapDescriptor).flatten

/-- What a target reads from an UNMAP parameter list: the ranges named by the block descriptor data length. -/
def targetRanges : (fuel : Nat) → Bytes → List (Nat × Nat)
  | 0, _ => []
  | k + 1, bs => (beNat (slice bs 0 8), beNat (slice bs 8 12)) :: targetRanges k (bs.drop 16)

/-- Ranges a target obtains from the parameter list: `bytes 2-3` announce the number of descriptor bytes. -/
def targetUnmap (params : Bytes) : List (Nat × Nat) :=
  targetRanges (beNat (slice params 2 4) / 16) (params.drop 8)

/-- Length of a command descriptor block announced by its operation code (SPC-4 table 21): group code 0: 6 bytes,
1 and 2: 10 bytes, 4: 16 bytes, 5: 12 bytes. -/
def lengthOfOpcode (op : UInt8) : Option Nat :=
  match op.toNat / 32 with
  | 0 => some 6
  | 1 => some 10
  | 2 => some 10
  | 4 => some 16
  | 5 => some 12
  | _ => none

end Verif.Spec.Cdb
