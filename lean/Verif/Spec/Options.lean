import Verif.Instruct

/-!
# Where the standards put the options of a command

SBC-3 (READ, WRITE, COMPARE AND WRITE, WRITE SAME, UNMAP), SPC-4 (LOG SENSE) and SAM-5 (control byte), byte by byte and
independent of the declarations in the library.  Zero options give the blocks of `Verif.Spec.Cdb`.
-/

namespace Verif.Spec.Options

/-- The options of the commands that move blocks.  `rel` is the obsolete RELADR bit, `restricted` the bit 7 that READ(16)
reserves for multimedia devices. -/
structure Opts where
  protect : Nat := 0
  dpo : Nat := 0
  fua : Nat := 0
  fuaNv : Nat := 0
  rel : Nat := 0
  group : Nat := 0
  restricted : Nat := 0
  naca : Nat := 0
  vendor : Nat := 0

/-- Every option is within its field. -/
def Opts.Valid (o : Opts) : Prop :=
  o.protect < 8 ∧ o.dpo < 2 ∧ o.fua < 2 ∧ o.fuaNv < 2 ∧ o.rel < 2 ∧ o.group < 32 ∧ o.restricted < 2 ∧ o.naca < 2 ∧ o.vendor < 4

instance (o : Opts) : Decidable o.Valid := by unfold Opts.Valid; infer_instance

/-- Control byte (SAM-5 5.2): vendor specific bits 7-6, NACA bit 2. -/
def control (naca vendor : Nat) : UInt8 := byte (vendor * 64 + naca * 4)

/-- Byte 1 of READ, WRITE and COMPARE AND WRITE: protection bits 7-5, DPO bit 4, FUA bit 3, FUA_NV bit 1, RELADR bit 0. -/
def flags (o : Opts) : UInt8 := byte (o.protect * 32 + o.dpo * 16 + o.fua * 8 + o.fuaNv * 2 + o.rel)

def cdb6 (op : UInt8) (o : Opts) (lba n : Nat) : Bytes := [op] ++ be 3 lba ++ [byte n, control o.naca o.vendor]

def cdb10 (op : UInt8) (o : Opts) (lba n : Nat) : Bytes :=
  [op, flags o] ++ be 4 lba ++ [byte o.group] ++ be 2 n ++ [control o.naca o.vendor]

def cdb12 (op : UInt8) (o : Opts) (lba n : Nat) : Bytes :=
  [op, flags o] ++ be 4 lba ++ be 4 n ++ [byte o.group, control o.naca o.vendor]

def cdb16 (op : UInt8) (o : Opts) (lba n : Nat) : Bytes :=
  [op, flags o] ++ be 8 lba ++ be 4 n ++ [byte (o.restricted * 128 + o.group), control o.naca o.vendor]

def compareAndWrite (o : Opts) (lba n : Nat) : Bytes :=
  [0x89, flags o] ++ be 8 lba ++ [0, 0, 0, byte n, byte o.group, control o.naca o.vendor]

/-- Byte 1 of WRITE SAME: WRPROTECT bits 7-5, UNMAP bit 3, PBDATA bit 2, LBDATA bit 1. -/
def sameFlags (protect unmap pbdata lbdata : Nat) : UInt8 := byte (protect * 32 + unmap * 8 + pbdata * 4 + lbdata * 2)

def writeSame10 (protect pbdata lbdata group naca vendor lba n : Nat) : Bytes :=
  [0x41, sameFlags protect 0 pbdata lbdata] ++ be 4 lba ++ [byte group] ++ be 2 n ++ [control naca vendor]

def writeSame16 (protect unmap pbdata lbdata group naca vendor lba n : Nat) : Bytes :=
  [0x93, sameFlags protect unmap pbdata lbdata] ++ be 8 lba ++ be 4 n ++ [byte group, control naca vendor]

def unmap (group naca vendor len : Nat) : Bytes :=
  [0x42, 0, 0, 0, 0, 0, byte group] ++ be 2 len ++ [control naca vendor]

/-- LOG SENSE: SP bit 0 of byte 1, PC bits 7-6 of byte 2, parameter pointer bytes 5-6. -/
def logSense (sp pc page subpage ptr alloc : Nat) : Bytes :=
  [0x4D, byte sp, byte (pc * 64 + page), byte subpage, 0] ++ be 2 ptr ++ be 2 alloc ++ [0]

def inquiry (evpd page alloc naca vendor : Nat) : Bytes := [0x12, byte evpd, byte page] ++ be 2 alloc ++ [control naca vendor]

def readCapacity10 (lba pmi naca vendor : Nat) : Bytes := [0x25, 0] ++ be 4 lba ++ [0, 0, byte pmi, control naca vendor]

def readCapacity16 (lba alloc pmi naca vendor : Nat) : Bytes :=
  [0x9E, 0x10] ++ be 8 lba ++ be 4 alloc ++ [byte pmi, control naca vendor]

def reportLuns (select alloc naca vendor : Nat) : Bytes :=
  [0xA0, 0, byte select, 0, 0, 0] ++ be 4 alloc ++ [0, control naca vendor]

/-- Parameter data format in bits 7-5 of byte 1, service action 0Ah below. -/
def reportTargetPortGroups (fmt alloc naca vendor : Nat) : Bytes :=
  [0xA3, byte (fmt * 32 + 0x0A), 0, 0, 0, 0] ++ be 4 alloc ++ [0, control naca vendor]

/-- TEST UNIT READY. -/
def testUnitReady (naca vendor : Nat) : Bytes := [0, 0, 0, 0, 0, control naca vendor]

/-- RECEIVE COPY RESULTS with service action 3 (OPERATING PARAMETERS), allocation length in bytes 10-13. -/
def receiveCopy (alloc ctrl : Nat) : Bytes := [0x84, 3, 0, 0, 0, 0, 0, 0, 0, 0] ++ be 4 alloc ++ [0, byte ctrl]

/-- RECEIVE DIAGNOSTIC RESULTS: PCV bit 0 of byte 1. -/
def receiveDiagnostic (pcv page alloc : Nat) : Bytes := [0x1C, byte pcv, byte page] ++ be 2 alloc ++ [0]

/-- The fields of RESERVE and RELEASE that SPC-2 calls obsolete or reserved: bytes 1-4 of the six byte commands. -/
structure Unused where
  low : Nat := 0
  high : Nat := 0
  second : Nat := 0
  third : Nat := 0
  fourth : Nat := 0

/-- Bits 4-0 and 7-5 of byte 1, bytes 2, 3 and 4. -/
def Unused.Valid (u : Unused) : Prop := u.low < 32 ∧ u.high < 8 ∧ u.second < 256 ∧ u.third < 256 ∧ u.fourth < 256

def sixBytes (op : UInt8) (u : Unused) (naca vendor : Nat) : Bytes :=
  [op, byte (u.high * 32 + u.low), byte u.second, byte u.third, byte u.fourth, control naca vendor]

/-- RESERVE(10) and RELEASE(10): 3RDPTY bit 4 and LONGID bit 1 of byte 1, third-party identifier in byte 3, parameter list length in
bytes 7-8; everything else unused. -/
structure Party where
  thirdParty : Nat := 0
  longId : Nat := 0
  id : Nat := 0
  length : Nat := 0
  bit0 : Nat := 0
  bits2 : Nat := 0
  bits5 : Nat := 0
  second : Nat := 0
  fourth : Nat := 0

def Party.Valid (p : Party) : Prop := p.thirdParty < 2 ∧ p.longId < 2 ∧ p.id < 256 ∧ p.length < 2 ^ 16 ∧ p.bit0 < 2 ∧ p.bits2 < 4 ∧ p.bits5 < 8 ∧
  p.second < 256 ∧ p.fourth < 2 ^ 24

def tenBytes (op : Nat) (p : Party) (naca vendor : Nat) : Bytes :=
  [byte op, byte (p.bits5 * 32 + p.thirdParty * 16 + p.bits2 * 4 + p.longId * 2 + p.bit0), byte p.second, byte p.id] ++ be 3 p.fourth ++
    be 2 p.length ++ [control naca vendor]

/-- PERSISTENT RESERVE OUT: type in bits 3-0 of byte 2 with a scope of zero above, parameter list length in bytes 5-8. -/
def prOut (action type len : Nat) : Bytes := [0x5F, byte action, byte type, 0, 0] ++ be 4 len ++ [0]

/-- PERSISTENT RESERVE IN: allocation length in bytes 7-8. -/
def prIn (action alloc : Nat) : Bytes := [0x5E, byte action, 0, 0, 0, 0, 0] ++ be 2 alloc ++ [0]

/-- The value an attribute ends up with: that of the last assignment to it, otherwise the one it had before. -/
def last (sets : List (String × Int)) (name : String) (before : Int) : Int :=
  sets.foldl (fun v p => if p.1 = name then p.2 else v) before

end Verif.Spec.Options
