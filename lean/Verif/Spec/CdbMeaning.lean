import Verif.Cdb.Commands
import Verif.Spec.Cdb

/-!
# What a command asks for, and what a target understands

`decode` is the target's side: it reads operation code, fields and (for commands with a parameter list) the data-out
buffer at the positions of the SCSI standards.  `meaning` is the caller's side: what the arguments of the command
object ask for.  `InRange` says that every argument fits the field that has to carry it.
-/

namespace Verif.Spec.Cdb

/-- The task a target performs. -/
inductive Meaning where
  | read (lba blocks : Nat)
  | write (lba blocks : Nat)
  | writeSame (lba blocks : Nat)
  | compareAndWrite (lba blocks : Nat)
  | unmap (ranges : List (Nat × Nat))
  | testUnitReady
  | inquiry (evpd page alloc : Nat)
  | readCapacity (lba pmi : Nat)
  | reportLuns (select alloc : Nat)
  | reportTargetPortGroups (fmt alloc : Nat)
  | logSense (page subpage alloc : Nat)
  | receiveCopyOperatingParameters (alloc : Nat)
  | receiveDiagnosticResults (pcv page alloc : Nat)
  | reserve (thirdParty : Option Nat)
  | release (thirdParty : Option Nat)
  | persistentReserveOut (action type key saKey : Nat)
  | persistentReserveIn (action alloc : Nat)
  deriving DecidableEq, Repr

/-- Big-endian field at bytes `lo .. hi-1`. -/
def fld (bs : Bytes) (lo hi : Nat) : Nat := beNat (slice bs lo hi)

/-- Bits `lo .. hi-1` of byte `i`. -/
def bit (bs : Bytes) (i lo hi : Nat) : Nat := getBits (bs.getD i 0) lo hi

/-- The device a RESERVE(10)/RELEASE(10) is made for, if any: 3RDPTY is bit 4 of byte 1, LONGID bit 1. -/
def thirdPartyId (cdb data : Bytes) : Option Nat :=
  if bit cdb 1 4 5 = 1 then
    if bit cdb 1 1 2 = 1 then some (fld data 0 8) else some (fld cdb 3 4)
  else none

def decode (cdb data : Bytes) : Option Meaning :=
  match (cdb.getD 0 0).toNat with
  | 0x00 => some .testUnitReady
  -- in the 6-byte commands a zero count means 256 blocks
  | 0x08 => some (.read (fld cdb 1 4 % 2 ^ 21) (if fld cdb 4 5 = 0 then 256 else fld cdb 4 5))
  | 0x0A => some (.write (fld cdb 1 4 % 2 ^ 21) (if fld cdb 4 5 = 0 then 256 else fld cdb 4 5))
  | 0x12 => some (.inquiry (bit cdb 1 0 1) (fld cdb 2 3) (fld cdb 3 5))
  | 0x16 => some (.reserve none)
  | 0x17 => some (.release none)
  | 0x1C => some (.receiveDiagnosticResults (bit cdb 1 0 1) (fld cdb 2 3) (fld cdb 3 5))
  | 0x25 => some (.readCapacity (fld cdb 2 6) (bit cdb 8 0 1))
  | 0x28 => some (.read (fld cdb 2 6) (fld cdb 7 9))
  | 0x2A => some (.write (fld cdb 2 6) (fld cdb 7 9))
  | 0x41 => some (.writeSame (fld cdb 2 6) (fld cdb 7 9))
  | 0x42 => some (.unmap (targetUnmap data))
  | 0x4D => some (.logSense (bit cdb 2 0 6) (fld cdb 3 4) (fld cdb 7 9))
  | 0x56 => some (.reserve (thirdPartyId cdb data))
  | 0x57 => some (.release (thirdPartyId cdb data))
  | 0x5E => some (.persistentReserveIn (bit cdb 1 0 5) (fld cdb 7 9))
  | 0x5F => some (.persistentReserveOut (bit cdb 1 0 5) (bit cdb 2 0 4) (fld data 0 8) (fld data 8 16))
  | 0x84 => if bit cdb 1 0 5 = 3 then some (.receiveCopyOperatingParameters (fld cdb 10 14)) else none
  | 0x88 => some (.read (fld cdb 2 10) (fld cdb 10 14))
  | 0x89 => some (.compareAndWrite (fld cdb 2 10) (fld cdb 13 14))
  | 0x8A => some (.write (fld cdb 2 10) (fld cdb 10 14))
  | 0x93 => some (.writeSame (fld cdb 2 10) (fld cdb 10 14))
  | 0x9E => if bit cdb 1 0 5 = 0x10 then some (.readCapacity (fld cdb 2 10) (bit cdb 14 0 1)) else none
  | 0xA0 => some (.reportLuns (fld cdb 2 3) (fld cdb 6 10))
  | 0xA3 => if bit cdb 1 0 5 = 0x0A then some (.reportTargetPortGroups (bit cdb 1 5 8) (fld cdb 6 10)) else none
  | 0xA8 => some (.read (fld cdb 2 6) (fld cdb 6 10))
  | 0xAA => some (.write (fld cdb 2 6) (fld cdb 6 10))
  | _ => none

/-- The operation code of each command class. -/
def opcodeOf : Cdb.Cmd → UInt8
  | .read6 .. => 0x08
  | .read10 .. => 0x28
  | .read12 .. => 0xA8
  | .read16 .. => 0x88
  | .write6 .. => 0x0A
  | .write10 .. => 0x2A
  | .write12 .. => 0xAA
  | .write16 .. => 0x8A
  | .writeSame10 .. => 0x41
  | .writeSame16 .. => 0x93
  | .compareAndWrite .. => 0x89
  | .unmap _ => 0x42
  | .testUnitReady => 0x00
  | .inquiry .. => 0x12
  | .readCapacity10 .. => 0x25
  | .readCapacity16 .. => 0x9E
  | .reportLuns .. => 0xA0
  | .rtpg .. => 0xA3
  | .logSense .. => 0x4D
  | .receiveCopyOperatingParameters .. => 0x84
  | .receiveDiagnostic .. => 0x1C
  | .reserve6 => 0x16
  | .release6 => 0x17
  | .reserve10 _ => 0x56
  | .release10 _ => 0x57
  | .persistentReserveOut _ => 0x5F
  | .persistentReserveIn .. => 0x5E

/-- `v` fits an unsigned `w`-bit field. -/
def Fits (w : Nat) (v : Int) : Prop := 0 ≤ v ∧ v < 2 ^ w

/-- Every argument fits the field that carries it. -/
def InRange : Cdb.Cmd → Prop
  | .read6 lba n _ => Fits 21 lba ∧ Fits 8 n
  | .read10 lba n _ => Fits 32 lba ∧ Fits 16 n
  | .read12 lba n _ => Fits 32 lba ∧ Fits 32 n
  | .read16 lba n _ => Fits 64 lba ∧ Fits 32 n
  | .write6 lba buf bs => Fits 21 lba ∧ ∃ k : Int, (buf.length : Int) = k * bs ∧ 0 < k ∧ k ≤ 256
  | .write10 lba buf bs => Fits 32 lba ∧ ∃ k : Int, (buf.length : Int) = k * bs ∧ Fits 16 k
  | .write12 lba buf bs => Fits 32 lba ∧ ∃ k : Int, (buf.length : Int) = k * bs ∧ Fits 32 k
  | .write16 lba buf bs => Fits 64 lba ∧ ∃ k : Int, (buf.length : Int) = k * bs ∧ Fits 32 k
  | .writeSame10 lba _ n _ => Fits 32 lba ∧ Fits 16 n
  | .writeSame16 lba _ n _ => Fits 64 lba ∧ Fits 32 n
  | .compareAndWrite lba _ n _ => Fits 64 lba ∧ Fits 8 n
  | .unmap ranges => (∀ r ∈ ranges, Fits 64 r.1 ∧ Fits 32 r.2) ∧ Fits 16 (16 * ranges.length + 8)
  | .testUnitReady => True
  | .inquiry evpd page alloc => Fits 1 evpd ∧ Fits 8 page ∧ Fits 16 alloc
  | .readCapacity10 lba pmi => Fits 32 lba ∧ Fits 1 pmi
  | .readCapacity16 lba pmi => Fits 64 lba ∧ Fits 1 pmi
  | .reportLuns select alloc => Fits 8 select ∧ Fits 32 alloc
  | .rtpg fmt alloc => Fits 3 fmt ∧ Fits 32 alloc
  | .logSense page subpage alloc => Fits 6 page ∧ Fits 8 subpage ∧ Fits 16 alloc
  | .receiveCopyOperatingParameters alloc ctrl => Fits 32 alloc ∧ Fits 8 ctrl
  | .receiveDiagnostic pcv page alloc => Fits 1 pcv ∧ Fits 8 page ∧ Fits 16 alloc
  | .reserve6 => True
  | .release6 => True
  | .reserve10 id => id < 2 ^ 64
  | .release10 id => id < 2 ^ 64
  | .persistentReserveOut a => Fits 5 a.serviceAction ∧ Fits 4 a.prType ∧ Fits 64 a.key ∧ Fits 64 a.saKey
  | .persistentReserveIn sa alloc => Fits 5 sa ∧ Fits 16 alloc

/-- What the arguments of a command object ask for.  The number of blocks of a WRITE is the number of blocks in its
buffer. -/
def meaning : Cdb.Cmd → Meaning
  | .read6 lba n _ => .read lba.toNat (if n = 0 then 256 else n.toNat)
  | .read10 lba n _ => .read lba.toNat n.toNat
  | .read12 lba n _ => .read lba.toNat n.toNat
  | .read16 lba n _ => .read lba.toNat n.toNat
  | .write6 lba buf bs => .write lba.toNat (buf.length / bs.toNat)
  | .write10 lba buf bs => .write lba.toNat (buf.length / bs.toNat)
  | .write12 lba buf bs => .write lba.toNat (buf.length / bs.toNat)
  | .write16 lba buf bs => .write lba.toNat (buf.length / bs.toNat)
  | .writeSame10 lba _ n _ => .writeSame lba.toNat n.toNat
  | .writeSame16 lba _ n _ => .writeSame lba.toNat n.toNat
  | .compareAndWrite lba _ n _ => .compareAndWrite lba.toNat n.toNat
  | .unmap ranges => .unmap (ranges.map fun r => (r.1.toNat, r.2.toNat))
  | .testUnitReady => .testUnitReady
  | .inquiry evpd page alloc => .inquiry evpd.toNat page.toNat alloc.toNat
  | .readCapacity10 lba pmi => .readCapacity lba.toNat pmi.toNat
  | .readCapacity16 lba pmi => .readCapacity lba.toNat pmi.toNat
  | .reportLuns select alloc => .reportLuns select.toNat alloc.toNat
  | .rtpg fmt alloc => .reportTargetPortGroups fmt.toNat alloc.toNat
  | .logSense page subpage alloc => .logSense page.toNat subpage.toNat alloc.toNat
  | .receiveCopyOperatingParameters alloc _ => .receiveCopyOperatingParameters alloc.toNat
  | .receiveDiagnostic pcv page alloc => .receiveDiagnosticResults pcv.toNat page.toNat alloc.toNat
  | .reserve6 => .reserve none
  | .release6 => .release none
  | .reserve10 id => .reserve (if id > 0 then some id.toNat else none)
  | .release10 id => .release (if id > 0 then some id.toNat else none)
  | .persistentReserveOut a =>
    .persistentReserveOut a.serviceAction.toNat a.prType.toNat a.key.toNat a.saKey.toNat
  | .persistentReserveIn sa alloc => .persistentReserveIn sa.toNat alloc.toNat

/-- The data-out buffer of a request. -/
def dataOut : Req → Bytes
  | .read _ _ => []
  | .write _ d => d

end Verif.Spec.Cdb
