import Verif.Base
/-!
# Reading response data as the standards describe it

The SCSI standards describe data byte by byte: a number of several bytes has its most significant byte first, the bits of a byte are
numbered from 7 (most significant) to 0. Nothing here refers to the model.
-/

namespace Verif.Spec

/-- Byte `i` of the data. -/
def byteAt (b : Bytes) (i : Nat) : Nat := (b.getD i 0).toNat

/-- The `n`-byte number that starts at byte `first`, most significant byte first. -/
def num (b : Bytes) (first : Nat) : (n : Nat) → Nat
  | 0 => 0
  | n + 1 => 256 * num b first n + byteAt b (first + n)

/-- Bits `hi` down to `lo` of byte `i`. -/
def bitsAt (b : Bytes) (i hi lo : Nat) : Nat := byteAt b i / 2 ^ lo % 2 ^ (hi + 1 - lo)

/-- Bit `k` of byte `i`. -/
def bitAt (b : Bytes) (i k : Nat) : Nat := byteAt b i / 2 ^ k % 2

/-- Bytes `first .. last`. -/
def bytesAt (b : Bytes) (first last : Nat) : Bytes := (List.range (last + 1 - first)).map (fun k => b.getD (first + k) 0)

/-- A number of `w` bits in two's complement. -/
def signedOf (w v : Nat) : Int := if v < 2 ^ (w - 1) then (v : Int) else (v : Int) - 2 ^ w

example : num [0x12, 0x34, 0x56] 1 2 = 0x3456 := by decide
example : bitsAt [0xA5] 0 6 4 = 2 := by decide

end Verif.Spec
