import Verif.Spec.Platform
/-!
# An ideal SCSI device behind an operating system's pass-through driver

The device sees what it is asked (`OsRequest`) and answers a SCSI status, sense data and data. The drivers below follow the documented
behaviour of the operating systems; they use the literal C offsets of `Verif.Spec.Platform` only.
-/

namespace Verif.Spec
open Verif.Platform (Mem readMem writeMem)

/-- What a device answers to a command. -/
structure Answer where
  status : UInt8
  sense : Bytes
  data : Bytes
  deriving DecidableEq, Repr

/-- A device with internal state `δ`. -/
abbrev Device (δ : Type) := δ → OsRequest → Answer × δ

/-- Exactly `n` bytes: `bs` cut, or filled up with zeros. -/
def padded (n : Nat) (bs : Bytes) : Bytes := (bs ++ zeros n).take n

/-- What the caller of a successful command receives: as many bytes as a read command asked for, nothing otherwise. -/
def delivered (c : Req) (ans : Answer) : Option Bytes :=
  match c with
  | .read _ n => if n > 0 then some (padded n.toNat ans.data) else none
  | .write _ _ => none

end Verif.Spec
