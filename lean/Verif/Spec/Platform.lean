import Verif.Platform.Layout
import Verif.Instruct
/-!
# What the operating systems read in a request block, and write in a response

Independent of the model's layouts: offsets are the literal numbers of the C structures (`sg_io_hdr` on 64-bit Linux,
`SCSI_PASS_THROUGH_DIRECT` on 32- and 64-bit Windows, `sc_passthru` on 64-bit AIX, `uscsi_cmd` on 64-bit Solaris).
-/

namespace Verif.Spec
open Verif.Platform (Mem readMem)

/-- The `n` byte unsigned integer at offset `off`, in the machine's byte order. -/
def word (little : Bool) (raw : Bytes) (off n : Nat) : Nat :=
  let bs := (raw.drop off).take n
  beNat (if little then bs.reverse else bs)

/-- The same, read as a two's complement number. -/
def sword (little : Bool) (raw : Bytes) (off n : Nat) : Int := toSigned n (word little raw off n)

/-- What an operating system is asked to do: the command descriptor block, the bytes to send to the device, the number of
bytes to accept from it, and how much sense data it may store. -/
structure OsRequest where
  cdb : Bytes
  toDevice : Bytes
  fromDevice : Nat
  senseRoom : Nat
  deriving DecidableEq, Repr

/-- What a command object asks for: a read command with a positive length reads that much, a write command writes its data,
and nothing else is transferred. Room for 255 bytes of sense. -/
def asked : Req → OsRequest
  | .read cdb len => { cdb := cdb, toDevice := [], fromDevice := len.toNat, senseRoom := 255 }
  | .write cdb data => { cdb := cdb, toDevice := data, fromDevice := 0, senseRoom := 255 }

/-- The sg driver's reading of an `sg_io_hdr` (64-bit): `none` if the driver would refuse it. -/
def sgView (little : Bool) (raw : Bytes) (m : Mem) : Option OsRequest :=
  let dir := sword little raw 4 4
  let len := word little raw 12 4
  let cdb := readMem m (word little raw 24 8) (word little raw 8 1)
  let room := word little raw 9 1
  if raw.length ≠ 88 then none
  else if sword little raw 0 4 ≠ 83 then none          -- interface_id 'S'
  else if word little raw 10 2 ≠ 0 then none            -- iovec_count: no scatter gather
  else if word little raw 44 4 / 2 ≠ 0 then none        -- flags: at most SG_FLAG_DIRECT_IO; the others change what is transferred, or how it is queued
  else if dir = -1 then some { cdb := cdb, toDevice := [], fromDevice := 0, senseRoom := room }
  else if dir = -2 then
    some { cdb := cdb, toDevice := readMem m (word little raw 16 8) len, fromDevice := 0, senseRoom := room }
  else if dir = -3 then some { cdb := cdb, toDevice := [], fromDevice := len, senseRoom := room }
  else none

/-- The Windows port driver's reading of a `SCSI_PASS_THROUGH_DIRECT` block followed by the sense area.
`ptr` is the size of a pointer (4 or 8). -/
def sptView (ptr : Nat) (raw : Bytes) (m : Mem) : Option OsRequest :=
  let size := if ptr = 8 then 56 else 44
  let cdbLen := word true raw 6 1
  let len := word true raw 12 4
  let buf := word true raw (if ptr = 8 then 24 else 20) ptr
  let senseOff := word true raw (if ptr = 8 then 32 else 24) 4
  let cdb := (raw.drop (if ptr = 8 then 36 else 28)).take cdbLen
  let room := word true raw 7 1
  let dir := word true raw 8 1
  if word true raw 0 2 ≠ size then none                 -- Length
  else if cdbLen > 16 then none
  else if senseOff < size ∨ raw.length < senseOff + room then none
  else if dir = 2 then some { cdb := cdb, toDevice := [], fromDevice := 0, senseRoom := room }
  else if dir = 0 then some { cdb := cdb, toDevice := readMem m buf len, fromDevice := 0, senseRoom := room }
  else if dir = 1 then some { cdb := cdb, toDevice := [], fromDevice := len, senseRoom := room }
  else none

/-- The AIX disk driver's reading of a version 2 `sc_passthru` (64-bit, big-endian). -/
def scPassthruView (raw : Bytes) (m : Mem) : Option OsRequest :=
  let cdbLen := word false raw 14 2
  let len := word false raw 24 8
  let buf := word false raw 48 8
  let cdb := (raw.drop 64).take cdbLen
  let room := word false raw 18 2
  if word false raw 0 2 ≠ 2 then none
  else if cdbLen > 64 then none
  else if word false raw 144 4 ≠ 0 then none             -- variable_cdb_length: not used
  else if word false raw 9 1 ≠ 0 then none               -- q_tag_msg: no queue tag
  else if word false raw 10 1 > 1 then none              -- flags: B_READ or B_WRITE
  else if word false raw 11 1 > 1 then none              -- devflags: SC_QUIESCE_IO or SC_MIX_IO
  else if word false raw 12 1 ≠ 0 then none              -- q_flags: leave the queue alone
  else if word false raw 10 1 % 2 = 1 then some { cdb := cdb, toDevice := [], fromDevice := len, senseRoom := room }
  else some { cdb := cdb, toDevice := readMem m buf len, fromDevice := 0, senseRoom := room }

/-- The Solaris target driver's reading of a `uscsi_cmd` (64-bit): bit 3 of the flags is `USCSI_READ`, bit 16 asks for sense
data. Bits 0 to 2 and 21 change only how errors are reported; any other bit asks for something besides the command (a reset, another
bus mode) and is refused here. -/
def uscsiView (little : Bool) (raw : Bytes) (m : Mem) : Option OsRequest :=
  let flags := word little raw 0 4
  let len := word little raw 24 8
  let buf := word little raw 16 8
  let cdb := readMem m (word little raw 8 8) (word little raw 40 1)
  let room := word little raw 41 1
  if raw.length < 64 then none
  else if flags / 65536 % 2 = 0 then none
  else if flags / 16 % 4096 ≠ 0 ∨ flags / 131072 % 16 ≠ 0 ∨ flags / 4194304 ≠ 0 then none
  else if flags / 8 % 2 = 1 then some { cdb := cdb, toDevice := [], fromDevice := len, senseRoom := room }
  else some { cdb := cdb, toDevice := readMem m buf len, fromDevice := 0, senseRoom := room }

end Verif.Spec

/-! ## Memory regions and responses -/
namespace Verif.Spec
open Verif.Platform (Mem readMem)

/-- The regions (address, length) do not overlap and their addresses fit `bits` bits. -/
def Separate (bits : Nat) (l : List (Nat × Nat)) : Prop :=
  l.Pairwise (fun x y => x.1 + x.2 ≤ y.1 ∨ y.1 + y.2 ≤ x.1) ∧ ∀ x ∈ l, x.1 < 2 ^ bits

/-- Bytes of data a command moves, in either direction. -/
def dataSize : Req → Nat
  | .read _ len => len.toNat
  | .write _ d => d.length

/-- What a successful command hands back: the contents of the data buffer for a read command with a positive length, nothing for
any other command. -/
def dataBack (c : Req) (m : Mem) (buf : Nat) : Option Bytes :=
  match c with
  | .read _ n => if n > 0 then some (readMem m buf n.toNat) else none
  | .write _ _ => none

/-- Fields of a completed `sg_io_hdr` (64-bit). -/
def sgStatus (raw : Bytes) : Nat := word true raw 64 1
def sgHostStatus (little : Bool) (raw : Bytes) : Nat := word little raw 68 2
def sgDriverStatus (little : Bool) (raw : Bytes) : Nat := word little raw 70 2
def sgPackId (little : Bool) (raw : Bytes) : Int := sword little raw 48 4
def sgSensePtr (little : Bool) (raw : Bytes) : Nat := word little raw 32 8

/-- Fields of a completed `uscsi_cmd` (64-bit). The SCSI status byte is the fifth byte on little-endian machines and the sixth
on big-endian ones (the structure is declared that way). -/
def uscsiStatus (little : Bool) (raw : Bytes) : Nat := word true raw (if little then 4 else 5) 1
def uscsiRqStatus (raw : Bytes) : Nat := word true raw 42 1
def uscsiSensePtr (little : Bool) (raw : Bytes) : Nat := word little raw 48 8

/-- Fields of a completed `sc_passthru` (64-bit, big-endian). -/
def scValidity (raw : Bytes) : Nat := word false raw 2 1
def scBusStatus (raw : Bytes) : Nat := word false raw 3 1
def scEinval (raw : Bytes) : Nat := word false raw 16 2
def scSensePtr (raw : Bytes) : Nat := word false raw 56 8

end Verif.Spec
