import Verif.Spec.CdbMeaning
import Verif.Spec.Device
/-!
# Specification: a disk

The target's side: a disk of `blocks` blocks of `size` bytes that understands CDBs as SBC-3 defines them (`Spec.Cdb.decode`). The caller's
side: the operations on an array of bytes that a user of the library has in mind.
-/

namespace Verif.Spec.Disk

structure Geometry where
  size : Nat
  blocks : Nat

/-- The bytes of the disk by their address (block number times block size plus offset). -/
abbrev Contents := Nat → UInt8

/-- `n` bytes from address `a` on. -/
def readAt (m : Contents) (a n : Nat) : Bytes := (List.range n).map fun i => m (a + i)

def writeAt (m : Contents) (a : Nat) (bs : Bytes) : Contents := fun x => if a ≤ x ∧ x < a + bs.length then bs.getD (x - a) 0 else m x

/-- `n` copies of `bs`, one after the other. -/
def copies (n : Nat) (bs : Bytes) : Bytes := (List.replicate n bs).flatten

/-- Every range (first block, number of blocks) is on the disk. -/
def inside (g : Geometry) (ranges : List (Nat × Nat)) : Bool := ranges.all fun r => decide (r.1 + r.2 ≤ g.blocks)

/-- The blocks of all ranges read as zeros. -/
def discard (g : Geometry) (m : Contents) (ranges : List (Nat × Nat)) : Contents := fun x =>
  if ∃ r ∈ ranges, r.1 * g.size ≤ x ∧ x < (r.1 + r.2) * g.size then 0 else m x

/-! ## The target -/

def good (data : Bytes) : Answer := { status := 0, sense := [], data := data }

/-- CHECK CONDITION with fixed format sense data. -/
def failed (key asc ascq : Nat) : Answer :=
  { status := 2, sense := [0x70, 0, byte key, 0, 0, 0, 0, 6, 0, 0, 0, 0, byte asc, byte ascq], data := [] }

/-- READ CAPACITY(10) data: the last address (FFFFFFFFh if it does not fit) and the block size. -/
def capacity10 (g : Geometry) : Bytes := be 4 (min (g.blocks - 1) (2 ^ 32 - 1)) ++ be 4 g.size

/-- READ CAPACITY(16) data: the last address, the block size, twenty bytes of zeros. -/
def capacity16 (g : Geometry) : Bytes := be 8 (g.blocks - 1) ++ be 4 g.size ++ zeros 20

open Verif.Spec.Cdb in
/-- What the disk does with a task and the data that came with it: blocks beyond the end are LOGICAL BLOCK ADDRESS OUT OF RANGE (5/21/00), a failed
comparison is MISCOMPARE (E/1D/00), unmapped blocks read as zeros from then on (LBPRZ), anything else is INVALID COMMAND OPERATION CODE (5/20/00). -/
def perform (g : Geometry) (m : Contents) (data : Bytes) : Meaning → Answer × Contents
  | .testUnitReady => (good [], m)
  | .read lba n =>
    if lba + n ≤ g.blocks then (good (readAt m (lba * g.size) (n * g.size)), m) else (failed 5 0x21 0, m)
  | .write lba n =>
    if lba + n ≤ g.blocks then (good [], writeAt m (lba * g.size) (data.take (n * g.size))) else (failed 5 0x21 0, m)
  | .writeSame lba n =>
    if lba + n ≤ g.blocks then (good [], writeAt m (lba * g.size) (copies n (data.take g.size))) else (failed 5 0x21 0, m)
  | .compareAndWrite lba n =>
    if lba + n ≤ g.blocks then
      if readAt m (lba * g.size) (n * g.size) = data.take (n * g.size) then
        (good [], writeAt m (lba * g.size) ((data.drop (n * g.size)).take (n * g.size)))
      else (failed 0x0E 0x1D 0, m)
    else (failed 5 0x21 0, m)
  | .unmap ranges => if inside g ranges then (good [], discard g m ranges) else (failed 5 0x21 0, m)
  | _ => (failed 5 0x20 0, m)

/-- The disk as a device: READ CAPACITY is answered by operation code, the rest by the decoded task. -/
def disk (g : Geometry) : Device Contents := fun m q =>
  if q.cdb.getD 0 0 = 0x25 then (good (capacity10 g), m)
  else if q.cdb.getD 0 0 = 0x9E then (good (capacity16 g), m)
  else
    match Cdb.decode q.cdb q.toDevice with
    | some task => perform g m q.toDevice task
    | none => (failed 5 0x20 0, m)

/-! ## The caller -/

inductive Op where
  | ready
  | capacity
  | bigCapacity
  | read (lba n : Nat)
  | write (lba : Nat) (data : Bytes)
  | fill (lba n : Nat) (block : Bytes)
  | exchange (lba : Nat) (old new : Bytes)
  | discard (ranges : List (Nat × Nat))

inductive Reply where
  | ready
  | capacity (last size : Nat)
  | data (bs : Bytes)
  | done
  | failed (key asc ascq : Nat)
  deriving DecidableEq

/-- The number of blocks an operation touches. -/
def Op.span (g : Geometry) : Op → Nat × Nat
  | .read lba n => (lba, n)
  | .write lba data => (lba, data.length / g.size)
  | .fill lba n _ => (lba, n)
  | .exchange lba old _ => (lba, old.length / g.size)
  | _ => (0, 0)

/-- What an operation does to an array of bytes and what its caller is told. -/
def Op.run (g : Geometry) (m : Contents) : Op → Reply × Contents
  | .ready => (.ready, m)
  | .capacity => (.capacity (min (g.blocks - 1) (2 ^ 32 - 1)) g.size, m)
  | .bigCapacity => (.capacity (g.blocks - 1) g.size, m)
  | .read lba n => if lba + n ≤ g.blocks then (.data (readAt m (lba * g.size) (n * g.size)), m) else (.failed 5 0x21 0, m)
  | .write lba data =>
    if lba + data.length / g.size ≤ g.blocks then (.done, writeAt m (lba * g.size) data) else (.failed 5 0x21 0, m)
  | .fill lba n block =>
    if lba + n ≤ g.blocks then (.done, writeAt m (lba * g.size) (copies n block)) else (.failed 5 0x21 0, m)
  | .exchange lba old new =>
    if lba + old.length / g.size ≤ g.blocks then
      if readAt m (lba * g.size) old.length = old then (.done, writeAt m (lba * g.size) new) else (.failed 0x0E 0x1D 0, m)
    else (.failed 5 0x21 0, m)
  | .discard ranges => if inside g ranges then (.done, Disk.discard g m ranges) else (.failed 5 0x21 0, m)

def runOps (g : Geometry) : List Op → Contents → List Reply × Contents
  | [], m => ([], m)
  | o :: os, m =>
    let r := o.run g m
    let rs := runOps g os r.2
    (r.1 :: rs.1, rs.2)

/-- The operation writes none of the `n` blocks from `lba` on. -/
def Op.Spares (g : Geometry) (lba n : Nat) : Op → Prop
  | .write a data => a + data.length / g.size ≤ lba ∨ lba + n ≤ a
  | .fill a k _ => a + k ≤ lba ∨ lba + n ≤ a
  | .exchange a old _ => a + old.length / g.size ≤ lba ∨ lba + n ≤ a
  | .discard ranges => ∀ r ∈ ranges, r.1 + r.2 ≤ lba ∨ lba + n ≤ r.1
  | _ => True

/-- The data of an operation is whole blocks. -/
def Op.Whole (g : Geometry) : Op → Prop
  | .write _ data => data.length = data.length / g.size * g.size
  | .fill _ _ block => block.length = g.size
  | .exchange _ old new => old.length = old.length / g.size * g.size ∧ new.length = old.length
  | _ => True

/-- Two lists of the same length, related element by element. -/
inductive Each {α β : Type} (R : α → β → Prop) : List α → List β → Prop
  | nil : Each R [] []
  | cons {a b as bs} : R a b → Each R as bs → Each R (a :: as) (b :: bs)

end Verif.Spec.Disk
