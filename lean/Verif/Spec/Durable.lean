import Verif.Spec.Disk
import Verif.Spec.Options
/-!
# Specification: a disk with a volatile cache

The disk of `Verif.Spec.Disk` with a write-back cache and with the options of SBC-3 that bear on it. What is written goes to the cache; the disk
moves bytes from there to the medium whenever it likes; a loss of power empties the cache and is reported to the next command as a unit
attention (SPC-4: 6/29/00, POWER ON, RESET, OR BUS DEVICE RESET OCCURRED). A command with FUA set leaves its blocks on the medium.
-/

namespace Verif.Spec.Durable

open Verif.Spec.Disk

/-- What happens to the disk between two commands. -/
inductive Event where
  /-- the bytes at these addresses are written from the cache to the medium -/
  | destage (which : Nat → Bool)
  | powerLoss

structure State where
  /-- what is on the medium -/
  medium : Contents
  /-- what a read finds: the cache, and the medium where nothing is cached -/
  seen : Contents
  /-- a loss of power has not been reported yet -/
  attention : Bool
  /-- what is going to happen before the next command, the one after it, ...; then nothing any more -/
  coming : List (List Event)

def Event.happen (s : State) : Event → State
  | .destage which => { s with medium := fun x => if which x then s.seen x else s.medium x }
  | .powerLoss => { s with seen := s.medium, attention := true }

/-- The disk when the next command arrives. -/
def State.next (s : State) : State := { (s.coming.headD []).foldl Event.happen s with coming := s.coming.tail }

/-- The medium after these blocks have been written to it as they are seen. -/
def settle (g : Geometry) (medium seen : Contents) (blocks : Nat × Nat) : Contents := fun x =>
  if blocks.1 * g.size ≤ x ∧ x < (blocks.1 + blocks.2) * g.size then seen x else medium x

/-! ## The target -/

/-- READ, WRITE (10, 12, 16) and COMPARE AND WRITE have their options in byte 1. -/
def hasOptions (cdb : Bytes) : Bool := [0x28, 0x2A, 0x88, 0x89, 0x8A, 0xA8, 0xAA].contains (cdb.getD 0 0)

/-- FUA: bit 3 of byte 1. -/
def forced (cdb : Bytes) : Bool := hasOptions cdb && Cdb.bit cdb 1 3 4 == 1

/-- What the disk does not do: protection information (bits 7-5 of byte 1), relative addresses (bit 0), NACA (bit 2 of the control byte, the last). -/
def refused (cdb : Bytes) : Bool :=
  (hasOptions cdb && (Cdb.bit cdb 1 5 8 != 0 || Cdb.bit cdb 1 0 1 != 0)) || getBits (cdb.getLastD 0) 2 3 != 0

/-- The blocks of a command with options. -/
def blocksOf : Option Cdb.Meaning → Nat × Nat
  | some (.read lba n) | some (.write lba n) | some (.compareAndWrite lba n) => (lba, n)
  | _ => (0, 0)

/-- The disk. A refused option is INVALID FIELD IN CDB (5/24/00). DPO, FUA_NV, the group number and the vendor specific bits change nothing. -/
def cached (g : Geometry) : Device State := fun s q =>
  let s := s.next
  if s.attention then (failed 6 0x29 0, { s with attention := false })
  else if refused q.cdb then (failed 5 0x24 0, s)
  else
    let r := disk g s.seen q
    (r.1, { s with seen := r.2, medium := if forced q.cdb && r.1.status == 0 then settle g s.medium r.2 (blocksOf (Cdb.decode q.cdb q.toDevice)) else s.medium })

/-! ## The caller -/

open Verif.Spec.Options (Opts)

/-- The operations of C59, and reads, writes and comparisons with options. -/
inductive Op where
  | plain (op : Disk.Op)
  | read (f : Opts) (lba n : Nat)
  | write (f : Opts) (lba : Nat) (data : Bytes)
  | exchange (f : Opts) (lba : Nat) (old new : Bytes)

/-- The operation without its options. -/
def Op.base : Op → Disk.Op
  | .plain op => op
  | .read _ lba n => .read lba n
  | .write _ lba data => .write lba data
  | .exchange _ lba old new => .exchange lba old new

def Op.opts : Op → Opts
  | .plain _ => {}
  | .read f .. | .write f .. | .exchange f .. => f

def Reply.isFailed : Reply → Bool
  | .failed .. => true
  | _ => false

/-- What an operation does and what its caller is told. -/
def Op.run (g : Geometry) (s : State) (op : Op) : Reply × State :=
  let s := s.next
  if s.attention then (.failed 6 0x29 0, { s with attention := false })
  else if op.opts.protect ≠ 0 ∨ op.opts.rel ≠ 0 ∨ op.opts.naca ≠ 0 then (.failed 5 0x24 0, s)
  else
    let r := op.base.run g s.seen
    (r.1, { s with seen := r.2, medium := if op.opts.fua = 1 ∧ ¬ Reply.isFailed r.1 then settle g s.medium r.2 (op.base.span g) else s.medium })

def runOps (g : Geometry) : List Op → State → List Reply × State
  | [], s => ([], s)
  | o :: os, s =>
    let r := o.run g s
    let rs := runOps g os r.2
    (r.1 :: rs.1, rs.2)

/-- An operation whose caller, told `r`, takes it that blocks `lba` to `lba + n - 1` hold `data`: a write or a matching comparison that was
acknowledged, a read that returned it. -/
inductive Tells (g : Geometry) (lba n : Nat) (data : Bytes) : Op → Reply → Prop
  | write {f} : Tells g lba n data (.write f lba data) .done
  | exchange {f old} : old.length = n * g.size → Tells g lba n data (.exchange f lba old data) .done
  | read {f} : Tells g lba n data (.read f lba n) (.data data)
  | plainWrite : Tells g lba n data (.plain (.write lba data)) .done
  | plainExchange {old} : old.length = n * g.size → Tells g lba n data (.plain (.exchange lba old data)) .done
  | plainRead : Tells g lba n data (.plain (.read lba n)) (.data data)

end Verif.Spec.Durable
