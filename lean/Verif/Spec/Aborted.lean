import Verif.Spec.Disk
/-!
# Specification: a disk whose commands are aborted now and then

The disk of `Spec.Disk`, behind a connection that is not reliable: a command can end with ABORTED COMMAND (SPC-4 4.5.6, sense key Bh). Then nobody knows how far it came: some of
the blocks it writes may have been written, or all, or none.
-/

namespace Verif.Spec.Aborted
open Verif.Spec.Disk

structure Fault where
  asc : UInt8
  ascq : UInt8
  /-- the blocks that are as they would be after the command -/
  which : Nat → Bool

structure State where
  contents : Contents
  /-- for the next command, the one after it, ...: whether it is aborted. Then no more are. -/
  faults : List (Option Fault)

/-- The command came so far. -/
def partly (g : Geometry) (which : Nat → Bool) (before after : Contents) : Contents := fun x => if which (x / g.size) then after x else before x

def flaky (g : Geometry) : Device State := fun s q =>
  match s.faults.headD none with
  | none => ((disk g s.contents q).1, { contents := (disk g s.contents q).2, faults := s.faults.tail })
  | some f => (failed 0x0B f.asc.toNat f.ascq.toNat, { contents := partly g f.which s.contents (disk g s.contents q).2, faults := s.faults.tail })

/-- How many commands can still be aborted. -/
def ahead (faults : List (Option Fault)) : Nat := faults.countP (·.isSome)

/-- The operation is not COMPARE AND WRITE. -/
def Again : Op → Prop
  | .exchange _ _ _ => False
  | _ => True

/-- The program that replaces a block: `swap` gives COMPARE AND WRITE, `look` reads the block when the comparison failed. -/
inductive Phase where
  | swap
  | look

end Verif.Spec.Aborted
