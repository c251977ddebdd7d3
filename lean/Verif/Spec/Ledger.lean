import Verif.Spec.Refused
/-!
# Specification: a computer that makes numbered updates of a block of a shared disk

The disk of `Spec.Disk`, shared with other computers, behind a connection that is not reliable. Before each command of the computer we look at, the others may do anything to the disk; and the command can be
aborted by the disk (`Spec.Aborted`), or the call of the operating system can fail (`Spec.Refused`), in both cases after it was carried out or before.
-/

namespace Verif.Spec.Ledger
open Verif.Spec.Disk Verif.Platform

/-- How the answer to a command is lost. -/
inductive Loss where
  | aborted (f : Aborted.Fault)
  | refused (f : Refused.Fault)

/-- The blocks that are as they would be after the command. -/
def Loss.which : Loss → Nat → Bool
  | .aborted f => f.which
  | .refused f => f.which

structure Event where
  /-- what the others do before the command -/
  others : Option (Contents → Contents)
  /-- whether the answer is lost -/
  loss : Option Loss

structure State where
  contents : Contents
  /-- for the next command, the one after it, ...: what happens. Then nothing more does. -/
  events : List Event

def State.event (s : State) : Event := s.events.headD ⟨none, none⟩

def Event.act (e : Event) (m : Contents) : Contents := e.others.getD id m

/-- The contents the next command meets. -/
def State.now (s : State) : Contents := s.event.act s.contents

def shared (g : Geometry) : Refused.Served State := fun s q =>
  match s.event.loss with
  | none => (.ok (disk g s.now q).1, { contents := (disk g s.now q).2, events := s.events.tail })
  | some (.aborted f) => (.ok (failed 0x0B f.asc.toNat f.ascq.toNat), { contents := Aborted.partly g f.which s.now (disk g s.now q).2, events := s.events.tail })
  | some (.refused f) => (.error f.failure, { contents := Aborted.partly g f.which s.now (disk g s.now q).2, events := s.events.tail })

/-- Something happens. -/
def Event.busy (e : Event) : Bool := e.others.isSome || e.loss.isSome

def disturbances (es : List Event) : Nat := es.countP Event.busy

def block (g : Geometry) (lba : Nat) (m : Contents) : Bytes := readAt m (lba * g.size) g.size

/-- The contents `m` have become `m'`: the others did what the events say, in this order, and this computer made its updates with the numbers from `c` to before `c'`, in this order, each once, each on the
block as it was then. -/
inductive Made (g : Geometry) (lba : Nat) (change : Nat → Bytes → Bytes) : Nat → Contents → List Event → Nat → Contents → Prop
  | nothing {c m} : Made g lba change c m [] c m
  | others {c m e es c' m'} : Made g lba change c (e.act m) es c' m' → Made g lba change c m (e :: es) c' m'
  | update {c m es c' m'} : Made g lba change (c + 1) (writeAt m (lba * g.size) (change c (block g lba m))) es c' m' → Made g lba change c m es c' m'

end Verif.Spec.Ledger
