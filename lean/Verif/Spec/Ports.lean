import Verif.Spec.Disk
import Verif.Spec.Inquiry
import Verif.Spec.Responses
/-!
# Specification: a disk behind target port groups

The disk of `Spec.Disk` behind a target with asymmetric logical unit access (SPC-4 5.15). Each path leads to a target port. The target says which one by the device identification page
(relative target port designator), and in which state the groups of its ports are by REPORT TARGET PORT GROUPS, on every path. Other commands are carried out by ports of groups in the
states active/optimized (0) and active/non-optimized (1). The others answer NOT READY, LOGICAL UNIT NOT ACCESSIBLE (2/04/0B, for unavailable ports 2/04/0C) and do nothing. The target
changes the states of its groups, and the groups, when it likes.
-/

namespace Verif.Spec.Ports
open Verif.Spec Verif.Spec.Disk

/-- What the target says of its ports: byte 0 of the page, and the designation descriptors it reports on each path. -/
structure Shelf where
  first : UInt8
  designators : Nat → List Bytes

/-- RELATIVE TARGET PORT IDENTIFIER among the designators: of the first one of that type. -/
def portId (ds : List Bytes) : Option Nat := (ds.find? fun d => decide (designatorType d = 4)).map fun d => num d 6 2

/-- ASYMMETRIC ACCESS STATE of the first group that has the port. -/
def access (groups : List Bytes) (port : Option Nat) : Option Nat :=
  port.bind fun p => (groups.find? fun d => decide (p ∈ targetPorts d)).map fun d => bitsAt d 0 3 0

abbrev optimized (sh : Shelf) (groups : List Bytes) (i : Nat) : Prop := access groups (portId (sh.designators i)) = some 0

abbrev usable (sh : Shelf) (groups : List Bytes) (i : Nat) : Prop := optimized sh groups i ∨ access groups (portId (sh.designators i)) = some 1

structure State where
  contents : Contents
  /-- the target port group descriptors -/
  groups : List Bytes
  /-- before the next command, the one after it, ...: whether the groups become others. Then they remain. -/
  moves : List (Option (List Bytes))

/-- When the next command arrives. -/
def State.next (s : State) : State := { s with groups := (s.moves.headD none).getD s.groups, moves := s.moves.tail }

/-- The disk by one of its paths. -/
def path (g : Geometry) (sh : Shelf) (i : Nat) : Device State := fun s q =>
  match Cdb.decode q.cdb q.toDevice with
  | some (.inquiry 1 0x83 n) => (good ((deviceIdentification sh.first (sh.designators i)).take n), s.next)
  | some (.reportTargetPortGroups 0 n) => (good ((rtpgLengthOnly s.next.groups).take n), s.next)
  | _ =>
    if usable sh s.next.groups i then ((disk g s.contents q).1, { s.next with contents := (disk g s.contents q).2 })
    else (failed 2 0x04 (if access s.next.groups (portId (sh.designators i)) = some 3 then 0x0C else 0x0B), s.next)

/-- All groups the target ever has. -/
def State.All (P : List Bytes → Prop) (s : State) : Prop := P s.groups ∧ ∀ gs, some gs ∈ s.moves → P gs

/-- How many times the groups change. -/
def State.changes (s : State) : Nat := s.moves.countP (·.isSome)

end Verif.Spec.Ports
