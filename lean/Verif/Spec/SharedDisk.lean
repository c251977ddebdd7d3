import Verif.Spec.Reservations
/-!
# Specification: a disk shared by hosts that reserve it

A disk (`Spec.Disk`) with persistent reservations (`Spec.Reservations`) that are enforced: which hosts may read and write while a reservation is held is
table 63 of SPC-4 (5.13.1) with SBC-3's table of commands. Host 0 is the one that uses the library; between its commands the others register, reserve,
preempt, read and write as they like and the disk lets them.
-/

namespace Verif.Spec.SharedDisk

open Verif.Spec.Disk (Geometry Contents good failed disk)
open Verif.Spec.Reservations (Lun Kind Action keyOf refused)

structure State where
  lun : Lun
  contents : Contents

/-- What a command needs to be allowed. -/
inductive Access where
  | free
  | read
  | write
  deriving DecidableEq

/-- With these types anybody may read. -/
def readable : Kind → Bool
  | .writeExclusive | .writeExclusiveRegistrants | .writeExclusiveAll => true
  | _ => false

/-- The reservation lets the host do this. -/
def permits (u : Lun) (host : Nat) (a : Access) : Bool :=
  match a, u.holder with
  | .free, _ => true
  | _, none => true
  | a, some (h, kind) => (a == .read && readable kind) || if kind.registrants then (keyOf u host).isSome else h == host

/-! ## The target -/

open Verif.Spec.Cdb in
/-- What a task needs. -/
def needs : Option Meaning → Access
  | some (.read _ _) => .read
  | some (.write _ _) | some (.writeSame _ _) | some (.compareAndWrite _ _) | some (.unmap _) => .write
  | _ => .free

open Verif.Spec.Cdb in
def aboutReservations : Option Meaning → Bool
  | some (.persistentReserveIn _ _) | some (.persistentReserveOut _ _ _ _) => true
  | _ => false

/-- A command of host 0: a waiting unit attention comes first, then RESERVATION CONFLICT, then the disk. -/
def serve (g : Geometry) (s : State) (q : OsRequest) : Answer × State :=
  match s.lun.attention with
  | some why => (failed 6 0x2A why.ascq, { s with lun := { s.lun with attention := none } })
  | none =>
    let task := Cdb.decode q.cdb q.toDevice
    if aboutReservations task then ((Reservations.serve s.lun q).1, { s with lun := (Reservations.serve s.lun q).2 })
    else if permits s.lun 0 (needs task) then ((disk g s.contents q).1, { s with contents := (disk g s.contents q).2 })
    else (refused, s)

/-! ## The other hosts -/

inductive Deed where
  | act (a : Action)
  | use (op : Disk.Op)

def access : Disk.Op → Access
  | .read _ _ => .read
  | .write _ _ | .fill _ _ _ | .exchange _ _ _ | .discard _ => .write
  | _ => .free

/-- A host does something, if it may. -/
def does (g : Geometry) (s : State) (host : Nat) : Deed → State
  | .act a => { s with lun := (Reservations.act s.lun host a).2 }
  | .use op => if permits s.lun host (access op) then { s with contents := (op.run g s.contents).2 } else s

/-- What other hosts do one after the other (host numbers from 1 on). -/
def others (g : Geometry) (s : State) : List (Nat × Deed) → State
  | [] => s
  | (h, d) :: rest => others g (does g s (h + 1) d) rest

/-- The disk as host 0 sees it: before each of its commands the others have done some more. -/
def shared (g : Geometry) : Device (State × List (List (Nat × Deed))) := fun k q =>
  let r := serve g (others g k.1 (k.2.headD [])) q
  (r.1, r.2, k.2.tail)

/-! ## The caller -/

inductive Op where
  | disk (op : Disk.Op)
  | reservations (op : Reservations.Op)

inductive Reply where
  | disk (r : Disk.Reply)
  | reservations (r : Reservations.Reply)
  /-- RESERVATION CONFLICT for a read or write -/
  | conflict
  /-- a unit attention: something happened to the reservation or the registration (2Ah/03h, 04h, 05h) -/
  | attention (ascq : Nat)
  deriving DecidableEq

def Op.run (g : Geometry) (s : State) (op : Op) : Reply × State :=
  match s.lun.attention with
  | some why => (.attention why.ascq, { s with lun := { s.lun with attention := none } })
  | none =>
    match op with
    | .reservations op => (.reservations (op.run s.lun).1, { s with lun := (op.run s.lun).2 })
    | .disk op => if permits s.lun 0 (access op) then (.disk (op.run g s.contents).1, { s with contents := (op.run g s.contents).2 }) else (.conflict, s)

/-- Operations of host 0, interleaved with what the others do. -/
def runOps (g : Geometry) : List Op → State → List (List (Nat × Deed)) → List Reply × State
  | [], s, _ => ([], s)
  | o :: os, s, d =>
    let r := o.run g (others g s (d.headD []))
    let rs := runOps g os r.2 d.tail
    (r.1 :: rs.1, rs.2)

end Verif.Spec.SharedDisk
