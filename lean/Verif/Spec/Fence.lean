import Verif.Spec.SharedDisk
/-!
# Specification: a disk that several computers reserve, and fencing

The disk of `Spec.SharedDisk` with all hosts alike: each is answered, refused and told of changes by the same rules. A computer that is no longer
registered while the disk is reserved for others is fenced off.

As in `Spec.Reservations`, left out are SPEC_I_PT, ALL_TG_PT, APTPL, REGISTER AND MOVE, REPLACE LOST RESERVATION, READ FULL STATUS and the
aborting of tasks (commands are executed one at a time). The field `attention` of `Lun`, which is about host 0, is not looked at.
-/

namespace Verif.Spec.Fence

open Verif.Spec.Disk (Geometry Contents good failed disk)
open Verif.Spec.Reservations (Lun Kind Action Verdict Notice Key keyOf refused answerOf actionOf)
open Verif.Spec.SharedDisk (Access permits needs access Op Reply)

structure State where
  lun : Lun
  /-- unit attentions waiting for each host -/
  attention : Nat → Option Notice
  contents : Contents

/-- What host `k` is told when another host's action turns `u` into `v`. -/
def notice (u v : Lun) (k : Nat) : Action → Option Notice
  | .clear _ => if (keyOf u k).isSome then some .reservationsPreempted else none
  | .preempt _ _ _ _ => if (keyOf u k).isSome ∧ keyOf v k = none then some .registrationsPreempted else none
  | .reserve _ _ => none
  | _ => if v.holder = none ∧ u.holder.any (·.2.registrants) ∧ (keyOf v k).isSome then some .reservationsReleased else none

/-- A service action of a host. -/
def acts (s : State) (host : Nat) (a : Action) : Verdict × State :=
  let r := Reservations.act s.lun host a
  (r.1, { s with
    lun := r.2
    attention := fun k => if k ≠ host ∧ r.1 = .done then (notice s.lun r.2 k a).or (s.attention k) else s.attention k })

/-- The host has been told. -/
def heard (s : State) (host : Nat) : State := { s with attention := fun k => if k = host then none else s.attention k }

/-! ## The target -/

open Verif.Spec.Cdb in
/-- A command of a host: a waiting unit attention comes first, then RESERVATION CONFLICT, then the disk. -/
def serve (g : Geometry) (host : Nat) : Device State := fun s q =>
  match s.attention host with
  | some why => (failed 6 0x2A why.ascq, heard s host)
  | none =>
    match Cdb.decode q.cdb q.toDevice with
    | some (.persistentReserveIn action n) => ((Reservations.perform s.lun (.persistentReserveIn action n)).1, s)
    | some (.persistentReserveOut action type key saKey) =>
      match actionOf action type key saKey with
      | some a => (answerOf (acts s host a).1, (acts s host a).2)
      | none => (failed 5 0x24 0, s)
    | task =>
      if permits s.lun host (needs task) then ((disk g s.contents q).1, { s with contents := (disk g s.contents q).2 })
      else (refused, s)

/-! ## The caller -/

def told : Verdict → Reservations.Reply
  | .done => .done
  | .conflict => .conflict
  | .illegal asc ascq => .failed 5 asc ascq

/-- What an operation of a host does and what its caller is told. -/
def run (g : Geometry) (s : State) (host : Nat) (op : Op) : Reply × State :=
  match s.attention host with
  | some why => (.attention why.ascq, heard s host)
  | none =>
    match op with
    | .reservations (.act a) => (.reservations (told (acts s host a).1), (acts s host a).2)
    | .reservations op => (.reservations (op.run { s.lun with attention := none }).1, s)
    | .disk op => if permits s.lun host (access op) then (.disk (op.run g s.contents).1, { s with contents := (op.run g s.contents).2 }) else (.conflict, s)

/-! ## Fencing -/

/-- The unit's records are in order: one key for each registered host, and a reservation not shared by all belongs to a registered host. -/
structure Ordered (u : Lun) : Prop where
  one : ∀ r ∈ u.keys, keyOf u r.1 = some r.2
  held : ∀ h kind, u.holder = some (h, kind) → kind.everyRegistrant = false → (keyOf u h).isSome

/-- The host is not registered, and the disk is reserved, not by it. -/
def Fenced (host : Nat) (u : Lun) : Prop :=
  keyOf u host = none ∧ ∃ h kind, u.holder = some (h, kind) ∧ (kind.registrants = true ∨ h ≠ host)

/-- The fenced host does not register again, and the others do not give up the reservation: they do not release or clear it, remove their own
registration or preempt themselves. (They may preempt each other, register, change keys, read, write and do anything else.) -/
def Keeps (fenced host : Nat) : Option Cdb.Meaning → Prop
  | some (.persistentReserveOut action type key saKey) =>
    match actionOf action type key saKey with
    | some (.register _ new) | some (.registerAnyway new) => if host = fenced then new = 0 else new ≠ 0
    | some (.release _ _) | some (.clear _) => host = fenced
    | some (.preempt _ key victim _) => host = fenced ∨ key ≠ victim
    | _ => True
  | _ => True

/-- Operations of several hosts, one after the other. -/
def runOps (g : Geometry) : List (Nat × Op) → State → List Reply × State
  | [], s => ([], s)
  | (h, o) :: os, s =>
    let r := run g s h o
    let rs := runOps g os r.2
    (r.1 :: rs.1, rs.2)

/-- The results of all hosts but one. -/
def resultsWithout {C R : Type} (host : Nat) (sched : List (Nat × C)) (as : List R) : List R := ((sched.zip as).filter (·.1.1 != host)).map (·.2)

/-- The unit is the same for everybody but one host. -/
structure SameBut (host : Nat) (s t : State) : Prop where
  lun : t.lun = s.lun
  contents : t.contents = s.contents
  attention : ∀ k, k ≠ host → t.attention k = s.attention k

end Verif.Spec.Fence
