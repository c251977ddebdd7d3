import Verif.Spec.Execute
import Verif.Spec.Aborted
/-!
# Specification: a device behind a host adapter that can fail

Besides the device's answer, the Linux sg driver reports how the host adapter and the driver fared: `host_status` and `driver_status` of `sg_io_hdr` (`include/scsi/sg.h`), both zero when
nothing went wrong. Bit 3 of `driver_status` says there is sense data; its upper half holds suggestions, which are not errors.
-/

namespace Verif.Spec.Link
open Verif.Spec.Disk Verif.Platform Verif.Executer Verif.ExecuterGen

/-- What the driver reports about one command. -/
structure Report where
  answer : Answer
  host : UInt16
  driver : UInt16

/-- A device and the way to it. -/
abbrev Linked (δ : Type) := δ → OsRequest → Report × δ

abbrev Report.HasSense (r : Report) : Prop := r.answer.status.toNat / 2 % 2 = 1 ∨ r.driver.toNat / 8 % 2 = 1

/-- Neither the device nor the host adapter nor the driver had an error. -/
abbrev Report.Fine (r : Report) : Prop := r.answer.status = 0 ∧ r.host = 0 ∧ r.driver.toNat % 16 = 0

/-- The two bytes of a 16 bit number, in the machine's byte order. -/
def bytes16 (little : Bool) (x : UInt16) : Bytes :=
  if little then [(x.toNat % 256).toUInt8, (x.toNat / 256).toUInt8] else [(x.toNat / 256).toUInt8, (x.toNat % 256).toUInt8]

variable {S R δ : Type}

/-- What the caller of a command has to be told: the sense data if there is any, the data if all went well, and an error otherwise. (The named errors are for a device status together
with the host statuses 7 and 18h.) -/
def told (parse : Bytes → Py (Option S)) (c : Req) (r : Report) : Except (Exn (DevErr S)) (Option (Option Bytes)) :=
  if r.HasSense then
    match parse (padded 255 r.answer.sense) with
    | .ok s => .error (.dev (.checkCondition (padded 255 r.answer.sense) s))
    | .error e => .error (.py e)
  else if r.Fine then .ok (some (delivered c r.answer))
  else if r.answer.status ≠ 0 ∧ r.host = 7 then .error (.dev .queueFull)
  else if r.answer.status ≠ 0 ∧ r.host = 0x18 then .error (.dev .reservationConflict)
  else .error (.dev .scsi)

/-- Commands given to the device, one after the other: each request that can be built reaches it once, as asked. -/
def askLinked (parse : Bytes → Py (Option S)) (dev : Linked δ) :
    List (Command Req (Option Bytes) R) → δ → List (Except (Exn (DevErr S)) (Option (Val (Option Bytes) (DevErr S) R))) × δ
  | [], k => ([], k)
  | c :: cs, k =>
    match c.request with
    | .error e => let r := askLinked parse dev cs k; (.error (.py e) :: r.1, r.2)
    | .ok q => let r := askLinked parse dev cs (dev k (asked q)).2; (decoded c (told parse q (dev k (asked q)).1) :: r.1, r.2)

/-! ## A disk -/

/-- A command that failed on the way to the disk or back. -/
structure Fault where
  status : UInt8
  host : UInt16
  driver : UInt16
  /-- what arrived of the data -/
  data : Bytes
  /-- the blocks that are as they would be after the command -/
  which : Nat → Bool

/-- An error, without sense data, and none of the two that have names. -/
def Fault.Plain (f : Fault) : Prop :=
  f.status.toNat / 2 % 2 = 0 ∧ f.driver.toNat / 8 % 2 = 0 ∧ ¬ (f.status = 0 ∧ f.host = 0 ∧ f.driver.toNat % 16 = 0) ∧ (f.status ≠ 0 → f.host ≠ 7 ∧ f.host ≠ 0x18)

structure State where
  contents : Contents
  /-- for the next command, the one after it, ...: whether it fails. Then no more do. -/
  faults : List (Option Fault)

def unreliable (g : Geometry) : Linked State := fun s q =>
  match s.faults.headD none with
  | none => (⟨(disk g s.contents q).1, 0, 0⟩, { contents := (disk g s.contents q).2, faults := s.faults.tail })
  | some f => (⟨⟨f.status, [], f.data⟩, f.host, f.driver⟩, { contents := Aborted.partly g f.which s.contents (disk g s.contents q).2, faults := s.faults.tail })

/-- How many commands can still fail. -/
def ahead (faults : List (Option Fault)) : Nat := faults.countP (·.isSome)

end Verif.Spec.Link
