import Verif.Spec.Disk
/-!
# Specification: a target that reports about itself

The target's side: what it holds for each of the reporting commands (SPC-4, SES-3), answered by the decoded task and cut at the allocation
length.
-/

namespace Verif.Spec.Target

open Verif.Spec.Disk (good failed)

/-- What a target has to say about itself. -/
structure Target where
  /-- standard INQUIRY data -/
  standard : Bytes
  /-- VPD pages by page code -/
  vpd : Nat → Option Bytes
  /-- diagnostic pages by page code -/
  diagnostic : Nat → Option Bytes
  /-- REPORT LUNS data by SELECT REPORT -/
  luns : Nat → Option Bytes
  /-- REPORT TARGET PORT GROUPS data by parameter data format -/
  groups : Nat → Option Bytes
  /-- RECEIVE COPY OPERATING PARAMETERS data -/
  copy : Option Bytes
  /-- PERSISTENT RESERVE IN data by service action -/
  reservations : Nat → Option Bytes

open Verif.Spec.Cdb in
/-- The data for a task, and the allocation length it may not exceed. -/
def report (t : Target) : Meaning → Option (Bytes × Nat)
  | .testUnitReady => some ([], 0)
  | .inquiry 0 0 n => some (t.standard, n)
  | .inquiry 1 page n => (t.vpd page).map fun b => (b, n)
  | .reportLuns select n => (t.luns select).map fun b => (b, n)
  | .reportTargetPortGroups fmt n => (t.groups fmt).map fun b => (b, n)
  | .receiveCopyOperatingParameters n => t.copy.map fun b => (b, n)
  | .receiveDiagnosticResults 1 page n => (t.diagnostic page).map fun b => (b, n)
  | .persistentReserveIn action n => (t.reservations action).map fun b => (b, n)
  | _ => none

/-- The target as a device: what it does not have is INVALID FIELD IN CDB (5/24/00). Nothing changes it. -/
def target : Device Target := fun t q =>
  match (Cdb.decode q.cdb q.toDevice).bind (report t) with
  | some (b, n) => (good (b.take n), t)
  | none => (failed 5 0x24 0, t)

end Verif.Spec.Target
