import Verif.Spec.Execute
import Verif.Spec.Aborted
/-!
# Specification: a device behind an operating system whose calls can fail

The call that hands a command to the operating system can fail: `write` on an sg device, `ioctl` on Solaris and AIX, `DeviceIoControl` on Windows. Then nobody knows how far the command came: perhaps
it was not given to the device at all, perhaps it was carried out and only the way back failed.
-/

namespace Verif.Spec.Refused
open Verif.Spec.Disk Verif.Platform Verif.Executer Verif.ExecuterGen

/-- A call that failed. -/
structure Failure where
  /-- what had been written to the caller's buffer -/
  data : Bytes
  /-- the reason given in the block of AIX (`einval_arg`) -/
  reason : UInt16

/-- A device and the operating system in front of it: each request is answered by the device, or the call fails; in both cases the device may have changed. -/
abbrev Served (δ : Type) := δ → OsRequest → Except Failure Answer × δ

variable {E D R δ : Type}

/-- What the caller of a command has to be told: that the call failed, or what the device answered (`out` says how that is reported). -/
def heard (failed : PyErr) (out : Req → Answer → Except (Exn E) (Option D)) (c : Req) : Except Failure Answer → Except (Exn E) (Option D)
  | .error _ => .error (.py failed)
  | .ok ans => out c ans

/-- Commands executed one after the other: the device gets the requests that can be built, each caller is told what became of its own. -/
def askServed (failed : PyErr) (out : Req → Answer → Except (Exn E) (Option D)) (dev : Served δ) :
    List (Command Req D R) → δ → List (Except (Exn E) (Option (Val D E R))) × δ
  | [], k => ([], k)
  | c :: cs, k =>
    match c.request with
    | .error e => let r := askServed failed out dev cs k; (.error (.py e) :: r.1, r.2)
    | .ok q => let r := askServed failed out dev cs (dev k (asked q)).2; (decoded c (heard failed out q (dev k (asked q)).1) :: r.1, r.2)

/-! A disk, and a list of what happens to the commands given to it. -/

structure Fault where
  failure : Failure
  /-- the blocks that are as they would be after the command -/
  which : Nat → Bool

structure State where
  contents : Contents
  /-- for the next command, the one after it, ...: whether the call fails. Then no more do. -/
  faults : List (Option Fault)

def unreliable (g : Geometry) : Served State := fun s q =>
  match s.faults.headD none with
  | none => (.ok (disk g s.contents q).1, { contents := (disk g s.contents q).2, faults := s.faults.tail })
  | some f => (.error f.failure, { contents := Aborted.partly g f.which s.contents (disk g s.contents q).2, faults := s.faults.tail })

/-- How many calls can still fail. -/
def ahead (faults : List (Option Fault)) : Nat := faults.countP (·.isSome)

end Verif.Spec.Refused
