import Verif.Cdb.Constants
import Verif.Props.Reservations
/-!
# C65: the names of service actions and types

The commands of C65, C70, C95, C96 and C98 are given with numbers. A caller writes names. Here the commands are given with the names.
-/

namespace Verif.Commands.Reserve

open Verif.Executer Verif.Coroutine Verif.ExecuterGen Verif.Platform Verif.Spec Verif.Sense Verif.Constants
open Verif.Spec.Reservations
open Verif.Spec.Disk (Each)

/-- The name of a type of reservation. -/
def named : Kind → OutType
  | .writeExclusive => .WRITE_EXCLUSIVE
  | .exclusiveAccess => .EXCLUSIVE_ACCESS
  | .writeExclusiveRegistrants => .WRITE_EXCLUSIVE_REGISTRANTS_ONLY
  | .exclusiveAccessRegistrants => .EXCLUSIVE_ACCESS_REGISTRANTS_ONLY
  | .writeExclusiveAll => .WRITE_EXCLUSIVE_ALL_REGISTRANTS
  | .exclusiveAccessAll => .EXCLUSIVE_ACCESS_ALL_REGISTRANTS

/-- The command object a caller uses for an operation, with names. -/
inductive Named : Cmd → Op → Prop
  | register {old new : Key} :
      Named (.persistentReserveOut { serviceAction := OutAction.REGISTER.value, key := old.toNat, saKey := new.toNat }) (.act (.register old new))
  | registerAnyway {old new : Key} :
      Named (.persistentReserveOut { serviceAction := OutAction.REGISTER_AND_IGNORE_EXISTING_KEY.value, key := old.toNat, saKey := new.toNat }) (.act (.registerAnyway new))
  | reserve {kind : Kind} {key : Key} :
      Named (.persistentReserveOut { serviceAction := OutAction.RESERVE.value, prType := (named kind).value, key := key.toNat }) (.act (.reserve kind.code key))
  | release {kind : Kind} {key : Key} :
      Named (.persistentReserveOut { serviceAction := OutAction.RELEASE.value, prType := (named kind).value, key := key.toNat }) (.act (.release kind.code key))
  | clear {key : Key} : Named (.persistentReserveOut { serviceAction := OutAction.CLEAR.value, key := key.toNat }) (.act (.clear key))
  | preempt {kind : Kind} {key victim : Key} :
      Named (.persistentReserveOut { serviceAction := OutAction.PREEMPT.value, prType := (named kind).value, key := key.toNat, saKey := victim.toNat })
        (.act (.preempt kind.code key victim false))
  | preemptAbort {kind : Kind} {key victim : Key} :
      Named (.persistentReserveOut { serviceAction := OutAction.PREEMPT_AND_ABORT.value, prType := (named kind).value, key := key.toNat, saKey := victim.toNat })
        (.act (.preempt kind.code key victim true))
  | keys {n : Nat} : 8 ≤ n → n < 2 ^ 16 → Named (.persistentReserveIn InAction.READ_KEYS.value n) (.keys ((n - 8) / 8))
  | reservation {n : Nat} : 24 ≤ n → n < 2 ^ 16 → Named (.persistentReserveIn InAction.READ_RESERVATION.value n) .reservation

/-- **C65 with names.** A command made with the name of an action and of a type asks for that action with that type. -/
theorem C65_named {c : Cmd} {op : Op} (h : Named c op) : Asks c op := by
  cases h with
  | register => exact .register
  | registerAnyway => exact .registerAnyway
  | reserve => rename_i kind _; cases kind <;> exact .reserve (by decide)
  | release => rename_i kind _; cases kind <;> exact .release (by decide)
  | clear => exact .clear
  | preempt => rename_i kind _ _; cases kind <;> exact .preempt (by decide)
  | preemptAbort => rename_i kind _ _; cases kind <;> exact .preemptAbort (by decide)
  | keys h1 h2 => exact .keys h1 h2
  | reservation h1 h2 => exact .reservation h1 h2

/-- What the caller asks for with the name of a type is what the unit takes it for. -/
theorem named_kind (kind : Kind) : Kind.ofCode (named kind).value.toNat = some kind := by cases kind <;> rfl

theorem named_each : ∀ {cmds : List Cmd} {ops : List Op}, Each Named cmds ops → Each Asks cmds ops
  | _, _, .nil => .nil
  | _, _, .cons h hs => .cons (C65_named h) (named_each hs)

section linux

variable {K T : Type} [DecidableEq K] (L : Lib) (B : Parse.BufLib) (other : Bytes → Py (List (String × Int)))

/-- **C65 on Linux, with names.** -/
theorem C65_named_linux (l : Bool) (alloc : Nat → Alloc) (t : Int) (ht : 0 ≤ t ∧ t < 2 ^ 32) (cmds : List Cmd) (ops : List Op)
    (hask : Each Named cmds ops) (hok : Carried L (LinuxOk alloc) cmds) (u : Lun) (hu : Bounded u) (others : List (List (Nat × Action)))
    (w : W Handle K (Option Bytes) (DevErr Sense) (World ((Lun × List (List (Nat × Action))) × Option Bytes))) (hw : LinuxIdle w.st w.os (u, others)) :
    ∃ w' as left, RunAll (machine (T := T) (Linux.sgBlocking (lp64 l) getSense (Linux.sgDevice l shared)).plat (Linux.prepare (lp64 l) alloc t))
        (cmds.map (·.command L B other)) w as w' ∧ Each Shows as (runOps ops u others).1 ∧ LinuxIdle w'.st w'.os ((runOps ops u others).2, left) :=
  C65_linux L B other l alloc t ht cmds ops (named_each hask) hok u hu others w hw

end linux

/-- The caller's reading of the answer of PERSISTENT RESERVE IN is made with the class for the action named. -/
theorem C35_named (sg : Bool) (buf : Bytes) :
    Parse.prin sg InAction.READ_KEYS.value buf = (Parse.readKeys sg buf).map .keys ∧
    Parse.prin sg InAction.READ_RESERVATION.value buf = (Parse.readReservation sg buf).map .reservation ∧
    Parse.prin sg InAction.REPORT_CAPABILITIES.value buf = (Parse.reportCapabilities sg buf).map .capabilities ∧
    Parse.prin sg InAction.READ_FULL_STATUS.value buf = (Parse.readFullStatus sg buf).map .fullStatus := by
  refine ⟨?_, ?_, ?_, ?_⟩
  · show (do let r ← Parse.readKeys sg buf; _) = _
    cases Parse.readKeys sg buf <;> rfl
  · show (do let r ← Parse.readReservation sg buf; _) = _
    cases Parse.readReservation sg buf <;> rfl
  · show (do let r ← Parse.reportCapabilities sg buf; _) = _
    cases Parse.reportCapabilities sg buf <;> rfl
  · show (do let r ← Parse.readFullStatus sg buf; _) = _
    cases Parse.readFullStatus sg buf <;> rfl

/-- A registration and a reservation, taken over by another computer later. -/
example : Each Named
    [.persistentReserveOut { serviceAction := 0, key := 0, saKey := 5 }, .persistentReserveOut { serviceAction := 1, prType := 3, key := 5 },
      .persistentReserveOut { serviceAction := 4, prType := 6, key := 5, saKey := 9 }]
    [.act (.register 0 5), .act (.reserve 3 5), .act (.preempt 6 5 9 false)] :=
  .cons (.register (old := 0) (new := 5)) (.cons (.reserve (kind := .exclusiveAccess) (key := 5))
    (.cons (.preempt (kind := .exclusiveAccessRegistrants) (key := 5) (victim := 9)) .nil))

end Verif.Commands.Reserve
