import Verif.Examples.Platforms
import Verif.Props.Errors
import Verif.Props.Handles
import Verif.Props.Heap
import Verif.Props.Mapped
import Verif.Props.Messages

/-! Concrete cases that meet the hypotheses of theorems about errors, their texts, handles, memory and `linux_dm`. Nothing here is a claim:
each example applies a theorem of `Verif/Props` to one non-trivial case, to show that the theorem is not empty. -/

namespace Verif.Errors
open Verif Verif.Spec Verif.Executer Verif.Platform

/-- `C74_device_linux`, `C74_device_solaris`, `C74_device_aix`: the device that rejects everything. -/
example (e : Exn (DevErr Sense.Sense)) (he : (Linux.sgCall true Sense.getSense (Linux.sgDevice true rejecting) exampleAlloc 30000 exampleRead
    (⟨[], 3, 7⟩ : St Handle (Option Unit)) { mem := exampleMem, kernel := (0, none) }).out = .error e) : Caught e :=
  C74_device_linux true rejecting exampleAlloc 30000 exampleRead ⟨[], 3, 7⟩ exampleMem 0 none rfl (by decide) (by decide) (by decide) (by decide)
    (by decide) (exampleRead_separate 88 (by decide)) (by intro k q _; left; simp only [rejecting]; decide) e he

example (e : Exn (DevErr Sense.Sense)) (he : (Solaris.solCall false Sense.getSense (Solaris.uscsiDevice false rejecting) exampleAlloc 30 exampleRead
    (⟨[], 0, 1⟩ : St Handle (Option Unit)) ⟨⟨exampleMem, 0⟩, none⟩).out = .error e) : Caught e :=
  C74_device_solaris false rejecting exampleAlloc 30 exampleRead ⟨[], 0, 1⟩ exampleMem 0 none rfl (by decide) rfl (by decide) (by decide)
    (by decide) (exampleRead_separate 64 (by decide)) (by intro k q _; left; simp only [rejecting]; decide) e he

example (b : Aix.Binding) (e : Exn (DevErr Sense.Sense)) (he : (Aix.aixCall Sense.getSense b (Aix.scDevice rejecting) exampleAlloc 30 exampleRead
    (⟨[], 0, 1⟩ : St Handle (Option Unit)) ⟨⟨exampleMem, 0⟩, none⟩).out = .error e) : Caught e :=
  C74_device_aix b rejecting exampleAlloc 30 exampleRead ⟨[], 0, 1⟩ exampleMem 0 none rfl (by decide) rfl (by decide) (by decide)
    (by decide) (exampleRead_separate 168 (by decide)) (by cases b <;> decide) (by intro k q _; left; simp only [rejecting]; decide) e he

/-- `C74_linux_partial`: the device is gone. -/
example (e : Exn (DevErr Unit)) (he : (Linux.sgCall true (fun _ => .ok (some ())) unplugged exampleAlloc 30000 exampleRead
    (⟨[], 3, 7⟩ : St Handle (Option Unit)) { mem := exampleMem, kernel := () }).out = .error e) :
    Caught e ∨ Undecodable (fun _ => .ok (some ())) e ∨ ∃ x, SystemError true unplugged exampleAlloc 30000 exampleRead 3 { mem := exampleMem, kernel := () } x ∧ e = .py x :=
  C74_linux_partial true _ unplugged exampleAlloc 30000 exampleRead ⟨[], 3, 7⟩ _ rfl (by decide) (by decide) (by decide) (by decide) (by decide) (by decide)
    (by intro w1 raw w2 h; cases h) e he

/-- `C74_solaris_good`: the device that answers INQUIRY. -/
example : (Solaris.solCall false (fun b => .ok (some b)) (uscsiDiagnose false Linux.toyDevice) exampleAlloc 30 exampleRead
    (⟨[], 0, 1⟩ : St Handle (Option Unit)) { world := { mem := exampleMem, kernel := 0 }, buffer := none }).out =
    .ok (some (delivered exampleRead (Linux.toyDevice 0 (asked exampleRead)).1)) :=
  (C74_solaris_good false _ Linux.toyDevice exampleAlloc 30 exampleRead ⟨[], 0, 1⟩ exampleMem 0 none rfl (by decide) rfl (by decide) (by decide)
    (by decide) (exampleRead_separate 64 (by decide)) (by simp [Linux.toyDevice, asked, exampleRead])).1

/-- `C74_solaris_partial`: a driver that fails every request. -/
example (e : Exn (DevErr Unit)) (he : (Solaris.solCall false (fun _ => .ok (some ())) ({ ioctl := fun _ _ w => (.error .ioError, w) } : Solaris.TargetDriver Unit)
    exampleAlloc 30 exampleRead (⟨[], 0, 1⟩ : St Handle (Option Unit)) { world := { mem := exampleMem, kernel := () }, buffer := none }).out = .error e) :
    Caught e ∨ Undecodable (fun _ => .ok (some ())) e ∨ ∃ x w1, Solaris.submitted false ({ ioctl := fun _ _ w => (.error .ioError, w) } : Solaris.TargetDriver Unit)
      exampleAlloc 30 exampleRead 0 { world := { mem := exampleMem, kernel := () }, buffer := none } = (.error x, w1) ∧ e = .py x :=
  C74_solaris_partial false _ _ exampleAlloc 30 exampleRead ⟨[], 0, 1⟩ _ rfl (by decide) rfl (by decide) (by decide) (by decide) (by decide)
    (by intro raw w1 h; cases h) e he

end Verif.Errors

namespace Verif.Platform.Win32
open Verif.Spec

/-- `C92_partial`: two synchronous devices, used and closed. -/
example : (fileOps (nextUp 100) [.open false, .open false, .ioctl 0, .ioctl 1, .close 0, .close 1, .close 0] ⟨[1, 2], []⟩).2.table.Perm [1, 2] :=
  C92_partial (nextUp_limited 100).fresh [1, 2] (by decide) _ (by decide) (by unfold AllClosed; decide)

end Verif.Platform.Win32

namespace Verif.Heap
open Verif.Executer Verif.Platform Verif.Platform.Linux Verif.Spec Verif.Spec.Heap

/-- Two commands answered in order, memory of the first used again for an object. -/
def orderedActs : List Act :=
  [.send (.read [8, 65] 1) (pages 0) false, .send (.write [10, 66] [5, 6]) (pages 1) false, .finish 0 true, .receive 0, .make ⟨(pages 0).data, [9]⟩, .finish 0 true]

/-- `C87_in_order` -/
example : readMem (Proc.run true (S := Unit) (fun _ => .ok none) echo 30000 16 (Proc.init 2 (fun _ => 0) ()) orderedActs).live.world.mem (pages 0).data 1 = [9] :=
  (C87_in_order (l := true) (S := Unit) (parse := fun _ => .ok none) (dev := echo) (tmo := 30000) (limit := 2) (room := 16) (by decide) (by decide) (by decide)
    (by intro _ _ _; exact ⟨_, rfl⟩) orderedActs (by simp [orderedActs, Fits, dataSize, Req.cdb]) (by simp [orderedActs, Act.Calm])
    (by simp [orderedActs, Act.op, Queue.InOrder]) (fun _ => 0) () (allocatesB_sound _ _ (by
      intro c al b hm
      simp only [orderedActs, List.mem_cons, Act.send.injEq, List.not_mem_nil, or_false, reduceCtorEq] at hm
      rcases hm with ⟨rfl, rfl, -⟩ | ⟨rfl, rfl, -⟩
      · exact (pages_room 3 (by decide)).one _ (by simp [Small, dataSize, Req.cdb]) 0 (by decide)
      · exact (pages_room 3 (by decide)).one _ (by simp [Small, dataSize, Req.cdb]) 1 (by decide)) (by decide +kernel))).1
    ⟨(pages 0).data, [9]⟩ List.mem_cons_self

end Verif.Heap

namespace Verif.Commands
open Verif.Executer Verif.Coroutine Verif.ExecuterGen Verif.Platform Verif.Spec Verif.Spec.Disk Verif.Sense

/-- `C66_partial`: the first and the third command of the race, on a disk where the lock is free. -/
example (L : Lib) (B : Parse.BufLib) (other : Bytes → Py (List (String × Int))) (mine : Bytes) (hm : mine.length = 512) (m : Contents)
    (hz : readAt m 3584 512 = zeros 512) :
    ∃ w' as, RunAll (machine (T := Unit) (Linux.ioctlBlocking (lp64 true) getSense (Linux.ioctlDevice true (disk ⟨512, 1000⟩))).plat
        (Linux.prepare (lp64 true) lockAlloc 30000)) ([Cmd.compareAndWrite 7 (zeros 512 ++ mine) 1 512, .read10 7 1 512].map (·.command L B other)) (mappedWorld m) as w' ∧
      Each Shows as [.done, .data mine] := by
  have h1 : readAt (writeAt m 3584 mine) 3584 512 = mine := by
    have := readAt_writeAt m 3584 mine
    rwa [hm] at this
  have hrun : (runOps ⟨512, 1000⟩ [.exchange 7 (zeros 512) mine, .read 7 1] m).1 = [.done, .data mine] := by
    simp [runOps, Op.run, hz, h1]
  obtain ⟨w', as, h2, h3, -⟩ := C66_partial (K := Unit) (T := Unit) L B other true ⟨512, 1000⟩ ⟨by decide, by decide⟩ lockAlloc 30000 (by decide) _
    [.exchange 7 (zeros 512) mine, .read 7 1]
    (.cons (Asks.exchange (g := ⟨512, 1000⟩) (lba := 7) (n := 1) (by decide) (by decide) (by rw [zeros_length, Nat.one_mul]) (by rw [hm, Nat.one_mul]))
      (.cons (Asks.read10 (g := ⟨512, 1000⟩) (lba := 7) (n := 1) (by decide) (by decide)) .nil))
    (fun c hc q hq => race_carried L mine mine hm hm c (by
      simp only [List.mem_cons, List.not_mem_nil, or_false] at hc
      rcases hc with rfl | rfl <;> simp [raceCmds]) q hq)
    (mappedWorld m) m ⟨rfl, by simp [mappedWorld], by simp [mappedWorld], by simp [mappedWorld], rfl⟩ (by rw [hrun]; simp)
  rw [hrun] at h3
  exact ⟨w', as, h2, h3⟩

end Verif.Commands

namespace Verif.Messages
open Verif.Platform Verif.Executer Verif.Spec.Messages

/-- `C89_linux_partial`: the device is busy, and the host adapter reports no connection. -/
example : ∃ text, linuxMessage (lp64 true) (Linux.exampleHeader 3 8 1 0) = some text ∧
    told ':' "SCSI response status is not zero" text = some (statusName 8, 8) ∧ told ':' "host status" text = some (hostName 1, 1) := by
  obtain ⟨text, h1, h2, -, h4⟩ := C89_linux_partial (S := Unit) (lp64 true) (fun _ => .ok none) (fun _ => none) (fun _ => 0) (Linux.exampleHeader 3 8 1 0) (by decide)
    (by
      have := Linux.handle_eq true (S := Unit) (fun _ => .ok none) (fun _ => none) (fun _ => 0) (Linux.exampleHeader 3 8 1 0) (by decide)
      rw [this, if_neg (by decide), if_pos (by decide), if_neg (by decide), if_neg (by decide),
        show Spec.sgPackId true (Linux.exampleHeader 3 8 1 0) = 3 by decide,
        show load (lp64 true) (Linux.fld (lp64 true) "pack_id") (Linux.exampleHeader 3 8 1 0) = 3 by decide]) (by decide)
  exact ⟨text, h1, h2, h4⟩

end Verif.Messages
