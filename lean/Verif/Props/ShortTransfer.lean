import Verif.Commands
import Verif.Props.ExecuteDevice
import Verif.Props.Cdb
/-!
# C63: a short transfer can be told from a full one

A device may send less than a read command has room for. The commands that hand on the data as it came (READ, LOG SENSE) are the ones where only the
length of the data tells.
-/
set_option linter.unusedSectionVars false

namespace Verif.Commands

open Verif.Executer Verif.Coroutine Verif.ExecuterGen Verif.Platform Verif.Spec

variable {K T S δ : Type} [DecidableEq K] (L : Lib) (B : Parse.BufLib) (other : Bytes → Py (List (String × Int)))

/-- The commands that ask for data and hand it on as it came. -/
def HandsOn : Cmd → Prop
  | .read6 .. | .read10 .. | .read12 .. | .read16 .. | .logSense .. => True
  | _ => False

/-- The device succeeds with `d`, sending no more than it was asked for. -/
def Sends (dev : Device δ) (k : δ) (q : Req) (d : Bytes) : Prop :=
  (dev k (asked q)).1.status = 0 ∧ (dev k (asked q)).1.data = d ∧ d.length ≤ (asked q).fromDevice

theorem handsOn_read {c : Cmd} (hc : HandsOn c) {q : Req} (h : (c.command L B other).request = .ok q) : ∃ cdb n, q = .read cdb n := by
  cases c <;> simp only [HandsOn] at hc
  · obtain ⟨_, _, _, _, rfl⟩ := (Cdb.read6_iff ..).1 h; exact ⟨_, _, rfl⟩
  · obtain ⟨_, _, rfl⟩ := (Cdb.read10_iff ..).1 h; exact ⟨_, _, rfl⟩
  · obtain ⟨_, _, rfl⟩ := (Cdb.read12_iff ..).1 h; exact ⟨_, _, rfl⟩
  · obtain ⟨_, _, rfl⟩ := (Cdb.read16_iff ..).1 h; exact ⟨_, _, rfl⟩
  · obtain ⟨_, _, _, _, _, _, rfl⟩ := (Cdb.logSense_iff ..).1 h; exact ⟨_, _, rfl⟩

theorem handsOn_decode {c : Cmd} (hc : HandsOn c) (d : Option Bytes) : (c.command L B other).decode (some d) = .ok (.raw d) := by
  cases c <;> simp only [HandsOn] at hc <;> rfl

/-- **C63 on Windows**: what the caller gets is exactly what the device sent (`None` for nothing), so different data, in particular data of
different length, gives different results. -/
theorem C63_windows (b : Bool) (parse : Bytes → Py (Option S)) (dev : Device δ) (alloc : Nat → Alloc)
    (hparse : ∀ k q, (dev k q).1.status = 2 → ∃ sn, parse (padded 255 (dev k q).1.sense) = .ok sn)
    (c : Cmd) (hc : HandsOn c) (q : Req) (hq : (c.command L B other).request = .ok q) (hok : WindowsOk b alloc q)
    (w : W Win32.Spt K (Option Bytes) (DevErr S) (Win32.WinWorld δ)) (k : δ) (hw : WindowsIdle w.st w.os k) (d : Bytes) (hd : Sends dev k q d) :
    ∃ w', RunAll (machine (T := T) (Win32.winPlat (Win32.W b) parse (Win32.sptDevice b dev)) (Win32.prepare (Win32.W b) alloc)) [c.command L B other] w
      [.ok (some (.obj (.raw (if d = [] then none else some d))))] w' := by
  obtain ⟨w', h, -⟩ := C51_windows (K := K) (T := T) b parse dev alloc hparse [c.command L B other]
    (by intro c' hc' q' hq'; rw [List.mem_singleton.1 hc', hq] at hq'; cases hq'; exact hok) w k hw
  obtain ⟨cdb, n, rfl⟩ := handsOn_read L B other hc hq
  obtain ⟨h1, h2, h3⟩ := hd
  refine ⟨w', ?_⟩
  have h3' : d.length ≤ n.toNat := h3
  have he : Win32.winOutcome parse (.read cdb n) (dev k (asked (.read cdb n))).1 = .ok (some (if d = [] then none else some d)) := by
    simp [Win32.winOutcome, h1, h2, List.take_of_length_le h3']
  simpa only [askAll, hq, decoded, he, handsOn_decode L B other hc] using h

/-- The results of C63 differ when the data does. -/
theorem C63_tells (d d' : Bytes) (h : (Except.ok (some (.obj (.raw (if d = [] then none else some d)))) :
      Except (Exn (DevErr S)) (Option (Val (Option Bytes) (DevErr S) Result))) =
    .ok (some (.obj (.raw (if d' = [] then none else some d'))))) : d = d' := by
  simp only [Except.ok.injEq, Option.some.injEq, Val.obj.injEq, Result.raw.injEq] at h
  split at h <;> split at h <;> simp_all

theorem padded_zeros (n j : Nat) (d : Bytes) (h : d.length + j ≤ n) : padded n (d ++ zeros j) = padded n d := by
  simp only [padded, List.append_assoc, zeros, List.replicate_append_replicate, List.take_append, List.take_replicate]
  congr 2
  omega

theorem short_outcome (parse : Bytes → Py (Option S)) (dev : Device δ) (cdb : Bytes) (n : Int) (hn : 0 < n) (k : δ) (d : Bytes)
    (h : Sends dev k (.read cdb n) d) : Platform.outcome parse (.read cdb n) (dev k (asked (.read cdb n))).1 = .ok (some (some (padded n.toNat d))) := by
  obtain ⟨h1, h2, -⟩ := h
  simp [Platform.outcome, h1, h2, delivered, hn]

/-- **C63 is false on Linux**: a device that sends `d` and one that sends `d` followed by zeros are the same to the caller, who gets all
the bytes asked for and no error either way; in particular a device that sends nothing is taken for one that sends zeros. -/
theorem C63_linux_false (l : Bool) (parse : Bytes → Py (Option S)) (dev : Device δ) (alloc : Nat → Alloc) (t : Int) (ht : 0 ≤ t ∧ t < 2 ^ 32)
    (hparse : ∀ k q, (dev k q).1.status.toNat / 2 % 2 = 1 → ∃ sn, parse (padded 255 (dev k q).1.sense) = .ok sn)
    (c : Cmd) (hc : HandsOn c) (cdb : Bytes) (n : Int) (hn : 0 < n) (hq : (c.command L B other).request = .ok (.read cdb n))
    (hok : LinuxOk alloc (.read cdb n)) (d : Bytes) (j : Nat) (hj : d.length + j ≤ n.toNat)
    (w1 w2 : W Handle K (Option Bytes) (DevErr S) (World (δ × Option Bytes))) (k1 k2 : δ) (h1 : LinuxIdle w1.st w1.os k1) (h2 : LinuxIdle w2.st w2.os k2)
    (hd1 : Sends dev k1 (.read cdb n) d) (hd2 : Sends dev k2 (.read cdb n) (d ++ zeros j)) :
    ∃ w1' w2' b, b.length = n.toNat ∧
      RunAll (machine (T := T) (Linux.sgBlocking (lp64 l) parse (Linux.sgDevice l dev)).plat (Linux.prepare (lp64 l) alloc t)) [c.command L B other] w1
        [.ok (some (.obj (.raw (some b))))] w1' ∧
      RunAll (machine (T := T) (Linux.sgBlocking (lp64 l) parse (Linux.sgDevice l dev)).plat (Linux.prepare (lp64 l) alloc t)) [c.command L B other] w2
        [.ok (some (.obj (.raw (some b))))] w2' := by
  have hok' : ∀ c' ∈ [c.command L B other], ∀ q, c'.request = .ok q → LinuxOk alloc q := by
    intro c' hc' q' hq'; rw [List.mem_singleton.1 hc', hq] at hq'; cases hq'; exact hok
  obtain ⟨w1', r1, -⟩ := C51_linux (K := K) (T := T) l parse dev alloc t ht hparse [c.command L B other] hok' w1 k1 h1
  obtain ⟨w2', r2, -⟩ := C51_linux (K := K) (T := T) l parse dev alloc t ht hparse [c.command L B other] hok' w2 k2 h2
  refine ⟨w1', w2', padded n.toNat d, by simp [padded, zeros], ?_, ?_⟩
  · simpa only [askAll, hq, decoded, short_outcome parse dev cdb n hn k1 d hd1, handsOn_decode L B other hc] using r1
  · simpa only [askAll, hq, decoded, short_outcome parse dev cdb n hn k2 _ hd2, padded_zeros _ _ _ hj, handsOn_decode L B other hc] using r2

/-- **C63 is false on Solaris.** -/
theorem C63_solaris_false (l : Bool) (parse : Bytes → Py (Option S)) (dev : Device δ) (alloc : Nat → Alloc) (t : Int) (ht : 0 ≤ t ∧ t < 2 ^ 15)
    (hparse : ∀ k q, (dev k q).1.status.toNat / 2 % 2 = 1 → ∃ sn, parse (padded 255 (dev k q).1.sense) = .ok sn)
    (c : Cmd) (hc : HandsOn c) (cdb : Bytes) (n : Int) (hn : 0 < n) (hq : (c.command L B other).request = .ok (.read cdb n))
    (hok : SolarisOk alloc (.read cdb n)) (d : Bytes) (j : Nat) (hj : d.length + j ≤ n.toNat)
    (w1 w2 : W Handle K (Option Bytes) (DevErr S) (Solaris.SolWorld δ)) (k1 k2 : δ) (h1 : SolarisIdle w1.st w1.os k1) (h2 : SolarisIdle w2.st w2.os k2)
    (hd1 : Sends dev k1 (.read cdb n) d) (hd2 : Sends dev k2 (.read cdb n) (d ++ zeros j)) :
    ∃ w1' w2' b, b.length = n.toNat ∧
      RunAll (machine (T := T) (Solaris.solBlocking (lp64 l) parse (Solaris.uscsiDevice l dev)).plat (Solaris.prepare (lp64 l) alloc t))
        [c.command L B other] w1 [.ok (some (.obj (.raw (some b))))] w1' ∧
      RunAll (machine (T := T) (Solaris.solBlocking (lp64 l) parse (Solaris.uscsiDevice l dev)).plat (Solaris.prepare (lp64 l) alloc t))
        [c.command L B other] w2 [.ok (some (.obj (.raw (some b))))] w2' := by
  have hok' : ∀ c' ∈ [c.command L B other], ∀ q, c'.request = .ok q → SolarisOk alloc q := by
    intro c' hc' q' hq'; rw [List.mem_singleton.1 hc', hq] at hq'; cases hq'; exact hok
  obtain ⟨w1', r1, -⟩ := C51_solaris (K := K) (T := T) l parse dev alloc t ht hparse [c.command L B other] hok' w1 k1 h1
  obtain ⟨w2', r2, -⟩ := C51_solaris (K := K) (T := T) l parse dev alloc t ht hparse [c.command L B other] hok' w2 k2 h2
  refine ⟨w1', w2', padded n.toNat d, by simp [padded, zeros], ?_, ?_⟩
  · simpa only [askAll, hq, decoded, short_outcome parse dev cdb n hn k1 d hd1, handsOn_decode L B other hc] using r1
  · simpa only [askAll, hq, decoded, short_outcome parse dev cdb n hn k2 _ hd2, padded_zeros _ _ _ hj, handsOn_decode L B other hc] using r2

/-- **C63 is false on AIX.** -/
theorem C63_aix_false (parse : Bytes → Py (Option S)) (b : Aix.Binding) (dev : Device δ) (alloc : Nat → Alloc) (t : Int) (ht : 0 ≤ t ∧ t < 2 ^ 32)
    (hparse : ∀ k q, (dev k q).1.status.toNat / 2 % 2 = 1 → ∃ sn, parse (padded 255 (dev k q).1.sense) = .ok sn)
    (c : Cmd) (hc : HandsOn c) (cdb : Bytes) (n : Int) (hn : 0 < n) (hq : (c.command L B other).request = .ok (.read cdb n))
    (hok : AixOk b alloc (.read cdb n)) (d : Bytes) (j : Nat) (hj : d.length + j ≤ n.toNat)
    (w1 w2 : W Handle K (Option Bytes) (DevErr S) (Aix.AixWorld δ)) (k1 k2 : δ) (h1 : AixIdle w1.st w1.os k1) (h2 : AixIdle w2.st w2.os k2)
    (hd1 : Sends dev k1 (.read cdb n) d) (hd2 : Sends dev k2 (.read cdb n) (d ++ zeros j)) :
    ∃ w1' w2' b', b'.length = n.toNat ∧
      RunAll (machine (T := T) (Aix.aixBlocking (lp64 false) parse b (Aix.scDevice dev)).plat (Aix.prepare (lp64 false) alloc t))
        [c.command L B other] w1 [.ok (some (.obj (.raw (some b'))))] w1' ∧
      RunAll (machine (T := T) (Aix.aixBlocking (lp64 false) parse b (Aix.scDevice dev)).plat (Aix.prepare (lp64 false) alloc t))
        [c.command L B other] w2 [.ok (some (.obj (.raw (some b'))))] w2' := by
  have hok' : ∀ c' ∈ [c.command L B other], ∀ q, c'.request = .ok q → AixOk b alloc q := by
    intro c' hc' q' hq'; rw [List.mem_singleton.1 hc', hq] at hq'; cases hq'; exact hok
  obtain ⟨w1', r1, -⟩ := C51_aix (K := K) (T := T) parse b dev alloc t ht hparse [c.command L B other] hok' w1 k1 h1
  obtain ⟨w2', r2, -⟩ := C51_aix (K := K) (T := T) parse b dev alloc t ht hparse [c.command L B other] hok' w2 k2 h2
  refine ⟨w1', w2', padded n.toNat d, by simp [padded, zeros], ?_, ?_⟩
  · simpa only [askAll, hq, decoded, short_outcome parse dev cdb n hn k1 d hd1, handsOn_decode L B other hc] using r1
  · simpa only [askAll, hq, decoded, short_outcome parse dev cdb n hn k2 _ hd2, padded_zeros _ _ _ hj, handsOn_decode L B other hc] using r2

/-- The hypotheses are met: READ(10) of one block, answered with three bytes in one state and with nothing in the other. -/
example (L : Lib) (B : Parse.BufLib) (other : Bytes → Py (List (String × Int))) :
    let dev : Device Bool := fun k _ => (⟨0, [], if k then [1, 2, 3] else []⟩, k)
    ∃ q, ((Cmd.read10 5 1 512).command L B other).request = .ok q ∧ HandsOn (.read10 5 1 512) ∧ Sends dev true q [1, 2, 3] ∧ Sends dev false q [] ∧
      WindowsOk true (fun _ => { block := 4096, sense := 8192, cmd := 12288, data := 16384 }) q ∧
      LinuxOk (fun _ => { block := 4096, sense := 8192, cmd := 12288, data := 16384 }) q := by
  refine ⟨_, (Cdb.read10_iff L 5 1 512 _).2 ⟨by decide, by decide, rfl⟩, trivial, ⟨rfl, rfl, by decide⟩, ⟨rfl, rfl, by decide⟩,
    ⟨by decide, by decide, fun _ => ⟨?_, ?_⟩⟩, ⟨by decide, by decide, fun _ => ⟨?_, ?_⟩⟩⟩
  · simp [Win32.winRegions, dataSize]
  · simp [Win32.winRegions, Win32.bits]
  · simp [dataSize, Spec.Cdb.read10, Spec.Cdb.cdb10, Req.cdb]
  · simp

end Verif.Commands
