import Verif.Props.Execute
/-! # C51 on the four platforms: sequences of `execute`s against an arbitrary device -/
set_option linter.unusedSimpArgs false
set_option linter.unusedSectionVars false

namespace Verif.ExecuterGen

open Verif.Executer Verif.Coroutine Verif.Spec Verif.Platform

variable {K R T S δ : Type} [DecidableEq K]

/-- A Linux executer (sg) at rest in front of the device in state `k`. -/
def LinuxIdle (s : St Handle (Option K)) (o : World (δ × Option Bytes)) (k : δ) : Prop :=
  s.pending = [] ∧ 0 < s.maxq ∧ s.maxq ≤ 2 ^ 31 ∧ s.index < s.maxq ∧ o.kernel.1 = k

/-- What Linux can be asked: a CDB of at most 255 bytes, a buffer below 4 GiB, and the request's buffers do not overlap. -/
def LinuxOk (alloc : Nat → Alloc) (c : Req) : Prop :=
  c.cdb.length ≤ 255 ∧ dataSize c < 2 ^ 32 ∧ ∀ i, Separate 64 [((alloc i).block, 88), ((alloc i).sense, 255),
    ((alloc i).cmd, c.cdb.length), ((alloc i).data, dataSize c)]

theorem linux_faithful (l : Bool) (parse : Bytes → Py (Option S)) (dev : Device δ) (alloc : Nat → Alloc) (t : Int) (ht : 0 ≤ t ∧ t < 2 ^ 32) :
    Faithful (K := K) (Linux.prepare (lp64 l) alloc t) (Linux.sgSend (Linux.sgDevice l dev)) (Linux.sgReceive (lp64 l) parse (Linux.sgDevice l dev))
      dev (Platform.outcome parse) (LinuxOk alloc) LinuxIdle := by
  rintro c s ⟨m, k', old⟩ k ⟨h1, h2, h3⟩ ⟨hs, hq, hmax, hidx, hk⟩
  simp only at hk
  subst hk
  obtain ⟨r1, r2, r3⟩ := Linux.C52_linux l parse dev alloc t c s m k' old hs hq (by omega) h1 h2 ht (h3 s.index)
  refine ⟨r1, fun hne => ?_⟩
  have hst := r3 hne
  simp only [Linux.sgCall] at hst r2
  refine ⟨by rw [hst]; exact hs, by rw [hst]; exact hq, by rw [hst]; exact hmax, by rw [hst]; exact Nat.mod_lt _ hq, by rw [r2]⟩

/-- **C51 on Linux** (sg executer). Any sequence of commands, each executed with `sync_wait(cmd.execute(executer))`, in front of any
device: the device gets exactly the requests that can be built, in order, each once and as asked; every caller gets the decoded data of its
own command's answer, or the device's error unchanged; the executer ends idle. -/
theorem C51_linux (l : Bool) (parse : Bytes → Py (Option S)) (dev : Device δ) (alloc : Nat → Alloc) (t : Int) (ht : 0 ≤ t ∧ t < 2 ^ 32)
    (hparse : ∀ k q, (dev k q).1.status.toNat / 2 % 2 = 1 → ∃ sn, parse (padded 255 (dev k q).1.sense) = .ok sn)
    (cmds : List (Command Req (Option Bytes) R)) (hok : ∀ c ∈ cmds, ∀ q, c.request = .ok q → LinuxOk alloc q)
    (w : W Handle K (Option Bytes) (DevErr S) (World (δ × Option Bytes))) (k : δ) (hw : LinuxIdle w.st w.os k) :
    ∃ w', RunAll (machine (T := T) (Linux.sgBlocking (lp64 l) parse (Linux.sgDevice l dev)).plat (Linux.prepare (lp64 l) alloc t)) cmds w
        (askAll dev (Platform.outcome parse) cmds k).1 w' ∧
      LinuxIdle w'.st w'.os (askAll dev (Platform.outcome parse) cmds k).2 := by
  have hP := (Linux.sgBlocking (K := K) (lp64 l) parse (Linux.sgDevice l dev)).implements (R := R) (T := T) .actual
  rw [Linux.sgBlocking_send, Linux.sgBlocking_receive] at hP
  exact C51_session hP (linux_faithful l parse dev alloc t ht) (fun c k _ => outcome_ne parse c _ (hparse k (asked c))) cmds hok w k hw

/-- A Solaris executer at rest (its queue holds one command). -/
def SolarisIdle (s : St Handle (Option K)) (o : Solaris.SolWorld δ) (k : δ) : Prop :=
  s.pending = [] ∧ s.maxq = 1 ∧ s.index = 0 ∧ o.world.kernel = k

def SolarisOk (alloc : Nat → Alloc) (c : Req) : Prop :=
  c.cdb.length ≤ 255 ∧ dataSize c < 2 ^ 64 ∧ Separate 64 (regions (alloc 0) c 64)

theorem solaris_faithful (l : Bool) (parse : Bytes → Py (Option S)) (dev : Device δ) (alloc : Nat → Alloc) (t : Int) (ht : 0 ≤ t ∧ t < 2 ^ 15) :
    Faithful (K := K) (Solaris.prepare (lp64 l) alloc t) (Solaris.osSend (Solaris.uscsiDevice l dev)) (Solaris.osReceive (lp64 l) parse)
      dev (Platform.outcome parse) (SolarisOk alloc) SolarisIdle := by
  rintro c s ⟨⟨m, k'⟩, old⟩ k ⟨h1, h2, h3⟩ ⟨hs, hq, hidx, hk⟩
  simp only at hk
  subst hk
  obtain ⟨r1, r2, r3⟩ := Solaris.C53_solaris l parse dev alloc t c s m k' old hs (by omega) hidx h1 h2 ht h3
  refine ⟨r1, fun hne => ?_⟩
  have hst := r3 hne
  simp only [Solaris.solCall] at hst r2
  refine ⟨by rw [hst]; exact hs, by rw [hst]; exact hq, by rw [hst, hq], by rw [r2]⟩

/-- **C51 on Solaris.** -/
theorem C51_solaris (l : Bool) (parse : Bytes → Py (Option S)) (dev : Device δ) (alloc : Nat → Alloc) (t : Int) (ht : 0 ≤ t ∧ t < 2 ^ 15)
    (hparse : ∀ k q, (dev k q).1.status.toNat / 2 % 2 = 1 → ∃ sn, parse (padded 255 (dev k q).1.sense) = .ok sn)
    (cmds : List (Command Req (Option Bytes) R)) (hok : ∀ c ∈ cmds, ∀ q, c.request = .ok q → SolarisOk alloc q)
    (w : W Handle K (Option Bytes) (DevErr S) (Solaris.SolWorld δ)) (k : δ) (hw : SolarisIdle w.st w.os k) :
    ∃ w', RunAll (machine (T := T) (Solaris.solBlocking (lp64 l) parse (Solaris.uscsiDevice l dev)).plat (Solaris.prepare (lp64 l) alloc t)) cmds w
        (askAll dev (Platform.outcome parse) cmds k).1 w' ∧
      SolarisIdle w'.st w'.os (askAll dev (Platform.outcome parse) cmds k).2 := by
  have hP := (Solaris.solBlocking (K := K) (lp64 l) parse (Solaris.uscsiDevice l dev)).implements (R := R) (T := T) .actual
  rw [Solaris.solBlocking_send, Solaris.solBlocking_receive] at hP
  exact C51_session hP (solaris_faithful l parse dev alloc t ht) (fun c k _ => outcome_ne parse c _ (hparse k (asked c))) cmds hok w k hw

/-- An AIX executer at rest (its queue holds one command). -/
def AixIdle (s : St Handle (Option K)) (o : Aix.AixWorld δ) (k : δ) : Prop :=
  s.pending = [] ∧ s.maxq = 1 ∧ s.index = 0 ∧ o.world.kernel = k

def AixOk (b : Aix.Binding) (alloc : Nat → Alloc) (c : Req) : Prop :=
  c.cdb.length ≤ 64 ∧ dataSize c < 2 ^ 64 ∧ Separate 64 (regions (alloc 0) c 168) ∧ Aix.Passes b (alloc 0).block

theorem aix_faithful (parse : Bytes → Py (Option S)) (b : Aix.Binding) (dev : Device δ) (alloc : Nat → Alloc) (t : Int) (ht : 0 ≤ t ∧ t < 2 ^ 32) :
    Faithful (K := K) (Aix.prepare (lp64 false) alloc t) (Aix.osSend (lp64 false) b (Aix.scDevice dev)) (Aix.osReceive (lp64 false) parse)
      dev (Platform.outcome parse) (AixOk b alloc) AixIdle := by
  rintro c s ⟨⟨m, k'⟩, old⟩ k ⟨h1, h2, h3, h4⟩ ⟨hs, hq, hidx, hk⟩
  simp only at hk
  subst hk
  obtain ⟨r1, r2, r3⟩ := Aix.C54_aix_partial parse b dev alloc t c s m k' old hs (by omega) hidx h1 h2 ht h3 h4
  refine ⟨r1, fun hne => ?_⟩
  have hst := r3 hne
  simp only [Aix.aixCall] at hst r2
  refine ⟨by rw [hst]; exact hs, by rw [hst]; exact hq, by rw [hst, hq], by rw [r2]⟩

/-- **C51 on AIX**, with either ioctl binding. -/
theorem C51_aix (parse : Bytes → Py (Option S)) (b : Aix.Binding) (dev : Device δ) (alloc : Nat → Alloc) (t : Int) (ht : 0 ≤ t ∧ t < 2 ^ 32)
    (hparse : ∀ k q, (dev k q).1.status.toNat / 2 % 2 = 1 → ∃ sn, parse (padded 255 (dev k q).1.sense) = .ok sn)
    (cmds : List (Command Req (Option Bytes) R)) (hok : ∀ c ∈ cmds, ∀ q, c.request = .ok q → AixOk b alloc q)
    (w : W Handle K (Option Bytes) (DevErr S) (Aix.AixWorld δ)) (k : δ) (hw : AixIdle w.st w.os k) :
    ∃ w', RunAll (machine (T := T) (Aix.aixBlocking (lp64 false) parse b (Aix.scDevice dev)).plat (Aix.prepare (lp64 false) alloc t)) cmds w
        (askAll dev (Platform.outcome parse) cmds k).1 w' ∧
      AixIdle w'.st w'.os (askAll dev (Platform.outcome parse) cmds k).2 := by
  have hP := (Aix.aixBlocking (K := K) (lp64 false) parse b (Aix.scDevice dev)).implements (R := R) (T := T) .actual
  rw [Aix.aixBlocking_send, Aix.aixBlocking_receive] at hP
  exact C51_session hP (aix_faithful parse b dev alloc t ht) (fun c k _ => outcome_ne parse c _ (hparse k (asked c))) cmds hok w k hw

/-- A Windows executer at rest. -/
def WindowsIdle (s : St Win32.Spt (Option K)) (o : Win32.WinWorld δ) (k : δ) : Prop :=
  s.pending = [] ∧ 0 < s.maxq ∧ o.world.kernel = k

def WindowsOk (b : Bool) (alloc : Nat → Alloc) (c : Req) : Prop :=
  c.cdb.length ≤ 16 ∧ dataSize c < 2 ^ 32 ∧ ∀ i, Separate (Win32.bits b) (Win32.winRegions b (alloc i) c)

theorem windows_faithful (b : Bool) (parse : Bytes → Py (Option S)) (dev : Device δ) (alloc : Nat → Alloc) :
    Faithful (K := K) (Win32.prepare (Win32.W b) alloc) (Win32.osSend (Win32.W b) (Win32.sptDevice b dev)) (Win32.osReceive (Win32.W b) parse)
      dev (Win32.winOutcome parse) (WindowsOk b alloc) WindowsIdle := by
  rintro c s ⟨⟨m, k'⟩, inc⟩ k ⟨h1, h2, h3⟩ ⟨hs, hq, hk⟩
  simp only at hk
  subst hk
  obtain ⟨r1, r2, r3⟩ := Win32.C55_windows b parse dev alloc c s m k' inc hs hq h1 h2 (h3 s.index)
  refine ⟨r1, fun hne => ?_⟩
  have hst := r3 hne
  simp only [Win32.winCall] at hst r2
  refine ⟨by rw [hst]; exact hs, by rw [hst]; exact hq, by rw [r2]⟩

theorem winOutcome_ne (parse : Bytes → Py (Option S)) (c : Req) (ans : Answer)
    (hparse : ans.status = 2 → ∃ sn, parse (padded 255 ans.sense) = .ok sn) (e : PyErr) :
    Win32.winOutcome parse c ans ≠ .error (.py e) := by
  unfold Win32.winOutcome
  split
  · rename_i hcc
    obtain ⟨sn, hsn⟩ := hparse hcc
    rw [hsn]; simp
  · split
    · simp
    · split <;> simp

/-- **C51 on Windows**, 32 and 64 bit (there a device that returns no data at all to a read gives `None`). -/
theorem C51_windows (b : Bool) (parse : Bytes → Py (Option S)) (dev : Device δ) (alloc : Nat → Alloc)
    (hparse : ∀ k q, (dev k q).1.status = 2 → ∃ sn, parse (padded 255 (dev k q).1.sense) = .ok sn)
    (cmds : List (Command Req (Option Bytes) R)) (hok : ∀ c ∈ cmds, ∀ q, c.request = .ok q → WindowsOk b alloc q)
    (w : W Win32.Spt K (Option Bytes) (DevErr S) (Win32.WinWorld δ)) (k : δ) (hw : WindowsIdle w.st w.os k) :
    ∃ w', RunAll (machine (T := T) (Win32.winPlat (Win32.W b) parse (Win32.sptDevice b dev)) (Win32.prepare (Win32.W b) alloc)) cmds w
        (askAll dev (Win32.winOutcome parse) cmds k).1 w' ∧
      WindowsIdle w'.st w'.os (askAll dev (Win32.winOutcome parse) cmds k).2 :=
  C51_session (Win32.winPlat_implements (R := R) (T := T) (Win32.W b) parse (Win32.sptDevice b dev) .actual) (windows_faithful b parse dev alloc)
    (fun c k _ => winOutcome_ne parse c _ (hparse k (asked c))) cmds hok w k hw

/-- The hypotheses are met: three commands, of which the second cannot be built (it reaches nobody), on Linux, with a device that
answers INQUIRY and fails everything else. -/
def toyCommands : List (Command Req (Option Bytes) Nat) :=
  [ { request := .ok (.read [0x12, 0, 0, 0, 36, 0] 36), decode := fun d => .ok ((d.getD none).getD []).length },
    { request := .error .assertion, decode := fun _ => .ok 0 },
    { request := .ok (.write [0x2A, 0, 0, 0] [1, 2, 3, 4]), decode := fun _ => .ok 1 } ]

example : ∃ w', RunAll (machine (T := Unit) (Linux.sgBlocking (K := Unit) (lp64 true) (fun b => .ok (some b)) (Linux.sgDevice true Linux.toyDevice)).plat
      (Linux.prepare (lp64 true) (fun _ => { block := 4096, sense := 8192, cmd := 12288, data := 16384 }) 30000)) toyCommands
    { st := { pending := [], index := 6, maxq := 7 }, os := { mem := fun _ => 0xEE, kernel := (0, none) }, fired := [], box := fun _ => [] }
    [.ok (some (.obj 36)), .error (.py .assertion),
     .error (.dev (.checkCondition (padded 255 [0x70, 0, 5]) (some (padded 255 [0x70, 0, 5]))))] w' := by
  obtain ⟨w', h, -⟩ := C51_linux (K := Unit) (T := Unit) true (fun b => .ok (some b)) Linux.toyDevice
    (fun _ => { block := 4096, sense := 8192, cmd := 12288, data := 16384 }) 30000 (by decide) (fun _ _ _ => ⟨_, rfl⟩) toyCommands
    (by
      intro c hc q hq
      simp only [toyCommands, List.mem_cons, List.not_mem_nil, or_false] at hc
      rcases hc with rfl | rfl | rfl <;> simp only [Except.ok.injEq, reduceCtorEq] at hq
      · subst hq; exact ⟨by decide, by decide, fun _ => ⟨by simp [dataSize, Req.cdb], by simp [dataSize, Req.cdb]⟩⟩
      · subst hq; exact ⟨by decide, by decide, fun _ => ⟨by simp [dataSize, Req.cdb], by simp [dataSize, Req.cdb]⟩⟩)
    { st := { pending := [], index := 6, maxq := 7 }, os := { mem := fun _ => 0xEE, kernel := (0, none) }, fired := [], box := fun _ => [] }
    0 ⟨rfl, by decide, by decide, by decide, rfl⟩
  refine ⟨w', ?_⟩
  simpa [toyCommands, askAll, Spec.decoded, Platform.outcome, Linux.toyDevice, asked, delivered,
    show (padded 36 [0, 0, 5, 2, 31, 0, 0, 0]).length = 36 from rfl] using h

end Verif.ExecuterGen
