import Verif.Props.Solaris
import Verif.Props.Aix
import Verif.Props.Windows
set_option linter.unusedSimpArgs false
/-!
# C85: hosts on different platforms in front of one device

Each host has an executer of the kind `executers.py` makes for its platform and memory of its own; the device is one.  A host executes a
command with `call`, which has the answer when it returns.  A Windows host differs from the others in what its caller is told: the
data is cut to what arrived, and every status but GOOD and CHECK CONDITION raises with the status (`winOutcome`, C55).
-/

namespace Verif.Platform.Hosts
open Verif.Executer Verif.Spec

variable {S δ : Type}

/-- A host: what its executer was made with, the executer's state, the host's memory, and what the executer or driver keeps from one command to the
next (linux.py:216-277, solaris.py:187-236, aix.py:363-411, win32.py:360-380). -/
inductive Host
  | linux (l : Bool) (alloc : Nat → Alloc) (t : Int) (s : St Handle (Option Unit)) (m : Mem) (old : Option Bytes)
  | solaris (l : Bool) (alloc : Nat → Alloc) (t : Int) (s : St Handle (Option Unit)) (m : Mem) (old : Option Bytes)
  | aix (b : Aix.Binding) (alloc : Nat → Alloc) (t : Int) (s : St Handle (Option Unit)) (m : Mem) (old : Option Bytes)
  | windows (b : Bool) (alloc : Nat → Alloc) (s : St Win32.Spt (Option Unit)) (m : Mem) (inc : List Win32.Spt)

/-- `executer.call(command)` on a host that finds the device in state `k`: the outcome, the state it leaves the device in, and the host. -/
def Host.call (parse : Bytes → Py (Option S)) (dev : Device δ) (c : Req) (k : δ) :
    Host → Except (Exn (DevErr S)) (Option (Option Bytes)) × δ × Host
  | .linux l alloc t s m old =>
    let r := Linux.sgCall l parse (Linux.sgDevice l dev) alloc t c s { mem := m, kernel := (k, old) }
    (r.out, r.os.kernel.1, .linux l alloc t r.st r.os.mem r.os.kernel.2)
  | .solaris l alloc t s m old =>
    let r := Solaris.solCall l parse (Solaris.uscsiDevice l dev) alloc t c s { world := { mem := m, kernel := k }, buffer := old }
    (r.out, r.os.world.kernel, .solaris l alloc t r.st r.os.world.mem r.os.buffer)
  | .aix b alloc t s m old =>
    let r := Aix.aixCall parse b (Aix.scDevice dev) alloc t c s { world := { mem := m, kernel := k }, buffer := old }
    (r.out, r.os.world.kernel, .aix b alloc t r.st r.os.world.mem r.os.buffer)
  | .windows b alloc s m inc =>
    let r := Win32.winCall b parse (Win32.sptDevice b dev) alloc c s { world := { mem := m, kernel := k }, incoming := inc }
    (r.out, r.os.world.kernel, .windows b alloc r.st r.os.world.mem r.os.incoming)

/-- Hosts that execute commands one after the other, in this order of time. -/
def run (parse : Bytes → Py (Option S)) (dev : Device δ) :
    List (Nat × Req) → (Nat → Host) → δ → List (Nat × Except (Exn (DevErr S)) (Option (Option Bytes))) × δ
  | [], _, k => ([], k)
  | (i, c) :: rest, hosts, k =>
    let r := (hosts i).call parse dev c k
    let u := run parse dev rest (fun j => if j = i then r.2.2 else hosts j) r.2.1
    ((i, r.1) :: u.1, u.2)

/-! ## What the callers may rely on -/

/-- What the caller is told about an answer depends on the platform only. -/
def told (parse : Bytes → Py (Option S)) (windows : Bool) (c : Req) (ans : Answer) : Except (Exn (DevErr S)) (Option (Option Bytes)) :=
  if windows then Win32.winOutcome parse c ans else outcome parse c ans

/-- The device asked directly, command after command. -/
def direct (parse : Bytes → Py (Option S)) (dev : Device δ) (windows : Nat → Bool) :
    List (Nat × Req) → δ → List (Nat × Except (Exn (DevErr S)) (Option (Option Bytes))) × δ
  | [], k => ([], k)
  | (i, c) :: rest, k =>
    let u := direct parse dev windows rest (dev k (asked c)).2
    ((i, told parse (windows i) c (dev k (asked c)).1) :: u.1, u.2)

def Host.isWindows : Host → Bool
  | .windows .. => true
  | _ => false

/-- The host is as `executers.py` makes it (or between two commands), with a timeout the platform's block has room for. -/
def Host.Ready : Host → Prop
  | .linux _ _ t s _ _ => s.pending = [] ∧ 0 < s.maxq ∧ s.maxq ≤ 2 ^ 31 ∧ s.index < s.maxq ∧ 0 ≤ t ∧ t < 2 ^ 32
  | .solaris _ _ t s _ _ => s.pending = [] ∧ s.maxq = 1 ∧ s.index = 0 ∧ 0 ≤ t ∧ t < 2 ^ 15
  | .aix _ _ t s _ _ => s.pending = [] ∧ s.maxq = 1 ∧ s.index = 0 ∧ 0 ≤ t ∧ t < 2 ^ 32
  | .windows _ _ s _ _ => s.pending = [] ∧ 0 < s.maxq

/-- The command fits the platform's block, and the buffers of a command do not overlap wherever the host places them. -/
def Host.Takes (c : Req) : Host → Prop
  | .linux _ alloc _ _ _ _ => c.cdb.length ≤ 255 ∧ dataSize c < 2 ^ 32 ∧ ∀ i, Separate 64 [((alloc i).block, 88), ((alloc i).sense, 255),
      ((alloc i).cmd, c.cdb.length), ((alloc i).data, dataSize c)]
  | .solaris _ alloc _ _ _ _ => c.cdb.length ≤ 255 ∧ dataSize c < 2 ^ 64 ∧ ∀ i, Separate 64 (regions (alloc i) c 64)
  | .aix b alloc _ _ _ _ => c.cdb.length ≤ 64 ∧ dataSize c < 2 ^ 64 ∧ ∀ i, Separate 64 (regions (alloc i) c 168) ∧ Aix.Passes b (alloc i).block
  | .windows b alloc _ _ _ => c.cdb.length ≤ 16 ∧ dataSize c < 2 ^ 32 ∧ ∀ i, Separate (Win32.bits b) (Win32.winRegions b (alloc i) c)

/-! ## One command -/

theorem winOutcome_ne (parse : Bytes → Py (Option S)) (c : Req) (ans : Answer)
    (hparse : ans.status = 2 → ∃ sn, parse (padded 255 ans.sense) = .ok sn) (e : PyErr) :
    Win32.winOutcome parse c ans ≠ .error (.py e) := by
  unfold Win32.winOutcome
  split
  · rename_i hcc
    obtain ⟨sn, hsn⟩ := hparse hcc
    rw [hsn]; simp
  · split
    · simp
    · split <;> simp

theorem call_told (parse : Bytes → Py (Option S)) (dev : Device δ) (c : Req) (k : δ) (h : Host) (hr : h.Ready) (ht : h.Takes c)
    (hparse : ∀ k q, (dev k q).1.status.toNat / 2 % 2 = 1 → ∃ sn, parse (padded 255 (dev k q).1.sense) = .ok sn) :
    (h.call parse dev c k).1 = told parse h.isWindows c (dev k (asked c)).1 ∧
    (h.call parse dev c k).2.1 = (dev k (asked c)).2 ∧
    (h.call parse dev c k).2.2.Ready ∧
    (h.call parse dev c k).2.2.isWindows = h.isWindows ∧
    ∀ c', h.Takes c' → (h.call parse dev c k).2.2.Takes c' := by
  have hne : ∀ e, outcome parse c (dev k (asked c)).1 ≠ .error (.py e) := outcome_ne parse c _ (hparse k (asked c))
  cases h with
  | linux l alloc t s m old =>
    obtain ⟨p1, p2, p3, p4, p5, p6⟩ := hr
    obtain ⟨h1, h2, h3⟩ := ht
    obtain ⟨r1, r2, r3⟩ := Linux.C52_linux l parse dev alloc t c s m k old p1 p2 (by omega) h1 h2 ⟨p5, p6⟩ (h3 s.index)
    refine ⟨r1, ?_, ?_, rfl, fun _ h => h⟩
    · simp only [Host.call, r2]
    · simp only [Host.call, r3 (by rw [r1]; exact hne), Host.Ready]
      exact ⟨p1, p2, p3, Nat.mod_lt _ p2, p5, p6⟩
  | solaris l alloc t s m old =>
    obtain ⟨p1, p2, p3, p4, p5⟩ := hr
    obtain ⟨h1, h2, h3⟩ := ht
    obtain ⟨r1, r2, r3⟩ := Solaris.C53_solaris l parse dev alloc t c s m k old p1 (by omega) p3 h1 h2 ⟨p4, p5⟩ (h3 0)
    refine ⟨r1, r2, ?_, rfl, fun _ h => h⟩
    simp only [Host.call, r3 (by rw [r1]; exact hne), Host.Ready]
    exact ⟨p1, p2, by rw [p2], p4, p5⟩
  | aix b alloc t s m old =>
    obtain ⟨p1, p2, p3, p4, p5⟩ := hr
    obtain ⟨h1, h2, h3⟩ := ht
    obtain ⟨r1, r2, r3⟩ := Aix.C54_aix_partial parse b dev alloc t c s m k old p1 (by omega) p3 h1 h2 ⟨p4, p5⟩ (h3 0).1 (h3 0).2
    refine ⟨r1, r2, ?_, rfl, fun _ h => h⟩
    simp only [Host.call, r3 (by rw [r1]; exact hne), Host.Ready]
    exact ⟨p1, p2, by rw [p2], p4, p5⟩
  | windows b alloc s m inc =>
    obtain ⟨p1, p2⟩ := hr
    obtain ⟨h1, h2, h3⟩ := ht
    obtain ⟨r1, r2, r3⟩ := Win32.C55_windows b parse dev alloc c s m k inc p1 p2 h1 h2 (h3 s.index)
    have hne' := winOutcome_ne parse c (dev k (asked c)).1 fun h => hparse k (asked c) (by rw [h]; decide)
    refine ⟨r1, r2, ?_, rfl, fun _ h => h⟩
    simp only [Host.call, r3 (by rw [r1]; exact hne'), Host.Ready]
    exact ⟨p1, p2⟩

/-- **C85 for hosts on different platforms**: any number of hosts, each on any of the platforms, executing commands in any order on one
device.  Every caller is told what the device answers to their command when all commands are asked of it directly in that order, and the device is
left in the same state. -/
theorem C85_hosts (parse : Bytes → Py (Option S)) (dev : Device δ)
    (hparse : ∀ k q, (dev k q).1.status.toNat / 2 % 2 = 1 → ∃ sn, parse (padded 255 (dev k q).1.sense) = .ok sn)
    (calls : List (Nat × Req)) (hosts : Nat → Host) (k : δ) (hr : ∀ i, (hosts i).Ready) (ht : ∀ x ∈ calls, (hosts x.1).Takes x.2) :
    run parse dev calls hosts k = direct parse dev (fun i => (hosts i).isWindows) calls k := by
  induction calls generalizing hosts k with
  | nil => rfl
  | cons x rest ih =>
    obtain ⟨i, c⟩ := x
    obtain ⟨h1, h2, h3, h4, h5⟩ := call_told parse dev c k (hosts i) (hr i) (ht _ List.mem_cons_self) hparse
    have hw : (fun j => (if j = i then ((hosts i).call parse dev c k).2.2 else hosts j).isWindows) = fun j => (hosts j).isWindows := by
      funext j
      by_cases hj : j = i
      · subst hj; simp [h4]
      · simp [hj]
    have := ih (fun j => if j = i then ((hosts i).call parse dev c k).2.2 else hosts j) ((hosts i).call parse dev c k).2.1
      (fun j => by by_cases hj : j = i
                   · simp [hj, h3]
                   · simp [hj, hr j])
      (fun y hy => by by_cases hj : y.1 = i
                      · simp only [hj, if_true]; exact h5 _ (hj ▸ ht y (List.mem_cons_of_mem _ hy))
                      · simp only [hj, if_false]; exact ht y (List.mem_cons_of_mem _ hy))
    simp only [run, direct]
    rw [this, hw, h1, h2]

/-- The hypotheses are met by a host of each kind on one device: the Windows host is given the eight bytes that arrived, the others a
buffer of the size they asked for, and the device counts the commands of all of them. -/
example (b : Aix.Binding) :
    run (fun b => .ok (some b)) Linux.toyDevice
      [(2, .read [0x12, 0, 0, 0, 36, 0] 36), (0, .read [0x12, 0, 0, 0, 36, 0] 36), (3, .read [0x12, 0, 0, 0, 36, 0] 36),
       (1, .write [0x2A, 0, 0, 0] [1, 2, 3, 4])]
      (fun i => match i with
        | 0 => .linux true (fun _ => { block := 4096, sense := 8192, cmd := 12288, data := 16384 }) 30000 ⟨[], 0, 1⟩ (fun _ => 0xEE) none
        | 1 => .solaris true (fun _ => { block := 4096, sense := 8192, cmd := 12288, data := 16384 }) 30 ⟨[], 0, 1⟩ (fun _ => 0xEE) none
        | 2 => .aix b (fun _ => { block := 4096, sense := 8192, cmd := 12288, data := 16384 }) 30 ⟨[], 0, 1⟩ (fun _ => 0xEE) none
        | _ => .windows true (fun _ => { block := 4096, sense := 0, cmd := 0, data := 16384 }) ⟨[], 0, 1⟩ (fun _ => 0xEE) [])
      7 =
    ([(2, .ok (some (some (padded 36 [0, 0, 5, 2, 31, 0, 0, 0])))), (0, .ok (some (some (padded 36 [0, 0, 5, 2, 31, 0, 0, 0])))),
      (3, .ok (some (some [0, 0, 5, 2, 31, 0, 0, 0]))),
      (1, .error (.dev (.checkCondition (padded 255 [0x70, 0, 5]) (some (padded 255 [0x70, 0, 5])))))], 11) := by
  rw [C85_hosts]
  · simp [direct, told, Host.isWindows, outcome, Win32.winOutcome, Linux.toyDevice, asked, delivered]
  · intro _ _ _; exact ⟨_, rfl⟩
  · intro i
    match i with
    | 0 => exact ⟨rfl, by decide, by decide, by decide, by decide, by decide⟩
    | 1 => exact ⟨rfl, rfl, rfl, by decide, by decide⟩
    | 2 => exact ⟨rfl, rfl, rfl, by decide, by decide⟩
    | _ + 3 => exact ⟨rfl, Nat.one_pos⟩
  · simp only [List.mem_cons, List.not_mem_nil, or_false, forall_eq_or_imp, forall_eq]
    refine ⟨⟨by decide, by decide, fun _ => ⟨⟨by simp [regions, dataSize, Req.cdb], by simp [regions, dataSize, Req.cdb]⟩, fun _ => show 4096 < 2 ^ 31 by decide⟩⟩,
      ⟨by decide, by decide, fun _ => ⟨by simp [dataSize, Req.cdb], by simp [dataSize, Req.cdb]⟩⟩,
      ⟨by decide, by decide, fun _ => ⟨by simp [Win32.winRegions, dataSize], by simp [Win32.winRegions, Win32.bits, dataSize]⟩⟩,
      ⟨by decide, by decide, fun _ => ⟨by simp [regions, dataSize, Req.cdb], by simp [regions, dataSize, Req.cdb]⟩⟩⟩

end Verif.Platform.Hosts
