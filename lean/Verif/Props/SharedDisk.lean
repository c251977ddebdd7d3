import Verif.Spec.SharedDisk
import Verif.Props.Reservations
/-!
# C69: a disk shared with other hosts, through the library

Reads, writes and reservation commands built by the library, executed through driver, executer and operating system, in front of a disk that
enforces reservations and that other hosts use at the same time.
-/
set_option linter.unusedSimpArgs false
set_option linter.unusedSectionVars false

namespace Verif.Commands.SharedDisk

open Verif.Executer Verif.Coroutine Verif.ExecuterGen Verif.Platform Verif.Spec Verif.Spec.Cdb Verif.Sense Verif.Commands
open Verif.Spec.Disk (Geometry Contents good failed disk Each)
open Verif.Spec.Reservations (Lun Kind Action Notice Key keyOf refused warn enroll unregister changed stillHeld holds holderKey knows)
open Verif.Spec.SharedDisk

/-- The command object a caller uses for an operation. -/
inductive Asks (g : Geometry) : Cmd → Op → Prop
  | disk {c : Cmd} {op : Disk.Op} : Commands.Asks g c op → Asks g c (.disk op)
  | reservations {c : Cmd} {op : Reservations.Op} : Reserve.Asks c op → op ≠ .ready → Asks g c (.reservations op)

/-- What the caller of a command sees of a reply. A conflict is an `AsiSCSIError` that says no more. -/
def Shows (r : Except (Exn (DevErr Sense)) (Option (Val (Option Bytes) (DevErr Sense) Result))) : Reply → Prop
  | .disk x => Commands.Shows r x
  | .reservations x => Reserve.Shows r x
  | .conflict => r = .error (.dev .scsi)
  | .attention ascq => ∃ raw s, r = .error (.dev (.checkCondition raw (some s))) ∧ Says s 6 0x2A ascq

theorem disk_meaning {g : Geometry} {c : Cmd} {op : Disk.Op} (h : Commands.Asks g c op) :
    InRange c.cdb ∧ needs (some (meaning c.cdb)) = access op ∧ aboutReservations (some (meaning c.cdb)) = false := by
  cases h with
  | ready => exact ⟨trivial, rfl, rfl⟩
  | capacity10 => exact ⟨⟨⟨by omega, by omega⟩, ⟨by omega, by omega⟩⟩, rfl, rfl⟩
  | capacity16 => exact ⟨⟨⟨by omega, by omega⟩, ⟨by omega, by omega⟩⟩, rfl, rfl⟩
  | read6 => exact ⟨⟨⟨by omega, by omega⟩, ⟨by omega, by omega⟩⟩, rfl, rfl⟩
  | read6_256 => exact ⟨⟨⟨by omega, by omega⟩, ⟨by omega, by omega⟩⟩, rfl, rfl⟩
  | read10 => exact ⟨⟨⟨by omega, by omega⟩, ⟨by omega, by omega⟩⟩, rfl, rfl⟩
  | read12 => exact ⟨⟨⟨by omega, by omega⟩, ⟨by omega, by omega⟩⟩, rfl, rfl⟩
  | read16 => exact ⟨⟨⟨by omega, by omega⟩, ⟨by omega, by omega⟩⟩, rfl, rfl⟩
  | @write6 lba n data h1 h2 h3 h4 => exact ⟨⟨⟨by omega, by omega⟩, n, by rw [h2]; simp, by omega, by omega⟩, rfl, rfl⟩
  | @write10 lba n data h1 h2 h3 => exact ⟨⟨⟨by omega, by omega⟩, n, by rw [h2]; simp, by omega, by omega⟩, rfl, rfl⟩
  | @write12 lba n data h1 h2 h3 h4 => exact ⟨⟨⟨by omega, by omega⟩, n, by rw [h2]; simp, by omega, by omega⟩, rfl, rfl⟩
  | @write16 lba n data h1 h2 h3 => exact ⟨⟨⟨by omega, by omega⟩, n, by rw [h2]; simp, by omega, by omega⟩, rfl, rfl⟩
  | fill10 => exact ⟨⟨⟨by omega, by omega⟩, ⟨by omega, by omega⟩⟩, rfl, rfl⟩
  | fill16 => exact ⟨⟨⟨by omega, by omega⟩, ⟨by omega, by omega⟩⟩, rfl, rfl⟩
  | exchange => exact ⟨⟨⟨by omega, by omega⟩, ⟨by omega, by omega⟩⟩, rfl, rfl⟩
  | discard h hn => exact ⟨unmap_inRange h hn, rfl, rfl⟩

theorem reservations_meaning {c : Cmd} {op : Reservations.Op} (h : Reserve.Asks c op) (hr : op ≠ .ready) :
    InRange c.cdb ∧ aboutReservations (some (meaning c.cdb)) = true := by
  have fits : ∀ k : Key, Fits 64 (k.toNat : Int) := fun k => ⟨by omega, by have := k.toNat_lt; omega⟩
  have zero : ∀ n, Fits n (0 : Int) := fun n => ⟨by omega, by have := Nat.two_pow_pos n; exact_mod_cast this⟩
  have one : Fits 4 (1 : Int) := ⟨by omega, by omega⟩
  have four : ∀ t : Nat, t < 16 → Fits 4 (t : Int) := fun t h => ⟨by omega, by omega⟩
  cases h with
  | ready => exact absurd rfl hr
  | register => exact ⟨⟨⟨by simp, by simp⟩, one, fits _, fits _⟩, rfl⟩
  | registerAnyway => exact ⟨⟨⟨by simp, by simp⟩, one, fits _, fits _⟩, rfl⟩
  | reserve ht => exact ⟨⟨⟨by simp, by simp⟩, four _ ht, fits _, zero _⟩, rfl⟩
  | release ht => exact ⟨⟨⟨by simp, by simp⟩, four _ ht, fits _, zero _⟩, rfl⟩
  | clear => exact ⟨⟨⟨by simp, by simp⟩, one, fits _, zero _⟩, rfl⟩
  | preempt ht => exact ⟨⟨⟨by simp, by simp⟩, four _ ht, fits _, fits _⟩, rfl⟩
  | preemptAbort ht => exact ⟨⟨⟨by simp, by simp⟩, four _ ht, fits _, fits _⟩, rfl⟩
  | keys h8 hn => exact ⟨⟨⟨by omega, by omega⟩, ⟨by omega, by omega⟩⟩, rfl⟩
  | reservation h8 hn => exact ⟨⟨⟨by omega, by omega⟩, ⟨by omega, by omega⟩⟩, rfl⟩

section step

variable {tail : Nat → Bytes → Bytes → Prop} {out : Req → Answer → Except (Exn (DevErr Sense)) (Option (Option Bytes))} (L : Lib) (B : Parse.BufLib)
  (other : Bytes → Py (List (String × Int)))

theorem task_of {c : Cmd} (hc : InRange c.cdb) {q : Req} (h : Cdb.request L c.cdb = .ok q) :
    Cdb.decode (asked q).cdb (asked q).toDevice = some (meaning c.cdb) := by
  have hd := Cdb.C29_decode L c.cdb q hc h
  have e1 : (asked q).cdb = q.cdb := by cases q <;> rfl
  have e2 : (asked q).toDevice = dataOut q := by cases q <;> rfl
  rw [e1, e2, hd]

/-- One command: the request can be built, the disk changes as the operation says, the caller sees its reply. -/
theorem step {g : Geometry} (hg : Valid g) (hB : Reserve.Brings tail out) {s : State} (hb : Reserve.Bounded s.lun) {c : Cmd} {op : Op} (h : Asks g c op) :
    ∃ q, (c.command L B other).request = .ok q ∧ (serve g s (asked q)).2 = (op.run g s).2 ∧
      Shows (decoded (c.command L B other) (out q (serve g s (asked q)).1)) (op.run g s).1 := by
  have att : ∀ q why, (c.command L B other).request = .ok q → s.lun.attention = some why →
      ∃ q, (c.command L B other).request = .ok q ∧ (serve g s (asked q)).2 = (op.run g s).2 ∧
        Shows (decoded (c.command L B other) (out q (serve g s (asked q)).1)) (op.run g s).1 := by
    intro q why hq hu
    refine ⟨q, hq, ?_⟩
    simp only [serve, Op.run, hu, true_and]
    exact Reserve.shows_failed L B other c (hB.delivers.fails _ 6 0x2A _ (by decide) (by decide) (by cases why <;> decide))
  cases h with
  | @disk op h =>
    obtain ⟨q, hq, hm, hs⟩ := Commands.step L B other s.contents hg hB.delivers h
    obtain ⟨h1, h2, h3⟩ := disk_meaning h
    cases hu : s.lun.attention with
    | some why => exact att q why hq hu
    | none =>
      refine ⟨q, hq, ?_⟩
      simp only [serve, Op.run, hu, task_of L h1 hq, h2, h3, Bool.false_eq_true, if_false]
      split
      · exact ⟨by rw [hm], hs⟩
      · exact ⟨rfl, by rw [hB.conflict]; rfl⟩
  | @reservations op h hr =>
    obtain ⟨q, hq, hm, hs⟩ := Reserve.step L B other hB hb h
    obtain ⟨h1, h2⟩ := reservations_meaning h hr
    cases hu : s.lun.attention with
    | some why => exact att q why hq hu
    | none =>
      refine ⟨q, hq, ?_⟩
      simp only [serve, Op.run, hu, task_of L h1 hq, h2, if_true]
      exact ⟨by rw [hm], hs⟩

theorem does_bounded {g : Geometry} {s : State} (h : Reserve.Bounded s.lun) (host : Nat) (d : Deed) : Reserve.Bounded (does g s host d).lun := by
  cases d with
  | act a => exact Reserve.act_bounded h host a
  | use op => simp only [does]; split <;> exact h

theorem others_bounded {g : Geometry} : ∀ (l : List (Nat × Deed)) {s : State}, Reserve.Bounded s.lun → Reserve.Bounded (others g s l).lun
  | [], _, h => h
  | (_, _) :: l, _, h => others_bounded l (does_bounded h _ _)

theorem run_bounded {g : Geometry} {s : State} (h : Reserve.Bounded s.lun) (op : Op) : Reserve.Bounded (op.run g s).2.lun := by
  unfold Op.run
  split
  · exact h
  · cases op with
    | reservations op => exact Reserve.run_bounded h op
    | disk op => simp only; split <;> exact h

/-- A sequence of commands given to the disk directly. -/
theorem askAll_shared {g : Geometry} (hg : Valid g) (hB : Reserve.Brings tail out) {cmds : List Cmd} {ops : List Op} (h : Each (Asks g) cmds ops)
    (s : State) (hb : Reserve.Bounded s.lun) (d : List (List (Nat × Deed))) :
    Each Shows (askAll (shared g) out (cmds.map (·.command L B other)) (s, d)).1 (runOps g ops s d).1 ∧
      (askAll (shared g) out (cmds.map (·.command L B other)) (s, d)).2.1 = (runOps g ops s d).2 := by
  induction h generalizing s d with
  | nil => exact ⟨.nil, rfl⟩
  | @cons c op cs ops h _ ih =>
    have hb' := others_bounded (g := g) (d.headD []) hb
    obtain ⟨q, hq, hm, hs⟩ := step L B other hg hB hb' h
    have := ih _ (run_bounded (g := g) hb' op) d.tail
    simp only [List.map_cons, askAll, hq, runOps, shared]
    rw [hm]
    exact ⟨.cons hs this.1, this.2⟩

end step

/-- The disk sends sense data whenever it reports CHECK CONDITION. -/
theorem shared_parses (g : Geometry) (k : State × List (List (Nat × Deed))) (q : OsRequest) (h : (shared g k q).1.status.toNat / 2 % 2 = 1) :
    ∃ sn, getSense (padded 255 (shared g k q).1.sense) = .ok sn := by
  revert h
  simp only [shared, serve]
  split
  · rename_i why _
    intro _
    obtain ⟨s, hs, -⟩ := getSense_says _ (by rw [padded_length]; decide) _ _ _ (reports_padded _ _ _ _ (failed_reports 6 0x2A why.ascq (by decide) (by decide) (by cases why <;> decide)))
    exact ⟨_, hs⟩
  · split
    · exact Reserve.shared_parses ((others g k.1 (k.2.headD [])).lun, []) q
    · split
      · intro h
        exact disk_parses g _ q (by intro h0; rw [h0] at h; simp at h)
      · intro h; simp [refused] at h

variable {K T : Type} [DecidableEq K] (L : Lib) (B : Parse.BufLib) (other : Bytes → Py (List (String × Int)))

/-- **C69 on Linux.** Any sequence of reads, writes and reservation commands executed through the sg executer in front of a shared disk, with
anything the other hosts do in between: each caller sees what the disk decided - the bytes, done, a conflict, a unit attention, a failure - and the disk
ends with the contents and reservations this leads to. -/
theorem C69_linux (l : Bool) (g : Geometry) (hg : Valid g) (alloc : Nat → Alloc) (t : Int) (ht : 0 ≤ t ∧ t < 2 ^ 32) (cmds : List Cmd) (ops : List Op)
    (hask : Each (Asks g) cmds ops) (hok : Carried L (LinuxOk alloc) cmds) (s : State) (hs : Reserve.Bounded s.lun) (deeds : List (List (Nat × Deed)))
    (w : W Handle K (Option Bytes) (DevErr Sense) (World ((State × List (List (Nat × Deed))) × Option Bytes))) (hw : LinuxIdle w.st w.os (s, deeds)) :
    ∃ w' as left, RunAll (machine (T := T) (Linux.sgBlocking (lp64 l) getSense (Linux.sgDevice l (shared g))).plat (Linux.prepare (lp64 l) alloc t))
        (cmds.map (·.command L B other)) w as w' ∧ Each Shows as (runOps g ops s deeds).1 ∧ LinuxIdle w'.st w'.os ((runOps g ops s deeds).2, left) := by
  obtain ⟨w', h1, h2⟩ := C51_linux (K := K) (T := T) l getSense (shared g) alloc t ht (shared_parses g) (cmds.map (·.command L B other)) (carried_map B other hok)
    w _ hw
  obtain ⟨e1, e2⟩ := askAll_shared L B other hg Reserve.outcome_brings hask s hs deeds
  exact ⟨w', _, _, h1, e1, by rw [← e2]; exact h2⟩

/-- **C69 on Solaris.** -/
theorem C69_solaris (l : Bool) (g : Geometry) (hg : Valid g) (alloc : Nat → Alloc) (t : Int) (ht : 0 ≤ t ∧ t < 2 ^ 15) (cmds : List Cmd) (ops : List Op)
    (hask : Each (Asks g) cmds ops) (hok : Carried L (SolarisOk alloc) cmds) (s : State) (hs : Reserve.Bounded s.lun) (deeds : List (List (Nat × Deed)))
    (w : W Handle K (Option Bytes) (DevErr Sense) (Solaris.SolWorld (State × List (List (Nat × Deed))))) (hw : SolarisIdle w.st w.os (s, deeds)) :
    ∃ w' as left, RunAll (machine (T := T) (Solaris.solBlocking (lp64 l) getSense (Solaris.uscsiDevice l (shared g))).plat (Solaris.prepare (lp64 l) alloc t))
        (cmds.map (·.command L B other)) w as w' ∧ Each Shows as (runOps g ops s deeds).1 ∧ SolarisIdle w'.st w'.os ((runOps g ops s deeds).2, left) := by
  obtain ⟨w', h1, h2⟩ := C51_solaris (K := K) (T := T) l getSense (shared g) alloc t ht (shared_parses g) (cmds.map (·.command L B other)) (carried_map B other hok)
    w _ hw
  obtain ⟨e1, e2⟩ := askAll_shared L B other hg Reserve.outcome_brings hask s hs deeds
  exact ⟨w', _, _, h1, e1, by rw [← e2]; exact h2⟩

/-- **C69 on AIX**, with either ioctl binding. -/
theorem C69_aix (b : Aix.Binding) (g : Geometry) (hg : Valid g) (alloc : Nat → Alloc) (t : Int) (ht : 0 ≤ t ∧ t < 2 ^ 32) (cmds : List Cmd) (ops : List Op)
    (hask : Each (Asks g) cmds ops) (hok : Carried L (AixOk b alloc) cmds) (s : State) (hs : Reserve.Bounded s.lun) (deeds : List (List (Nat × Deed)))
    (w : W Handle K (Option Bytes) (DevErr Sense) (Aix.AixWorld (State × List (List (Nat × Deed))))) (hw : AixIdle w.st w.os (s, deeds)) :
    ∃ w' as left, RunAll (machine (T := T) (Aix.aixBlocking (lp64 false) getSense b (Aix.scDevice (shared g))).plat (Aix.prepare (lp64 false) alloc t))
        (cmds.map (·.command L B other)) w as w' ∧ Each Shows as (runOps g ops s deeds).1 ∧ AixIdle w'.st w'.os ((runOps g ops s deeds).2, left) := by
  obtain ⟨w', h1, h2⟩ := C51_aix (K := K) (T := T) getSense b (shared g) alloc t ht (shared_parses g) (cmds.map (·.command L B other)) (carried_map B other hok)
    w _ hw
  obtain ⟨e1, e2⟩ := askAll_shared L B other hg Reserve.outcome_brings hask s hs deeds
  exact ⟨w', _, _, h1, e1, by rw [← e2]; exact h2⟩

/-- **C69 on Windows**, 32 and 64 bit. -/
theorem C69_windows (b : Bool) (g : Geometry) (hg : Valid g) (alloc : Nat → Alloc) (cmds : List Cmd) (ops : List Op)
    (hask : Each (Asks g) cmds ops) (hok : Carried L (WindowsOk b alloc) cmds) (s : State) (hs : Reserve.Bounded s.lun) (deeds : List (List (Nat × Deed)))
    (w : W Win32.Spt K (Option Bytes) (DevErr Sense) (Win32.WinWorld (State × List (List (Nat × Deed))))) (hw : WindowsIdle w.st w.os (s, deeds)) :
    ∃ w' as left, RunAll (machine (T := T) (Win32.winPlat (Win32.W b) getSense (Win32.sptDevice b (shared g))) (Win32.prepare (Win32.W b) alloc))
        (cmds.map (·.command L B other)) w as w' ∧ Each Shows as (runOps g ops s deeds).1 ∧ WindowsIdle w'.st w'.os ((runOps g ops s deeds).2, left) := by
  obtain ⟨w', h1, h2⟩ := C51_windows (K := K) (T := T) b getSense (shared g) alloc
    (fun m q h => shared_parses g m q (by rw [h]; decide)) (cmds.map (·.command L B other)) (carried_map B other hok) w _ hw
  obtain ⟨e1, e2⟩ := askAll_shared L B other hg Reserve.winOutcome_brings hask s hs deeds
  exact ⟨w', _, _, h1, e1, by rw [← e2]; exact h2⟩

/-! ## A reservation makes the disk one's own -/

/-- No registration of host 0 but the one it is known by. -/
def Sole (u : Lun) : Prop := ∀ r ∈ u.keys, r.1 = 0 → keyOf u 0 = some r.2

theorem lookup_none {l : List (Nat × Key)} : l.lookup 0 = none ↔ ∀ r ∈ l, r.1 ≠ 0 := by
  induction l with
  | nil => simp
  | cons r l ih =>
    obtain ⟨h, k⟩ := r
    by_cases e : h = 0
    · subst e; simp [List.lookup_cons]
    · have : ((0 : Nat) == h) = false := by simpa using fun x => e x.symm
      simp [List.lookup_cons, this, ih, e]

theorem lookup_some {l : List (Nat × Key)} {k : Key} (h : l.lookup 0 = some k) : (0, k) ∈ l := by
  induction l with
  | nil => simp at h
  | cons r l ih =>
    obtain ⟨a, b⟩ := r
    by_cases e : a = 0
    · subst e; simp [List.lookup_cons] at h; simp [h]
    · have : ((0 : Nat) == a) = false := by simpa using fun x => e x.symm
      simp [List.lookup_cons, this] at h
      exact List.mem_cons_of_mem _ (ih h)

/-- One registration of host 0 at most: its key is that of any entry. -/
theorem lookup_sole {l : List (Nat × Key)} {k : Key} (h : ∀ r ∈ l, r.1 = 0 → r.2 = k) (hk : (0, k) ∈ l) : l.lookup 0 = some k := by
  cases e : l.lookup 0 with
  | none => exact absurd rfl (lookup_none.1 e _ hk)
  | some k' => rw [← h _ (lookup_some e) rfl]

theorem sole_iff {u : Lun} : Sole u ↔ ∀ r ∈ u.keys, ∀ r' ∈ u.keys, r.1 = 0 → r'.1 = 0 → r.2 = r'.2 := by
  constructor
  · intro h r hr r' hr' e e'
    have := (h r hr e).symm.trans (h r' hr' e')
    exact Option.some.inj this
  · intro h r hr e
    have hm : (0, r.2) ∈ u.keys := by rw [← e]; exact hr
    exact lookup_sole (fun r' hr' e' => h r' hr' r hr e' e) hm

theorem sole_sub {u v : Lun} (h : Sole u) (hv : ∀ r ∈ v.keys, r ∈ u.keys) : Sole v :=
  sole_iff.2 fun r hr r' hr' => sole_iff.1 h r (hv r hr) r' (hv r' hr')

theorem warn_keys (u : Lun) (d : Nat) (w : Notice) (c : Bool) : (warn u d w c).keys = u.keys := by unfold warn; split <;> rfl

theorem warn_sole {u : Lun} (h : Sole u) (d : Nat) (w : Notice) (c : Bool) : Sole (warn u d w c) :=
  sole_sub h (fun r hr => by rw [warn_keys] at hr; exact hr)

theorem filter_sole {u : Lun} (h : Sole u) (p : Nat × Key → Bool) (g : Nat) (o : Option (Nat × Kind)) (a : Option Notice) :
    Sole { u with generation := g, keys := u.keys.filter p, holder := o, attention := a } :=
  sole_sub h fun _ hr => (List.mem_filter.1 hr).1

theorem enroll_sole {u : Lun} (h : Sole u) (host : Nat) (k : Key) : Sole (enroll u host k).2 := by
  unfold enroll
  split
  · rw [sole_iff]
    simp only [changed, List.mem_map]
    rintro r ⟨a, ha, rfl⟩ r' ⟨b, hb, rfl⟩ e e'
    by_cases h1 : a.1 = host <;> by_cases h2 : b.1 = host <;> simp only [h1, h2, if_true, if_false] at e e' ⊢
    · exact absurd (e'.trans e.symm) h2
    · exact absurd (e.trans e'.symm) h1
    · exact sole_iff.1 h a ha b hb e e'
  split
  · rename_i hn _
    have hn : keyOf u host = none := by simpa using hn
    rw [sole_iff]
    simp only [changed, List.mem_append, List.mem_singleton]
    rintro r (hr | rfl) r' (hr' | rfl) e e'
    · exact sole_iff.1 h r hr r' hr' e e'
    · subst e'; exact absurd e (lookup_none.1 hn _ hr)
    · subst e; exact absurd e' (lookup_none.1 hn _ hr')
    · rfl
  · exact h

theorem act_sole {u : Lun} (h : Sole u) (host : Nat) (a : Action) : Sole (Reservations.act u host a).2 := by
  have un : Sole (Reservations.unregister u host) := warn_sole (filter_sole h _ _ _ _) _ _ _
  cases a <;> simp only [Reservations.act] <;> repeat' split
  all_goals first
    | exact h
    | exact un
    | exact enroll_sole h _ _
    | exact warn_sole (filter_sole h _ _ _ _) _ _ _
    | (refine warn_sole ?_ _ _ _; first | exact h | (intro r hr; exact absurd hr (by simp [Reservations.changed])))

/-- Host 0 is registered and the reservation is its own. -/
def Mine (kind : Kind) (u : Lun) : Prop := u.holder = some (0, kind) ∧ (keyOf u 0).isSome = true

theorem warn_attention {u : Lun} (d : Nat) (w : Notice) (c : Bool) (h : u.attention.isSome = true) : (warn u d w c).attention.isSome = true := by
  unfold warn; split
  · rfl
  · exact h

theorem act_attention {u : Lun} (h : u.attention.isSome = true) (host : Nat) (a : Action) : (Reservations.act u host a).2.attention.isSome = true := by
  have en : ∀ k, (enroll u host k).2.attention.isSome = true := by intro k; unfold enroll; repeat' split
                                                                   all_goals exact h
  cases a <;> simp only [Reservations.act] <;> repeat' split
  all_goals first
    | exact h
    | exact en _
    | exact warn_attention _ _ _ h

theorem warn_mine {kind : Kind} {u : Lun} (h : Mine kind u) (d : Nat) (w : Notice) (c : Bool) : Mine kind (warn u d w c) := by
  unfold warn; split <;> exact h

/-- What is left of the reservation and registration of host 0 when registrations of others are removed. -/
theorem filter_mine {kind : Kind} (hk : kind.registrants = false) {u : Lun} (h : Mine kind u) (p : Nat × Key → Bool)
    (hp : ∀ k, keyOf u 0 = some k → p (0, k) = true) (g : Nat) (a : Option Notice) :
    Mine kind { u with generation := g, keys := u.keys.filter p, holder := stillHeld (u.keys.filter p) u.holder, attention := a } := by
  obtain ⟨h1, h2⟩ := h
  obtain ⟨k, hk'⟩ := Option.isSome_iff_exists.1 h2
  have hm : (0, k) ∈ u.keys.filter p := List.mem_filter.2 ⟨lookup_some hk', hp k hk'⟩
  have he : kind.everyRegistrant = false := by cases kind <;> first | rfl | (simp [Kind.registrants] at hk)
  refine ⟨?_, ?_⟩
  · simp only [h1, stillHeld, he, Bool.false_eq_true, if_false]
    rw [if_pos]
    exact List.any_eq_true.2 ⟨_, hm, by simp⟩
  · cases e : (u.keys.filter p).lookup 0 with
    | none => exact absurd rfl (lookup_none.1 e _ hm)
    | some _ => simp [keyOf, e]

theorem enroll_mine {kind : Kind} {u : Lun} (h : Mine kind u) {host : Nat} (hh : host ≠ 0) (k : Key) : Mine kind (enroll u host k).2 := by
  obtain ⟨h1, h2⟩ := h
  obtain ⟨k', hk'⟩ := Option.isSome_iff_exists.1 h2
  have hm := lookup_some hk'
  have some_of : ∀ l : List (Nat × Key), (0, k') ∈ l → (l.lookup 0).isSome = true := by
    intro l hl
    cases e : l.lookup 0 with
    | none => exact absurd rfl (lookup_none.1 e _ hl)
    | some _ => rfl
  unfold enroll
  split
  · refine ⟨h1, some_of _ (List.mem_map.2 ⟨_, hm, ?_⟩)⟩
    rw [if_neg (by simpa using fun e => hh e.symm)]
  split
  · exact ⟨h1, some_of _ (List.mem_append_left _ hm)⟩
  · exact ⟨h1, h2⟩

/-- Nothing another host does takes the reservation from host 0 without a unit attention. -/
theorem act_mine {kind : Kind} (hk : kind.registrants = false) {u : Lun} (hs : Sole u) (h : Mine kind u) {host : Nat} (hh : host ≠ 0) (a : Action) :
    (Reservations.act u host a).2.attention.isSome = true ∨ Mine kind (Reservations.act u host a).2 := by
  have he : kind.everyRegistrant = false := by cases kind <;> first | rfl | (simp [Kind.registrants] at hk)
  have hholds : holds u host = false := by simp [holds, h.1, he]; exact fun e => hh e.symm
  obtain ⟨k, hk'⟩ := Option.isSome_iff_exists.1 h.2
  have un : Mine kind (unregister u host) := warn_mine (filter_mine hk h _ (fun k _ => by simpa using fun e => hh e.symm) _ _) _ _ _
  have hkey : holderKey u = some k := by simp [holderKey, h.1, he, hk']
  cases a with
  | register old new =>
    refine .inr ?_
    simp only [Reservations.act]
    repeat' split
    all_goals first | exact h | exact un | exact enroll_mine h hh _
  | registerAnyway new =>
    refine .inr ?_
    simp only [Reservations.act]
    repeat' split
    all_goals first | exact h | exact un | exact enroll_mine h hh _
  | reserve type key =>
    refine .inr ?_
    simp only [Reservations.act, h.1, hholds]
    repeat' split
    all_goals first | exact h | simp at *
  | release type key =>
    refine .inr ?_
    simp only [Reservations.act, h.1, hholds]
    repeat' split
    all_goals first | exact h | simp at *
  | clear key =>
    simp only [Reservations.act]
    split
    · exact .inr h
    · refine .inl ?_
      simp [warn, hh, h.2]
  | preempt type key victim abort =>
    simp only [Reservations.act, hkey]
    split
    · exact .inr h
    split
    · rename_i hv
      have hv : k = victim := Option.some.inj hv
      split
      · exact .inr h
      · refine .inl ?_
        have : (u.keys.filter fun r => r.1 == host || (r.2 != victim && victim != 0)).lookup 0 = none := by
          rw [lookup_none]
          rintro r hr e
          obtain ⟨hr, hp⟩ := List.mem_filter.1 hr
          have := hs r hr e
          rw [hk', hv] at this
          have := Option.some.inj this
          simp [e, ← this] at hp
          exact hh hp.symm
        simp [warn, hh, h.2, this]
    · rename_i hv
      have hv : k ≠ victim := fun e => hv (by rw [e])
      split
      · exact .inr h
      split
      · exact .inr h
      · refine .inr (warn_mine (filter_mine hk h _ ?_ _ _) _ _ _)
        intro k' e
        rw [hk'] at e
        cases e
        simpa using hv

/-- Until host 0 is told otherwise, the reservation is its own and the contents are what it made of them. -/
def Own (kind : Kind) (m : Contents) (s : State) : Prop := s.lun.attention.isSome = true ∨ (Sole s.lun ∧ Mine kind s.lun ∧ s.contents = m)

theorem run_reads (g : Geometry) (m : Contents) {op : Disk.Op} (h : access op ≠ .write) : (op.run g m).2 = m := by
  cases op <;> first | rfl | (exact absurd rfl h) | (simp only [Disk.Op.run]; split <;> rfl)

theorem does_own {kind : Kind} (hk : kind.registrants = false) {g : Geometry} {m : Contents} {s : State} (h : Own kind m s) {host : Nat} (hh : host ≠ 0) (d : Deed) :
    Own kind m (does g s host d) := by
  rcases h with h | ⟨h1, h2, h3⟩
  · refine .inl ?_
    cases d with
    | act a => exact act_attention h host a
    | use op => simp only [does]; split <;> exact h
  · cases d with
    | act a =>
      rcases act_mine hk h1 h2 hh a with h | h
      · exact .inl h
      · exact .inr ⟨act_sole h1 host a, h, h3⟩
    | use op =>
      refine .inr ⟨?_, ?_, ?_⟩
      · simp only [does]; split <;> exact h1
      · simp only [does]; split <;> exact h2
      · simp only [does]
        split
        · rename_i hp
          rw [← h3]
          apply run_reads
          intro e
          rw [e] at hp
          simp [permits, h2.1, hk] at hp
          exact hh hp.symm
        · exact h3

theorem others_own {kind : Kind} (hk : kind.registrants = false) {g : Geometry} {m : Contents} :
    ∀ (l : List (Nat × Deed)) {s : State}, Own kind m s → Own kind m (others g s l)
  | [], _, h => h
  | (_, _) :: l, _, h => others_own hk l (does_own hk h (Nat.succ_ne_zero _) _)

/-- Operations on a disk that host 0 has reserved: the replies are those of a disk of its own, up to the first unit attention. -/
theorem runs_own {kind : Kind} (hk : kind.registrants = false) (g : Geometry) : ∀ (ops : List Disk.Op) (s : State) (m : Contents) (d : List (List (Nat × Deed))),
    Own kind m s →
    ((runOps g (ops.map .disk) s d).1 = (Disk.runOps g ops m).1.map .disk ∧ Own kind (Disk.runOps g ops m).2 (runOps g (ops.map .disk) s d).2) ∨
      ∃ n ascq rest, (runOps g (ops.map .disk) s d).1 = ((Disk.runOps g ops m).1.take n).map .disk ++ .attention ascq :: rest ∧ n < ops.length
  | [], _, _, _, h => .inl ⟨rfl, h⟩
  | o :: os, s, m, d, h => by
    have h := others_own hk (g := g) (d.headD []) h
    generalize hs : others g s (d.headD []) = s' at h
    simp only [List.map_cons, runOps, hs, Op.run, Disk.runOps]
    cases hu : s'.lun.attention with
    | some why => exact .inr ⟨0, why.ascq, _, rfl, by simp⟩
    | none =>
      rcases h with h | ⟨h1, h2, h3⟩
      · simp [hu] at h
      have hp : permits s'.lun 0 (access o) = true := by
        cases ha : access o <;> simp [permits, h2.1, hk]
      simp only [hp, if_true]
      have := runs_own hk g os { s' with contents := (o.run g s'.contents).2 } (o.run g m).2 d.tail (.inr ⟨h1, h2, by rw [h3]⟩)
      rw [h3] at this ⊢
      rcases this with ⟨e1, e2⟩ | ⟨n, ascq, rest, e, hn⟩
      · exact .inl ⟨by rw [e1], e2⟩
      · exact .inr ⟨n + 1, ascq, rest, by rw [e]; rfl, by simpa using hn⟩

/-- A reservation that is granted makes the disk host 0's own. -/
theorem reserve_own (g : Geometry) {type : Nat} {kind : Kind} (hc : Kind.ofCode type = some kind) (hk : kind.registrants = false) (key : Key) (s : State)
    (hs : Sole s.lun) (h : (Op.run g s (.reservations (.act (.reserve type key)))).1 = .reservations .done) :
    Own kind s.contents (Op.run g s (.reservations (.act (.reserve type key)))).2 := by
  have he : kind.everyRegistrant = false := by cases kind <;> first | rfl | (simp [Kind.registrants] at hk)
  revert h
  simp only [Op.run]
  cases hu : s.lun.attention with
  | some why => intro h; simp at h
  | none =>
    simp only [Reservations.Op.run, hu, Reservations.act, hc]
    by_cases hkn : knows s.lun 0 key
    · have hkey : (keyOf s.lun 0).isSome = true := by
        simp only [knows, beq_iff_eq] at hkn
        rw [hkn]; rfl
      simp only [hkn, not_true_eq_false, if_false]
      cases hh : s.lun.holder with
      | none => exact fun _ => .inr ⟨hs, ⟨rfl, hkey⟩, rfl⟩
      | some p =>
        obtain ⟨h0, k⟩ := p
        by_cases hg : holds s.lun 0 = true ∧ k = kind
        · simp only [hg, and_self, if_true]
          refine fun _ => .inr ⟨hs, ⟨?_, hkey⟩, rfl⟩
          have := hg.1
          simp [holds, hh, hg.2, he] at this
          rw [hh, this, hg.2]
        · simp only [hg, if_false]; intro h; simp at h
    · simp only [hkn, not_false_eq_true, if_true]; intro h; simp at h

/-- What the callers of commands on a reserved disk see: what they would see on a disk `m` of their own, all of it, or up to a CHECK CONDITION that
says that the reservation is gone. -/
def LikeOwn (g : Geometry) (ops : List Disk.Op) (m : Contents)
    (as : List (Except (Exn (DevErr Sense)) (Option (Val (Option Bytes) (DevErr Sense) Result)))) (s : State) : Prop :=
  (Each Commands.Shows as (Disk.runOps g ops m).1 ∧ (s.lun.attention = none → s.contents = (Disk.runOps g ops m).2)) ∨
    ∃ before raw sense rest ascq, as = before ++ .error (.dev (.checkCondition raw (some sense))) :: rest ∧ Says sense 6 0x2A ascq ∧ before.length < ops.length ∧
      Each Commands.Shows before ((Disk.runOps g ops m).1.take before.length)

theorem each_length {α β : Type} {R : α → β → Prop} {as : List α} {bs : List β} (h : Each R as bs) : as.length = bs.length := by
  induction h with
  | nil => rfl
  | cons _ _ ih => simp [ih]

theorem each_disk {as : List (Except (Exn (DevErr Sense)) (Option (Val (Option Bytes) (DevErr Sense) Result)))} :
    ∀ {rs : List Disk.Reply}, Each Shows as (rs.map .disk) → Each Commands.Shows as rs := by
  induction as with
  | nil => intro rs h; cases rs with
    | nil => exact .nil
    | cons => cases h
  | cons a as ih => intro rs h; cases rs with
    | nil => cases h
    | cons r rs => cases h with | cons h1 h2 => exact .cons h1 (ih h2)

theorem each_split {α β : Type} {R : α → β → Prop} {bs : List β} {b : β} {cs : List β} : ∀ {as : List α}, Each R as (bs ++ b :: cs) →
    ∃ xs a ys, as = xs ++ a :: ys ∧ Each R xs bs ∧ R a b := by
  induction bs with
  | nil => intro as h; cases h with | cons h1 _ => exact ⟨[], _, _, rfl, .nil, h1⟩
  | cons b' bs ih =>
    intro as h
    cases h with
    | cons h1 h2 =>
      obtain ⟨xs, a, ys, rfl, h3, h4⟩ := ih h2
      exact ⟨_ :: xs, a, ys, rfl, .cons h1 h3, h4⟩

theorem runOps_length (g : Geometry) : ∀ (ops : List Disk.Op) (m : Contents), (Disk.runOps g ops m).1.length = ops.length
  | [], _ => rfl
  | o :: os, m => by simp [Disk.runOps, runOps_length g os]

theorem others_sole {g : Geometry} : ∀ (l : List (Nat × Deed)) {s : State}, Sole s.lun → Sole (others g s l).lun
  | [], _, h => h
  | (_, d) :: l, _, h => by
    refine others_sole l ?_
    cases d with
    | act a => exact act_sole h _ a
    | use op => simp only [does]; split <;> exact h

/-- From what the platforms show. -/
theorem like_own (g : Geometry) {type : Nat} {kind : Kind} (hc : Kind.ofCode type = some kind) (hk : kind.registrants = false) (key : Key) (ops : List Disk.Op)
    (s : State) (hs : Sole s.lun) (d : List (List (Nat × Deed)))
    {a : Except (Exn (DevErr Sense)) (Option (Val (Option Bytes) (DevErr Sense) Result))}
    {as : List (Except (Exn (DevErr Sense)) (Option (Val (Option Bytes) (DevErr Sense) Result)))}
    (h : Each Shows (a :: as) (runOps g (.reservations (.act (.reserve type key)) :: ops.map .disk) s d).1) (ha : ∃ v, a = .ok v) :
    LikeOwn g ops (others g s (d.headD [])).contents as (runOps g (.reservations (.act (.reserve type key)) :: ops.map .disk) s d).2 := by
  have hs' := others_sole (g := g) (d.headD []) hs
  simp only [runOps] at h ⊢
  generalize others g s (d.headD []) = s' at hs' h ⊢
  cases h with
  | cons h1 h2 =>
    have hd : (Op.run g s' (.reservations (.act (.reserve type key)))).1 = .reservations .done := by
      obtain ⟨v, rfl⟩ := ha
      revert h1
      simp only [Op.run]
      cases hu : s'.lun.attention with
      | some why => rintro ⟨_, _, h, _⟩; cases h
      | none =>
        simp only [Reservations.Op.run, hu]
        split
        · intro _; rfl
        · intro h; cases h
        · rintro ⟨_, _, h, _⟩; cases h
    have own := reserve_own g hc hk key s' hs' hd
    rcases runs_own hk g ops _ _ d.tail own with ⟨e1, e2⟩ | ⟨n, ascq, rest, e, hn⟩
    · refine .inl ⟨each_disk (by rw [← e1]; exact h2), ?_⟩
      rintro hu
      rcases e2 with e2 | e2
      · rw [hu] at e2; simp at e2
      · exact e2.2.2
    · rw [e] at h2
      obtain ⟨xs, a, ys, rfl, h3, raw, sense, rfl, h4⟩ := each_split h2
      have h3 := each_disk h3
      have hl : xs.length = n := by
        rw [each_length h3, List.length_take, runOps_length]; omega
      exact .inr ⟨xs, raw, sense, ys, ascq, rfl, h4, by omega, by rw [hl]; exact h3⟩

/-- The command that reserves. -/
def reserving (type : Nat) (key : Key) : Cmd := .persistentReserveOut { serviceAction := 1, prType := type, key := (key.toNat : Int) }

theorem own_ops {g : Geometry} {type : Nat} (ht : type < 16) (key : Key) {cmds : List Cmd} {ops : List Disk.Op} (h : Each (Commands.Asks g) cmds ops) :
    Each (Asks g) (reserving type key :: cmds) (.reservations (.act (.reserve type key)) :: ops.map .disk) := by
  refine .cons (.reservations (.reserve ht) (by simp)) ?_
  induction h with
  | nil => exact .nil
  | cons h _ ih => exact .cons (.disk h) ih

theorem ofCode_lt {type : Nat} {kind : Kind} (h : Kind.ofCode type = some kind) : type < 16 := by
  unfold Kind.ofCode at h; split at h <;> first | omega | simp at h

/-- **C70 on Linux.** If reserving the disk (write exclusive or exclusive access) succeeds, then whatever other hosts do - reading, writing, registering,
preempting - the commands after it see a disk of the caller's own, with the contents at the time of the reservation, until one of them raises
`AsiCheckConditionError` with sense key UNIT ATTENTION and 2Ah: the reservation cannot be lost without the caller being told before any of
its commands is affected. -/
theorem C70_linux (l : Bool) (g : Geometry) (hg : Valid g) (alloc : Nat → Alloc) (t : Int) (ht : 0 ≤ t ∧ t < 2 ^ 32) {type : Nat} {kind : Kind}
    (hc : Kind.ofCode type = some kind) (hk : kind.registrants = false) (key : Key) (cmds : List Cmd) (ops : List Disk.Op)
    (hask : Each (Commands.Asks g) cmds ops) (hok : Carried L (LinuxOk alloc) (reserving type key :: cmds)) (s : State) (hs : Reserve.Bounded s.lun)
    (hsole : Sole s.lun) (deeds : List (List (Nat × Deed)))
    (w : W Handle K (Option Bytes) (DevErr Sense) (World ((State × List (List (Nat × Deed))) × Option Bytes))) (hw : LinuxIdle w.st w.os (s, deeds)) :
    ∃ w' a as s' left, RunAll (machine (T := T) (Linux.sgBlocking (lp64 l) getSense (Linux.sgDevice l (shared g))).plat (Linux.prepare (lp64 l) alloc t))
        ((reserving type key :: cmds).map (·.command L B other)) w (a :: as) w' ∧ LinuxIdle w'.st w'.os (s', left) ∧
      ((∃ v, a = .ok v) → LikeOwn g ops (others g s (deeds.headD [])).contents as s') := by
  obtain ⟨w', as, left, h1, h2, h3⟩ := C69_linux (K := K) (T := T) L B other l g hg alloc t ht _ _ (own_ops (ofCode_lt hc) key hask) hok s hs deeds w hw
  cases as with
  | nil => simp only [runOps] at h2; cases h2
  | cons a as => exact ⟨w', a, as, _, left, h1, h3, like_own g hc hk key ops s hsole deeds h2⟩

/-- **C70 on Solaris.** -/
theorem C70_solaris (l : Bool) (g : Geometry) (hg : Valid g) (alloc : Nat → Alloc) (t : Int) (ht : 0 ≤ t ∧ t < 2 ^ 15) {type : Nat} {kind : Kind}
    (hc : Kind.ofCode type = some kind) (hk : kind.registrants = false) (key : Key) (cmds : List Cmd) (ops : List Disk.Op)
    (hask : Each (Commands.Asks g) cmds ops) (hok : Carried L (SolarisOk alloc) (reserving type key :: cmds)) (s : State) (hs : Reserve.Bounded s.lun)
    (hsole : Sole s.lun) (deeds : List (List (Nat × Deed)))
    (w : W Handle K (Option Bytes) (DevErr Sense) (Solaris.SolWorld (State × List (List (Nat × Deed))))) (hw : SolarisIdle w.st w.os (s, deeds)) :
    ∃ w' a as s' left, RunAll (machine (T := T) (Solaris.solBlocking (lp64 l) getSense (Solaris.uscsiDevice l (shared g))).plat (Solaris.prepare (lp64 l) alloc t))
        ((reserving type key :: cmds).map (·.command L B other)) w (a :: as) w' ∧ SolarisIdle w'.st w'.os (s', left) ∧
      ((∃ v, a = .ok v) → LikeOwn g ops (others g s (deeds.headD [])).contents as s') := by
  obtain ⟨w', as, left, h1, h2, h3⟩ := C69_solaris (K := K) (T := T) L B other l g hg alloc t ht _ _ (own_ops (ofCode_lt hc) key hask) hok s hs deeds w hw
  cases as with
  | nil => simp only [runOps] at h2; cases h2
  | cons a as => exact ⟨w', a, as, _, left, h1, h3, like_own g hc hk key ops s hsole deeds h2⟩

/-- **C70 on AIX.** -/
theorem C70_aix (b : Aix.Binding) (g : Geometry) (hg : Valid g) (alloc : Nat → Alloc) (t : Int) (ht : 0 ≤ t ∧ t < 2 ^ 32) {type : Nat} {kind : Kind}
    (hc : Kind.ofCode type = some kind) (hk : kind.registrants = false) (key : Key) (cmds : List Cmd) (ops : List Disk.Op)
    (hask : Each (Commands.Asks g) cmds ops) (hok : Carried L (AixOk b alloc) (reserving type key :: cmds)) (s : State) (hs : Reserve.Bounded s.lun)
    (hsole : Sole s.lun) (deeds : List (List (Nat × Deed)))
    (w : W Handle K (Option Bytes) (DevErr Sense) (Aix.AixWorld (State × List (List (Nat × Deed))))) (hw : AixIdle w.st w.os (s, deeds)) :
    ∃ w' a as s' left, RunAll (machine (T := T) (Aix.aixBlocking (lp64 false) getSense b (Aix.scDevice (shared g))).plat (Aix.prepare (lp64 false) alloc t))
        ((reserving type key :: cmds).map (·.command L B other)) w (a :: as) w' ∧ AixIdle w'.st w'.os (s', left) ∧
      ((∃ v, a = .ok v) → LikeOwn g ops (others g s (deeds.headD [])).contents as s') := by
  obtain ⟨w', as, left, h1, h2, h3⟩ := C69_aix (K := K) (T := T) L B other b g hg alloc t ht _ _ (own_ops (ofCode_lt hc) key hask) hok s hs deeds w hw
  cases as with
  | nil => simp only [runOps] at h2; cases h2
  | cons a as => exact ⟨w', a, as, _, left, h1, h3, like_own g hc hk key ops s hsole deeds h2⟩

/-- **C70 on Windows.** -/
theorem C70_windows (b : Bool) (g : Geometry) (hg : Valid g) (alloc : Nat → Alloc) {type : Nat} {kind : Kind}
    (hc : Kind.ofCode type = some kind) (hk : kind.registrants = false) (key : Key) (cmds : List Cmd) (ops : List Disk.Op)
    (hask : Each (Commands.Asks g) cmds ops) (hok : Carried L (WindowsOk b alloc) (reserving type key :: cmds)) (s : State) (hs : Reserve.Bounded s.lun)
    (hsole : Sole s.lun) (deeds : List (List (Nat × Deed)))
    (w : W Win32.Spt K (Option Bytes) (DevErr Sense) (Win32.WinWorld (State × List (List (Nat × Deed))))) (hw : WindowsIdle w.st w.os (s, deeds)) :
    ∃ w' a as s' left, RunAll (machine (T := T) (Win32.winPlat (Win32.W b) getSense (Win32.sptDevice b (shared g))) (Win32.prepare (Win32.W b) alloc))
        ((reserving type key :: cmds).map (·.command L B other)) w (a :: as) w' ∧ WindowsIdle w'.st w'.os (s', left) ∧
      ((∃ v, a = .ok v) → LikeOwn g ops (others g s (deeds.headD [])).contents as s') := by
  obtain ⟨w', as, left, h1, h2, h3⟩ := C69_windows (K := K) (T := T) L B other b g hg alloc _ _ (own_ops (ofCode_lt hc) key hask) hok s hs deeds w hw
  cases as with
  | nil => simp only [runOps] at h2; cases h2
  | cons a as => exact ⟨w', a, as, _, left, h1, h3, like_own g hc hk key ops s hsole deeds h2⟩


/-! ## A case -/

/-- A host registers, reserves the disk (exclusive access), writes, reads back, reads again three times. -/
def story : List (Cmd × Op) :=
  [(.persistentReserveOut { serviceAction := 0, key := 0, saKey := 0xA }, .reservations (.act (.register 0 0xA))),
   (reserving 3 0xA, .reservations (.act (.reserve 3 0xA))),
   (.write10 2 [1, 2, 3, 4] 4, .disk (.write 2 [1, 2, 3, 4])),
   (.read10 2 1 4, .disk (.read 2 1)),
   (.read10 2 1 4, .disk (.read 2 1)),
   (.read10 2 1 4, .disk (.read 2 1)),
   (.read10 2 1 4, .disk (.read 2 1))]

/-- Another host writes in vain, then registers, preempts, writes, and finally lets go. -/
def meanwhile : List (List (Nat × Deed)) :=
  [[], [], [], [(0, .use (.write 2 [9, 9, 9, 9]))],
   [(0, .act (.register 0 0xB)), (0, .act (.preempt 3 0xB 0xA false)), (0, .use (.write 2 [9, 9, 9, 9]))], [], [(0, .act (.release 3 0xB))]]

def blank : State := { lun := Reserve.unused, contents := fun _ => 0 }

theorem story_replies : (runOps ⟨4, 8⟩ (story.map (·.2)) blank meanwhile).1 =
    [.reservations .done, .reservations .done, .disk .done, .disk (.data [1, 2, 3, 4]), .attention 5, .conflict, .disk (.data [9, 9, 9, 9])] := by decide +kernel

theorem story_asks : Each (Asks ⟨4, 8⟩) (story.map (·.1)) (story.map (·.2)) :=
  have r : Asks ⟨4, 8⟩ (.read10 2 1 4) (.disk (.read 2 1)) := .disk (.read10 (g := ⟨4, 8⟩) (lba := 2) (n := 1) (by decide) (by decide))
  .cons (.reservations (.register (old := 0) (new := 0xA)) (by simp)) <| .cons (.reservations (.reserve (type := 3) (key := 0xA) (by decide)) (by simp)) <|
    .cons (.disk (.write10 (g := ⟨4, 8⟩) (lba := 2) (n := 1) (by decide) (by decide) (by decide))) <| .cons r <| .cons r <| .cons r <| .cons r .nil

theorem story_carried : Carried L (LinuxOk (fun _ => { block := 4096, sense := 8192, cmd := 12288, data := 16384 })) (story.map (·.1)) := by
  have fit : ∀ q : Req, q.cdb.length ≤ 16 ∧ dataSize q < 2 ^ 16 →
      LinuxOk (fun _ => { block := 4096, sense := 8192, cmd := 12288, data := 16384 }) q := by
    rintro q ⟨h1, h2⟩
    refine ⟨by omega, by omega, fun _ => ⟨?_, ?_⟩⟩
    · simp; omega
    · simp
  intro c hc q hq
  apply fit
  simp only [story, List.map_cons, List.map_nil, List.mem_cons, List.not_mem_nil, or_false] at hc
  have rd : Cdb.request L (Cmd.cdb (.read10 2 1 4)) = .ok q → q.cdb.length ≤ 16 ∧ dataSize q < 2 ^ 16 := by
    intro hq
    have := Cdb.C26_read10 L 2 1 4 ⟨by decide, by decide⟩ ⟨by decide, by decide⟩
    rw [show Cdb.request L (Cmd.cdb (.read10 2 1 4)) = _ from this] at hq
    cases hq
    exact ⟨by simp [Req.cdb, Spec.Cdb.read10, cdb10, cdb16], by simp [dataSize]⟩
  rcases hc with rfl | rfl | rfl | rfl | rfl | rfl | rfl
  · exact Reserve.asks_size L (.register (old := 0) (new := 0xA)) q hq
  · exact Reserve.asks_size L (.reserve (type := 3) (key := 0xA) (by decide)) q hq
  · obtain ⟨-, k, hk, -, -, rfl⟩ := (Cdb.C28_write10 L 2 [1, 2, 3, 4] 4 q).1 hq
    exact ⟨by simp [Req.cdb, Spec.Cdb.write10, cdb10, cdb16], by simp [dataSize]⟩
  all_goals exact rd hq

/-- The hypotheses of C69 are met, on Linux. -/
example : ∃ w' as left, RunAll (machine (T := Unit) (Linux.sgBlocking (K := Unit) (lp64 true) getSense (Linux.sgDevice true (shared ⟨4, 8⟩))).plat
        (Linux.prepare (lp64 true) (fun _ => { block := 4096, sense := 8192, cmd := 12288, data := 16384 }) 30000))
        ((story.map (·.1)).map (·.command L B other))
        { st := { pending := [], index := 6, maxq := 7 }, os := { mem := fun _ => 0xEE, kernel := ((blank, meanwhile), none) }, fired := [], box := fun _ => [] }
        as w' ∧
      Each Shows as [.reservations .done, .reservations .done, .disk .done, .disk (.data [1, 2, 3, 4]), .attention 5, .conflict, .disk (.data [9, 9, 9, 9])] ∧
      LinuxIdle w'.st w'.os ((runOps ⟨4, 8⟩ (story.map (·.2)) blank meanwhile).2, left) := by
  rw [← story_replies]
  exact C69_linux L B other true ⟨4, 8⟩ ⟨by decide, by decide⟩ (fun _ => { block := 4096, sense := 8192, cmd := 12288, data := 16384 }) 30000 (by decide) _ _
    story_asks (story_carried L) blank ⟨by decide, by decide⟩ meanwhile _ ⟨rfl, by simp, by simp, by simp, rfl⟩

/-- After the first command of the story. -/
def registered : State := (runOps ⟨4, 8⟩ ((story.take 1).map (·.2)) blank meanwhile).2

/-- The hypotheses of C70 are met, on Linux; the reservation is granted, the write and the first read are as on a disk of one's own. -/
example : ∃ w' a as s' left, RunAll (machine (T := Unit) (Linux.sgBlocking (K := Unit) (lp64 true) getSense (Linux.sgDevice true (shared ⟨4, 8⟩))).plat
        (Linux.prepare (lp64 true) (fun _ => { block := 4096, sense := 8192, cmd := 12288, data := 16384 }) 30000))
        ((reserving 3 0xA :: [.write10 2 [1, 2, 3, 4] 4, .read10 2 1 4, .read10 2 1 4]).map (·.command L B other))
        { st := { pending := [], index := 6, maxq := 7 }, os := { mem := fun _ => 0xEE, kernel := ((registered, meanwhile.tail), none) }, fired := [], box := fun _ => [] }
        (a :: as) w' ∧ LinuxIdle w'.st w'.os (s', left) ∧
      ((∃ v, a = .ok v) → LikeOwn ⟨4, 8⟩ [.write 2 [1, 2, 3, 4], .read 2 1, .read 2 1] (others ⟨4, 8⟩ registered (meanwhile.tail.headD [])).contents as s') := by
  refine C70_linux L B other true ⟨4, 8⟩ ⟨by decide, by decide⟩ (fun _ => { block := 4096, sense := 8192, cmd := 12288, data := 16384 }) 30000 (by decide)
    (type := 3) (kind := .exclusiveAccess) rfl rfl 0xA _ _
    (.cons (.write10 (g := ⟨4, 8⟩) (lba := 2) (n := 1) (by decide) (by decide) (by decide)) (.cons (.read10 (g := ⟨4, 8⟩) (lba := 2) (n := 1) (by decide) (by decide))
      (.cons (.read10 (g := ⟨4, 8⟩) (lba := 2) (n := 1) (by decide) (by decide)) .nil)))
    (fun c hc => story_carried L c ?_) registered ⟨by decide +kernel, by decide +kernel⟩ ?_ meanwhile.tail _ ⟨rfl, by simp, by simp, by simp, rfl⟩
  · simp only [List.mem_cons, List.not_mem_nil, or_false] at hc
    simp only [story, List.map_cons, List.map_nil, List.mem_cons, List.not_mem_nil, or_false]
    rcases hc with h | h | h | h <;> simp [h]
  · have : ∀ r ∈ registered.lun.keys, r.1 = 0 → keyOf registered.lun 0 = some r.2 := by decide +kernel
    exact this

theorem registered_granted : (Op.run ⟨4, 8⟩ registered (.reservations (.act (.reserve 3 0xA)))).1 = .reservations .done := by decide +kernel

/-- A new disk meets the condition on registrations, and whatever hosts do keeps it. -/
example : Sole blank.lun := by intro r hr; cases hr

theorem run_sole {g : Geometry} {s : State} (h : Sole s.lun) (op : Op) : Sole (op.run g s).2.lun := by
  unfold Op.run
  split
  · exact h
  · cases op with
    | disk op => simp only; split <;> exact h
    | reservations op =>
      simp only [Reservations.Op.run]
      split
      · exact h
      · cases op with
        | act a =>
          have := act_sole h 0 a
          simp only
          split <;> (rename_i e; rw [e] at this; exact this)
        | keys => simp only; split <;> exact h
        | ready => exact h
        | reservation => exact h

end Verif.Commands.SharedDisk
