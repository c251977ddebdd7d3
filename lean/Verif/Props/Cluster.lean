import Verif.Spec.Cluster
import Verif.Props.Mapped
/-!
# C95: computers that share a disk, and a lock kept on it

Any number of computers, each with the library on its own platform, issue commands to one disk. The disk handles one command after the other; the
computers have no other connection.
-/
set_option linter.unusedSimpArgs false
set_option linter.unusedSectionVars false

namespace Verif.Commands.Cluster

open Verif.Executer Verif.Coroutine Verif.ExecuterGen Verif.Platform Verif.Spec Verif.Sense Verif.Commands
open Verif.Spec.Disk (Geometry Contents Op Reply disk Each readAt writeAt runOps)
open Verif.Spec.Cluster

/-- What `sync_wait(cmd.execute(executer))` gives (sync_adapter.py:74-79). -/
abbrev Res := Except (Exn (DevErr Sense)) (Option (Val (Option Bytes) (DevErr Sense) Result))

/-- A computer: its platform (`create_platform_command_executer`, __init__.py:184-197, and `linux_dm`, executers.py:21) and where the executer's buffers are. -/
inductive Computer where
  | linux (lp : Bool) (alloc : Nat → Alloc) (timeout : Int)
  | solaris (lp : Bool) (alloc : Nat → Alloc) (timeout : Int)
  | aix (b : Aix.Binding) (alloc : Nat → Alloc) (timeout : Int)
  | windows (b : Bool) (alloc : Nat → Alloc)
  /-- Linux with the executer for device mapper devices (`linux_dm`) -/
  | mapped (lp : Bool) (alloc : Nat → Alloc) (timeout : Int)

section

variable (K T : Type) [DecidableEq K] (L : Lib) (B : Parse.BufLib) (other : Bytes → Py (List (String × Int))) {δ : Type} (dev : Device δ)

/-- The computer in front of the disk (or another device). -/
def Computer.host : Computer → Host δ Cmd Res
  | .linux l alloc t =>
    { State := W Handle K (Option Bytes) (DevErr Sense) (World (δ × Option Bytes))
      attach := fun w m => { w with os := { w.os with kernel := (m, w.os.kernel.2) } }
      disk := fun w => w.os.kernel.1
      runs := fun c w a w' => RunAll (machine (T := T) (Linux.sgBlocking (lp64 l) getSense (Linux.sgDevice l dev)).plat (Linux.prepare (lp64 l) alloc t))
        [c.command L B other] w [a] w' }
  | .solaris l alloc t =>
    { State := W Handle K (Option Bytes) (DevErr Sense) (Solaris.SolWorld δ)
      attach := fun w m => { w with os := { w.os with world := { w.os.world with kernel := m } } }
      disk := fun w => w.os.world.kernel
      runs := fun c w a w' => RunAll (machine (T := T) (Solaris.solBlocking (lp64 l) getSense (Solaris.uscsiDevice l dev)).plat
        (Solaris.prepare (lp64 l) alloc t)) [c.command L B other] w [a] w' }
  | .aix b alloc t =>
    { State := W Handle K (Option Bytes) (DevErr Sense) (Aix.AixWorld δ)
      attach := fun w m => { w with os := { w.os with world := { w.os.world with kernel := m } } }
      disk := fun w => w.os.world.kernel
      runs := fun c w a w' => RunAll (machine (T := T) (Aix.aixBlocking (lp64 false) getSense b (Aix.scDevice dev)).plat
        (Aix.prepare (lp64 false) alloc t)) [c.command L B other] w [a] w' }
  | .windows b alloc =>
    { State := W Win32.Spt K (Option Bytes) (DevErr Sense) (Win32.WinWorld δ)
      attach := fun w m => { w with os := { w.os with world := { w.os.world with kernel := m } } }
      disk := fun w => w.os.world.kernel
      runs := fun c w a w' => RunAll (machine (T := T) (Win32.winPlat (Win32.W b) getSense (Win32.sptDevice b dev)) (Win32.prepare (Win32.W b) alloc))
        [c.command L B other] w [a] w' }
  | .mapped l alloc t =>
    { State := W Handle K (Option Bytes) (DevErr Sense) (Linux.IoctlWorld δ)
      attach := fun w m => { w with os := { w.os with world := { w.os.world with kernel := m } } }
      disk := fun w => w.os.world.kernel
      runs := fun c w a w' => RunAll (machine (T := T) (Linux.ioctlBlocking (lp64 l) getSense (Linux.ioctlDevice l dev)).plat
        (Linux.prepare (lp64 l) alloc t)) [c.command L B other] w [a] w' }

/-- The computer's executer is at rest. -/
def Computer.Ready : (c : Computer) → (c.host K T L B other dev).State → Prop
  | .linux _ _ _, w => LinuxIdle w.st w.os w.os.kernel.1
  | .solaris _ _ _, w => SolarisIdle w.st w.os w.os.world.kernel
  | .aix _ _ _, w => AixIdle w.st w.os w.os.world.kernel
  | .windows _ _, w => WindowsIdle w.st w.os w.os.world.kernel
  | .mapped _ _ _, w => MappedIdle w.st w.os w.os.world.kernel

end

/-- What the computer's platform can carry. -/
def Computer.Can : Computer → Req → Prop
  | .linux _ alloc t, q => (0 ≤ t ∧ t < 2 ^ 32) ∧ LinuxOk alloc q
  | .solaris _ alloc t, q => (0 ≤ t ∧ t < 2 ^ 15) ∧ SolarisOk alloc q
  | .aix b alloc t, q => (0 ≤ t ∧ t < 2 ^ 32) ∧ AixOk b alloc q
  | .windows b alloc, q => WindowsOk b alloc q
  | .mapped _ alloc t, q => (0 ≤ t ∧ t < 2 ^ 32) ∧ LinuxOk alloc q

/-- Not a computer that reaches the disk through the device mapper. -/
def Computer.Direct : Computer → Prop
  | .mapped _ _ _ => False
  | _ => True

variable {K T : Type} [DecidableEq K] (L : Lib) (B : Parse.BufLib) (other : Bytes → Py (List (String × Int))) {g : Geometry}

theorem attach_ready (c : Computer) (w : (c.host K T L B other (disk g)).State) (m : Contents) (h : c.Ready K T L B other (disk g) w) :
    c.Ready K T L B other (disk g) ((c.host K T L B other (disk g)).attach w m) ∧ (c.host K T L B other (disk g)).disk ((c.host K T L B other (disk g)).attach w m) = m := by
  cases c with
  | linux l alloc t => exact ⟨⟨h.1, h.2.1, h.2.2.1, h.2.2.2.1, rfl⟩, rfl⟩
  | solaris l alloc t => exact ⟨⟨h.1, h.2.1, h.2.2.1, rfl⟩, rfl⟩
  | aix b alloc t => exact ⟨⟨h.1, h.2.1, h.2.2.1, rfl⟩, rfl⟩
  | windows b alloc => exact ⟨⟨h.1, h.2.1, rfl⟩, rfl⟩
  | mapped l alloc t => exact ⟨⟨h.1, h.2.1, h.2.2.1, h.2.2.2.1, rfl⟩, rfl⟩

theorem each_one {R : Res → Reply → Prop} {as : List Res} {r : Reply} (h : Each R as [r]) : ∃ a, as = [a] ∧ R a r := by
  cases h with
  | cons h t => cases t; exact ⟨_, rfl, h⟩

theorem carried_one {L : Lib} {ok : Req → Prop} {cmd : Cmd} (h : ∀ q, Cdb.request L cmd.cdb = .ok q → ok q) : Carried L ok [cmd] := by
  intro c hc
  simp only [List.mem_singleton] at hc
  subst hc
  exact h

/-- A computer of any kind executes one command: it ends in one way only, the disk changes as the operation says, and the executer is at rest again;
a directly attached one tells its caller the operation's reply, one behind the device mapper the reply without the failure. -/
theorem host_step (hg : Valid g) (c : Computer) (cmd : Cmd) (op : Op) (hask : Asks g cmd op) (hcan : ∀ q, Cdb.request L cmd.cdb = .ok q → c.Can q)
    (w : (c.host K T L B other (disk g)).State) (hw : c.Ready K T L B other (disk g) w) :
    ∃ a w', (c.host K T L B other (disk g)).runs cmd w a w' ∧ (∀ a2 w2, (c.host K T L B other (disk g)).runs cmd w a2 w2 → a2 = a ∧ w2 = w') ∧
      (c.Direct → Shows a (op.run g ((c.host K T L B other (disk g)).disk w)).1) ∧
      (¬ c.Direct → Shows a (op.blind g (op.run g ((c.host K T L B other (disk g)).disk w)).1)) ∧
      (c.host K T L B other (disk g)).disk w' = (op.run g ((c.host K T L B other (disk g)).disk w)).2 ∧ c.Ready K T L B other (disk g) w' := by
  obtain ⟨q, hq, -, -⟩ := blind_step L B other (fun _ => 0) hg hask
  have hcan' := hcan q hq
  have hone : Each (Asks g) [cmd] [op] := .cons hask .nil
  cases c with
  | linux l alloc t =>
    obtain ⟨w', as, h1, h2, h3⟩ := C59_linux (K := K) (T := T) L B other l g hg alloc t hcan'.1 [cmd] [op] hone
      (carried_one fun q hq => (hcan q hq).2) w _ hw
    obtain ⟨a, rfl, ha⟩ := each_one h2
    refine ⟨a, w', h1, fun a2 w2 h => ?_, fun _ => ha, fun h => absurd trivial h, h3.2.2.2.2, ⟨h3.1, h3.2.1, h3.2.2.1, h3.2.2.2.1, rfl⟩⟩
    obtain ⟨e1, e2⟩ := runAll_unique h1 h
    cases e1
    exact ⟨rfl, e2⟩
  | solaris l alloc t =>
    obtain ⟨w', as, h1, h2, h3⟩ := C59_solaris (K := K) (T := T) L B other l g hg alloc t hcan'.1 [cmd] [op] hone
      (carried_one fun q hq => (hcan q hq).2) w _ hw
    obtain ⟨a, rfl, ha⟩ := each_one h2
    refine ⟨a, w', h1, fun a2 w2 h => ?_, fun _ => ha, fun h => absurd trivial h, h3.2.2.2, ⟨h3.1, h3.2.1, h3.2.2.1, rfl⟩⟩
    obtain ⟨e1, e2⟩ := runAll_unique h1 h
    cases e1
    exact ⟨rfl, e2⟩
  | aix b alloc t =>
    obtain ⟨w', as, h1, h2, h3⟩ := C59_aix (K := K) (T := T) L B other b g hg alloc t hcan'.1 [cmd] [op] hone
      (carried_one fun q hq => (hcan q hq).2) w _ hw
    obtain ⟨a, rfl, ha⟩ := each_one h2
    refine ⟨a, w', h1, fun a2 w2 h => ?_, fun _ => ha, fun h => absurd trivial h, h3.2.2.2, ⟨h3.1, h3.2.1, h3.2.2.1, rfl⟩⟩
    obtain ⟨e1, e2⟩ := runAll_unique h1 h
    cases e1
    exact ⟨rfl, e2⟩
  | windows b alloc =>
    obtain ⟨w', as, h1, h2, h3⟩ := C59_windows (K := K) (T := T) L B other b g hg alloc [cmd] [op] hone
      (carried_one fun q hq => hcan q hq) w _ hw
    obtain ⟨a, rfl, ha⟩ := each_one h2
    refine ⟨a, w', h1, fun a2 w2 h => ?_, fun _ => ha, fun h => absurd trivial h, h3.2.2, ⟨h3.1, h3.2.1, rfl⟩⟩
    obtain ⟨e1, e2⟩ := runAll_unique h1 h
    cases e1
    exact ⟨rfl, e2⟩
  | mapped l alloc t =>
    obtain ⟨w', as, h1, h2, h3⟩ := C66_told (K := K) (T := T) L B other l g hg alloc t hcan'.1 [cmd] [op] hone
      (carried_one fun q hq => (hcan q hq).2) w _ hw
    obtain ⟨a, rfl, ha⟩ := each_one h2
    refine ⟨a, w', h1, fun a2 w2 h => ?_, fun h => h.elim, fun _ => ha, h3.2.2.2.2, ⟨h3.1, h3.2.1, h3.2.2.1, h3.2.2.2.1, rfl⟩⟩
    obtain ⟨e1, e2⟩ := runAll_unique h1 h
    cases e1
    exact ⟨rfl, e2⟩

theorem put_ready {cs : Nat → Computer} {w : (h : Nat) → ((cs h).host K T L B other (disk g)).State} (hw : ∀ h, (cs h).Ready K T L B other (disk g) (w h)) (h : Nat)
    (s : ((cs h).host K T L B other (disk g)).State) (hs : (cs h).Ready K T L B other (disk g) s) (k : Nat) :
    (cs k).Ready K T L B other (disk g) (put (S := fun h => ((cs h).host K T L B other (disk g)).State) w h s k) := by
  unfold put
  split
  · rename_i e
    subst e
    exact hs
  · exact hw k

/-- The computers, their states and the schedule of commands fit together. -/
structure Fits (cs : Nat → Computer) (w : (h : Nat) → ((cs h).host K T L B other (disk g)).State) (sched : List (Nat × Cmd)) (ops : List Op) : Prop where
  ready : ∀ h, (cs h).Ready K T L B other (disk g) (w h)
  asks : Each (fun (p : Nat × Cmd) op => Asks g p.2 op) sched ops
  can : ∀ p ∈ sched, ∀ q, Cdb.request L p.2.cdb = .ok q → (cs p.1).Can q

/-- What a computer tells the caller of an operation with this reply: through the device mapper failures are not told (C66). -/
def Computer.tells (g : Geometry) : Computer → Op → Reply → Reply
  | .mapped _ _ _, op, r => op.blind g r
  | _, _, r => r

/-- **C95, sharing (what happens).** Any number of computers, each with the library on any of the platforms, execute any commands of C59 on one disk in
any order. There is one way for this to happen; the disk ends as if the operations had been done one after the other on an array of bytes; the
caller of each command is told the reply of its operation in that sequence, except that a computer behind the device mapper tells of no failure. -/
theorem C95_told (hg : Valid g) (cs : Nat → Computer) (sched : List (Nat × Cmd)) (ops : List Op) (m : Contents)
    (w : (h : Nat) → ((cs h).host K T L B other (disk g)).State) (hf : Fits L B other cs w sched ops) :
    ∃ as w' m', Runs (fun h => (cs h).host K T L B other (disk g)) w m sched as w' m' ∧
      (∀ as2 w2 m2, Runs (fun h => (cs h).host K T L B other (disk g)) w m sched as2 w2 m2 → as2 = as ∧ w2 = w' ∧ m2 = m') ∧
      m' = (runOps g ops m).2 ∧ (∀ h, (cs h).Ready K T L B other (disk g) (w' h)) ∧ as.length = sched.length ∧
      ∀ (i : Nat) p a op r, sched[i]? = some p → as[i]? = some a → ops[i]? = some op → (runOps g ops m).1[i]? = some r →
        Shows a ((cs p.1).tells g op r) := by
  obtain ⟨hr, ha, hc⟩ := hf
  induction ha generalizing w m with
  | nil =>
    refine ⟨[], w, m, .nil _ _, ?_, rfl, hr, rfl, fun i p a op r h => by simp at h⟩
    intro as2 w2 m2 h
    cases h
    exact ⟨rfl, rfl, rfl⟩
  | @cons p op rest ops h _ ih =>
    obtain ⟨h0, c⟩ := p
    obtain ⟨hr1, hd1⟩ := attach_ready L B other (cs h0) (w h0) m (hr h0)
    obtain ⟨a, s', e1, e2, e3, e4, e5, e6⟩ := host_step (K := K) (T := T) L B other hg (cs h0) c op h (hc _ (List.mem_cons_self ..)) _ hr1
    rw [hd1] at e3 e4 e5
    obtain ⟨as, w', m', f1, f2, f3, f4, f5, f6⟩ := ih (m := (op.run g m).2) (w := put (S := fun h => ((cs h).host K T L B other (disk g)).State) w h0 s')
      (fun k => put_ready L B other hr h0 s' e6 k) (fun p hp => hc p (List.mem_cons_of_mem _ hp))
    refine ⟨a :: as, w', m', .cons e1 (by rw [e5]; exact f1), ?_, f3, f4, by simp [f5], ?_⟩
    · intro as2 w2 m2 hrun
      cases hrun with
      | cons g1 g2 =>
        obtain ⟨rfl, rfl⟩ := e2 _ _ g1
        simp only [e5] at g2
        obtain ⟨rfl, rfl, rfl⟩ := f2 _ _ _ g2
        exact ⟨rfl, rfl, rfl⟩
    · intro i p a' op' r' h1 h2 h3 h4
      cases i with
      | zero =>
        simp only [List.getElem?_cons_zero, Option.some.injEq, runOps] at h1 h2 h3 h4
        subst h1 h2 h3 h4
        show Shows a ((cs h0).tells g op (op.run g m).1)
        cases hk : cs h0 with
        | mapped x y z => exact e4 (by rw [hk]; exact id)
        | linux x y z => exact e3 (by rw [hk]; trivial)
        | solaris x y z => exact e3 (by rw [hk]; trivial)
        | aix x y z => exact e3 (by rw [hk]; trivial)
        | windows x y => exact e3 (by rw [hk]; trivial)
      | succ i =>
        simp only [List.getElem?_cons_succ, runOps] at h1 h2 h3 h4
        exact f6 i p a' op' r' h1 h2 h3 h4

theorem runOps_length (g : Geometry) (ops : List Op) (m : Contents) : (runOps g ops m).1.length = ops.length := by
  induction ops generalizing m with
  | nil => rfl
  | cons o os ih => simp [runOps, ih]

theorem each_length {α β : Type} {R : α → β → Prop} {as : List α} {bs : List β} (h : Each R as bs) : as.length = bs.length := by
  induction h with
  | nil => rfl
  | cons _ _ ih => simp [ih]

theorem each_of_get {α β : Type} {R : α → β → Prop} {as : List α} {bs : List β} (hl : as.length = bs.length)
    (h : ∀ (i : Nat) a b, as[i]? = some a → bs[i]? = some b → R a b) : Each R as bs := by
  induction as generalizing bs with
  | nil =>
    cases bs with
    | nil => exact .nil
    | cons b bs => simp at hl
  | cons a as ih =>
    cases bs with
    | nil => simp at hl
    | cons b bs => exact .cons (h 0 a b rfl rfl) (ih (by simpa using hl) fun i a b h1 h2 => h (i + 1) a b h1 h2)

/-- **C95, sharing (what holds).** If no computer goes through the device mapper, every caller sees the reply of its operation in the sequence of all
computers' operations: the disk is one array of bytes for all of them. -/
theorem C95_partial (hg : Valid g) (cs : Nat → Computer) (sched : List (Nat × Cmd)) (ops : List Op) (m : Contents)
    (w : (h : Nat) → ((cs h).host K T L B other (disk g)).State) (hf : Fits L B other cs w sched ops) (hdir : ∀ p ∈ sched, (cs p.1).Direct) :
    ∃ as w', Runs (fun h => (cs h).host K T L B other (disk g)) w m sched as w' (runOps g ops m).2 ∧
      (∀ as2 w2 m2, Runs (fun h => (cs h).host K T L B other (disk g)) w m sched as2 w2 m2 → as2 = as ∧ w2 = w' ∧ m2 = (runOps g ops m).2) ∧
      Each Shows as (runOps g ops m).1 := by
  obtain ⟨as, w', m', h1, h2, rfl, -, hl, h4⟩ := C95_told (K := K) (T := T) L B other hg cs sched ops m w hf
  have hlen := each_length hf.asks
  refine ⟨as, w', h1, h2, each_of_get (by rw [runOps_length, hl, hlen]) fun i a r ha hr => ?_⟩
  have hi := List.getElem?_eq_some_iff.1 ha
  obtain ⟨hi, -⟩ := hi
  have hp := List.getElem?_eq_getElem (l := sched) (i := i) (by omega)
  have ho := List.getElem?_eq_getElem (l := ops) (i := i) (by omega)
  have := h4 i _ a _ r hp ha ho hr
  have hd := hdir _ (List.getElem_mem (show i < sched.length by omega))
  revert this hd
  generalize cs (sched[i]'(by omega)).1 = c
  cases c <;> simp only [Computer.tells, Computer.Direct] <;> intro h hd
  all_goals first | exact h | exact hd.elim

/-! ## The lock -/

/-- What the disk does with the operations of computers that keep to the protocol. -/
inductive Plays (g : Geometry) (l : Lock) : Contents → List Event → Prop
  | nil (m) : Plays g l m []
  | cons {m e op es} : l.Means g e.host e.move op → op.Whole g →
      (e.returned = true ↔ ∀ k a q, (op.run g m).1 ≠ .failed k a q) → Plays g l (op.run g m).2 es → Plays g l m (e :: es)

/-- The block says who believes to hold the lock. -/
def Tells (g : Geometry) (l : Lock) (b : Nat → Bool) (m : Contents) : Prop :=
  ((∀ k, b k = false) ∧ readAt m (l.lba * g.size) g.size = l.free) ∨
  ∃ h, (∀ k, b k = true ↔ k = h) ∧ readAt m (l.lba * g.size) g.size = l.mark h

theorem one_block {n : Nat} (hn : 0 < n) : n / n = 1 := Nat.div_self hn

theorem tells_step (hg : Valid g) {l : Lock} (hl : l.Proper g) {b : Nat → Bool} {m : Contents} (ht : Tells g l b m) {e : Event} {op : Op}
    (hm : l.Means g e.host e.move op) (hw : op.Whole g) (hr : e.returned = true ↔ ∀ k a q, (op.run g m).1 ≠ .failed k a q)
    (hh : e.move = .release → b e.host = true) :
    Tells g l (beliefs b e) (op.run g m).2 ∧ (e.move = .acquire → (e.returned = true ↔ ∀ k, b k = false)) := by
  have hs := hg.size.1
  have hwrite : ∀ bs : Bytes, bs.length = g.size → readAt (writeAt m (l.lba * g.size) bs) (l.lba * g.size) g.size = bs := by
    intro bs hb
    have := readAt_writeAt m (l.lba * g.size) bs
    rwa [hb] at this
  obtain ⟨h, mv, ret⟩ := e
  cases mv with
  | acquire =>
    simp only [Lock.Means] at hm
    subst hm
    simp only [Op.run, hl.free, one_block hs, hl.inside, if_true] at hr ⊢
    rcases ht with ⟨h1, h2⟩ | ⟨k, h1, h2⟩
    · simp only [h2, if_true] at hr ⊢
      have hret : ret = true := hr.2 (by simp)
      subst hret
      refine ⟨.inr ⟨h, fun k => ?_, hwrite _ (hl.mark h)⟩, fun _ => ⟨fun _ => h1, fun _ => rfl⟩⟩
      simp only [beliefs]
      split <;> simp_all
    · have hne : ¬ l.mark k = l.free := hl.differ k
      simp only [h2, hne, if_false] at hr ⊢
      have hret : ret = false := by
        cases ret with
        | false => rfl
        | true => exact absurd rfl ((hr.1 rfl) _ _ _)
      subst hret
      refine ⟨.inr ⟨k, fun j => ?_, h2⟩, fun _ => ⟨fun h => (nomatch h), fun h => ?_⟩⟩
      · simp only [beliefs]
        split <;> simp_all
      · have := (h1 k).2 rfl
        rw [h k] at this
        cases this
  | release =>
    have hb := hh rfl
    rcases ht with ⟨h1, -⟩ | ⟨k, h1, h2⟩
    · rw [h1 h] at hb
      cases hb
    · have hk := (h1 h).1 hb
      subst hk
      refine ⟨.inl ⟨fun j => ?_, ?_⟩, nofun⟩
      · simp only [beliefs]
        split
        · rfl
        · rename_i hj
          cases hbj : b j with
          | false => rfl
          | true => exact absurd ((h1 j).1 hbj) hj
      · simp only [Lock.Means] at hm
        rcases hm with rfl | rfl
        · simp only [Op.run, hl.free, one_block hs, hl.inside, if_true]
          exact hwrite _ hl.free
        · simp only [Op.run, hl.mark, one_block hs, hl.inside, if_true, h2]
          exact hwrite _ hl.free
  | other =>
    have hsp := run_spared g m l.lba 1 op hw hm
    rw [Nat.one_mul] at hsp
    refine ⟨?_, nofun⟩
    have hb : beliefs b ⟨h, .other, ret⟩ = b := by
      funext k
      simp [beliefs]
    rw [hb]
    unfold Tells
    rw [hsp]
    exact ht

theorem plays_exclusive (hg : Valid g) {l : Lock} (hl : l.Proper g) {m : Contents} {hist : List Event} (h : Plays g l m hist) {b : Nat → Bool} (ht : Tells g l b m)
    (hh : ∀ before e later, hist = before ++ e :: later → e.move = .release → before.foldl beliefs b e.host = true) :
    (∀ before later, hist = before ++ later → ∀ h k, before.foldl beliefs b h = true → before.foldl beliefs b k = true → h = k) ∧
    ∀ before e later, hist = before ++ e :: later → e.move = .acquire → (e.returned = true ↔ ∀ k, before.foldl beliefs b k = false) := by
  have one : ∀ h k, b h = true → b k = true → h = k := by
    intro h k h1 h2
    rcases ht with ⟨hn, -⟩ | ⟨j, hj, -⟩
    · rw [hn h] at h1
      cases h1
    · rw [(hj h).1 h1, (hj k).1 h2]
  induction h generalizing b with
  | nil m =>
    refine ⟨fun before later he => ?_, fun before e later he => by simp at he⟩
    obtain ⟨rfl, rfl⟩ := List.append_eq_nil_iff.1 he.symm
    exact one
  | @cons m e op es h1 h2 h3 _ ih =>
    obtain ⟨t1, t2⟩ := tells_step hg hl ht h1 h2 h3 (hh [] e es rfl)
    obtain ⟨i1, i2⟩ := ih t1 (fun before e' later he => hh (e :: before) e' later (by rw [he]; rfl)) (by
      intro h k h1 h2
      rcases t1 with ⟨hn, -⟩ | ⟨j, hj, -⟩
      · rw [hn h] at h1
        cases h1
      · rw [(hj h).1 h1, (hj k).1 h2])
    refine ⟨fun before later he => ?_, fun before e' later he => ?_⟩
    · cases before with
      | nil => exact one
      | cons x xs =>
        obtain ⟨rfl, rfl⟩ := List.cons.inj he
        exact i1 xs later rfl
    · cases before with
      | nil =>
        obtain ⟨rfl, rfl⟩ := List.cons.inj he
        exact t2
      | cons x xs =>
        obtain ⟨rfl, rfl⟩ := List.cons.inj he
        exact i2 xs e' later rfl

/-- A command of a computer and what it is meant for. -/
structure Step where
  host : Nat
  move : Move
  cmd : Cmd

/-- What happened: a command returned if it gave its caller a result and no exception. -/
def history : List Step → List Res → List Event
  | s :: ss, a :: as => ⟨s.host, s.move, a.toBool⟩ :: history ss as
  | _, _ => []

theorem shows_returned {a : Res} {r : Reply} (h : Shows a r) : a.toBool = true ↔ ∀ k c q, r ≠ .failed k c q := by
  cases r with
  | failed k c q =>
    obtain ⟨raw, s, rfl, -⟩ := h
    simp [Except.toBool]
  | capacity x y =>
    obtain ⟨attrs, rfl, -⟩ := h
    simp [Except.toBool]
  | ready => simp only [Shows] at h; subst h; simp [Except.toBool]
  | data bs => simp only [Shows] at h; subst h; simp [Except.toBool]
  | done => simp only [Shows] at h; subst h; simp [Except.toBool]

theorem plays_of_run (hg : Valid g) (cs : Nat → Computer) (l : Lock) (steps : List Step) (hdir : ∀ s ∈ steps, (cs s.host).Direct)
    (hdoes : ∀ s ∈ steps, ∃ op, Asks g s.cmd op ∧ l.Means g s.host s.move op)
    (hcan : ∀ s ∈ steps, ∀ q, Cdb.request L s.cmd.cdb = .ok q → (cs s.host).Can q)
    {w w' : (h : Nat) → ((cs h).host K T L B other (disk g)).State} (hw : ∀ h, (cs h).Ready K T L B other (disk g) (w h)) {m m' : Contents} {as : List Res}
    (hrun : Runs (fun h => (cs h).host K T L B other (disk g)) w m (steps.map fun s => (s.host, s.cmd)) as w' m') : Plays g l m (history steps as) := by
  induction steps generalizing w m as with
  | nil =>
    cases hrun
    exact .nil _
  | cons s ss ih =>
    obtain ⟨op, h1, h2⟩ := hdoes s (List.mem_cons_self ..)
    cases hrun with
    | @cons _ _ _ _ _ a s' as _ _ g1 g2 =>
      obtain ⟨hr1, hd1⟩ := attach_ready L B other (cs s.host) (w s.host) m (hw s.host)
      obtain ⟨a', s'', -, e2, e3, -, e5, e6⟩ := host_step (K := K) (T := T) L B other hg (cs s.host) s.cmd op h1 (hcan s (List.mem_cons_self ..)) _ hr1
      rw [hd1] at e3 e5
      obtain ⟨rfl, rfl⟩ := e2 _ _ g1
      simp only [e5] at g2
      exact .cons h2 (each_asks_whole hg.size.1 (.cons h1 .nil) op (List.mem_singleton.2 rfl)) (shows_returned (e3 (hdir s (List.mem_cons_self ..))))
        (ih (fun s hs => hdir s (List.mem_cons_of_mem _ hs)) (fun s hs => hdoes s (List.mem_cons_of_mem _ hs))
          (fun s hs => hcan s (List.mem_cons_of_mem _ hs)) (put_ready L B other hw s.host _ e6) g2)

/-- **C95, a lock (what holds).** Computers that do not go through the device mapper take and give back a lock kept in a block of the shared disk with
COMPARE AND WRITE; besides they do whatever they like that does not write the block. However they take turns, at no time do two of them believe to hold
the lock, and an attempt to take it succeeds just if nobody does. -/
theorem C95_lock_partial (hg : Valid g) (cs : Nat → Computer) (l : Lock) (hl : l.Proper g) (steps : List Step) (hdir : ∀ s ∈ steps, (cs s.host).Direct)
    (hdoes : ∀ s ∈ steps, ∃ op, Asks g s.cmd op ∧ l.Means g s.host s.move op)
    (hcan : ∀ s ∈ steps, ∀ q, Cdb.request L s.cmd.cdb = .ok q → (cs s.host).Can q)
    (w w' : (h : Nat) → ((cs h).host K T L B other (disk g)).State) (hw : ∀ h, (cs h).Ready K T L B other (disk g) (w h)) (m m' : Contents)
    (hfree : readAt m (l.lba * g.size) g.size = l.free) (as : List Res)
    (hrun : Runs (fun h => (cs h).host K T L B other (disk g)) w m (steps.map fun s => (s.host, s.cmd)) as w' m') (hh : Honest (history steps as)) :
    Exclusive (history steps as) :=
  plays_exclusive hg hl (plays_of_run L B other hg cs l steps hdir hdoes hcan hw hrun) (.inl ⟨fun _ => rfl, hfree⟩) hh

/-! ## Concrete cases -/

/-- Block 7 of a disk of 1000 blocks of 512 bytes, free while it holds zeros. -/
def demoLock : Lock := { lba := 7, free := zeros 512, mark := fun h => if h = 0 then List.replicate 512 1 else List.replicate 512 2 }

theorem demo_proper : demoLock.Proper ⟨512, 1000⟩ where
  inside := by decide
  free := zeros_length 512
  mark h := by simp only [demoLock]; split <;> exact List.length_replicate
  differ h := by
    intro e
    have := congrArg (fun x => x.getD 0 7) e
    simp only [demoLock] at this
    split at this
    · exact absurd (show (1 : UInt8) = 0 from this) (by decide)
    · exact absurd (show (2 : UInt8) = 0 from this) (by decide)

/-- The commands for taking and giving back the lock. -/
def takeCmd (h : Nat) : Cmd := .compareAndWrite 7 (demoLock.free ++ demoLock.mark h) 1 512
def giveCmd (h : Nat) : Cmd := .compareAndWrite 7 (demoLock.mark h ++ demoLock.free) 1 512

theorem take_asks (h : Nat) : Asks ⟨512, 1000⟩ (takeCmd h) (.exchange 7 demoLock.free (demoLock.mark h)) :=
  Asks.exchange (g := ⟨512, 1000⟩) (lba := 7) (n := 1) (by decide) (by decide) (by rw [demo_proper.free, Nat.one_mul]) (by rw [demo_proper.mark, Nat.one_mul])

theorem give_asks (h : Nat) : Asks ⟨512, 1000⟩ (giveCmd h) (.exchange 7 (demoLock.mark h) demoLock.free) :=
  Asks.exchange (g := ⟨512, 1000⟩) (lba := 7) (n := 1) (by decide) (by decide) (by rw [demo_proper.mark, Nat.one_mul]) (by rw [demo_proper.free, Nat.one_mul])

/-- A computer of each platform, with buffers 4 KiB apart. -/
def four : Nat → Computer
  | 0 => .linux true lockAlloc 30000
  | 1 => .solaris true lockAlloc 30
  | 2 => .aix .fcntl lockAlloc 30
  | _ => .windows true lockAlloc

theorem four_can (h : Nat) (q : Req) (h1 : q.cdb.length ≤ 16) (h2 : dataSize q ≤ 1024) : (four h).Can q := by
  unfold four
  split
  · refine ⟨by decide, by omega, by omega, fun _ => ⟨?_, ?_⟩⟩
    · simp [lockAlloc]; omega
    · simp [lockAlloc]
  · refine ⟨by decide, by omega, by omega, ?_, ?_⟩
    · simp [regions, lockAlloc]; omega
    · simp [regions, lockAlloc]
  · refine ⟨by decide, by omega, by omega, ⟨?_, ?_⟩, fun _ => by decide⟩
    · simp [regions, lockAlloc]; omega
    · simp [regions, lockAlloc]
  · refine ⟨by omega, by omega, fun _ => ⟨?_, ?_⟩⟩
    · simp [Win32.winRegions, lockAlloc]
    · simp [Win32.winRegions, Win32.bits, lockAlloc]

theorem lock_can (L : Lib) (x y : Bytes) (hx : x.length = 512) (hy : y.length = 512) (q : Req)
    (hq : Cdb.request L (Cmd.compareAndWrite 7 (x ++ y) 1 512).cdb = .ok q) : q.cdb.length ≤ 16 ∧ dataSize q ≤ 1024 := by
  obtain ⟨-, -, -, -, rfl⟩ := (Cdb.C31_partial L 7 _ 1 512 q).1 hq
  exact ⟨by simp [Req.cdb, Spec.Cdb.compareAndWrite, Spec.Cdb.cdb10, Spec.Cdb.cdb16], by simp [dataSize, hx, hy]⟩

theorem zero_free : readAt (fun _ => 0) (demoLock.lba * (⟨512, 1000⟩ : Geometry).size) (⟨512, 1000⟩ : Geometry).size = demoLock.free := by
  apply List.ext_getElem
  · rw [readAt_length]; exact (zeros_length 512).symm
  · intro i _ _
    simp only [readAt, demoLock, zeros, List.getElem_map, List.getElem_replicate]

section

variable (L : Lib) (B : Parse.BufLib) (other : Bytes → Py (List (String × Int)))

/-- Executers at rest. -/
def fourStates : (h : Nat) → ((four h).host Unit Unit L B other (disk ⟨512, 1000⟩)).State
  | 0 => { st := { pending := [], index := 3, maxq := 7 }, os := { mem := fun _ => 0, kernel := (fun _ => 0, none) }, fired := [], box := fun _ => [] }
  | 1 => { st := { pending := [], index := 0, maxq := 1 }, os := { world := { mem := fun _ => 0, kernel := fun _ => 0 }, buffer := none }, fired := [], box := fun _ => [] }
  | 2 => { st := { pending := [], index := 0, maxq := 1 }, os := { world := { mem := fun _ => 0, kernel := fun _ => 0 }, buffer := none }, fired := [], box := fun _ => [] }
  | _ + 3 => { st := { pending := [], index := 0, maxq := 1 }, os := { world := { mem := fun _ => 0, kernel := fun _ => 0 }, incoming := [] }, fired := [], box := fun _ => [] }

theorem four_ready (h : Nat) : (four h).Ready Unit Unit L B other (disk ⟨512, 1000⟩) (fourStates L B other h) := by
  match h with
  | 0 => exact ⟨rfl, by simp [fourStates], by simp [fourStates], by simp [fourStates], rfl⟩
  | 1 => exact ⟨rfl, rfl, rfl, rfl⟩
  | 2 => exact ⟨rfl, rfl, rfl, rfl⟩
  | _ + 3 => exact ⟨rfl, by simp [fourStates], rfl⟩

/-- Linux takes the lock, Windows and AIX fail to, Linux gives it back, AIX takes it. -/
def fourSteps : List Step :=
  [⟨0, .acquire, takeCmd 0⟩, ⟨3, .acquire, takeCmd 3⟩, ⟨2, .acquire, takeCmd 2⟩, ⟨0, .release, giveCmd 0⟩, ⟨2, .acquire, takeCmd 2⟩]

def fourOps : List Op :=
  [.exchange 7 demoLock.free (demoLock.mark 0), .exchange 7 demoLock.free (demoLock.mark 3), .exchange 7 demoLock.free (demoLock.mark 2),
   .exchange 7 (demoLock.mark 0) demoLock.free, .exchange 7 demoLock.free (demoLock.mark 2)]

theorem exchange_run (m : Contents) (old new x : Bytes) (ho : old.length = 512) (hx : readAt m 3584 512 = x) :
    Op.run ⟨512, 1000⟩ m (.exchange 7 old new) = if x = old then (.done, writeAt m 3584 new) else (.failed 0x0E 0x1D 0, m) := by
  subst hx
  simp [Op.run, ho]

theorem four_replies : (runOps ⟨512, 1000⟩ fourOps fun _ => 0).1 = [.done, .failed 0x0E 0x1D 0, .failed 0x0E 0x1D 0, .done, .done] := by
  have hw : ∀ (m : Contents) (x : Bytes), x.length = 512 → readAt (writeAt m 3584 x) 3584 512 = x := by
    intro m x hx
    have := readAt_writeAt m 3584 x
    rwa [hx] at this
  have hf : demoLock.free.length = 512 := demo_proper.free
  have hm : ∀ h, (demoLock.mark h).length = 512 := demo_proper.mark
  have hd : ∀ h, ¬ demoLock.mark h = demoLock.free := demo_proper.differ
  have e1 := exchange_run (fun _ => 0) demoLock.free (demoLock.mark 0) _ hf zero_free
  rw [if_pos rfl] at e1
  have h1 := hw (fun _ => 0) _ (hm 0)
  have e2 := fun k => exchange_run _ demoLock.free (demoLock.mark k) _ hf h1
  simp only [if_neg (hd 0)] at e2
  have e3 := exchange_run _ (demoLock.mark 0) demoLock.free _ (hm 0) h1
  rw [if_pos rfl] at e3
  have h2 := hw (writeAt (fun _ => 0) 3584 (demoLock.mark 0)) _ hf
  have e4 := exchange_run _ demoLock.free (demoLock.mark 2) _ hf h2
  rw [if_pos rfl] at e4
  simp only [runOps, fourOps, e1, e2, e3, e4]

theorem four_fits : Fits L B other four (fourStates L B other) (fourSteps.map fun s => (s.host, s.cmd)) fourOps where
  ready := four_ready L B other
  asks := .cons (take_asks 0) (.cons (take_asks 3) (.cons (take_asks 2) (.cons (give_asks 0) (.cons (take_asks 2) .nil))))
  can := by
    intro p hp q hq
    simp only [fourSteps, List.map_cons, List.map_nil, List.mem_cons, List.not_mem_nil, or_false] at hp
    have hf := demo_proper.free
    have hm := demo_proper.mark
    rcases hp with rfl | rfl | rfl | rfl | rfl
    · exact four_can 0 q (lock_can L _ _ hf (hm _) q hq).1 (lock_can L _ _ hf (hm _) q hq).2
    · exact four_can 3 q (lock_can L _ _ hf (hm _) q hq).1 (lock_can L _ _ hf (hm _) q hq).2
    · exact four_can 2 q (lock_can L _ _ hf (hm _) q hq).1 (lock_can L _ _ hf (hm _) q hq).2
    · exact four_can 0 q (lock_can L _ _ (hm _) hf q hq).1 (lock_can L _ _ (hm _) hf q hq).2
    · exact four_can 2 q (lock_can L _ _ hf (hm _) q hq).1 (lock_can L _ _ hf (hm _) q hq).2

/-- The hypotheses are met by four computers that run different systems; Linux gets the lock, then AIX. -/
example : ∃ as w' m', Runs (fun h => (four h).host Unit Unit L B other (disk ⟨512, 1000⟩)) (fourStates L B other) (fun _ => 0)
      (fourSteps.map fun s => (s.host, s.cmd)) as w' m' ∧
    history fourSteps as = [⟨0, .acquire, true⟩, ⟨3, .acquire, false⟩, ⟨2, .acquire, false⟩, ⟨0, .release, true⟩, ⟨2, .acquire, true⟩] ∧
    Exclusive (history fourSteps as) := by
  have hdir : ∀ h, (four h).Direct := by
    intro h
    unfold four
    split <;> trivial
  obtain ⟨as, w', h1, -, h2⟩ := C95_partial (K := Unit) (T := Unit) L B other ⟨by decide, by decide⟩ four _ _ (fun _ => 0) _ (four_fits L B other)
    fun p _ => hdir p.1
  have hh : history fourSteps as = [⟨0, .acquire, true⟩, ⟨3, .acquire, false⟩, ⟨2, .acquire, false⟩, ⟨0, .release, true⟩, ⟨2, .acquire, true⟩] := by
    rw [four_replies] at h2
    rcases h2 with _ | ⟨⟨⟩, _ | ⟨⟨_, _, ⟨⟩, -⟩, _ | ⟨⟨_, _, ⟨⟩, -⟩, _ | ⟨⟨⟩, _ | ⟨⟨⟩, ⟨⟩⟩⟩⟩⟩⟩
    rfl
  refine ⟨as, w', _, h1, hh, ?_⟩
  refine C95_lock_partial (K := Unit) (T := Unit) L B other ⟨by decide, by decide⟩ four demoLock demo_proper fourSteps (fun s _ => hdir s.host) ?_ ?_ _ _
    (four_ready L B other) _ _ zero_free as h1 ?_
  · intro s hs
    simp only [fourSteps, List.mem_cons, List.not_mem_nil, or_false] at hs
    rcases hs with rfl | rfl | rfl | rfl | rfl
    · exact ⟨_, take_asks 0, rfl⟩
    · exact ⟨_, take_asks 3, rfl⟩
    · exact ⟨_, take_asks 2, rfl⟩
    · exact ⟨_, give_asks 0, .inr rfl⟩
    · exact ⟨_, take_asks 2, rfl⟩
  · intro s hs
    exact (four_fits L B other).can (s.host, s.cmd) (List.mem_map_of_mem hs)
  · rw [hh]
    intro before e later he hm
    rcases before with _ | ⟨a, _ | ⟨b, _ | ⟨c, _ | ⟨d, _ | ⟨x, before⟩⟩⟩⟩⟩ <;>
      simp only [List.nil_append, List.cons_append, List.cons.injEq] at he
    · obtain ⟨rfl, -⟩ := he; cases hm
    · obtain ⟨-, rfl, -⟩ := he; cases hm
    · obtain ⟨-, -, rfl, -⟩ := he; cases hm
    · obtain ⟨rfl, rfl, rfl, rfl, -⟩ := he; rfl
    · obtain ⟨-, -, -, -, rfl, -⟩ := he; cases hm
    · obtain ⟨-, -, -, -, -, h⟩ := he; simp at h

/-- A computer with an sg device and computers that reach the same disk through the device mapper. -/
def mixed : Nat → Computer
  | 0 => .linux true lockAlloc 30000
  | _ => .mapped true lockAlloc 30000

def mixedStates : (h : Nat) → ((mixed h).host Unit Unit L B other (disk ⟨512, 1000⟩)).State
  | 0 => { st := { pending := [], index := 3, maxq := 7 }, os := { mem := fun _ => 0, kernel := (fun _ => 0, none) }, fired := [], box := fun _ => [] }
  | _ + 1 => mappedWorld fun _ => 0

theorem mixed_ready (h : Nat) : (mixed h).Ready Unit Unit L B other (disk ⟨512, 1000⟩) (mixedStates L B other h) := by
  match h with
  | 0 => exact ⟨rfl, by simp [mixedStates], by simp [mixedStates], by simp [mixedStates], rfl⟩
  | _ + 1 => exact ⟨rfl, by simp [mixedStates, mappedWorld], by simp [mixedStates, mappedWorld], by simp [mixedStates, mappedWorld], rfl⟩

def mixedSteps : List Step := [⟨0, .acquire, takeCmd 0⟩, ⟨1, .acquire, takeCmd 1⟩]

/-- **C95 is false** with the device mapper: one computer with an sg device and one with `linux_dm` take the lock by the protocol, one after the other, and
both believe to hold it. -/
theorem C95_false : (∀ s ∈ mixedSteps, ∃ op, Asks ⟨512, 1000⟩ s.cmd op ∧ demoLock.Means ⟨512, 1000⟩ s.host s.move op) ∧
    (∀ s ∈ mixedSteps, ∀ q, Cdb.request L s.cmd.cdb = .ok q → (mixed s.host).Can q) ∧
    ∃ as w' m', Runs (fun h => (mixed h).host Unit Unit L B other (disk ⟨512, 1000⟩)) (mixedStates L B other) (fun _ => 0)
      (mixedSteps.map fun s => (s.host, s.cmd)) as w' m' ∧ Honest (history mixedSteps as) ∧ ¬ Exclusive (history mixedSteps as) ∧
      believes (history mixedSteps as) 0 = true ∧ believes (history mixedSteps as) 1 = true := by
  have hdo : ∀ s ∈ mixedSteps, ∃ op, Asks ⟨512, 1000⟩ s.cmd op ∧ demoLock.Means ⟨512, 1000⟩ s.host s.move op := by
    intro s hs
    simp only [mixedSteps, List.mem_cons, List.not_mem_nil, or_false] at hs
    rcases hs with rfl | rfl
    · exact ⟨_, take_asks 0, rfl⟩
    · exact ⟨_, take_asks 1, rfl⟩
  have hcan : ∀ s ∈ mixedSteps, ∀ q, Cdb.request L s.cmd.cdb = .ok q → (mixed s.host).Can q := by
    intro s hs q hq
    have fit : ∀ q : Req, q.cdb.length ≤ 16 → dataSize q ≤ 1024 → LinuxOk lockAlloc q := by
      intro q h1 h2
      refine ⟨by omega, by omega, fun _ => ⟨?_, ?_⟩⟩
      · simp [lockAlloc]; omega
      · simp [lockAlloc]
    simp only [mixedSteps, List.mem_cons, List.not_mem_nil, or_false] at hs
    rcases hs with rfl | rfl
    · have := lock_can L _ _ demo_proper.free (demo_proper.mark _) q hq
      exact ⟨by decide, fit q this.1 this.2⟩
    · have := lock_can L _ _ demo_proper.free (demo_proper.mark _) q hq
      exact ⟨by decide, fit q this.1 this.2⟩
  refine ⟨hdo, hcan, ?_⟩
  obtain ⟨as, w', m', h1, -, -, -, h2, h3⟩ := C95_told (K := Unit) (T := Unit) L B other ⟨by decide, by decide⟩ mixed
    (mixedSteps.map fun s => (s.host, s.cmd)) [.exchange 7 demoLock.free (demoLock.mark 0), .exchange 7 demoLock.free (demoLock.mark 1)] (fun _ => 0)
    (mixedStates L B other) ⟨mixed_ready L B other, .cons (take_asks 0) (.cons (take_asks 1) .nil), fun p hp => by
      obtain ⟨s, hs, rfl⟩ := List.mem_map.1 hp
      exact hcan s hs⟩
  rcases as with _ | ⟨a, _ | ⟨b, _ | ⟨c, as⟩⟩⟩
  · simp [mixedSteps] at h2
  · simp [mixedSteps] at h2
  rotate_left
  · simp [mixedSteps] at h2
  have hrep : (runOps ⟨512, 1000⟩ [.exchange 7 demoLock.free (demoLock.mark 0), .exchange 7 demoLock.free (demoLock.mark 1)] fun _ => 0).1 =
      [.done, .failed 0x0E 0x1D 0] := by
    have hw := readAt_writeAt (fun _ => 0) 3584 (demoLock.mark 0)
    rw [demo_proper.mark] at hw
    have e1 := exchange_run (fun _ => 0) demoLock.free (demoLock.mark 0) _ demo_proper.free zero_free
    rw [if_pos rfl] at e1
    have e2 := exchange_run _ demoLock.free (demoLock.mark 1) _ demo_proper.free hw
    rw [if_neg (demo_proper.differ 0)] at e2
    simp only [runOps, e1, e2]
  rw [hrep] at h3
  have ha := h3 0 _ _ _ _ rfl rfl rfl rfl
  have hb := h3 1 _ _ _ _ rfl rfl rfl rfl
  simp only [mixed, Computer.tells, Op.blind, Shows] at ha hb
  subst ha hb
  have hh : history mixedSteps [.ok (some (.obj (.raw none))), .ok (some (.obj (.raw none)))] = [⟨0, .acquire, true⟩, ⟨1, .acquire, true⟩] := rfl
  refine ⟨_, w', m', h1, ?_, ?_, by rw [hh]; rfl, by rw [hh]; rfl⟩
  · rw [hh]
    intro before e later he hm
    rcases before with _ | ⟨a, _ | ⟨b, before⟩⟩ <;> simp only [List.nil_append, List.cons_append, List.cons.injEq] at he
    · obtain ⟨rfl, -⟩ := he; cases hm
    · obtain ⟨-, rfl, -⟩ := he; cases hm
    · obtain ⟨-, -, h⟩ := he; simp at h
  · rw [hh]
    intro h
    exact absurd (h.1 _ [] (List.append_nil _).symm 0 1 rfl rfl) (by decide)

end

end Verif.Commands.Cluster
