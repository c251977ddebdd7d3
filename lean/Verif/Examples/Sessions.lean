import Verif.Examples.Platforms
import Verif.Props.Reservations
import Verif.Props.SharedDisk
import Verif.Props.Durable

/-! Concrete cases that meet the hypotheses of theorems about sessions on Solaris, AIX and Windows (for Linux there are examples beside the
theorems). Nothing here is a claim: each example applies a theorem of `Verif/Props` to one non-trivial case, to show that the theorem
is not empty. -/

namespace Verif.Commands
open Verif.Executer Verif.Coroutine Verif.ExecuterGen Verif.Platform Verif.Spec Verif.Spec.Cdb Verif.Sense

/-- Every command with a CDB of at most 16 bytes and less than 64 KiB of data can be carried by all four platforms. -/
theorem small_ok (q : Req) (h1 : q.cdb.length ≤ 16) (h2 : dataSize q < 2 ^ 16) :
    LinuxOk exampleAlloc q ∧ SolarisOk exampleAlloc q ∧ (∀ b, AixOk b exampleAlloc q) ∧ ∀ b, WindowsOk b exampleAlloc q := by
  refine ⟨⟨by omega, by omega, fun _ => ⟨?_, ?_⟩⟩, ⟨by omega, by omega, ?_, ?_⟩, fun b => ⟨by omega, by omega, ⟨?_, ?_⟩, by cases b <;> decide⟩,
    fun b => ⟨h1, by omega, fun _ => ⟨?_, ?_⟩⟩⟩
  all_goals first
    | (simp [regions, exampleAlloc]; done)
    | (simp [regions, exampleAlloc]; omega)
    | (cases b <;> simp [Win32.winRegions, Win32.bits, exampleAlloc])

/-- Executers that are idle, with whatever state the device is in. -/
def sgIdle {δ : Type} (k : δ) : W Handle Unit (Option Bytes) (DevErr Sense) (World (δ × Option Bytes)) :=
  { st := { pending := [], index := 6, maxq := 7 }, os := { mem := exampleMem, kernel := (k, none) }, fired := [], box := fun _ => [] }
def solIdle {δ : Type} (k : δ) : W Handle Unit (Option Bytes) (DevErr Sense) (Solaris.SolWorld δ) :=
  { st := { pending := [], index := 0, maxq := 1 }, os := { world := { mem := exampleMem, kernel := k }, buffer := none }, fired := [], box := fun _ => [] }
def aixIdle {δ : Type} (k : δ) : W Handle Unit (Option Bytes) (DevErr Sense) (Aix.AixWorld δ) :=
  { st := { pending := [], index := 0, maxq := 1 }, os := { world := { mem := exampleMem, kernel := k }, buffer := none }, fired := [], box := fun _ => [] }
def winIdle {δ : Type} (k : δ) : W Win32.Spt Unit (Option Bytes) (DevErr Sense) (Win32.WinWorld δ) :=
  { st := { pending := [], index := 6, maxq := 15 }, os := { world := { mem := exampleMem, kernel := k }, incoming := [] }, fired := [], box := fun _ => [] }

section
variable (L : Lib) (B : Parse.BufLib) (other : Bytes → Py (List (String × Int)))

namespace Reserve
open Verif.Spec.Reservations
open Verif.Spec.Disk (Each)

theorem story_size : ∀ c ∈ story.map (·.1), ∀ q, Cdb.request L c.cdb = .ok q → q.cdb.length ≤ 16 ∧ dataSize q < 2 ^ 16 := by
  intro c hc q hq
  have key : ∀ {cs : List Cmd} {os : List Op}, Each Asks cs os → ∀ c ∈ cs, ∃ op, Asks c op := by
    intro cs os h
    induction h with
    | nil => simp
    | cons h _ ih => exact fun c hc => (List.mem_cons.1 hc).elim (fun e => e ▸ ⟨_, h⟩) (ih c)
  obtain ⟨op, h⟩ := key story_asks c hc
  obtain ⟨h1, h2⟩ := asks_size L h q hq
  exact ⟨h1, h2⟩

/-- `C65_solaris` -/
example : ∃ w' as left, RunAll (machine (T := Unit) (Solaris.solBlocking (K := Unit) (lp64 false) getSense (Solaris.uscsiDevice false shared)).plat
      (Solaris.prepare (lp64 false) exampleAlloc 30)) ((story.map (·.1)).map (·.command L B other)) (solIdle (unused, meanwhile)) as w' ∧
    Each Shows as (runOps (story.map (·.2)) unused meanwhile).1 ∧ SolarisIdle w'.st w'.os ((runOps (story.map (·.2)) unused meanwhile).2, left) :=
  C65_solaris L B other false exampleAlloc 30 (by decide) _ _ story_asks
    (fun c hc q hq => (small_ok q (story_size L c hc q hq).1 (story_size L c hc q hq).2).2.1) unused ⟨by decide, by decide⟩ meanwhile _ ⟨rfl, rfl, rfl, rfl⟩

/-- `C65_aix` -/
example (b : Aix.Binding) : ∃ w' as left, RunAll (machine (T := Unit) (Aix.aixBlocking (K := Unit) (lp64 false) getSense b (Aix.scDevice shared)).plat
      (Aix.prepare (lp64 false) exampleAlloc 30)) ((story.map (·.1)).map (·.command L B other)) (aixIdle (unused, meanwhile)) as w' ∧
    Each Shows as (runOps (story.map (·.2)) unused meanwhile).1 ∧ AixIdle w'.st w'.os ((runOps (story.map (·.2)) unused meanwhile).2, left) :=
  C65_aix L B other b exampleAlloc 30 (by decide) _ _ story_asks
    (fun c hc q hq => (small_ok q (story_size L c hc q hq).1 (story_size L c hc q hq).2).2.2.1 b) unused ⟨by decide, by decide⟩ meanwhile _ ⟨rfl, rfl, rfl, rfl⟩

/-- `C65_windows` -/
example (b : Bool) : ∃ w' as left, RunAll (machine (T := Unit) (Win32.winPlat (K := Unit) (Win32.W b) getSense (Win32.sptDevice b shared))
      (Win32.prepare (Win32.W b) exampleAlloc)) ((story.map (·.1)).map (·.command L B other)) (winIdle (unused, meanwhile)) as w' ∧
    Each Shows as (runOps (story.map (·.2)) unused meanwhile).1 ∧ WindowsIdle w'.st w'.os ((runOps (story.map (·.2)) unused meanwhile).2, left) :=
  C65_windows L B other b exampleAlloc _ _ story_asks
    (fun c hc q hq => (small_ok q (story_size L c hc q hq).1 (story_size L c hc q hq).2).2.2.2 b) unused ⟨by decide, by decide⟩ meanwhile _ ⟨rfl, by decide, rfl⟩

end Reserve
end
end Verif.Commands

namespace Verif.Commands.SharedDisk
open Verif.Executer Verif.Coroutine Verif.ExecuterGen Verif.Platform Verif.Spec Verif.Spec.Cdb Verif.Sense Verif.Commands
open Verif.Spec.Disk (Geometry Each)
open Verif.Spec.Reservations (Kind keyOf)
open Verif.Spec.SharedDisk

section
variable (L : Lib) (B : Parse.BufLib) (other : Bytes → Py (List (String × Int)))

/-- A host reserves, writes a block and reads it twice. -/
def visit : List Cmd := [.write10 2 [1, 2, 3, 4] 4, .read10 2 1 4, .read10 2 1 4]
def visitOps : List Disk.Op := [.write 2 [1, 2, 3, 4], .read 2 1, .read 2 1]

theorem visit_asks : Each (Commands.Asks ⟨4, 8⟩) visit visitOps :=
  .cons (.write10 (g := ⟨4, 8⟩) (lba := 2) (n := 1) (by decide) (by decide) (by decide))
    (.cons (.read10 (g := ⟨4, 8⟩) (lba := 2) (n := 1) (by decide) (by decide))
      (.cons (.read10 (g := ⟨4, 8⟩) (lba := 2) (n := 1) (by decide) (by decide)) .nil))

theorem visit_size : ∀ c ∈ reserving 3 0xA :: visit, ∀ q, Cdb.request L c.cdb = .ok q → q.cdb.length ≤ 16 ∧ dataSize q < 2 ^ 16 := by
  intro c hc q hq
  simp only [visit, List.mem_cons, List.not_mem_nil, or_false] at hc
  have rd : Cdb.request L (Cmd.cdb (.read10 2 1 4)) = .ok q → q.cdb.length ≤ 16 ∧ dataSize q < 2 ^ 16 := by
    intro hq
    have := Cdb.C26_read10 L 2 1 4 ⟨by decide, by decide⟩ ⟨by decide, by decide⟩
    rw [show Cdb.request L (Cmd.cdb (.read10 2 1 4)) = _ from this] at hq
    cases hq
    exact ⟨by simp [Req.cdb, Spec.Cdb.read10, cdb10], by simp [dataSize]⟩
  rcases hc with rfl | rfl | rfl | rfl
  · exact Reserve.asks_size L (.reserve (type := 3) (key := 0xA) (by decide)) q hq
  · obtain ⟨-, k, hk, -, -, rfl⟩ := (Cdb.C28_write10 L 2 [1, 2, 3, 4] 4 q).1 hq
    exact ⟨by simp [Req.cdb, Spec.Cdb.write10, cdb10], by simp [dataSize]⟩
  all_goals exact rd hq

theorem registered_sole : Sole registered.lun := by
  have : ∀ r ∈ registered.lun.keys, r.1 = 0 → keyOf registered.lun 0 = some r.2 := by decide +kernel
  exact this

/-- `C70_solaris` -/
example : ∃ w' a as s' left, RunAll (machine (T := Unit) (Solaris.solBlocking (K := Unit) (lp64 false) getSense (Solaris.uscsiDevice false (shared ⟨4, 8⟩))).plat
      (Solaris.prepare (lp64 false) exampleAlloc 30)) ((reserving 3 0xA :: visit).map (·.command L B other)) (solIdle (registered, meanwhile.tail)) (a :: as) w' ∧
    SolarisIdle w'.st w'.os (s', left) ∧
    ((∃ v, a = .ok v) → LikeOwn ⟨4, 8⟩ visitOps (others ⟨4, 8⟩ registered (meanwhile.tail.headD [])).contents as s') :=
  C70_solaris L B other false ⟨4, 8⟩ ⟨by decide, by decide⟩ exampleAlloc 30 (by decide) (type := 3) (kind := .exclusiveAccess) rfl rfl 0xA _ _ visit_asks
    (fun c hc q hq => (small_ok q (visit_size L c hc q hq).1 (visit_size L c hc q hq).2).2.1) registered ⟨by decide +kernel, by decide +kernel⟩
    registered_sole meanwhile.tail _ ⟨rfl, rfl, rfl, rfl⟩

/-- `C70_aix` -/
example (b : Aix.Binding) : ∃ w' a as s' left, RunAll (machine (T := Unit) (Aix.aixBlocking (K := Unit) (lp64 false) getSense b (Aix.scDevice (shared ⟨4, 8⟩))).plat
      (Aix.prepare (lp64 false) exampleAlloc 30)) ((reserving 3 0xA :: visit).map (·.command L B other)) (aixIdle (registered, meanwhile.tail)) (a :: as) w' ∧
    AixIdle w'.st w'.os (s', left) ∧
    ((∃ v, a = .ok v) → LikeOwn ⟨4, 8⟩ visitOps (others ⟨4, 8⟩ registered (meanwhile.tail.headD [])).contents as s') :=
  C70_aix L B other b ⟨4, 8⟩ ⟨by decide, by decide⟩ exampleAlloc 30 (by decide) (type := 3) (kind := .exclusiveAccess) rfl rfl 0xA _ _ visit_asks
    (fun c hc q hq => (small_ok q (visit_size L c hc q hq).1 (visit_size L c hc q hq).2).2.2.1 b) registered ⟨by decide +kernel, by decide +kernel⟩
    registered_sole meanwhile.tail _ ⟨rfl, rfl, rfl, rfl⟩

/-- `C70_windows` -/
example (b : Bool) : ∃ w' a as s' left, RunAll (machine (T := Unit) (Win32.winPlat (K := Unit) (Win32.W b) getSense (Win32.sptDevice b (shared ⟨4, 8⟩)))
      (Win32.prepare (Win32.W b) exampleAlloc)) ((reserving 3 0xA :: visit).map (·.command L B other)) (winIdle (registered, meanwhile.tail)) (a :: as) w' ∧
    WindowsIdle w'.st w'.os (s', left) ∧
    ((∃ v, a = .ok v) → LikeOwn ⟨4, 8⟩ visitOps (others ⟨4, 8⟩ registered (meanwhile.tail.headD [])).contents as s') :=
  C70_windows L B other b ⟨4, 8⟩ ⟨by decide, by decide⟩ exampleAlloc (type := 3) (kind := .exclusiveAccess) rfl rfl 0xA _ _ visit_asks
    (fun c hc q hq => (small_ok q (visit_size L c hc q hq).1 (visit_size L c hc q hq).2).2.2.2 b) registered ⟨by decide +kernel, by decide +kernel⟩
    registered_sole meanwhile.tail _ ⟨rfl, by decide, rfl⟩

end
end Verif.Commands.SharedDisk

namespace Verif.Durable
open Verif.Executer Verif.Coroutine Verif.ExecuterGen Verif.Platform Verif.Spec Verif.Sense Verif.Commands Verif.Options
open Verif.Spec.Disk (Geometry Contents Each)
open Verif.Spec.Durable
open Verif.Spec.Options (Opts)

section
variable (L : Lib) (B : Parse.BufLib) (other : Bytes → Py (List (String × Int)))

/-- `Write10Command(3, data)` with `fua = 1`, a plain WRITE(6) at block 9, `Read16Command(3, 2)` with `fua = 1`, on a disk of 1000 blocks of 512 bytes:
what they ask for, and that they are small. -/
theorem fuaStory (data block : Bytes) (hd : data.length = 1024) (hb : block.length = 512) :
    ∃ wr rd, newWrite10 3 data 512 = .ok wr ∧ newRead16 3 2 512 = .ok rd ∧
      Asks ⟨512, 1000⟩ L B other (objCommand L (wr.sets [("fua", 1)])) (.write { fua := 1 } 3 data) ∧
      Asks ⟨512, 1000⟩ L B other (objCommand L (rd.sets [("fua", 1)])) (.read { fua := 1 } 3 2) ∧
      Carried (fun q => q.cdb.length ≤ 16 ∧ dataSize q < 2 ^ 16)
        (objCommand L (wr.sets [("fua", 1)]) :: [(Cmd.write6 9 block 512).command L B other] ++ [objCommand L (rd.sets [("fua", 1)])]) := by
  obtain ⟨wr, hwr⟩ : ∃ o, newWrite10 3 data 512 = .ok o := by
    refine ⟨⟨.write10, [("transfer_length", 2), ("block_size", 512), ("logical_block_address", 3)], data⟩, ?_⟩
    simp only [newWrite10, hd]
    rfl
  obtain ⟨rd, hrd⟩ : ∃ o, newRead16 3 2 512 = .ok o := ⟨_, rfl⟩
  have as1 : Assigned [("fua", 1)] (writeNames { fua := 1 }) := by
    intro p hp; simp [writeNames] at hp; rcases hp with rfl | rfl | rfl | rfl | rfl | rfl | rfl <;> rfl
  have as2 : Assigned [("fua", 1)] (read16Names { fua := 1 }) := by
    intro p hp; simp [read16Names] at hp; rcases hp with rfl | rfl | rfl | rfl | rfl | rfl | rfl | rfl <;> rfl
  refine ⟨wr, rd, hwr, hrd, .write10 (n := 2) hwr (k := 2) (by rw [hd]; rfl) (by decide) rfl as1 rfl rfl hd (by decide) (by decide),
    .read16 hrd (by decide) rfl as2 rfl rfl rfl (by decide) (by decide), ?_⟩
  intro c hc q hq
  simp only [List.cons_append, List.nil_append, List.mem_cons, List.not_mem_nil, or_false] at hc
  rcases hc with rfl | rfl | rfl
  · cases (C75_write10 L 3 data 512 2 wr _ { fua := 1 } 3 2 hwr (by rw [hd]; rfl) (by decide) rfl as1 rfl rfl (by decide) (by decide)).symm.trans hq
    exact ⟨by simp [Req.cdb, Spec.Options.cdb10], by simp [dataSize, hd]⟩
  · obtain ⟨-, k, -, -, -, -, rfl⟩ := (Cdb.C28_write6 L 9 block 512 q (by decide)).1 hq
    exact ⟨by simp [Req.cdb, Spec.Cdb.write6, Cdb.cdb6], by simp [dataSize, hb]⟩
  · cases (C75_read16 L 3 2 512 rd _ { fua := 1 } 3 2 512 hrd (by decide) rfl as2 rfl rfl rfl (by decide) (by decide)).symm.trans hq
    exact ⟨by simp [Req.cdb, Spec.Options.cdb16], by simp [dataSize]⟩

/-- The power fails between the commands. -/
def stormy (m : Contents) (which : Nat → Bool) : State :=
  { medium := m, seen := m, attention := false, coming := [[], [.destage which, .powerLoss], [.powerLoss]] }

/-- `C82_survives_solaris` -/
example (data block : Bytes) (hd : data.length = 1024) (hb : block.length = 512) (m : Contents) (which : Nat → Bool) :
    ∃ wr rd w' as, newWrite10 3 data 512 = .ok wr ∧ newRead16 3 2 512 = .ok rd ∧
      RunAll (machine (T := Unit) (Solaris.solBlocking (K := Unit) (lp64 false) getSense (Solaris.uscsiDevice false (cached ⟨512, 1000⟩))).plat
          (Solaris.prepare (lp64 false) exampleAlloc 30))
        [objCommand L (wr.sets [("fua", 1)]), (Cmd.write6 9 block 512).command L B other, objCommand L (rd.sets [("fua", 1)])]
        (solIdle (stormy m which)) as w' ∧
      ((∃ a, as.head? = some a ∧ Shows a .done) → ∃ z, as.getLast? = some z ∧ Final data { fua := 1 } z) := by
  obtain ⟨wr, rd, hwr, hrd, a1, a2, hok⟩ := fuaStory L B other data block hd hb
  obtain ⟨w', as, h1, h2⟩ := C82_survives_solaris (K := Unit) (T := Unit) L B other ⟨512, 1000⟩ _ _ .done [(Cmd.write6 9 block 512).command L B other]
    [.plain (.write 9 block)] _ _ 3 2 data ⟨by decide, by decide⟩ false exampleAlloc 30 (by decide) hd (by decide) a1 .write rfl
    (.cons (.plain (Commands.Asks.write6 (g := ⟨512, 1000⟩) (lba := 9) (n := 1) (by decide) hb (by decide) (by decide))) .nil)
    (by simp [Op.base, Disk.Op.Spares]) a2 rfl (fun c hc q hq => (small_ok q (hok c hc q hq).1 (hok c hc q hq).2).2.1)
    (solIdle (stormy m which)) _ ⟨rfl, rfl, rfl, rfl⟩
  exact ⟨wr, rd, w', as, hwr, hrd, h1, h2⟩

/-- `C82_survives_aix` -/
example (b : Aix.Binding) (data block : Bytes) (hd : data.length = 1024) (hb : block.length = 512) (m : Contents) (which : Nat → Bool) :
    ∃ wr rd w' as, newWrite10 3 data 512 = .ok wr ∧ newRead16 3 2 512 = .ok rd ∧
      RunAll (machine (T := Unit) (Aix.aixBlocking (K := Unit) (lp64 false) getSense b (Aix.scDevice (cached ⟨512, 1000⟩))).plat
          (Aix.prepare (lp64 false) exampleAlloc 30))
        [objCommand L (wr.sets [("fua", 1)]), (Cmd.write6 9 block 512).command L B other, objCommand L (rd.sets [("fua", 1)])]
        (aixIdle (stormy m which)) as w' ∧
      ((∃ a, as.head? = some a ∧ Shows a .done) → ∃ z, as.getLast? = some z ∧ Final data { fua := 1 } z) := by
  obtain ⟨wr, rd, hwr, hrd, a1, a2, hok⟩ := fuaStory L B other data block hd hb
  obtain ⟨w', as, h1, h2⟩ := C82_survives_aix (K := Unit) (T := Unit) L B other ⟨512, 1000⟩ _ _ .done [(Cmd.write6 9 block 512).command L B other]
    [.plain (.write 9 block)] _ _ 3 2 data ⟨by decide, by decide⟩ b exampleAlloc 30 (by decide) hd (by decide) a1 .write rfl
    (.cons (.plain (Commands.Asks.write6 (g := ⟨512, 1000⟩) (lba := 9) (n := 1) (by decide) hb (by decide) (by decide))) .nil)
    (by simp [Op.base, Disk.Op.Spares]) a2 rfl (fun c hc q hq => (small_ok q (hok c hc q hq).1 (hok c hc q hq).2).2.2.1 b)
    (aixIdle (stormy m which)) _ ⟨rfl, rfl, rfl, rfl⟩
  exact ⟨wr, rd, w', as, hwr, hrd, h1, h2⟩

/-- `C82_survives_windows` -/
example (b : Bool) (data block : Bytes) (hd : data.length = 1024) (hb : block.length = 512) (m : Contents) (which : Nat → Bool) :
    ∃ wr rd w' as, newWrite10 3 data 512 = .ok wr ∧ newRead16 3 2 512 = .ok rd ∧
      RunAll (machine (T := Unit) (Win32.winPlat (K := Unit) (Win32.W b) getSense (Win32.sptDevice b (cached ⟨512, 1000⟩)))
          (Win32.prepare (Win32.W b) exampleAlloc))
        [objCommand L (wr.sets [("fua", 1)]), (Cmd.write6 9 block 512).command L B other, objCommand L (rd.sets [("fua", 1)])]
        (winIdle (stormy m which)) as w' ∧
      ((∃ a, as.head? = some a ∧ Shows a .done) → ∃ z, as.getLast? = some z ∧ Final data { fua := 1 } z) := by
  obtain ⟨wr, rd, hwr, hrd, a1, a2, hok⟩ := fuaStory L B other data block hd hb
  obtain ⟨w', as, h1, h2⟩ := C82_survives_windows (K := Unit) (T := Unit) L B other ⟨512, 1000⟩ _ _ .done [(Cmd.write6 9 block 512).command L B other]
    [.plain (.write 9 block)] _ _ 3 2 data ⟨by decide, by decide⟩ b exampleAlloc hd (by decide) a1 .write rfl
    (.cons (.plain (Commands.Asks.write6 (g := ⟨512, 1000⟩) (lba := 9) (n := 1) (by decide) hb (by decide) (by decide))) .nil)
    (by simp [Op.base, Disk.Op.Spares]) a2 rfl (fun c hc q hq => (small_ok q (hok c hc q hq).1 (hok c hc q hq).2).2.2.2 b)
    (winIdle (stormy m which)) _ ⟨rfl, by simp [winIdle], rfl⟩
  exact ⟨wr, rd, w', as, hwr, hrd, h1, h2⟩

end
end Verif.Durable
