import Verif.Spec.Disk
import Verif.Commands
import Verif.Props.Cdb
import Verif.Props.Responses
import Verif.Props.CheckCondition
import Verif.Props.ExecuteDevice
/-!
# C59: the library as a client of a disk

Commands built by the library, executed through driver, executer and operating system, in front of a disk that follows SBC-3, act as
reads and writes of an array of bytes.
-/
set_option linter.unusedSimpArgs false
set_option linter.unusedSectionVars false

namespace Verif.Commands

open Verif.Executer Verif.Coroutine Verif.ExecuterGen Verif.Platform Verif.Spec Verif.Spec.Disk Verif.Spec.Cdb Verif.Sense

/-- The command object a caller uses for an operation. Block counts and addresses are those the command can carry; `READ(6)` cannot ask for no
blocks; `WRITE SAME` wants its one block to be a multiple of 512 bytes. -/
inductive Asks (g : Geometry) : Cmd → Op → Prop
  | ready : Asks g .testUnitReady .ready
  | capacity10 : Asks g (.readCapacity10 0 0) .capacity
  | capacity16 : Asks g (.readCapacity16 0 0) .bigCapacity
  | read6 {lba n : Nat} : lba < 2 ^ 21 → 0 < n → n < 2 ^ 8 → Asks g (.read6 lba n g.size) (.read lba n)
  | read6_256 {lba : Nat} : lba < 2 ^ 21 → g.size = 512 → Asks g (.read6 lba 0 512) (.read lba 256)
  | read10 {lba n : Nat} : lba < 2 ^ 32 → n < 2 ^ 16 → Asks g (.read10 lba n g.size) (.read lba n)
  | read12 {lba n : Nat} : lba < 2 ^ 32 → n < 2 ^ 32 → Asks g (.read12 lba n g.size) (.read lba n)
  | read16 {lba n : Nat} : lba < 2 ^ 64 → n < 2 ^ 32 → Asks g (.read16 lba n g.size) (.read lba n)
  | write6 {lba n : Nat} {data : Bytes} : lba < 2 ^ 21 → data.length = n * g.size → 0 < n → n ≤ 2 ^ 8 →
      Asks g (.write6 lba data g.size) (.write lba data)
  | write10 {lba n : Nat} {data : Bytes} : lba < 2 ^ 32 → data.length = n * g.size → n < 2 ^ 16 → Asks g (.write10 lba data g.size) (.write lba data)
  | write12 {lba n : Nat} {data : Bytes} : lba < 2 ^ 32 → data.length = n * g.size → 0 < n → n < 2 ^ 32 →
      Asks g (.write12 lba data g.size) (.write lba data)
  | write16 {lba n : Nat} {data : Bytes} : lba < 2 ^ 64 → data.length = n * g.size → n < 2 ^ 32 → Asks g (.write16 lba data g.size) (.write lba data)
  | fill10 {lba n : Nat} {block : Bytes} : lba < 2 ^ 32 → n < 2 ^ 16 → block.length = g.size → g.size % 512 = 0 →
      Asks g (.writeSame10 lba block n g.size) (.fill lba n block)
  | fill16 {lba n : Nat} {block : Bytes} : lba < 2 ^ 64 → n < 2 ^ 32 → block.length = g.size → g.size % 512 = 0 →
      Asks g (.writeSame16 lba block n g.size) (.fill lba n block)
  | exchange {lba n : Nat} {old new : Bytes} : lba < 2 ^ 64 → n < 2 ^ 8 → old.length = n * g.size → new.length = n * g.size →
      Asks g (.compareAndWrite lba (old ++ new) n g.size) (.exchange lba old new)
  | discard {ranges : List (Nat × Nat)} : (∀ r ∈ ranges, r.1 < 2 ^ 64 ∧ r.2 < 2 ^ 32) → ranges.length < 4095 →
      Asks g (.unmap (ranges.map fun r => ((r.1 : Int), (r.2 : Int)))) (.discard ranges)

/-- What the caller of a command sees of a reply. Reading nothing gives `None`. -/
def Shows (r : Except (Exn (DevErr Sense)) (Option (Val (Option Bytes) (DevErr Sense) Result))) : Reply → Prop
  | .ready => r = .ok (some (.obj .true))
  | .capacity last size => ∃ attrs, r = .ok (some (.obj (.capacity attrs))) ∧ attrs.lookup "last_logical_block_address" = some last ∧
      attrs.lookup "block_length_in_bytes" = some size
  | .data bs => r = .ok (some (.obj (.raw (if bs = [] then none else some bs))))
  | .done => r = .ok (some (.obj (.raw none)))
  | .failed key asc ascq => ∃ raw s, r = .error (.dev (.checkCondition raw (some s))) ∧ Says s key asc ascq

/-- What a platform has to make of the answers of a device that sends as much data as it is asked for. -/
structure Delivers (out : Req → Answer → Except (Exn (DevErr Sense)) (Option (Option Bytes))) : Prop where
  read : ∀ cdb n d, d.length = n.toNat → out (.read cdb n) (good d) = .ok (some (if d = [] then none else some d))
  write : ∀ cdb d, out (.write cdb d) (good []) = .ok (some none)
  fails : ∀ c key asc ascq, key < 16 → asc < 256 → ascq < 256 → RaisesSense (out c (failed key asc ascq)) key asc ascq

theorem failed_reports (key asc ascq : Nat) (hk : key < 16) (ha : asc < 256) (hq : ascq < 256) :
    ReportsSense (failed key asc ascq).sense key asc ascq := by
  left
  have h : ∀ n, n < 256 → (byte n).toNat = n := by
    intro n hn; simp [byte]; omega
  simp [Disk.failed, Spec.responseCode, Spec.bitsAt, Spec.byteAt, h key (by omega), h asc ha, h ascq hq]
  omega

theorem outcome_delivers : Delivers (Platform.outcome getSense) where
  read cdb n d hd := by
    by_cases h : 0 < n
    · have h0 : d ≠ [] := by intro h0; subst h0; simp at hd; omega
      simp [Platform.outcome, good, delivered, h, h0, padded, ← hd]
    · have h0 : d = [] := by apply List.length_eq_zero_iff.1; omega
      simp [Platform.outcome, good, delivered, h, h0]
  write cdb d := rfl
  fails c key asc ascq hk ha hq := outcome_raises c _ key asc ascq rfl (failed_reports key asc ascq hk ha hq)

theorem winOutcome_delivers : Delivers (Win32.winOutcome getSense) where
  read cdb n d hd := by
    simp [Win32.winOutcome, good, ← hd]
  write cdb d := rfl
  fails c key asc ascq hk ha hq := by
    obtain ⟨sn, hs, hsay⟩ := getSense_says (padded 255 (failed key asc ascq).sense) (by rw [padded_length]; decide) key asc ascq
      (reports_padded _ _ _ _ (failed_reports key asc ascq hk ha hq))
    refine ⟨padded 255 (failed key asc ascq).sense, sn, ?_, hsay⟩
    unfold Win32.winOutcome
    rw [if_pos (show (failed key asc ascq).status = 2 from rfl), hs]

theorem readAt_length (m : Contents) (a n : Nat) : (readAt m a n).length = n := by simp [readAt]

/-- What the disk does with a command of the library. -/
theorem disk_task (g : Geometry) (m : Contents) (L : Lib) (c : Cdb.Cmd) (r : Req) (hc : InRange c) (h : Cdb.request L c = .ok r)
    (h1 : opcodeOf c ≠ 0x25) (h2 : opcodeOf c ≠ 0x9E) : disk g m (asked r) = perform g m (dataOut r) (meaning c) := by
  have hop := (Cdb.C25 L c r h).1
  have hd := Cdb.C29_decode L c r hc h
  have e1 : (asked r).cdb = r.cdb := by cases r <;> rfl
  have e2 : (asked r).toDevice = dataOut r := by cases r <;> rfl
  have e3 : r.cdb.getD 0 0 = opcodeOf c := by
    cases hcdb : r.cdb with
    | nil => rw [hcdb] at hop; simp at hop
    | cons x xs => rw [hcdb] at hop; simpa using hop
  unfold disk
  rw [e1, e2, e3, if_neg h1, if_neg h2, hd]

theorem num_be0 (n v : Nat) (h : v < 256 ^ n) : Spec.num (be n v) 0 n = v := by
  have := Parse.num_be n v [] h
  rwa [List.append_nil] at this

/-- Sizes a disk can report. -/
structure Valid (g : Geometry) : Prop where
  size : 0 < g.size ∧ g.size < 2 ^ 32
  blocks : 0 < g.blocks ∧ g.blocks ≤ 2 ^ 64

section step

variable {g : Geometry} {out : Req → Answer → Except (Exn (DevErr Sense)) (Option (Option Bytes))} (L : Lib) (B : Parse.BufLib)
  (other : Bytes → Py (List (String × Int))) (m : Contents)

/-- One command: the request can be built, the disk changes as the operation says, the caller sees its reply. -/
def Step (g : Geometry) (out : Req → Answer → Except (Exn (DevErr Sense)) (Option (Option Bytes))) (L : Lib) (B : Parse.BufLib)
    (other : Bytes → Py (List (String × Int))) (m : Contents) (c : Cmd) (op : Op) : Prop :=
  ∃ q, (c.command L B other).request = .ok q ∧ (disk g m (asked q)).2 = (op.run g m).2 ∧
    Shows (decoded (c.command L B other) (out q (disk g m (asked q)).1)) (op.run g m).1

theorem shows_failed (c : Cmd) {r : Except (Exn (DevErr Sense)) (Option (Option Bytes))} {key asc ascq : Nat} (h : RaisesSense r key asc ascq) :
    Shows (decoded (c.command L B other) r) (.failed key asc ascq) := by
  obtain ⟨raw, s, rfl, hs⟩ := h
  exact ⟨raw, s, rfl, hs⟩

theorem step_read (hD : Delivers out) (c : Cmd) (q : Req) (cdb : Bytes) (len : Int) (lba n : Nat) (hr : Cdb.request L c.cdb = .ok q) (hi : InRange c.cdb)
    (hm : meaning c.cdb = .read lba n) (hq : q = .read cdb len) (hlen : len.toNat = n * g.size) (h1 : opcodeOf c.cdb ≠ 0x25) (h2 : opcodeOf c.cdb ≠ 0x9E)
    (hdec : ∀ d, c.decode B other d = .ok (.raw d)) : Step g out L B other m c (.read lba n) := by
  subst hq
  refine ⟨_, hr, ?_⟩
  rw [disk_task g m L c.cdb _ hi hr h1 h2, hm]
  simp only [perform, Op.run]
  split
  · refine ⟨rfl, ?_⟩
    simp only [Shows]
    rw [hD.read _ _ _ (by rw [readAt_length, hlen])]
    simp [decoded, Cmd.command, hdec]
  · exact ⟨rfl, shows_failed L B other c (hD.fails _ 5 0x21 0 (by decide) (by decide) (by decide))⟩

theorem step_write (hD : Delivers out) (hs : 0 < g.size) (c : Cmd) (cdb : Bytes) (lba n : Nat) (data : Bytes) (hlen : data.length = n * g.size)
    (hr : Cdb.request L c.cdb = .ok (.write cdb data)) (hi : InRange c.cdb) (hm : meaning c.cdb = .write lba (data.length / g.size))
    (h1 : opcodeOf c.cdb ≠ 0x25) (h2 : opcodeOf c.cdb ≠ 0x9E) (hdec : ∀ d, c.decode B other d = .ok (.raw d)) :
    Step g out L B other m c (.write lba data) := by
  refine ⟨_, hr, ?_⟩
  rw [disk_task g m L c.cdb _ hi hr h1 h2, hm]
  have hn : data.length / g.size * g.size = data.length := by rw [hlen, Nat.mul_div_cancel _ hs]
  simp only [perform, Op.run, dataOut, hn, List.take_length]
  split
  · refine ⟨rfl, ?_⟩
    simp only [Shows]
    rw [hD.write]
    simp [decoded, Cmd.command, hdec]
  · exact ⟨rfl, shows_failed L B other c (hD.fails _ 5 0x21 0 (by decide) (by decide) (by decide))⟩

theorem step_fill (hD : Delivers out) (c : Cmd) (cdb : Bytes) (lba n : Nat) (block : Bytes) (hlen : block.length = g.size)
    (hr : Cdb.request L c.cdb = .ok (.write cdb block)) (hi : InRange c.cdb) (hm : meaning c.cdb = .writeSame lba n)
    (h1 : opcodeOf c.cdb ≠ 0x25) (h2 : opcodeOf c.cdb ≠ 0x9E) (hdec : ∀ d, c.decode B other d = .ok (.raw d)) :
    Step g out L B other m c (.fill lba n block) := by
  refine ⟨_, hr, ?_⟩
  rw [disk_task g m L c.cdb _ hi hr h1 h2, hm]
  simp only [perform, Op.run, dataOut, ← hlen, List.take_length]
  rw [hlen]
  split
  · refine ⟨rfl, ?_⟩
    simp only [Shows]
    rw [hD.write]
    simp [decoded, Cmd.command, hdec]
  · exact ⟨rfl, shows_failed L B other c (hD.fails _ 5 0x21 0 (by decide) (by decide) (by decide))⟩

theorem step_exchange (hD : Delivers out) (hs : 0 < g.size) (c : Cmd) (cdb : Bytes) (lba n : Nat) (old new : Bytes) (hold : old.length = n * g.size)
    (hnew : new.length = n * g.size) (hr : Cdb.request L c.cdb = .ok (.write cdb (old ++ new))) (hi : InRange c.cdb)
    (hm : meaning c.cdb = .compareAndWrite lba n)
    (h1 : opcodeOf c.cdb ≠ 0x25) (h2 : opcodeOf c.cdb ≠ 0x9E) (hdec : ∀ d, c.decode B other d = .ok (.raw d)) :
    Step g out L B other m c (.exchange lba old new) := by
  refine ⟨_, hr, ?_⟩
  rw [disk_task g m L c.cdb _ hi hr h1 h2, hm]
  have hn : old.length / g.size = n := by rw [hold, Nat.mul_div_cancel _ hs]
  have ht : (old ++ new).take (n * g.size) = old := by rw [← hold, List.take_left]
  have ht2 : ((old ++ new).drop (n * g.size)).take (n * g.size) = new := by
    rw [← hold, List.drop_left, hold, ← hnew, List.take_length]
  simp only [perform, Op.run, dataOut, hn, ht, ht2]
  rw [hold]
  split
  · split
    · refine ⟨rfl, ?_⟩
      simp only [Shows]
      rw [hD.write]
      simp [decoded, Cmd.command, hdec]
    · exact ⟨rfl, shows_failed L B other c (hD.fails _ 0x0E 0x1D 0 (by decide) (by decide) (by decide))⟩
  · exact ⟨rfl, shows_failed L B other c (hD.fails _ 5 0x21 0 (by decide) (by decide) (by decide))⟩

/-- The ranges of an UNMAP are what its fields can carry. -/
theorem unmap_inRange {ranges : List (Nat × Nat)} (h : ∀ r ∈ ranges, r.1 < 2 ^ 64 ∧ r.2 < 2 ^ 32) (hn : ranges.length < 4095) :
    InRange (.unmap (ranges.map fun r => ((r.1 : Int), (r.2 : Int)))) := by
  refine ⟨fun r hr => ?_, by simp [Fits]; omega⟩
  obtain ⟨x, hx, rfl⟩ := List.mem_map.1 hr
  have := h x hx
  exact ⟨⟨by omega, by omega⟩, ⟨by omega, by omega⟩⟩

theorem unmap_meaning (ranges : List (Nat × Nat)) : meaning (.unmap (ranges.map fun r => ((r.1 : Int), (r.2 : Int)))) = .unmap ranges := by
  simp only [meaning, List.map_map]
  congr 1
  exact (List.map_congr_left (g := id) fun r _ => rfl).trans (List.map_id _)

theorem step_discard (hD : Delivers out) (ranges : List (Nat × Nat)) (h : ∀ r ∈ ranges, r.1 < 2 ^ 64 ∧ r.2 < 2 ^ 32) (hn : ranges.length < 4095) :
    Step g out L B other m (.unmap (ranges.map fun r => ((r.1 : Int), (r.2 : Int)))) (.discard ranges) := by
  have hi := unmap_inRange h hn
  obtain ⟨q, hq⟩ := (Cdb.C32_partial L _).2.2 hi
  obtain ⟨cdb, params, rfl, -⟩ := (Cdb.C32_partial L _).1 q hq
  refine ⟨_, hq, ?_⟩
  rw [disk_task g m L (.unmap _) _ hi hq (by simp [opcodeOf]) (by simp [opcodeOf]), unmap_meaning]
  simp only [perform, Op.run]
  split
  · refine ⟨rfl, ?_⟩
    simp only [Shows]
    rw [hD.write]
    rfl
  · exact ⟨rfl, shows_failed L B other _ (hD.fails _ 5 0x21 0 (by decide) (by decide) (by decide))⟩

theorem step (hg : Valid g) (hD : Delivers out) {c : Cmd} {op : Op} (h : Asks g c op) : Step g out L B other m c op := by
  have hs := hg.size.1
  cases h with
  | ready =>
    refine ⟨_, Cdb.C36_test_unit_ready L, ?_⟩
    rw [disk_task g m L .testUnitReady _ trivial (Cdb.C36_test_unit_ready L) (by decide) (by decide)]
    refine ⟨rfl, ?_⟩
    simp only [Shows, meaning, perform, Op.run]
    rw [hD.read _ _ _ rfl]
    rfl
  | capacity10 =>
    have hq := Cdb.C36_read_capacity10 L 0 0 (by simp [Fits]) (by simp [Fits])
    refine ⟨_, hq, ?_⟩
    have hk : disk g m (asked (.read (Spec.Cdb.readCapacity10 (0 : Int).toNat (0 : Int).toNat) 8)) = (good (Disk.capacity10 g), m) := rfl
    rw [hk]
    refine ⟨rfl, ?_⟩
    have hl : (Disk.capacity10 g).length = 8 := by simp [Disk.capacity10]
    rw [hD.read _ _ _ hl]
    have hne : Disk.capacity10 g ≠ [] := by intro h; rw [h] at hl; simp at hl
    have h1 : min (g.blocks - 1) (2 ^ 32 - 1) < 256 ^ 4 := by omega
    have h2 : g.size < 256 ^ 4 := hg.size.2
    refine ⟨Spec.readCapacity10 (Disk.capacity10 g), ?_, ?_, ?_⟩
    · simp only [hne, if_false, decoded, Cmd.command, Cmd.decode, Option.getD_some, withData, Parse.C37_capacity10 _ (Nat.le_of_eq hl.symm), Except.map]
    · show some (Spec.num (be 4 _ ++ be 4 _) 0 4) = _
      rw [Parse.num_be _ _ _ h1]
    · show some (Spec.num (be 4 _ ++ be 4 _) 4 4) = _
      have := Parse.num_append_right (be 4 (min (g.blocks - 1) (2 ^ 32 - 1))) (be 4 g.size) 0 4
      rw [be_length, Nat.add_zero] at this
      rw [this, num_be0 _ _ h2]
  | capacity16 =>
    have hq := Cdb.C36_read_capacity16 L 0 0 (by simp [Fits]) (by simp [Fits])
    refine ⟨_, hq, ?_⟩
    have hk : disk g m (asked (.read (Spec.Cdb.readCapacity16 (0 : Int).toNat 32 (0 : Int).toNat) 32)) = (good (Disk.capacity16 g), m) := rfl
    rw [hk]
    refine ⟨rfl, ?_⟩
    have hl : (Disk.capacity16 g).length = 32 := by simp [Disk.capacity16]
    rw [hD.read _ _ _ hl]
    have hne : Disk.capacity16 g ≠ [] := by intro h; rw [h] at hl; simp at hl
    have h1 : g.blocks - 1 < 256 ^ 8 := by have := hg.blocks; omega
    have h2 : g.size < 256 ^ 4 := hg.size.2
    refine ⟨Spec.readCapacity16 (Disk.capacity16 g), ?_, ?_, ?_⟩
    · simp only [hne, if_false, decoded, Cmd.command, Cmd.decode, Option.getD_some, withData, Parse.C37_capacity16 _ (Nat.le_of_eq hl.symm), Except.map]
    · show some (Spec.num (be 8 _ ++ be 4 _ ++ _) 0 8) = _
      rw [List.append_assoc, Parse.num_be _ _ _ h1]
    · show some (Spec.num (be 8 _ ++ be 4 _ ++ _) 8 4) = _
      have := Parse.num_append_right (be 8 (g.blocks - 1)) (be 4 g.size ++ zeros 20) 0 4
      rw [be_length, Nat.add_zero] at this
      rw [List.append_assoc, this, Parse.num_be _ _ _ h2]
  | @read6 lba n h1 h2 h3 =>
    exact step_read L B other m hD _ _ _ _ lba n (Cdb.C26_read6 L lba n g.size ⟨by omega, by omega⟩ ⟨by omega, by omega⟩ (by omega) (by omega))
      ⟨⟨by omega, by omega⟩, ⟨by omega, by omega⟩⟩ (by simp [Cmd.cdb, meaning]; omega) rfl (by simp [Int.toNat_mul]) (by simp [Cmd.cdb, opcodeOf])
      (by simp [Cmd.cdb, opcodeOf]) (fun _ => rfl)
  | @read6_256 lba h1 h2 =>
    obtain ⟨cdb, len, hr, -, hlen⟩ := Cdb.C27_partial L lba 512 ⟨by omega, by omega⟩ rfl
    exact step_read L B other m hD _ _ cdb len lba 256 hr
      ⟨⟨by omega, by omega⟩, ⟨by omega, by omega⟩⟩ (by simp [Cmd.cdb, meaning]) rfl (by rw [hlen, h2]; rfl) (by simp [Cmd.cdb, opcodeOf])
      (by simp [Cmd.cdb, opcodeOf]) (fun _ => rfl)
  | @read10 lba n h1 h2 =>
    exact step_read L B other m hD _ _ _ _ lba n (Cdb.C26_read10 L lba n g.size ⟨by omega, by omega⟩ ⟨by omega, by omega⟩)
      ⟨⟨by omega, by omega⟩, ⟨by omega, by omega⟩⟩ (by simp [Cmd.cdb, meaning]) rfl (by simp [Int.toNat_mul]) (by simp [Cmd.cdb, opcodeOf])
      (by simp [Cmd.cdb, opcodeOf]) (fun _ => rfl)
  | @read12 lba n h1 h2 =>
    exact step_read L B other m hD _ _ _ _ lba n (Cdb.C26_read12 L lba n g.size ⟨by omega, by omega⟩ ⟨by omega, by omega⟩)
      ⟨⟨by omega, by omega⟩, ⟨by omega, by omega⟩⟩ (by simp [Cmd.cdb, meaning]) rfl (by simp [Int.toNat_mul]) (by simp [Cmd.cdb, opcodeOf])
      (by simp [Cmd.cdb, opcodeOf]) (fun _ => rfl)
  | @read16 lba n h1 h2 =>
    exact step_read L B other m hD _ _ _ _ lba n (Cdb.C26_read16 L lba n g.size ⟨by omega, by omega⟩ ⟨by omega, by omega⟩)
      ⟨⟨by omega, by omega⟩, ⟨by omega, by omega⟩⟩ (by simp [Cmd.cdb, meaning]) rfl (by simp [Int.toNat_mul]) (by simp [Cmd.cdb, opcodeOf])
      (by simp [Cmd.cdb, opcodeOf]) (fun _ => rfl)
  | @write6 lba n data h1 h2 h3 h4 =>
    exact step_write L B other m hD hs _ _ lba n data h2
      ((Cdb.C28_write6 L lba data g.size _ (by omega)).2 ⟨by omega, n, by rw [h2]; simp, h3, h4, by omega, rfl⟩)
      ⟨⟨by omega, by omega⟩, n, by rw [h2]; simp, by omega, by omega⟩ (by simp [Cmd.cdb, meaning]) (by simp [Cmd.cdb, opcodeOf])
      (by simp [Cmd.cdb, opcodeOf]) (fun _ => rfl)
  | @write10 lba n data h1 h2 h3 =>
    exact step_write L B other m hD hs _ _ lba n data h2
      ((Cdb.C28_write10 L lba data g.size _).2 ⟨⟨by omega, by omega⟩, n, by rw [h2]; simp, h3, by omega, rfl⟩)
      ⟨⟨by omega, by omega⟩, n, by rw [h2]; simp, by omega, by omega⟩ (by simp [Cmd.cdb, meaning]) (by simp [Cmd.cdb, opcodeOf])
      (by simp [Cmd.cdb, opcodeOf]) (fun _ => rfl)
  | @write12 lba n data h1 h2 h3 h4 =>
    exact step_write L B other m hD hs _ _ lba n data h2
      ((Cdb.C28_write12 L lba data g.size _).2 ⟨⟨by omega, by omega⟩, n, by rw [h2]; simp, h3, h4, by omega, rfl⟩)
      ⟨⟨by omega, by omega⟩, n, by rw [h2]; simp, by omega, by omega⟩ (by simp [Cmd.cdb, meaning]) (by simp [Cmd.cdb, opcodeOf])
      (by simp [Cmd.cdb, opcodeOf]) (fun _ => rfl)
  | @write16 lba n data h1 h2 h3 =>
    exact step_write L B other m hD hs _ _ lba n data h2
      ((Cdb.C28_write16 L lba data g.size _).2 ⟨⟨by omega, by omega⟩, n, by rw [h2]; simp, h3, by omega, rfl⟩)
      ⟨⟨by omega, by omega⟩, n, by rw [h2]; simp, by omega, by omega⟩ (by simp [Cmd.cdb, meaning]) (by simp [Cmd.cdb, opcodeOf])
      (by simp [Cmd.cdb, opcodeOf]) (fun _ => rfl)
  | @fill10 lba n block h1 h2 h3 h4 =>
    exact step_fill L B other m hD _ _ lba n block h3
      ((Cdb.C30_partial L lba block n g.size _).1.2 ⟨by omega, ⟨by omega, by omega⟩, ⟨by omega, by omega⟩, rfl⟩)
      ⟨⟨by omega, by omega⟩, ⟨by omega, by omega⟩⟩ (by simp [Cmd.cdb, meaning]) (by simp [Cmd.cdb, opcodeOf])
      (by simp [Cmd.cdb, opcodeOf]) (fun _ => rfl)
  | @fill16 lba n block h1 h2 h3 h4 =>
    exact step_fill L B other m hD _ _ lba n block h3
      ((Cdb.C30_partial L lba block n g.size _).2.2 ⟨by omega, ⟨by omega, by omega⟩, ⟨by omega, by omega⟩, rfl⟩)
      ⟨⟨by omega, by omega⟩, ⟨by omega, by omega⟩⟩ (by simp [Cmd.cdb, meaning]) (by simp [Cmd.cdb, opcodeOf])
      (by simp [Cmd.cdb, opcodeOf]) (fun _ => rfl)
  | @exchange lba n old new h1 h2 h3 h4 =>
    exact step_exchange L B other m hD hs _ _ lba n old new h3 h4
      ((Cdb.C31_partial L lba (old ++ new) n g.size _).2 ⟨⟨by omega, by omega⟩, ⟨by omega, by omega⟩, by omega, ⟨2 * n, by
        rw [List.length_append, h3, h4, Int.mul_assoc, Int.natCast_add, Int.natCast_mul]; omega⟩, rfl⟩)
      ⟨⟨by omega, by omega⟩, ⟨by omega, by omega⟩⟩ (by simp [Cmd.cdb, meaning]) (by simp [Cmd.cdb, opcodeOf])
      (by simp [Cmd.cdb, opcodeOf]) (fun _ => rfl)
  | @discard ranges h hn => exact step_discard L B other m hD ranges h hn

/-- A sequence of commands given to the disk directly. -/
theorem askAll_disk (hg : Valid g) (hD : Delivers out) {cmds : List Cmd} {ops : List Op} (h : Each (Asks g) cmds ops) :
    Each Shows (askAll (disk g) out (cmds.map (·.command L B other)) m).1 (runOps g ops m).1 ∧
      (askAll (disk g) out (cmds.map (·.command L B other)) m).2 = (runOps g ops m).2 := by
  induction h generalizing m with
  | nil => exact ⟨.nil, rfl⟩
  | @cons c op cs ops h _ ih =>
    obtain ⟨q, hq, hm, hs⟩ := step L B other m hg hD h
    have := ih (op.run g m).2
    simp only [List.map_cons, askAll, hq, runOps]
    rw [hm]
    exact ⟨.cons hs this.1, this.2⟩

end step

/-- The disk reports sense data whenever it fails. -/
theorem disk_sense (g : Geometry) (m : Contents) (q : OsRequest) (h : (disk g m q).1.status ≠ 0) :
    ∃ key asc ascq, ReportsSense (disk g m q).1.sense key asc ascq := by
  have key : ∀ a : Answer, ((∃ d, a = good d) ∨ ∃ k : Nat × Nat, a = failed k.1 k.2 0 ∧ k.1 < 16 ∧ k.2 < 256) → a.status ≠ 0 →
      ∃ key asc ascq, ReportsSense a.sense key asc ascq := by
    rintro a (⟨d, rfl⟩ | ⟨k, rfl, h1, h2⟩) h
    · exact absurd rfl h
    · exact ⟨_, _, _, failed_reports _ _ _ h1 h2 (by decide)⟩
  refine key _ ?_ h
  have bad : ∀ k a : Nat, k < 16 → a < 256 → (∃ d, failed k a 0 = good d) ∨ ∃ j : Nat × Nat, failed k a 0 = failed j.1 j.2 0 ∧ j.1 < 16 ∧ j.2 < 256 :=
    fun k a h1 h2 => .inr ⟨(k, a), rfl, h1, h2⟩
  unfold disk
  split
  · exact .inl ⟨_, rfl⟩
  split
  · exact .inl ⟨_, rfl⟩
  split
  · unfold perform
    repeat' split
    all_goals first | exact .inl ⟨_, rfl⟩ | exact bad _ _ (by decide) (by decide)
  · exact bad _ _ (by decide) (by decide)

theorem disk_parses (g : Geometry) : ∀ m q, (disk g m q).1.status ≠ 0 → ∃ sn, getSense (padded 255 (disk g m q).1.sense) = .ok sn := by
  intro m q h
  obtain ⟨key, asc, ascq, hr⟩ := disk_sense g m q h
  obtain ⟨s, hs, -⟩ := getSense_says _ (by rw [padded_length]; decide) key asc ascq (reports_padded _ _ _ _ hr)
  exact ⟨_, hs⟩

/-- Every command of a list that the platform can carry. -/
def Carried (L : Lib) (ok : Req → Prop) (cmds : List Cmd) : Prop := ∀ c ∈ cmds, ∀ q, Cdb.request L c.cdb = .ok q → ok q

theorem carried_map {L : Lib} {ok : Req → Prop} {cmds : List Cmd} (B : Parse.BufLib) (other : Bytes → Py (List (String × Int)))
    (h : Carried L ok cmds) : ∀ c ∈ cmds.map (·.command L B other), ∀ q, c.request = .ok q → ok q := by
  intro c hc q hq
  obtain ⟨c', hc', rfl⟩ := List.mem_map.1 hc
  exact h c' hc' q hq

variable {K T : Type} [DecidableEq K] (L : Lib) (B : Parse.BufLib) (other : Bytes → Py (List (String × Int)))

/-- **C59 on Linux.** Any sequence of READ, WRITE, WRITE SAME, COMPARE AND WRITE, UNMAP, READ CAPACITY and TEST UNIT READY commands executed through the sg
executer in front of a disk acts as the corresponding operations on an array of bytes: each caller sees that operation's reply (the bytes, the
capacity, the sense data of the failure), and the disk ends with that array's contents. -/
theorem C59_linux (l : Bool) (g : Geometry) (hg : Valid g) (alloc : Nat → Alloc) (t : Int) (ht : 0 ≤ t ∧ t < 2 ^ 32) (cmds : List Cmd) (ops : List Op)
    (hask : Each (Asks g) cmds ops) (hok : Carried L (LinuxOk alloc) cmds)
    (w : W Handle K (Option Bytes) (DevErr Sense) (World (Contents × Option Bytes))) (m : Contents) (hw : LinuxIdle w.st w.os m) :
    ∃ w' as, RunAll (machine (T := T) (Linux.sgBlocking (lp64 l) getSense (Linux.sgDevice l (disk g))).plat (Linux.prepare (lp64 l) alloc t))
        (cmds.map (·.command L B other)) w as w' ∧ Each Shows as (runOps g ops m).1 ∧ LinuxIdle w'.st w'.os (runOps g ops m).2 := by
  obtain ⟨w', h1, h2⟩ := C51_linux (K := K) (T := T) l getSense (disk g) alloc t ht
    (fun m q h => disk_parses g m q (by intro h0; rw [h0] at h; simp at h)) (cmds.map (·.command L B other)) (carried_map B other hok) w m hw
  obtain ⟨e1, e2⟩ := askAll_disk L B other m hg outcome_delivers hask
  exact ⟨w', _, h1, e1, by rw [← e2]; exact h2⟩

/-- **C59 on Solaris.** -/
theorem C59_solaris (l : Bool) (g : Geometry) (hg : Valid g) (alloc : Nat → Alloc) (t : Int) (ht : 0 ≤ t ∧ t < 2 ^ 15) (cmds : List Cmd) (ops : List Op)
    (hask : Each (Asks g) cmds ops) (hok : Carried L (SolarisOk alloc) cmds)
    (w : W Handle K (Option Bytes) (DevErr Sense) (Solaris.SolWorld Contents)) (m : Contents) (hw : SolarisIdle w.st w.os m) :
    ∃ w' as, RunAll (machine (T := T) (Solaris.solBlocking (lp64 l) getSense (Solaris.uscsiDevice l (disk g))).plat (Solaris.prepare (lp64 l) alloc t))
        (cmds.map (·.command L B other)) w as w' ∧ Each Shows as (runOps g ops m).1 ∧ SolarisIdle w'.st w'.os (runOps g ops m).2 := by
  obtain ⟨w', h1, h2⟩ := C51_solaris (K := K) (T := T) l getSense (disk g) alloc t ht
    (fun m q h => disk_parses g m q (by intro h0; rw [h0] at h; simp at h)) (cmds.map (·.command L B other)) (carried_map B other hok) w m hw
  obtain ⟨e1, e2⟩ := askAll_disk L B other m hg outcome_delivers hask
  exact ⟨w', _, h1, e1, by rw [← e2]; exact h2⟩

/-- **C59 on AIX**, with either ioctl binding. -/
theorem C59_aix (b : Aix.Binding) (g : Geometry) (hg : Valid g) (alloc : Nat → Alloc) (t : Int) (ht : 0 ≤ t ∧ t < 2 ^ 32) (cmds : List Cmd) (ops : List Op)
    (hask : Each (Asks g) cmds ops) (hok : Carried L (AixOk b alloc) cmds)
    (w : W Handle K (Option Bytes) (DevErr Sense) (Aix.AixWorld Contents)) (m : Contents) (hw : AixIdle w.st w.os m) :
    ∃ w' as, RunAll (machine (T := T) (Aix.aixBlocking (lp64 false) getSense b (Aix.scDevice (disk g))).plat (Aix.prepare (lp64 false) alloc t))
        (cmds.map (·.command L B other)) w as w' ∧ Each Shows as (runOps g ops m).1 ∧ AixIdle w'.st w'.os (runOps g ops m).2 := by
  obtain ⟨w', h1, h2⟩ := C51_aix (K := K) (T := T) getSense b (disk g) alloc t ht
    (fun m q h => disk_parses g m q (by intro h0; rw [h0] at h; simp at h)) (cmds.map (·.command L B other)) (carried_map B other hok) w m hw
  obtain ⟨e1, e2⟩ := askAll_disk L B other m hg outcome_delivers hask
  exact ⟨w', _, h1, e1, by rw [← e2]; exact h2⟩

/-- **C59 on Windows**, 32 and 64 bit. -/
theorem C59_windows (b : Bool) (g : Geometry) (hg : Valid g) (alloc : Nat → Alloc) (cmds : List Cmd) (ops : List Op)
    (hask : Each (Asks g) cmds ops) (hok : Carried L (WindowsOk b alloc) cmds)
    (w : W Win32.Spt K (Option Bytes) (DevErr Sense) (Win32.WinWorld Contents)) (m : Contents) (hw : WindowsIdle w.st w.os m) :
    ∃ w' as, RunAll (machine (T := T) (Win32.winPlat (Win32.W b) getSense (Win32.sptDevice b (disk g))) (Win32.prepare (Win32.W b) alloc))
        (cmds.map (·.command L B other)) w as w' ∧ Each Shows as (runOps g ops m).1 ∧ WindowsIdle w'.st w'.os (runOps g ops m).2 := by
  obtain ⟨w', h1, h2⟩ := C51_windows (K := K) (T := T) b getSense (disk g) alloc
    (fun m q h => disk_parses g m q (by rw [h]; decide)) (cmds.map (·.command L B other)) (carried_map B other hok) w m hw
  obtain ⟨e1, e2⟩ := askAll_disk L B other m hg winOutcome_delivers hask
  exact ⟨w', _, h1, e1, by rw [← e2]; exact h2⟩

/-! ## What is written is what is read back -/

theorem readAt_writeAt (m : Contents) (a : Nat) (bs : Bytes) : readAt (writeAt m a bs) a bs.length = bs := by
  apply List.ext_getElem
  · simp [readAt]
  · intro i h1 h2
    simp [readAt, writeAt, h2]

theorem readAt_spared (m : Contents) (a n b : Nat) (bs : Bytes) (h : b + bs.length ≤ a ∨ a + n ≤ b) : readAt (writeAt m b bs) a n = readAt m a n := by
  apply List.ext_getElem
  · simp [readAt]
  · intro i h1 h2
    simp only [readAt, List.length_map, List.length_range] at h1
    simp only [readAt, writeAt, List.getElem_map, List.getElem_range]
    rw [if_neg (by omega)]

theorem readAt_discard (g : Geometry) (m : Contents) (ranges : List (Nat × Nat)) (a n : Nat)
    (h : ∀ r ∈ ranges, (r.1 + r.2) * g.size ≤ a ∨ a + n ≤ r.1 * g.size) : readAt (discard g m ranges) a n = readAt m a n := by
  apply List.ext_getElem
  · simp [readAt]
  · intro i h1 h2
    simp only [readAt, List.length_map, List.length_range] at h1
    simp only [readAt, Disk.discard, List.getElem_map, List.getElem_range]
    rw [if_neg]
    rintro ⟨r, hr, h3, h4⟩
    have := h r hr
    omega

theorem copies_length (n : Nat) (bs : Bytes) : (copies n bs).length = n * bs.length := by
  simp [copies]

theorem run_spared (g : Geometry) (m : Contents) (lba n : Nat) (o : Op) (hw : o.Whole g) (h : o.Spares g lba n) :
    readAt (o.run g m).2 (lba * g.size) (n * g.size) = readAt m (lba * g.size) (n * g.size) := by
  have sp : ∀ a k : Nat, a + k ≤ lba ∨ lba + n ≤ a → a * g.size + k * g.size ≤ lba * g.size ∨ lba * g.size + n * g.size ≤ a * g.size := by
    intro a k h
    rw [← Nat.add_mul, ← Nat.add_mul]
    exact h.imp (Nat.mul_le_mul_right _) (Nat.mul_le_mul_right _)
  cases o with
  | write a data =>
    simp only [Op.run]
    split
    · refine readAt_spared _ _ _ _ _ ?_
      rw [hw]; exact sp _ _ h
    · rfl
  | fill a k block =>
    simp only [Op.run]
    split
    · refine readAt_spared _ _ _ _ _ ?_
      rw [copies_length, show block.length = g.size from hw]; exact sp _ _ h
    · rfl
  | exchange a old new =>
    simp only [Op.run]
    split
    · split
      · refine readAt_spared _ _ _ _ _ ?_
        rw [hw.2, hw.1]; exact sp _ _ h
      · rfl
    · rfl
  | discard ranges =>
    simp only [Op.run]
    split
    · exact readAt_discard g m ranges _ _ fun r hr => by
        rw [Nat.add_mul]
        exact sp r.1 r.2 (h r hr)
    · rfl
  | read a k => simp only [Op.run]; split <;> rfl
  | ready => rfl
  | capacity => rfl
  | bigCapacity => rfl

theorem runOps_spared (g : Geometry) (m : Contents) (lba n : Nat) (ops : List Op) (h : ∀ o ∈ ops, o.Whole g ∧ o.Spares g lba n) :
    readAt (runOps g ops m).2 (lba * g.size) (n * g.size) = readAt m (lba * g.size) (n * g.size) := by
  induction ops generalizing m with
  | nil => rfl
  | cons o os ih =>
    simp only [runOps]
    rw [ih _ fun o ho => h o (List.mem_cons_of_mem _ ho)]
    exact run_spared g m lba n o (h o List.mem_cons_self).1 (h o List.mem_cons_self).2

theorem asks_whole {g : Geometry} (hs : 0 < g.size) {c : Cmd} {o : Op} (h : Asks g c o) : o.Whole g := by
  have key : ∀ d n : Nat, d = n * g.size → d = d / g.size * g.size := by
    intro d n h; rw [h, Nat.mul_div_cancel _ hs]
  cases h <;> simp only [Op.Whole]
  all_goals first
    | exact trivial
    | (apply key; assumption)
    | assumption
    | (rename_i h1 h2 h3 h4; exact ⟨key _ _ h3, h4.trans h3.symm⟩)

theorem runOps_append (g : Geometry) (as bs : List Op) (m : Contents) :
    runOps g (as ++ bs) m = ((runOps g as m).1 ++ (runOps g bs (runOps g as m).2).1, (runOps g bs (runOps g as m).2).2) := by
  induction as generalizing m with
  | nil => rfl
  | cons a as ih => simp [runOps, ih]

/-- The last reply of: a write of `data` (whole blocks inside the disk), anything that spares those blocks, a read of those blocks. -/
theorem runOps_read_back (g : Geometry) (hs : 0 < g.size) (m : Contents) (lba n : Nat) (data : Bytes) (hd : data.length = n * g.size)
    (hin : lba + n ≤ g.blocks) (ops : List Op) (h : ∀ o ∈ ops, o.Whole g ∧ o.Spares g lba n) :
    (runOps g (.write lba data :: ops ++ [.read lba n]) m).1.getLast? = some (.data data) := by
  have hk : data.length / g.size = n := by rw [hd, Nat.mul_div_cancel _ hs]
  rw [runOps_append]
  simp only [runOps, List.getLast?_append, Op.run, hk, if_pos hin, List.getLast?_singleton, Option.some_or]
  rw [runOps_spared g _ lba n ops h, ← hd, readAt_writeAt]

theorem each_getLast {α β : Type} {R : α → β → Prop} {as : List α} {bs : List β} (h : Each R as bs) {b : β} (hb : bs.getLast? = some b) :
    ∃ a, as.getLast? = some a ∧ R a b := by
  induction h with
  | nil => simp at hb
  | @cons a b' as bs h1 h2 ih =>
    cases h2 with
    | nil => simp at hb; subst hb; exact ⟨a, rfl, h1⟩
    | cons x y =>
      rw [List.getLast?_cons_cons] at hb
      obtain ⟨a', ha', hr⟩ := ih hb
      exact ⟨a', by rw [List.getLast?_cons_cons]; exact ha', hr⟩

theorem each_asks_whole {g : Geometry} (hs : 0 < g.size) {cmds : List Cmd} {ops : List Op} (h : Each (Asks g) cmds ops) : ∀ o ∈ ops, o.Whole g := by
  induction h with
  | nil => simp
  | cons h _ ih =>
    intro o ho
    rcases List.mem_cons.1 ho with rfl | ho
    · exact asks_whole hs h
    · exact ih o ho

theorem each_append {α β : Type} {R : α → β → Prop} {as as' : List α} {bs bs' : List β} (h : Each R as bs) (h' : Each R as' bs') :
    Each R (as ++ as') (bs ++ bs') := by
  induction h with
  | nil => exact h'
  | cons h _ ih => exact .cons h ih

/-- **C59, read back.** Write non-empty data with any of the WRITE commands, execute any commands that leave those blocks alone, read the blocks
with any of the READ commands: the caller of the read gets the data. (`C59_linux`, `C59_solaris`, `C59_aix` and `C59_windows` give answers `as` for which
this holds; `C59_read_back_linux` puts the two together.) -/
theorem C59_read_back (g : Geometry) (hg : Valid g) (cmds : List Cmd) (lba n : Nat) (data : Bytes) (ops : List Op)
    (hd : data.length = n * g.size) (hn : 0 < n) (hin : lba + n ≤ g.blocks)
    (hask : Each (Asks g) cmds ops) (hsp : ∀ o ∈ ops, o.Spares g lba n) (m : Contents)
    (as : List (Except (Exn (DevErr Sense)) (Option (Val (Option Bytes) (DevErr Sense) Result))))
    (h : Each Shows as (runOps g (.write lba data :: ops ++ [.read lba n]) m).1) :
    as.getLast? = some (.ok (some (.obj (.raw (some data))))) := by
  have hs := hg.size.1
  obtain ⟨a, ha, hr⟩ := each_getLast h (runOps_read_back g hs m lba n data hd hin ops fun o ho => ⟨each_asks_whole hs hask o ho, hsp o ho⟩)
  have hne : data ≠ [] := by
    intro h0
    have := Nat.mul_pos hn hs
    rw [← hd, h0] at this
    simp at this
  simp only [Shows, hne, if_false] at hr
  rw [ha, hr]

theorem readAt_discarded (g : Geometry) (m : Contents) (ranges : List (Nat × Nat)) (lba n : Nat) (h : (lba, n) ∈ ranges) :
    readAt (discard g m ranges) (lba * g.size) (n * g.size) = zeros (n * g.size) := by
  apply List.ext_getElem
  · simp [readAt, zeros]
  · intro i h1 h2
    simp only [readAt, List.length_map, List.length_range] at h1
    simp only [readAt, Disk.discard, List.getElem_map, List.getElem_range, zeros, List.getElem_replicate]
    rw [if_pos ⟨(lba, n), h, Nat.le_add_right _ _, by
      show lba * g.size + i < (lba + n) * g.size
      rw [Nat.add_mul]; omega⟩]

/-- **C59, unmapped blocks.** Unmap ranges of blocks of the disk, execute any commands that leave one of these ranges alone, read that range with any
of the READ commands: the caller of the read gets zeros. -/
theorem C59_unmapped (g : Geometry) (hg : Valid g) (cmds : List Cmd) (ranges : List (Nat × Nat)) (lba n : Nat) (ops : List Op)
    (hmem : (lba, n) ∈ ranges) (hn : 0 < n) (hin : ∀ r ∈ ranges, r.1 + r.2 ≤ g.blocks)
    (hask : Each (Asks g) cmds ops) (hsp : ∀ o ∈ ops, o.Spares g lba n) (m : Contents)
    (as : List (Except (Exn (DevErr Sense)) (Option (Val (Option Bytes) (DevErr Sense) Result))))
    (h : Each Shows as (runOps g (.discard ranges :: ops ++ [.read lba n]) m).1) :
    as.getLast? = some (.ok (some (.obj (.raw (some (List.replicate (n * g.size) 0)))))) := by
  have hs := hg.size.1
  have hi : inside g ranges = true := by simpa [inside] using fun a b hr => hin (a, b) hr
  have hl : (runOps g (.discard ranges :: ops ++ [.read lba n]) m).1.getLast? = some (.data (zeros (n * g.size))) := by
    rw [runOps_append]
    simp only [runOps, List.getLast?_append, Op.run, hi, if_true, if_pos (hin _ hmem), List.getLast?_singleton, Option.some_or]
    rw [runOps_spared g _ lba n ops fun o ho => ⟨each_asks_whole hs hask o ho, hsp o ho⟩, readAt_discarded g m ranges lba n hmem]
  obtain ⟨a, ha, hr⟩ := each_getLast h hl
  have hne : zeros (n * g.size) ≠ [] := by
    intro h0
    have h1 := congrArg List.length h0
    rw [zeros_length] at h1
    have := Nat.mul_pos hn hs
    simp at h1
    omega
  simp only [Shows, hne, if_false] at hr
  rw [ha, hr]
  rfl

/-- `C59_read_back` on Linux, from the executer to the disk. -/
theorem C59_read_back_linux (l : Bool) (g : Geometry) (hg : Valid g) (alloc : Nat → Alloc) (t : Int) (ht : 0 ≤ t ∧ t < 2 ^ 32)
    (wr rd : Cmd) (cmds : List Cmd) (lba n : Nat) (data : Bytes) (ops : List Op)
    (hd : data.length = n * g.size) (hn : 0 < n) (hin : lba + n ≤ g.blocks) (hwr : Asks g wr (.write lba data)) (hrd : Asks g rd (.read lba n))
    (hask : Each (Asks g) cmds ops) (hsp : ∀ o ∈ ops, o.Spares g lba n) (hok : Carried L (LinuxOk alloc) (wr :: cmds ++ [rd]))
    (w : W Handle K (Option Bytes) (DevErr Sense) (World (Contents × Option Bytes))) (m : Contents) (hw : LinuxIdle w.st w.os m) :
    ∃ w' as, RunAll (machine (T := T) (Linux.sgBlocking (lp64 l) getSense (Linux.sgDevice l (disk g))).plat (Linux.prepare (lp64 l) alloc t))
        ((wr :: cmds ++ [rd]).map (·.command L B other)) w as w' ∧ as.getLast? = some (.ok (some (.obj (.raw (some data))))) := by
  obtain ⟨w', as, h1, h2, -⟩ := C59_linux (K := K) (T := T) L B other l g hg alloc t ht (wr :: cmds ++ [rd]) (.write lba data :: ops ++ [.read lba n])
    (each_append (.cons hwr hask) (.cons hrd .nil)) hok w m hw
  exact ⟨w', as, h1, C59_read_back g hg cmds lba n data ops hd hn hin hask hsp m as h2⟩

/-- The hypotheses are met: a disk of 1000 blocks of 512 bytes on Linux; write blocks 3 and 4 with WRITE(10), fail to write at block 2000, fill
blocks 5 to 9 with WRITE SAME(16), unmap blocks 0 to 2 and 10, ask for the capacity, read blocks 3 and 4 with READ(16). -/
example (L : Lib) (B : Parse.BufLib) (other : Bytes → Py (List (String × Int))) (data block : Bytes) (hd : data.length = 1024)
    (hb : block.length = 512) (m : Contents) :
    ∃ w' as, RunAll (machine (T := Unit) (Linux.sgBlocking (K := Unit) (lp64 true) getSense (Linux.sgDevice true (disk ⟨512, 1000⟩))).plat
        (Linux.prepare (lp64 true) (fun _ => { block := 4096, sense := 8192, cmd := 12288, data := 16384 }) 30000))
        (([.write10 3 data 512, .write16 2000 block 512, .writeSame16 5 block 5 512, .unmap [(0, 3), (10, 1)], .readCapacity10 0 0, .read16 3 2 512] : List Cmd).map
          (·.command L B other))
        { st := { pending := [], index := 6, maxq := 7 }, os := { mem := fun _ => 0xEE, kernel := (m, none) }, fired := [], box := fun _ => [] } as w' ∧
      as.getLast? = some (.ok (some (.obj (.raw (some data))))) := by
  refine C59_read_back_linux L B other true ⟨512, 1000⟩ ⟨by decide, by decide⟩ (fun _ => { block := 4096, sense := 8192, cmd := 12288, data := 16384 })
    30000 (by decide) (.write10 3 data 512) (.read16 3 2 512)
    [.write16 2000 block 512, .writeSame16 5 block 5 512, .unmap [(0, 3), (10, 1)], .readCapacity10 0 0] 3 2 data
    [.write 2000 block, .fill 5 5 block, .discard [(0, 3), (10, 1)], .capacity] hd (by decide) (by decide)
    (Asks.write10 (g := ⟨512, 1000⟩) (lba := 3) (n := 2) (by decide) hd (by decide))
    (Asks.read16 (g := ⟨512, 1000⟩) (lba := 3) (n := 2) (by decide) (by decide))
    (.cons (Asks.write16 (g := ⟨512, 1000⟩) (lba := 2000) (n := 1) (by decide) hb (by decide))
      (.cons (Asks.fill16 (g := ⟨512, 1000⟩) (lba := 5) (n := 5) (by decide) (by decide) hb (by decide))
        (.cons (Asks.discard (g := ⟨512, 1000⟩) (ranges := [(0, 3), (10, 1)]) (by simp) (by decide)) (.cons .capacity10 .nil))))
    (by simp [Op.Spares]; omega) ?_ _ m ⟨rfl, by simp, by simp, by simp, rfl⟩
  have fit : ∀ q : Req, q.cdb.length ≤ 16 → dataSize q ≤ 1024 →
      LinuxOk (fun _ => { block := 4096, sense := 8192, cmd := 12288, data := 16384 }) q := by
    intro q h1 h2
    refine ⟨by omega, by omega, fun _ => ⟨?_, ?_⟩⟩
    · simp; omega
    · simp
  intro c hc q hq
  simp only [List.cons_append, List.nil_append, List.mem_cons, List.not_mem_nil, or_false] at hc
  rcases hc with rfl | rfl | rfl | rfl | rfl | rfl
  · obtain ⟨-, k, hk, -, -, rfl⟩ := (Cdb.C28_write10 L 3 data 512 q).1 hq
    exact fit _ (by simp [Req.cdb, Spec.Cdb.write10, cdb10, cdb16]) (by simp [dataSize, hd])
  · obtain ⟨-, k, hk, -, -, rfl⟩ := (Cdb.C28_write16 L 2000 block 512 q).1 hq
    exact fit _ (by simp [Req.cdb, Spec.Cdb.write16, cdb10, cdb16]) (by simp [dataSize, hb])
  · obtain ⟨-, -, -, rfl⟩ := (Cdb.C30_partial L 5 block 5 512 q).2.1 hq
    exact fit _ (by simp [Req.cdb, Spec.Cdb.writeSame16, cdb10, cdb16]) (by simp [dataSize, hb])
  · obtain ⟨cdb, params, rfl, -, h1, rfl, -⟩ := (Cdb.C32_partial L [(0, 3), (10, 1)]).1 q hq
    exact fit _ (by simp [Req.cdb, Spec.Cdb.unmap]) (by simp [dataSize, h1])
  · cases (Cdb.C36_read_capacity10 L 0 0 (by simp [Fits]) (by simp [Fits])).symm.trans hq
    exact fit _ (by simp [Req.cdb, Spec.Cdb.readCapacity10]) (by simp [dataSize])
  · cases (Cdb.C26_read16 L 3 2 512 (by simp [Fits]) (by simp [Fits])).symm.trans hq
    exact fit _ (by simp [Req.cdb, Spec.Cdb.read16, cdb10, cdb16]) (by simp [dataSize])

end Verif.Commands
